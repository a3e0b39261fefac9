import Verif.Model.Basic

/-!
# UTF-8 and UTF-16 as Rust's standard library handles them
-/

namespace Gvas

/-- `str::as_bytes`: the UTF-8 encoding (std). -/
def utf8Encode (cs : List Char) : Bytes := cs.flatMap String.utf8EncodeChar

/-- Is `b` a continuation byte `10xxxxxx`? -/
def isCont (b : UInt8) : Bool := 0x80 ≤ b.toNat && b.toNat < 0xC0

/-- A scalar value, when `n` is one. -/
def charOfNat? (n : Nat) : Option Char :=
  if h : n.isValidChar then some (Char.ofNatAux n h) else none

/-- Prepend a decoded character, if both it and the rest could be decoded. -/
def consOpt : Option Char → Option (List Char) → Option (List Char)
  | some c, some cs => some (c :: cs)
  | _, _ => none

/-- The length of the sequence a UTF-8 lead byte announces (0: not a lead
byte; `C0`, `C1` and `F5`-`FF` never are). -/
def utf8Len (b : UInt8) : Nat :=
  if b.toNat < 0x80 then 1 else if b.toNat < 0xC2 then 0 else if b.toNat < 0xE0 then 2
  else if b.toNat < 0xF0 then 3 else if b.toNat < 0xF5 then 4 else 0

/-- A two byte sequence. -/
def utf8Two (b0 b1 : UInt8) : Option Char :=
  if isCont b1 then charOfNat? ((b0.toNat - 0xC0) * 64 + (b1.toNat - 0x80)) else none

/-- A three byte sequence; overlong forms and surrogates are rejected. -/
def utf8Three (b0 b1 b2 : UInt8) : Option Char :=
  let v := (b0.toNat - 0xE0) * 4096 + (b1.toNat - 0x80) * 64 + (b2.toNat - 0x80)
  if isCont b1 ∧ isCont b2 ∧ 0x800 ≤ v then charOfNat? v else none

/-- A four byte sequence; overlong forms and values above U+10FFFF are
rejected. -/
def utf8Four (b0 b1 b2 b3 : UInt8) : Option Char :=
  let v := (b0.toNat - 0xF0) * 262144 + (b1.toNat - 0x80) * 4096 +
    (b2.toNat - 0x80) * 64 + (b3.toNat - 0x80)
  if isCont b1 ∧ isCont b2 ∧ isCont b3 ∧ 0x10000 ≤ v then charOfNat? v else none

/-- Strict UTF-8 decoding, as `String::from_utf8` (std; used in
`src/cursor_ext.rs` 93): rejects overlong forms, surrogates, values above
U+10FFFF and truncated or stray sequences. -/
def utf8Decode : Bytes → Option (List Char)
  | [] => some []
  | b0 :: l =>
    match utf8Len b0, l with
    | 1, l => consOpt (charOfNat? b0.toNat) (utf8Decode l)
    | 2, b1 :: l => consOpt (utf8Two b0 b1) (utf8Decode l)
    | 3, b1 :: b2 :: l => consOpt (utf8Three b0 b1 b2) (utf8Decode l)
    | 4, b1 :: b2 :: b3 :: l => consOpt (utf8Four b0 b1 b2 b3) (utf8Decode l)
    | _, _ => none

/-- `str::encode_utf16` of one character (std; used in `src/cursor_ext.rs`
158). -/
def utf16EncodeChar (c : Char) : List UInt16 :=
  let v := c.toNat
  if v < 0x10000 then [UInt16.ofNat v]
  else [UInt16.ofNat (0xD800 + (v - 0x10000) / 1024), UInt16.ofNat (0xDC00 + (v - 0x10000) % 1024)]

/-- `str::encode_utf16`. -/
def utf16Encode (cs : List Char) : List UInt16 := cs.flatMap utf16EncodeChar

/-- The number of units a UTF-16 lead unit announces (0: a stray low
surrogate). -/
def utf16Len (u : UInt16) : Nat :=
  if u.toNat < 0xD800 then 1 else if u.toNat < 0xDC00 then 2 else if u.toNat < 0xE000 then 0 else 1

/-- A surrogate pair. -/
def utf16Two (u v : UInt16) : Option Char :=
  if 0xDC00 ≤ v.toNat ∧ v.toNat < 0xE000 then
    charOfNat? (0x10000 + (u.toNat - 0xD800) * 1024 + (v.toNat - 0xDC00))
  else none

/-- Strict UTF-16 decoding, as `String::from_utf16` (std; used in
`src/cursor_ext.rs` 77): unpaired surrogates are rejected. -/
def utf16Decode : List UInt16 → Option (List Char)
  | [] => some []
  | u :: l =>
    match utf16Len u, l with
    | 1, l => consOpt (charOfNat? u.toNat) (utf16Decode l)
    | 2, v :: l => consOpt (utf16Two u v) (utf16Decode l)
    | _, _ => none

/-- The little-endian `u16`s of a byte buffer (byteorder's `read_u16_into`,
`src/cursor_ext.rs` 67). -/
def bytesToU16 : Bytes → List UInt16
  | a :: b :: l => UInt16.ofNat (leNat [a, b]) :: bytesToU16 l
  | _ => []

/-- `write_u16::<LittleEndian>` of each word (`src/cursor_ext.rs` 161-163). -/
def u16sToBytes (ws : List UInt16) : Bytes := ws.flatMap fun w => leBytes 2 w.toNat

/-- `str::is_ascii` (`src/cursor_ext.rs` 149). -/
def isAscii (cs : List Char) : Bool := cs.all fun c => c.toNat < 128

end Gvas
