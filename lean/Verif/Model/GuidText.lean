import Verif.Model.Versions

/-!
# GUID conversions and their textual form (`src/types.rs` 12-187)
-/

namespace Gvas

/-- `Guid::from_u128` (`src/types.rs` 27-29). -/
def Guid.fromU128 (x : Nat) : Guid := ⟨leBytes 16 x, by simp [leBytes]⟩

/-- `Guid::to_u128` (`src/types.rs` 51-53). -/
def Guid.toU128 (g : Guid) : Nat := leNat g.bytes

/-- `Guid::to_u32` (`src/types.rs` 45-47, 68-76): the four little-endian
words. -/
def Guid.toU32 (g : Guid) : UInt32 × UInt32 × UInt32 × UInt32 :=
  (UInt32.ofNat (leNat (g.bytes.take 4)),
   UInt32.ofNat (leNat ((g.bytes.drop 4).take 4)),
   UInt32.ofNat (leNat ((g.bytes.drop 8).take 4)),
   UInt32.ofNat (leNat (g.bytes.drop 12)))

/-- `Guid::is_zero` (`src/types.rs` 33-35). -/
def Guid.isZero (g : Guid) : Bool := g.toU128 == 0

/-- One upper case hexadecimal digit. -/
def hexDigit (n : Nat) : Char := Char.ofNat (if n < 10 then 0x30 + n else 0x37 + n)

/-- `{:02X}` of a byte. -/
def hex2 (b : UInt8) : List Char := [hexDigit (b.toNat / 16), hexDigit (b.toNat % 16)]

/-- `Display for Guid` (`src/types.rs` 113-150). -/
def Guid.display (g : Guid) : List Char :=
  if g.isZero then ['0']
  else
    (g.bytes.take 4).flatMap hex2 ++ '-' :: ((g.bytes.drop 4).take 2).flatMap hex2 ++
    '-' :: ((g.bytes.drop 6).take 2).flatMap hex2 ++ '-' :: ((g.bytes.drop 8).take 2).flatMap hex2 ++
    '-' :: (g.bytes.drop 10).flatMap hex2

/-- `char::is_whitespace` (std; Unicode `White_Space`), used by `str::trim`. -/
def isWhite (c : Char) : Bool :=
  let n := c.toNat
  (0x09 ≤ n && n ≤ 0x0D) || n == 0x20 || n == 0x85 || n == 0xA0 || n == 0x1680 ||
  (0x2000 ≤ n && n ≤ 0x200A) || n == 0x2028 || n == 0x2029 || n == 0x202F || n == 0x205F ||
  n == 0x3000

/-- `str::trim` (std). -/
def trim (cs : List Char) : List Char :=
  ((cs.dropWhile isWhite).reverse.dropWhile isWhite).reverse

/-- `strip_prefix('{').unwrap_or(..)` (`src/types.rs` 170). -/
def stripOpen : List Char → List Char
  | '{' :: l => l
  | l => l

/-- `strip_suffix('}').unwrap_or(..)` (`src/types.rs` 171). -/
def stripClose (cs : List Char) : List Char :=
  if cs.getLast? = some '}' then cs.dropLast else cs

/-- The cleaned text (`src/types.rs` 168-171). -/
def cleanGuid (cs : List Char) : List Char :=
  stripClose (stripOpen (trim (cs.filter (· ≠ '-'))))

/-- The value of a hexadecimal digit, either case. -/
def hexVal (b : UInt8) : Option Nat :=
  let n := b.toNat
  if 0x30 ≤ n ∧ n ≤ 0x39 then some (n - 0x30)
  else if 0x41 ≤ n ∧ n ≤ 0x46 then some (n - 0x37)
  else if 0x61 ≤ n ∧ n ≤ 0x66 then some (n - 0x57)
  else none

/-- `u8::from_str_radix(s, 16)` for a two byte `s` (std): a leading `+` is
accepted in front of a digit; a leading `-` is an invalid digit. -/
def fromHex2 (a b : UInt8) : Option UInt8 :=
  if a = 0x2B then (hexVal b).map UInt8.ofNat
  else
    match hexVal a, hexVal b with
    | some x, some y => some (UInt8.ofNat (x * 16 + y))
    | _, _ => none

/-- `str::is_char_boundary` at the start of `rest`: slicing there is fine
unless the next byte is a continuation byte. -/
def atBoundary : Bytes → Bool
  | [] => true
  | b :: _ => !isCont b

/-- The loop over byte pairs (`src/types.rs` 181-184): slicing panics off a
character boundary, and `ParseGuidError` (here `none`) is returned for
non-hexadecimal text. -/
def parsePairs : Bytes → Res (Option Bytes)
  | a :: b :: l =>
    if atBoundary (a :: b :: l) && atBoundary l then
      match fromHex2 a b with
      | some v =>
        match parsePairs l with
        | .ok (some vs) => .ok (some (v :: vs))
        | r => r
      | none => .ok none
    else .panic "byte index is not a char boundary"
  | _ => .ok (some [])

/-- `Guid::from_str` (`src/types.rs` 167-186): `none` is `ParseGuidError`. -/
def Guid.parse (s : List Char) : Res (Option Guid) :=
  let cleaned := cleanGuid s
  if cleaned = ['0'] then .ok (some (Guid.fromU128 0))
  else if (utf8Encode cleaned).length ≠ 32 then .ok none
  else
    match parsePairs (utf8Encode cleaned) with
    | .ok (some bs) => if h : bs.length = 16 then .ok (some ⟨bs, h⟩) else .ok none
    | .ok none => .ok none
    | .bad f => .bad f

end Gvas
