import Verif.Model.Utf

/-!
# `ReadExt` and `WriteExt` (`src/cursor_ext.rs`) and the byteorder primitives
-/

namespace Gvas

/-! ## byteorder reads -/

/-- `read_u8`. -/
def readU8 : R UInt8 := do return UInt8.ofNat (leNat (← R.take 1))
/-- `read_i8`. -/
def readI8 : R Int8 := do return (← readU8).toInt8
/-- `read_u16::<LittleEndian>`. -/
def readU16 : R UInt16 := do return UInt16.ofNat (leNat (← R.take 2))
/-- `read_i16::<LittleEndian>`. -/
def readI16 : R Int16 := do return (← readU16).toInt16
/-- `read_u32::<LittleEndian>`. -/
def readU32 : R UInt32 := do return UInt32.ofNat (leNat (← R.take 4))
/-- `read_i32::<LittleEndian>`. -/
def readI32 : R Int32 := do return (← readU32).toInt32
/-- `read_u64::<LittleEndian>`. -/
def readU64 : R UInt64 := do return UInt64.ofNat (leNat (← R.take 8))
/-- `read_i64::<LittleEndian>`. -/
def readI64 : R Int64 := do return (← readU64).toInt64
/-- `read_f32::<LittleEndian>` (`f32::from_bits` of the word). -/
def readF32 : R F32 := do return ⟨← readU32⟩
/-- `read_f64::<LittleEndian>`. -/
def readF64 : R F64 := do return ⟨← readU64⟩

/-! ## byteorder writes -/

/-- `write_u8`. -/
def u8B (x : UInt8) : Bytes := leBytes 1 x.toNat
/-- `write_i8`. -/
def i8B (x : Int8) : Bytes := u8B x.toUInt8
/-- `write_u16::<LittleEndian>`. -/
def u16B (x : UInt16) : Bytes := leBytes 2 x.toNat
/-- `write_i16::<LittleEndian>`. -/
def i16B (x : Int16) : Bytes := u16B x.toUInt16
/-- `write_u32::<LittleEndian>`. -/
def u32B (x : UInt32) : Bytes := leBytes 4 x.toNat
/-- `write_i32::<LittleEndian>`. -/
def i32B (x : Int32) : Bytes := u32B x.toUInt32
/-- `write_u64::<LittleEndian>`. -/
def u64B (x : UInt64) : Bytes := leBytes 8 x.toNat
/-- `write_i64::<LittleEndian>`. -/
def i64B (x : Int64) : Bytes := u64B x.toUInt64
/-- `write_f32::<LittleEndian>`. -/
def f32B (x : F32) : Bytes := u32B x.bits
/-- `write_f64::<LittleEndian>`. -/
def f64B (x : F64) : Bytes := u64B x.bits

/-! ## Strings -/

/-- `read_fstring` (`src/cursor_ext.rs` 57-98). -/
def readFString : R (Option String) := do
  let start ← R.position
  let len ← readI32
  R.ensure (-131072 ≤ len.toInt ∧ len.toInt ≤ 131072) (R.fail (.invalidString len start))
  if len.toInt = 0 then
    return none
  else if len.toInt < 0 then
    let buf ← R.take (2 * ((-len.toInt).toNat - 1))
    let t ← readU16
    R.ensure (t = 0) (do R.fail (.invalidStringTerminator t (← R.position)))
    match utf16Decode (bytesToU16 buf) with
    | some cs => return some (String.ofList cs)
    | none => R.fail (.fromUtf16 start)
  else
    let buf ← R.take (len.toInt.toNat - 1)
    let t ← readU8
    R.ensure (t = 0) (do R.fail (.invalidStringTerminator t.toUInt16 (← R.position)))
    match utf8Decode buf with
    | some cs => return some (String.ofList cs)
    | none => R.fail (.fromUtf8 start)

/-- `read_string` (`src/cursor_ext.rs` 48-54). -/
def readString : R String := do
  let start ← R.position
  match ← readFString with
  | some s => return s
  | none => R.fail (.invalidString 0 start)

/-- `write_string` (`src/cursor_ext.rs` 147-167), into a writer that accepts
everything (`Vec`); see `Verif.Model.Writers` for writers that do not.  The
`len as i32` casts wrap as in Rust; the overflow check of `-(len as i32)` for a
string of exactly 2^31 - 1 units (debug builds) is not modelled. -/
def writeString (s : String) : Out :=
  if isAscii s.toList then
    let len := s.toList.length + 1
    { bytes := i32B (Int32.ofNat len) ++ utf8Encode s.toList ++ [0], n := len * 2 + 4 }
  else
    let words := utf16Encode s.toList
    let len := words.length + 1
    { bytes := i32B (-(Int32.ofNat len)) ++ u16sToBytes words ++ u16B 0, n := len * 2 + 4 }

/-- `write_fstring` (`src/cursor_ext.rs` 169-177). -/
def writeFString : Option String → Out
  | some s => writeString s
  | none => { bytes := i32B 0, n := 4 }

/-! ## GUIDs, booleans, enums -/

/-- `read_guid` (`src/cursor_ext.rs` 101-105).  The length proof is the one the
Rust array type carries; the `else` branch is never taken. -/
def readGuid : R Guid := do
  let bs ← R.take 16
  if h : bs.length = 16 then return ⟨bs, h⟩ else R.fail .eof

/-- `write_guid` (`src/cursor_ext.rs` 180-182). -/
def guidB (g : Guid) : Bytes := g.bytes

/-- `read_bool` (`src/cursor_ext.rs` 108-117). -/
def readBool : R Bool := do
  let v ← readU8
  if v = 0 then return false
  else if v = 1 then return true
  else R.fail (.invalidBoolean v.toUInt32 (← R.position))

/-- `read_b32` (`src/cursor_ext.rs` 120-129). -/
def readB32 : R Bool := do
  let v ← readU32
  if v = 0 then return false
  else if v = 1 then return true
  else R.fail (.invalidBoolean v (← R.position))

/-- `write_bool` (`src/cursor_ext.rs` 185-187). -/
def boolB (b : Bool) : Bytes := u8B (if b then 1 else 0)

/-- `write_b32` (`src/cursor_ext.rs` 190-192). -/
def b32B (b : Bool) : Bytes := u32B (if b then 1 else 0)

/-- `read_enum` (`src/cursor_ext.rs` 132-142): `name` is the `type_name`,
`tryFrom` the enum's derived `TryFrom<i8>`. -/
def readEnum {α : Type} (name : String) (tryFrom : Int8 → Option α) : R α := do
  let v ← readI8
  match tryFrom v with
  | some a => return a
  | none => R.fail (.invalidEnumValue name v (← R.position))

end Gvas
