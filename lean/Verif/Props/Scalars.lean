import Verif.Spec.Codec
import Verif.Lemmas.Inv
import Verif.Model.File

/-!
# C01 scalars, C07 booleans, C08 enums
-/

namespace Gvas

open Spec

private theorem roundTrips {α : Type} {m : R α} {enc : α → Bytes}
    (h : ∀ a st, Reads st m (enc a) a) : RoundTrips m enc :=
  fun a rest pos st => h a st rest pos

/-- **C01**: every scalar and every GUID round-trips at any offset, floats by
bit pattern. -/
theorem C01_scalars_roundtrip :
    RoundTrips readU8 u8B ∧ RoundTrips readI8 i8B ∧ RoundTrips readU16 u16B ∧
    RoundTrips readI16 i16B ∧ RoundTrips readU32 u32B ∧ RoundTrips readI32 i32B ∧
    RoundTrips readU64 u64B ∧ RoundTrips readI64 i64B ∧ RoundTrips readF32 f32B ∧
    RoundTrips readF64 f64B ∧ RoundTrips readGuid guidB :=
  ⟨roundTrips fun a _ => reads_u8 a, roundTrips fun a _ => reads_i8 a,
   roundTrips fun a _ => reads_u16 a, roundTrips fun a _ => reads_i16 a,
   roundTrips fun a _ => reads_u32 a, roundTrips fun a _ => reads_i32 a,
   roundTrips fun a _ => reads_u64 a, roundTrips fun a _ => reads_i64 a,
   roundTrips fun a _ => reads_f32 a, roundTrips fun a _ => reads_f64 a,
   roundTrips fun a _ => reads_guid a⟩

theorem leBytes_getElem (n x i : Nat) (h : i < (leBytes n x).length) :
    (leBytes n x)[i].toNat = x / 256 ^ i % 256 := by
  induction n generalizing x i with
  | zero => simp [leBytes] at h
  | succ n ih =>
    cases i with
    | zero => simp [leBytes]
    | succ i =>
      simp only [leBytes, List.getElem_cons_succ]
      rw [ih _ _ (by simpa [leBytes] using h), Nat.div_div_eq_div_mul, Nat.pow_succ,
        Nat.mul_comm (256 ^ i)]

theorem littleEndian_leBytes (n x : Nat) : LittleEndian n x (leBytes n x) :=
  ⟨by simp, fun i h => leBytes_getElem n x i h⟩

private theorem twos {n : Nat} (x : BitVec n) : (x.toInt % 2 ^ n).toNat = x.toNat := by
  have := BitVec.toNat_ofInt (n := n) x.toInt
  rw [BitVec.ofInt_toInt] at this
  rw [this]
  norm_cast

/-- **C01**: the encodings are little-endian with the width of the type, signed
numbers in two's complement, floats by their bits, GUIDs as they are. -/
theorem C01_scalars_little_endian :
    (∀ x : UInt8, LittleEndian 1 x.toNat (u8B x)) ∧
    (∀ x : Int8, LittleEndian 1 (x.toInt % 2 ^ 8).toNat (i8B x)) ∧
    (∀ x : UInt16, LittleEndian 2 x.toNat (u16B x)) ∧
    (∀ x : Int16, LittleEndian 2 (x.toInt % 2 ^ 16).toNat (i16B x)) ∧
    (∀ x : UInt32, LittleEndian 4 x.toNat (u32B x)) ∧
    (∀ x : Int32, LittleEndian 4 (x.toInt % 2 ^ 32).toNat (i32B x)) ∧
    (∀ x : UInt64, LittleEndian 8 x.toNat (u64B x)) ∧
    (∀ x : Int64, LittleEndian 8 (x.toInt % 2 ^ 64).toNat (i64B x)) ∧
    (∀ x : F32, LittleEndian 4 x.bits.toNat (f32B x)) ∧
    (∀ x : F64, LittleEndian 8 x.bits.toNat (f64B x)) ∧
    (∀ g : Guid, guidB g = g.bytes) := by
  refine ⟨fun x => littleEndian_leBytes _ _, fun x => ?_, fun x => littleEndian_leBytes _ _,
    fun x => ?_, fun x => littleEndian_leBytes _ _, fun x => ?_,
    fun x => littleEndian_leBytes _ _, fun x => ?_, fun x => littleEndian_leBytes _ _,
    fun x => littleEndian_leBytes _ _, fun g => rfl⟩
  · have e : (x.toInt % 2 ^ 8).toNat = x.toUInt8.toNat := twos x.toBitVec
    rw [e]; exact littleEndian_leBytes _ _
  · have e : (x.toInt % 2 ^ 16).toNat = x.toUInt16.toNat := twos x.toBitVec
    rw [e]; exact littleEndian_leBytes _ _
  · have e : (x.toInt % 2 ^ 32).toNat = x.toUInt32.toNat := twos x.toBitVec
    rw [e]; exact littleEndian_leBytes _ _
  · have e : (x.toInt % 2 ^ 64).toNat = x.toUInt64.toNat := twos x.toBitVec
    rw [e]; exact littleEndian_leBytes _ _

/-- A concrete word in its encoding. -/
example : LittleEndian 4 0xDEADBEEF [0xEF, 0xBE, 0xAD, 0xDE] := by
  unfold LittleEndian; decide

/-- A signalling NaN with payload goes through unchanged. -/
example : (readF32 ⟨f32B ⟨0x7FA00001⟩ ++ [1, 2], 7, []⟩) = (.ok ⟨0x7FA00001⟩, ⟨[1, 2], 11, []⟩) :=
  C01_scalars_roundtrip.2.2.2.2.2.2.2.2.1 ⟨0x7FA00001⟩ [1, 2] 7 []

/-! ## C07 -/

/-- **C07**: `read_bool` on any byte: 0 and 1 are the booleans, anything else is
`InvalidBoolean` with that value. -/
theorem C07_read_bool (b : UInt8) (rest : Bytes) (pos : Nat) (st : List String) :
    readBool ⟨b :: rest, pos, st⟩ =
      if b = 0 then (.ok false, ⟨rest, pos + 1, st⟩)
      else if b = 1 then (.ok true, ⟨rest, pos + 1, st⟩)
      else (.err (.invalidBoolean b.toUInt32 (pos + 1)), ⟨rest, pos + 1, st⟩) := by
  have h := (reads_u8 (st := st) b).run rest pos
  have e : u8B b = [b] := by simp [u8B, leBytes]
  rw [e] at h
  unfold readBool
  rw [R.bind_ok (show readU8 ⟨b :: rest, pos, st⟩ = _ from h)]
  split
  · rfl
  · split
    · rfl
    · rfl

/-- **C07**: `read_b32` on any 32-bit word. -/
theorem C07_read_b32 (w : UInt32) (rest : Bytes) (pos : Nat) (st : List String) :
    readB32 ⟨u32B w ++ rest, pos, st⟩ =
      if w = 0 then (.ok false, ⟨rest, pos + 4, st⟩)
      else if w = 1 then (.ok true, ⟨rest, pos + 4, st⟩)
      else (.err (.invalidBoolean w (pos + 4)), ⟨rest, pos + 4, st⟩) := by
  have h := (reads_u32 (st := st) w).run rest pos
  rw [u32B_length] at h
  unfold readB32
  rw [R.bind_ok h]
  split
  · rfl
  · split
    · rfl
    · rfl

/-- **C07**: the value that was written is read. -/
theorem C07_bools_roundtrip : RoundTrips readBool boolB ∧ RoundTrips readB32 b32B ∧
    (boolB false = [0] ∧ boolB true = [1]) ∧
    (b32B false = [0, 0, 0, 0] ∧ b32B true = [1, 0, 0, 0]) :=
  ⟨roundTrips fun a _ => reads_bool a, roundTrips fun a _ => reads_b32 a, by decide, by decide⟩

/-- A word with only a high byte set is not a boolean. -/
example : readB32 ⟨[0, 0, 0, 1], 0, []⟩ = (.err (.invalidBoolean 0x1000000 4), ⟨[], 4, []⟩) := by
  decide

/-! ## C08 -/

/-- What an 8-bit enum with the given discriminants must satisfy: every variant
round-trips under its discriminant, and any other byte is `InvalidEnumValue`. -/
def Spec.StrictEnum {α : Type} (name : String) (toI8 : α → Int8) (ofI8 : Int8 → Option α)
    (discriminants : List Int8) : Prop :=
  (∀ d, d ∈ discriminants ↔ ∃ a, toI8 a = d) ∧
  RoundTrips (readEnum name ofI8) (fun a => i8B (toI8 a)) ∧
  ∀ (d : Int8) (rest : Bytes) (pos : Nat) (st : List String), d ∉ discriminants →
    readEnum name ofI8 ⟨i8B d ++ rest, pos, st⟩ =
      (.err (.invalidEnumValue name d (pos + 1)), ⟨rest, pos + 1, st⟩)

private theorem strictEnum {α : Type} (name : String) (toI8 : α → Int8) (ofI8 : Int8 → Option α)
    (ds : List Int8) (hd : ∀ d, d ∈ ds ↔ ∃ a, toI8 a = d)
    (h : ∀ a, ofI8 (toI8 a) = some a) (h' : ∀ d, d ∉ ds → ofI8 d = none) :
    StrictEnum name toI8 ofI8 ds := by
  refine ⟨hd, roundTrips fun a _ => reads_enum _ _ _ _ (h a), fun d rest pos st hn => ?_⟩
  unfold readEnum
  rw [R.bind_ok ((reads_i8 (st := st) d).run rest pos), h' d hn, i8B_length]
  rfl

/-- **C08**: all six serialized enums are strict. -/
theorem C08_enums_strict :
    StrictEnum (textEnumName "TextHistoryType") TextHistoryType.toI8 TextHistoryType.ofI8
      [-1, 0, 1, 2, 3, 4, 5, 6, 7, 8, 9, 10, 11, 12, 13] ∧
    StrictEnum (textEnumName "FormatArgumentType") FormatArgumentType.toI8 FormatArgumentType.ofI8
      [0, 1, 2, 3, 4, 5] ∧
    StrictEnum (textEnumName "RoundingMode") RoundingMode.toI8 RoundingMode.ofI8
      [0, 1, 2, 3, 4, 5, 6] ∧
    StrictEnum (textEnumName "DateTimeStyle") DateTimeStyle.toI8 DateTimeStyle.ofI8
      [0, 1, 2, 3, 4] ∧
    StrictEnum (textEnumName "TransformType") TransformType.toI8 TransformType.ofI8 [0, 1] ∧
    StrictEnum "gvas::game_version::PalworldCompressionType" PalworldCompressionType.toI8
      PalworldCompressionType.ofI8 [0x30, 0x31, 0x32] := by
  refine ⟨strictEnum _ _ _ _ ?_ ?_ ?_, strictEnum _ _ _ _ ?_ ?_ ?_, strictEnum _ _ _ _ ?_ ?_ ?_,
    strictEnum _ _ _ _ ?_ ?_ ?_, strictEnum _ _ _ _ ?_ ?_ ?_, strictEnum _ _ _ _ ?_ ?_ ?_⟩
  all_goals first
    | (intro d hd
       simp only [List.mem_cons, List.not_mem_nil, or_false, not_or] at hd
       simp only [TextHistoryType.ofI8, FormatArgumentType.ofI8, RoundingMode.ofI8,
         DateTimeStyle.ofI8, TransformType.ofI8, PalworldCompressionType.ofI8, hd, if_false]
       done)
    | (intro a; cases a <;> rfl)
    | (intro d
       simp only [List.mem_cons, List.not_mem_nil, or_false]
       constructor
       · intro h
         rcases h with h | h | h | h | h | h | h | h | h | h | h | h | h | h | h <;> subst h
         · exact ⟨.none, rfl⟩
         · exact ⟨.base, rfl⟩
         · exact ⟨.namedFormat, rfl⟩
         · exact ⟨.orderedFormat, rfl⟩
         · exact ⟨.argumentFormat, rfl⟩
         · exact ⟨.asNumber, rfl⟩
         · exact ⟨.asPercent, rfl⟩
         · exact ⟨.asCurrency, rfl⟩
         · exact ⟨.asDate, rfl⟩
         · exact ⟨.asTime, rfl⟩
         · exact ⟨.asDateTime, rfl⟩
         · exact ⟨.transform, rfl⟩
         · exact ⟨.stringTableEntry, rfl⟩
         · exact ⟨.textGenerator, rfl⟩
         · exact ⟨.rawText, rfl⟩
       · rintro ⟨a, rfl⟩; cases a <;> decide)
    | (intro d
       simp only [List.mem_cons, List.not_mem_nil, or_false]
       constructor
       · intro h
         rcases h with h | h | h | h | h | h <;> subst h
         · exact ⟨.int, rfl⟩
         · exact ⟨.uint, rfl⟩
         · exact ⟨.float, rfl⟩
         · exact ⟨.double, rfl⟩
         · exact ⟨.text, rfl⟩
         · exact ⟨.gender, rfl⟩
       · rintro ⟨a, rfl⟩; cases a <;> decide)
    | (intro d
       simp only [List.mem_cons, List.not_mem_nil, or_false]
       constructor
       · intro h
         rcases h with h | h | h | h | h | h | h <;> subst h
         · exact ⟨.halfToEven, rfl⟩
         · exact ⟨.halfFromZero, rfl⟩
         · exact ⟨.halfToZero, rfl⟩
         · exact ⟨.fromZero, rfl⟩
         · exact ⟨.toZero, rfl⟩
         · exact ⟨.toNegativeInfinity, rfl⟩
         · exact ⟨.toPositiveInfinity, rfl⟩
       · rintro ⟨a, rfl⟩; cases a <;> decide)
    | (intro d
       simp only [List.mem_cons, List.not_mem_nil, or_false]
       constructor
       · intro h
         rcases h with h | h | h | h | h <;> subst h
         · exact ⟨.default, rfl⟩
         · exact ⟨.short, rfl⟩
         · exact ⟨.medium, rfl⟩
         · exact ⟨.long, rfl⟩
         · exact ⟨.full, rfl⟩
       · rintro ⟨a, rfl⟩; cases a <;> decide)
    | (intro d
       simp only [List.mem_cons, List.not_mem_nil, or_false]
       constructor
       · intro h
         rcases h with h | h <;> subst h
         · exact ⟨.toLower, rfl⟩
         · exact ⟨.toUpper, rfl⟩
       · rintro ⟨a, rfl⟩; cases a <;> decide)
    | (intro d
       simp only [List.mem_cons, List.not_mem_nil, or_false]
       constructor
       · intro h
         rcases h with h | h | h <;> subst h
         · exact ⟨.none, rfl⟩
         · exact ⟨.zlib, rfl⟩
         · exact ⟨.zlibTwice, rfl⟩
       · rintro ⟨a, rfl⟩; cases a <;> decide)

/-- The byte 0x80 is no history type. -/
example : readEnum (textEnumName "TextHistoryType") TextHistoryType.ofI8 ⟨[0x80, 9], 3, []⟩ =
    (.err (.invalidEnumValue (textEnumName "TextHistoryType") (-128) 4), ⟨[9], 4, []⟩) :=
  C08_enums_strict.1.2.2 (-128) [9] 3 [] (by decide)

end Gvas
