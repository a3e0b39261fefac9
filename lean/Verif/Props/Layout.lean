import Verif.Lemmas.Parts
import Verif.Lemmas.Writable
import Verif.Lemmas.Inv
import Verif.Spec.Codec
import Verif.Props.Versions
import Verif.Props.Scalars

/-!
# C49 (layout of properties), C40 (unknown types), C32 (vector widths), C55 (what can be written)
-/

namespace Gvas

namespace Spec

/-- The strings and guids in the header of a property, after the array index. -/
def headerParts : Property → Bytes
  | .array v => (writeString v.propertyType).bytes
  | .byte name _ => (writeFString name).bytes
  | .enum ty _ => (writeFString ty).bytes
  | .map v => (writeString v.keyType).bytes ++ (writeString v.valueType).bytes
  | .set ty _ _ => (writeString ty).bytes
  | .struct guid ty _ => (writeString ty).bytes ++ guid.bytes
  | _ => []

/-- Booleans are stored differently. -/
def isBool : Property → Bool
  | .bool _ => true
  | _ => false

end Spec

open Spec

private theorem le4 {n : Nat} (h : n < 2 ^ 32) : LittleEndian 4 n (u32B (UInt32.ofNat n)) := by
  have e : (UInt32.ofNat n).toNat = n := by
    rw [UInt32.toNat_ofNat']; exact Nat.mod_eq_of_lt h
  unfold u32B
  rw [e]
  exact littleEndian_leBytes 4 n

/-- **C49**: a property with header is the type name, the length of the body and the array index
as 32 bit numbers, the header strings of its type, a zero byte, and what is written without
header.  (Booleans: next theorem.) -/
theorem C49_layout (cv : List (Guid × UInt32)) (p : Property) (out : Out) (hb : isBool p = false)
    (h : Property.write cv true p = .ok out) :
    ∃ body, Property.write cv false p = .ok body ∧
      (body.bytes.length < 2 ^ 32 → ∃ len idx : Bytes,
        LittleEndian 4 body.bytes.length len ∧ LittleEndian 4 (storedIndex p).toNat idx ∧
        out.bytes = (writeString (typeName p)).bytes ++ len ++ idx ++ headerParts p ++ [0] ++
          body.bytes) := by
  cases p
  case bool v => cases hb
  case structValue v => simp only [Property.write] at h; cases h
  case array v =>
    simp only [Property.write] at h
    obtain ⟨b, hw, h⟩ := Res.bind_inv h
    cases h
    exact ⟨b, by simp only [Property.write, hw]; rfl, fun hl => ⟨_, _, le4 hl, le4 (n := 0) (by decide), rfl⟩⟩
  case map v =>
    simp only [Property.write] at h
    obtain ⟨b, hw, h⟩ := Res.bind_inv h
    cases h
    exact ⟨b, by simp only [Property.write, hw]; rfl, fun hl => ⟨_, _, le4 hl, le4 (n := 0) (by decide), rfl⟩⟩
  case set ty fl ps =>
    simp only [Property.write] at h
    obtain ⟨b, hw, h⟩ := Res.bind_inv h
    cases h
    exact ⟨_, by simp only [Property.write, hw]; rfl, fun hl => ⟨_, _, le4 hl, le4 (n := 0) (by decide), rfl⟩⟩
  case struct g ty v =>
    simp only [Property.write] at h
    obtain ⟨b, hw, h⟩ := Res.bind_inv h
    cases h
    exact ⟨b, by simp only [Property.write, hw]; rfl, fun hl => ⟨_, _, le4 hl, le4 (n := 0) (by decide), rfl⟩⟩
  case text v =>
    simp only [Property.write] at h
    obtain ⟨b, hw, h⟩ := Res.bind_inv h
    cases h
    exact ⟨b, by simp only [Property.write, hw]; rfl, fun hl => ⟨_, _, le4 hl, le4 (n := 0) (by decide), rfl⟩⟩
  case name i v =>
    simp only [Property.write] at h
    cases h
    refine ⟨_, rfl, fun hl => ⟨_, u32B i, le4 hl, ?_, ?_⟩⟩
    · have := le4 (n := i.toNat) i.toNat_lt
      simpa [storedIndex] using this
    · simp [withHeaderIndex, headerParts, typeName]
  case byte name v =>
    simp only [Property.write] at h
    cases h
    refine ⟨_, rfl, fun hl => ⟨_, _, le4 hl, le4 (n := 0) (by decide), ?_⟩⟩
    simp only [if_true, Bool.false_eq_true, if_false, byteHeader, typeName, headerParts] at hl ⊢
    rw [u64B_ofNat hl]
    simp only [List.append_assoc]
    rfl
  all_goals
    simp only [Property.write] at h
    cases h
    exact ⟨_, rfl, fun hl => ⟨_, _, le4 hl, le4 (n := 0) (by decide), rfl⟩⟩

/-- **C49**: a boolean with header is its type name, length and array index zero, the value, and
a zero byte. -/
theorem C49_bool_layout (cv : List (Guid × UInt32)) (v : Bool) :
    ∃ out, Property.write cv true (.bool v) = .ok out ∧
      out.bytes = (writeString "BoolProperty").bytes ++ [0, 0, 0, 0] ++ [0, 0, 0, 0] ++
        [if v then 1 else 0] ++ [0] := by
  cases v <;> exact ⟨_, rfl, by decide +kernel⟩

example : ∃ out, Property.write [] true (.enum (some "E") "E::A") = .ok out ∧
    out.bytes.length < 2 ^ 32 := ⟨_, rfl, by decide +kernel⟩

/-! ## C40 -/

private theorem withEntry_inv {α : Type} {nm : String} {m : R α} {s s2 : RS} {a : α}
    (h : R.withEntry nm m s = (.ok a, s2)) :
    ∃ s1, m { s with stack := s.stack ++ [nm] } = (.ok a, s1) ∧ s2.rest = s1.rest := by
  unfold R.withEntry at h
  match hm : m { s with stack := s.stack ++ [nm] } with
  | (r, s1) =>
    rw [hm] at h
    simp only [Prod.mk.injEq] at h
    obtain ⟨rfl, rfl⟩ := h
    exact ⟨s1, rfl, rfl⟩

/-- **C40**: whatever is read for an unknown type name, header and all, is written back with the
same bytes. -/
theorem C40_unknown_preserved (env : Env) (n : Nat) (ty : String) (hty : ty ∉ knownTypes)
    (s s' : RS) (p : Property) (h : Property.read env (n + 1) ty true none s = (.ok p, s')) :
    ∃ raw consumed out, p = .unknown ty raw ∧ s.rest = consumed ++ s'.rest ∧
      Property.write env.cv true p = .ok out ∧
      out.bytes = (writeString ty).bytes ++ consumed ∧ ∃ pre, consumed = pre ++ raw := by
  rw [Property.read, Property.readStep, kind_none_iff.mpr hty] at h
  obtain ⟨s1, h, hs⟩ := withEntry_inv h
  unfold readUnknown at h
  simp only [if_true] at h
  rbind h => len s2 h2
  obtain ⟨e2, -⟩ := readU32_inv h2
  rbind h => u s3 h3
  unfold readAssertedIndex at h3
  rbind h3 => idx s4 h4
  obtain ⟨e4, -⟩ := readU32_inv h4
  obtain ⟨rfl, rfl⟩ := R.ensure_inv (fun _ _ _ => R.panic_ne) h3
  rbind h => u s5 h5
  unfold readSeparator at h5
  rbind h5 => sep s6 h6
  obtain ⟨e6, -⟩ := readU8_inv h6
  obtain ⟨rfl, rfl⟩ := R.ensure_inv (fun _ _ _ => R.panic_ne) h5
  rbind h => raw s7 h7
  obtain ⟨l7, e7, -⟩ := R.take_inv h7
  obtain ⟨rfl, rfl⟩ := R.pure_inv h
  refine ⟨raw, u32B len ++ u32B 0 ++ [0] ++ raw, withHeader ty Out.nil ⟨raw, raw.length⟩, rfl, ?_,
    rfl, ?_, _, rfl⟩
  · simp only at e2
    rw [e2, e4, e6, e7, hs]
    simp [u8B, leBytes]
  · simp only [withHeader, l7, UInt32.ofNat_toNat, Out.nil, List.append_nil, List.append_assoc]

/-- **C40**: every payload under an unknown type name is accepted, with its length, array index
zero and a zero byte in front, and kept as it is. -/
theorem C40_unknown_accepted (env : Env) (n : Nat) (ty : String) (hty : ty ∉ knownTypes)
    (raw len : Bytes) (hr : raw.length < 2 ^ 32) (hl : LittleEndian 4 raw.length len) :
    ReadsBack (Property.read env (n + 1) ty true none) (len ++ [0, 0, 0, 0] ++ [0] ++ raw)
      (.unknown ty raw) := by
  have hlen : len = u32B (UInt32.ofNat raw.length) := by
    have h2 := le4 hr
    refine List.ext_getElem (by rw [hl.1, h2.1]) fun i h1 h3 => ?_
    exact UInt8.toNat_inj.mp (by rw [hl.2 i h1, h2.2 i h3])
  intro rest pos st
  rw [Property.read, Property.readStep, kind_none_iff.mpr hty]
  have : Reads st (R.withEntry ty (readUnknown ty true none))
      (len ++ u32B 0 ++ [0] ++ raw) (.unknown ty raw) := by
    refine Reads.withEntry ?_
    unfold readUnknown
    simp only [if_true, List.append_assoc]
    rw [hlen]
    exact (reads_u32 _).bind (reads_assertedIndex.bind
      (reads_separator.bind (Reads.map (Reads.take (u32_ofNat_toNat hr).symm))))
  exact this rest pos

example : ("Int128Property" ∉ knownTypes) ∧ LittleEndian 4 3 [3, 0, 0, 0] :=
  ⟨by decide, littleEndian_leBytes 4 3⟩

/-! ## C32 -/

namespace Spec

/-- The struct type and the component width (`true`: 64 bit) of vectors, rotators and
quaternions. -/
def components : StructPropertyValue → Option (String × Bool)
  | .vectorF _ _ _ => some ("Vector", false)
  | .vectorD _ _ _ => some ("Vector", true)
  | .vector2F _ _ => some ("Vector2D", false)
  | .vector2D _ _ => some ("Vector2D", true)
  | .rotatorF _ _ _ => some ("Rotator", false)
  | .rotatorD _ _ _ => some ("Rotator", true)
  | .quatF _ _ _ _ => some ("Quat", false)
  | .quatD _ _ _ _ => some ("Quat", true)
  | _ => none

/-- How many components the struct type has. -/
def componentCount : String → Nat
  | "Vector" => 3
  | "Vector2D" => 2
  | "Rotator" => 3
  | "Quat" => 4
  | _ => 0

/-- Key of the UE5 release stream in the custom version table. -/
def ue5Release : Guid := Guid.fromU32 0xD89B5E42 0x24BD4D46 0x8412ACA8 0xDF641779

end Spec

private theorem lwc_eq {cv : List (Guid × UInt32)} (hd : DistinctKeys cv) {u : Nat}
    (hu : VersionOf cv ue5Release u) : lwc cv = decide (28 ≤ u) := by
  have := C46_supports_iff cv hd ue5Release u hu 28
  exact Bool.eq_iff_iff.mpr (this.trans (by simp))

private theorem readF32_inv {s s2 : RS} {x : F32} (h : readF32 s = (.ok x, s2)) :
    s2.pos = s.pos + 4 := by
  obtain ⟨v, s1, h1, h2⟩ := R.bind_inv h
  obtain ⟨rfl, rfl⟩ := R.pure_inv h2
  exact (readU32_inv h1).2.1

private theorem readF64_inv {s s2 : RS} {x : F64} (h : readF64 s = (.ok x, s2)) :
    s2.pos = s.pos + 8 := by
  obtain ⟨v, s1, h1, h2⟩ := R.bind_inv h
  obtain ⟨rfl, rfl⟩ := R.pure_inv h2
  exact (readU64_inv h1).2.1

/-- **C32**: what is read for one of the four struct types has 64 bit components exactly when the
UE5 release version of the file is at least 28 (`LargeWorldCoordinates`), and that many bytes are
consumed. -/
theorem C32_read_width (env : Env) (hd : DistinctKeys env.cv) (u : Nat)
    (hu : VersionOf env.cv ue5Release u) (fuel : Nat)
    (rec : String → Bool → Option UInt32 → R Property) (ty : String)
    (hty : ty ∈ ["Vector", "Vector2D", "Rotator", "Quat"]) (s s' : RS) (v : StructPropertyValue)
    (h : readStructBody env fuel rec ty s = (.ok v, s')) :
    components v = some (ty, decide (28 ≤ u)) ∧
      s'.pos = s.pos + componentCount ty * (if 28 ≤ u then 8 else 4) := by
  have hl := lwc_eq hd hu
  unfold readStructBody at h
  simp only [List.mem_cons, List.not_mem_nil, or_false] at hty
  rcases hty with rfl | rfl | rfl | rfl
  · rw [show StructKind.ofName "Vector" = some .vector by decide +kernel] at h
    simp only [readBuiltin, hl] at h
    split at h
    · rename_i hv
      simp only [decide_eq_true_eq] at hv
      rbind h => x s1 h1
      rbind h => y s2 h2
      rbind h => z s3 h3
      obtain ⟨rfl, rfl⟩ := R.pure_inv h
      rw [readF64_inv h3, readF64_inv h2, readF64_inv h1]
      simp [components, componentCount, hv]
    · rename_i hv
      simp only [decide_eq_true_eq] at hv
      rbind h => x s1 h1
      rbind h => y s2 h2
      rbind h => z s3 h3
      obtain ⟨rfl, rfl⟩ := R.pure_inv h
      rw [readF32_inv h3, readF32_inv h2, readF32_inv h1]
      simp [components, componentCount, hv]
  · rw [show StructKind.ofName "Vector2D" = some .vector2D by decide +kernel] at h
    simp only [readBuiltin, hl] at h
    split at h
    · rename_i hv
      simp only [decide_eq_true_eq] at hv
      rbind h => x s1 h1
      rbind h => y s2 h2
      obtain ⟨rfl, rfl⟩ := R.pure_inv h
      rw [readF64_inv h2, readF64_inv h1]
      simp [components, componentCount, hv]
    · rename_i hv
      simp only [decide_eq_true_eq] at hv
      rbind h => x s1 h1
      rbind h => y s2 h2
      obtain ⟨rfl, rfl⟩ := R.pure_inv h
      rw [readF32_inv h2, readF32_inv h1]
      simp [components, componentCount, hv]
  · rw [show StructKind.ofName "Rotator" = some .rotator by decide +kernel] at h
    simp only [readBuiltin, hl] at h
    split at h
    · rename_i hv
      simp only [decide_eq_true_eq] at hv
      rbind h => x s1 h1
      rbind h => y s2 h2
      rbind h => z s3 h3
      obtain ⟨rfl, rfl⟩ := R.pure_inv h
      rw [readF64_inv h3, readF64_inv h2, readF64_inv h1]
      simp [components, componentCount, hv]
    · rename_i hv
      simp only [decide_eq_true_eq] at hv
      rbind h => x s1 h1
      rbind h => y s2 h2
      rbind h => z s3 h3
      obtain ⟨rfl, rfl⟩ := R.pure_inv h
      rw [readF32_inv h3, readF32_inv h2, readF32_inv h1]
      simp [components, componentCount, hv]
  · rw [show StructKind.ofName "Quat" = some .quat by decide +kernel] at h
    simp only [readBuiltin, hl] at h
    split at h
    · rename_i hv
      simp only [decide_eq_true_eq] at hv
      rbind h => x s1 h1
      rbind h => y s2 h2
      rbind h => z s3 h3
      rbind h => w s4 h4
      obtain ⟨rfl, rfl⟩ := R.pure_inv h
      rw [readF64_inv h4, readF64_inv h3, readF64_inv h2, readF64_inv h1]
      simp [components, componentCount, hv]
    · rename_i hv
      simp only [decide_eq_true_eq] at hv
      rbind h => x s1 h1
      rbind h => y s2 h2
      rbind h => z s3 h3
      rbind h => w s4 h4
      obtain ⟨rfl, rfl⟩ := R.pure_inv h
      rw [readF32_inv h4, readF32_inv h3, readF32_inv h2, readF32_inv h1]
      simp [components, componentCount, hv]

/-- **C32**: a value of the width the version asks for is written, in that many bytes; one of the
other width is refused with an error. -/
theorem C32_write_width (cv : List (Guid × UInt32)) (hd : DistinctKeys cv) (u : Nat)
    (hu : VersionOf cv ue5Release u) (v : StructPropertyValue) (ty : String) (wide : Bool)
    (hv : components v = some (ty, wide)) :
    (wide = decide (28 ≤ u) → ∃ out, StructPropertyValue.writeBody cv v = .ok out ∧
      out.bytes.length = componentCount ty * (if wide then 8 else 4)) ∧
    (wide ≠ decide (28 ≤ u) → ∃ msg,
      StructPropertyValue.writeBody cv v = .err (.serializeInvalidValue msg)) := by
  have hl := lwc_eq hd hu
  rw [← hl]
  cases v <;> simp only [components, Option.some.injEq, Prod.mk.injEq, reduceCtorEq] at hv <;>
    obtain ⟨rfl, rfl⟩ := hv <;> simp only [StructPropertyValue.writeBody, writeIf] <;>
    cases lwc cv <;> simp [componentCount]

example : DistinctKeys [(ue5Release, 28)] ∧ VersionOf [(ue5Release, 28)] ue5Release 28 ∧
    components (.quatD ⟨1⟩ ⟨2⟩ ⟨3⟩ ⟨4⟩) = some ("Quat", true) :=
  ⟨by simp [DistinctKeys], .inl ⟨28, by simp, rfl⟩, rfl⟩

example : VersionOf [] ue5Release 0 := .inr ⟨by simp, rfl⟩

/-! ## C55 -/

/-- **C55**: writing a property succeeds exactly when all vectors, rotators and quaternions in it
have the width the versions ask for, no bare struct value is written with a header, and all
integer arguments of texts have the right width. -/
theorem C55_write_ok_iff (cv : List (Guid × UInt32)) (h : Bool) (p : Property) :
    (∃ out, Property.write cv h p = .ok out) ↔ WidthsFit cv h p ∧ TextsFit cv p := by
  rcases write_property cv h p with ⟨h1, h2, out, ho⟩ | ⟨h1, msg, ho⟩ | ⟨h1, msg, ho⟩
  · exact ⟨fun _ => ⟨h1, h2⟩, fun _ => ⟨out, ho⟩⟩
  · exact ⟨fun ⟨_, h⟩ => (by rw [ho] at h; cases h), fun h => absurd h.1 h1⟩
  · exact ⟨fun ⟨_, h⟩ => (by rw [ho] at h; cases h), fun h => absurd h.2 h1⟩

/-- **C55**: with texts of the right width, a property that cannot be written is refused with an
error; writing panics only because of a text. -/
theorem C55_write_error (cv : List (Guid × UInt32)) (h : Bool) (p : Property)
    (hw : ¬ WidthsFit cv h p) (ht : TextsFit cv p) :
    ∃ msg, Property.write cv h p = .err (.serializeInvalidValue msg) := by
  rcases write_property cv h p with ⟨h1, _⟩ | ⟨_, h⟩ | ⟨h1, _⟩
  · exact absurd h1 hw
  · exact h
  · exact absurd ht h1

/-- **C55**: with structs of the right width, a property that cannot be written makes the writer
panic. -/
theorem C55_write_panic (cv : List (Guid × UInt32)) (h : Bool) (p : Property)
    (hw : WidthsFit cv h p) (ht : ¬ TextsFit cv p) :
    ∃ msg, Property.write cv h p = .panic msg := by
  rcases write_property cv h p with ⟨_, h1, _⟩ | ⟨h1, _⟩ | ⟨_, h⟩
  · exact absurd h1 ht
  · exact absurd hw h1
  · exact h

/-- A map with a 64 bit vector three levels down, without versions: refused. -/
example : ¬ WidthsFit [] true (.map (.strProperty "StructProperty"
      [("a", .structValue (.customStruct [("v", [.struct ue5Release "Vector" (.vectorD ⟨0⟩ ⟨0⟩ ⟨0⟩)])]))])) ∧
    TextsFit [] (.map (.strProperty "StructProperty"
      [("a", .structValue (.customStruct [("v", [.struct ue5Release "Vector" (.vectorD ⟨0⟩ ⟨0⟩ ⟨0⟩)])]))])) := by
  constructor
  · simp only [WidthsFit, MapWidths, ValuesWidths, StructWidths, FieldsWidths, HeadedWidths]
    decide +kernel
  · simp [TextsFit, MapTexts, ValuesTexts, StructTexts, FieldsTexts, ListTexts]

example : WidthsFit [] true (.set "TextProperty" 0 [.text (.mk 0 (.asNumber (.int64 1) none none))]) ∧
    ¬ TextsFit [] (.set "TextProperty" 0 [.text (.mk 0 (.asNumber (.int64 1) none none))]) := by
  constructor
  · simp [WidthsFit, ListWidths]
  · simp only [TextsFit, ListTexts, WidthsOK, HistoryWidthsOK, ArgWidthsOK]
    decide +kernel

end Gvas
