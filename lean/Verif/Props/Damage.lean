import Verif.Lemmas.Damage
import Verif.Props.Grammar
import Verif.Spec.Sample

/-!
# C91: damage inside a save is reported

`Spec/Inside.lean` says what the beginning of a save looks like up to the header of a property in
it, at any depth.  A failure there is the failure of the whole save.  So what the checks of headers
do for single properties they do for saves.
-/

namespace Gvas

open Spec Format

/-- **C91**: reading a property fails with what reading a property inside it fails with, at any
depth, and stops there: nothing is skipped or tried again. -/
theorem C91_no_recovery (env : Env) (st st' : List String) (ty ty' : String) (front rest : Bytes)
    (pos n m : Nat) (e : Fail) (s' : RS) (h : Inside env st ty front st' ty')
    (hm : rest.length < m) (hn : (front ++ rest).length < n)
    (hr : Property.read env m ty' true none ⟨rest, pos + front.length, st'⟩ = (.bad e, s')) :
    Property.read env n ty true none ⟨front ++ rest, pos, st⟩ =
      (.bad e, { s' with stack := st }) :=
  inside_fails h hm hn hr

/-- **C91**: reading a save fails with what reading a property in it fails with, whatever follows
and at any depth. -/
theorem C91_save_no_recovery (debug : Bool) (hints : String → Option String) (h : GvasHeader)
    (front rest : Bytes) (st : List String) (ty : String) (n : Nat) (e : Fail) (s' : RS)
    (hi : InSave debug hints h front st ty) (hn : rest.length < n)
    (hr : Property.read ⟨debug, hints, h.customVersions⟩ n ty true none ⟨rest, front.length, st⟩ =
      (.bad e, s')) : (readData debug hints (front ++ rest)).1 = .bad e :=
  inSave_fails hi hn hr

/-- **C91**: every property of a save, at any depth, is at such a place. -/
theorem C91_stands (debug : Bool) (hints : String → Option String) (data : Bytes) (h : GvasHeader)
    (ps : List (String × Property)) (k : String) (p q : Property)
    (hr : (readData debug hints data).1 = .ok (h, ps)) (hp : (k, p) ∈ ps) (hn : Nested p q) :
    ∃ front c back st ty, data = front ++ c ++ back ∧ InSave debug hints h front st ty ∧
      Full ⟨debug, hints, h.customVersions⟩ st ty c q := by
  obtain ⟨b, es, rest, hh, hf, hw⟩ := (C69_accepts_iff ..).mp hr
  obtain ⟨hb, rfl, hh'⟩ := headerAt_front hh
  obtain ⟨name, he⟩ := lastWins_value hw hp
  obtain ⟨es1, es2, rfl⟩ := List.append_of_mem he
  obtain ⟨b1, n, t, c, back, top, rfl, g1, g2, g3, g4, g5⟩ := fields_split hf
  obtain ⟨f, d, back', st, ty, rfl, k1, k2⟩ := nested_stands hn g5
  refine ⟨hb ++ (b1 ++ n ++ t ++ f), d, back' ++ back ++ rest, st, ty, ?_,
    ⟨hb, b1, n, t, f, es1, name, top, rfl, hh', g1, g2, g3, g4, k1⟩, k2⟩
  simp only [List.append_assoc]

/-- **C91**: in an accepted save, change the size in the header of any one property whose size is
compared with something.  Then the save is refused, and both sizes are reported. -/
theorem C91_wrong_length (debug : Bool) (hints : String → Option String) (data : Bytes)
    (h : GvasHeader) (ps : List (String × Property)) (k : String) (p q : Property)
    (hr : (readData debug hints data).1 = .ok (h, ps)) (hp : (k, p) ∈ ps) (hn : Nested p q)
    (hq : Gauged q) : ∃ front len c back, data = front ++ u32B len ++ c ++ back ∧
      (∃ st ty, InSave debug hints h front st ty ∧
        Full ⟨debug, hints, h.customVersions⟩ st ty (u32B len ++ c) q) ∧
      ∀ len', len' ≠ len → ∃ e,
        (readData debug hints (front ++ u32B len' ++ c ++ back)).1 = .bad e ∧
        WrongSize debug q len len' (front.length + 8) (front.length + 4 + c.length - len.toNat) e := by
  obtain ⟨front, b, back, st, ty, rfl, hi, hf⟩ := C91_stands debug hints data h ps k p q hr hp hn
  obtain ⟨len, c, rfl, hw⟩ := wrong_size hf hq
  refine ⟨front, len, c, back, by simp only [List.append_assoc], ⟨st, ty, hi, hf⟩,
    fun len' hne => ?_⟩
  obtain ⟨n0, h0⟩ := hw len' hne
  obtain ⟨e, s', g1, g2⟩ := h0 (n0 + (u32B len' ++ c ++ back).length + 1) (by omega) back front.length
  refine ⟨e, ?_, g1⟩
  have := inSave_fails hi (by omega) g2
  simpa only [List.append_assoc] using this

/-- **C91**: an array index other than zero in a header, anywhere in a save, is refused, whatever
follows: with an error naming it where the library expects one, as a wrong size by numbers and
bools, whose size is 8 bytes wide, and with a panic by byte properties and unknown ones. -/
theorem C91_wrong_index (debug : Bool) (hints : String → Option String) (h : GvasHeader)
    (front rest : Bytes) (st : List String) (ty : String) (len idx : UInt32)
    (hi : InSave debug hints h front st ty) (h0 : idx ≠ 0) :
    (ty ∈ indexedTypes → (readData debug hints (front ++ u32B len ++ u32B idx ++ rest)).1 =
      .bad (.err (.invalidArrayIndex idx (front.length + 4)))) ∧
    (ty = "ByteProperty" ∨ ty ∉ knownTypes →
      (readData debug hints (front ++ u32B len ++ u32B idx ++ rest)).1 =
        .bad (.panic "Expected array_index value zero")) ∧
    ∀ w v, (ty, w) ∈ fixedWidths → v.toNat ≠ w →
      (readData debug hints (front ++ u64B v ++ rest)).1 =
        .bad (.err (.invalidValueSize w v.toNat (front.length + 8))) := by
  refine ⟨fun ht => ?_, fun ht => ?_, fun w v ht hv => ?_⟩
  · obtain ⟨s', hs⟩ := indexed_wrong (env := ⟨debug, hints, h.customVersions⟩)
      (n := (u32B len ++ (u32B idx ++ rest)).length) (len := len) (x := rest) (pos := front.length)
      (st := st) ht h0
    have := inSave_fails hi (by omega) hs
    simpa only [List.append_assoc] using this
  · obtain ⟨s', hs⟩ := asserted_wrong (env := ⟨debug, hints, h.customVersions⟩)
      (n := (u32B len ++ (u32B idx ++ rest)).length) (len := len) (x := rest) (pos := front.length)
      (st := st) ht h0
    have := inSave_fails hi (by omega) hs
    simpa only [List.append_assoc] using this
  · obtain ⟨s', hs⟩ := fixedWidth_wrong (env := ⟨debug, hints, h.customVersions⟩)
      (n := (u64B v ++ rest).length) (x := rest) (pos := front.length) (st := st) ht hv
    have := inSave_fails hi (by omega) hs
    simpa only [List.append_assoc] using this

/-- Every type name is of one of the three groups, or is that of names, which keep the index. -/
theorem C91_wrong_index_types (ty : String) : ty ∈ indexedTypes ∨ ty = "ByteProperty" ∨
    ty ∉ knownTypes ∨ (∃ w, (ty, w) ∈ fixedWidths) ∨ ty = "NameProperty" := by
  by_cases h : ty ∈ knownTypes
  · simp only [knownTypes, List.mem_cons, List.not_mem_nil, or_false] at h
    simp only [indexedTypes, fixedWidths, List.mem_cons, List.not_mem_nil, or_false, Prod.mk.injEq]
    rcases h with rfl | rfl | rfl | rfl | rfl | rfl | rfl | rfl | rfl | rfl | rfl | rfl | rfl | rfl |
      rfl | rfl | rfl | rfl | rfl | rfl | rfl | rfl | rfl | rfl <;> simp
  · exact .inr (.inr (.inl h))

/-- A save with a struct named `s` of type `S` with a 32 bit integer named `n` in it; the size of
the integer is `size`. -/
def damagedBytes (size : UInt8) : Bytes :=
  saveBytes (ascii "s" ++ ascii "StructProperty" ++ [44, 0, 0, 0, 0, 0, 0, 0] ++ ascii "S" ++
    leBytes 16 0 ++ [0] ++ (ascii "n" ++ ascii "IntProperty" ++ [size, 0, 0, 0, 0, 0, 0, 0, 0] ++
      [7, 0, 0, 0] ++ ascii "None"))

private theorem damaged_read : ∃ h k g ty f v, (readData false noHints (damagedBytes 4)).1 =
    .ok (h, [(k, .struct g ty (.customStruct [(f, [.int v])]))]) := by
  have hk : (match (readData false noHints (damagedBytes 4)).1 with
    | .ok (_, [(_, .struct _ _ (.customStruct [(_, [.int _])]))]) => true
    | _ => false) = true := by decide +kernel
  split at hk
  · rename_i h k g ty f v heq
    exact ⟨h, k, g, ty, f, v, heq⟩
  · cases hk

private theorem damaged_nested (g : Guid) (ty f : String) (v : Int32) :
    Nested (.struct g ty (.customStruct [(f, [.int v])])) (.int v) :=
  .field (.struct ⟨_, f, _, rfl, List.mem_singleton.mpr rfl, List.mem_singleton.mpr rfl⟩) .self

/-- The hypotheses of `C91_stands` and `C91_wrong_length` for a property inside a struct. -/
example : ∃ h ps k p q, (readData false noHints (damagedBytes 4)).1 = .ok (h, ps) ∧ (k, p) ∈ ps ∧
    Nested p q ∧ Gauged q ∧ q ≠ p := by
  obtain ⟨h, k, g, ty, f, v, hr⟩ := damaged_read
  exact ⟨h, _, k, _, _, hr, List.mem_singleton.mpr rfl, damaged_nested g ty f v, trivial, nofun⟩

/-- The hypotheses of the other theorems for it: its place in the save and in the struct. -/
example : (∃ h front st, InSave false noHints h front st "IntProperty") ∧
    ∃ env st front st', Inside env st "StructProperty" front st' "IntProperty" := by
  obtain ⟨h, k, g, ty, f, v, hr⟩ := damaged_read
  constructor
  · obtain ⟨front, c, _, st, ty', _, hi, hf⟩ := C91_stands false noHints _ h _ k _ _ hr
      (List.mem_singleton.mpr rfl) (damaged_nested g ty f v)
    cases hf with
    | number hm => cases hm; exact ⟨h, front, st, hi⟩
    | plain hm => cases hm
  · obtain ⟨_, c, _, st, ty', _, _, hf⟩ := C91_stands false noHints _ h _ k _ _ hr
      (List.mem_singleton.mpr rfl) .self
    obtain ⟨front, d, _, st', ty2, rfl, hi, hf'⟩ := nested_stands (damaged_nested g ty f v) hf
    have e2 : ty2 = "IntProperty" := by
      cases hf' with
      | number hm => cases hm; rfl
      | plain hm => cases hm
    have e1 : ty' = "StructProperty" := by
      generalize hb : front ++ d ++ _ = b at hf
      cases hf with
      | number hm => cases hm
      | plain hm => cases hm
      | struct => rfl
    subst e1 e2
    exact ⟨_, st, front, st', hi⟩

/-- What is reported for it. -/
example : (readData false noHints (damagedBytes 5)).1 = .bad (.err (.invalidValueSize 4 5 135)) :=
  eq_bad (by decide +kernel)

/-- A save whose only property `a` has the type `ty`, the size `size` and, behind the index, the bytes `x`. -/
def sizeBytes (ty : String) (size : UInt8) (x : Bytes) : Bytes :=
  saveBytes (ascii "a" ++ ascii ty ++ [size, 0, 0, 0, 0, 0, 0, 0] ++ x)

/-- **C91**, the limits of it: the size of a byte property may be changed from 1 to 2 and nothing
changes; the size of a property of an unknown type may be changed, and the save is accepted with
other contents. -/
theorem C91_unnoticed :
    (∃ h ps, (readData true noHints (sizeBytes "ByteProperty" 1 (ascii "E" ++ [0, 5]))).1 =
        .ok (h, ps) ∧
      (readData true noHints (sizeBytes "ByteProperty" 2 (ascii "E" ++ [0, 5]))).1 = .ok (h, ps)) ∧
    ∃ h ps h' ps', (readData true noHints
        (sizeBytes "Odd" 13 ([0] ++ ascii "None" ++ [0, 0, 0, 0]))).1 = .ok (h, ps) ∧
      (readData true noHints (sizeBytes "Odd" 0 ([0] ++ ascii "None" ++ [0, 0, 0, 0]))).1 =
        .ok (h', ps') ∧ ps ≠ ps' := by
  constructor
  · have hk : (match (readData true noHints (sizeBytes "ByteProperty" 1 (ascii "E" ++ [0, 5]))).1,
        (readData true noHints (sizeBytes "ByteProperty" 2 (ascii "E" ++ [0, 5]))).1 with
      | .ok (h, [(k, .byte t (.byte v))]), .ok (h', [(k', .byte t' (.byte v'))]) =>
        decide (h = h' ∧ k = k' ∧ t = t' ∧ v = v')
      | _, _ => false) = true := by decide +kernel
    split at hk
    · rename_i h1 h2
      obtain ⟨rfl, rfl, rfl, rfl⟩ := of_decide_eq_true hk
      exact ⟨_, _, h1, h2⟩
    · cases hk
  · have hk : (match (readData true noHints
          (sizeBytes "Odd" 13 ([0] ++ ascii "None" ++ [0, 0, 0, 0]))).1,
        (readData true noHints (sizeBytes "Odd" 0 ([0] ++ ascii "None" ++ [0, 0, 0, 0]))).1 with
      | .ok (_, [(_, .unknown _ (_ :: _))]), .ok (_, [(_, .unknown _ [])]) => true
      | _, _ => false) = true := by decide +kernel
    split at hk
    · rename_i h1 h2
      exact ⟨_, _, _, _, h1, h2, by simp⟩
    · cases hk

end Gvas
