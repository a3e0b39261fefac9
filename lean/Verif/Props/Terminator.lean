import Verif.Lemmas.Terminator
import Verif.Props.Damage

/-!
# C91: wrong bytes at the end of headers

The header of every property ends with a zero byte.  Whatever else stands there, at any depth of a
save and whatever follows, the save is refused.
-/

namespace Gvas

open Spec Format

/-- **C91**: a byte other than zero at the end of a header, anywhere in a save, is refused whatever
follows: with an error that names it and its place, or with a panic by numbers, bools, byte
properties and properties of unknown type. -/
theorem C91_wrong_end (debug : Bool) (hints : String → Option String) (h : GvasHeader)
    (front hd rest : Bytes) (st : List String) (ty : String) (t : UInt8)
    (hi : InSave debug hints h front st ty) (h0 : t ≠ 0) :
    (Heading ty hd → (readData debug hints (front ++ hd ++ [t] ++ rest)).1 =
      .bad (.err (.invalidTerminator t (front ++ hd).length))) ∧
    (Asserted ty hd → (readData debug hints (front ++ hd ++ [t] ++ rest)).1 =
      .bad (.panic "assertion `left == right` failed")) := by
  refine ⟨fun hh => ?_, fun hh => ?_⟩
  · obtain ⟨s', hs⟩ := heading_wrong (env := ⟨debug, hints, h.customVersions⟩)
      (n := (hd ++ ([t] ++ rest)).length) (x := rest) (pos := front.length) (st := st) hh h0
    have := inSave_fails hi (by omega) hs
    simpa only [List.append_assoc, List.length_append] using this
  · obtain ⟨s', hs⟩ := assertedEnd_wrong (env := ⟨debug, hints, h.customVersions⟩)
      (n := (hd ++ ([t] ++ rest)).length) (x := rest) (pos := front.length) (st := st) hh h0
    have := inSave_fails hi (by omega) hs
    simpa only [List.append_assoc] using this

/-- **C91**: every property of an accepted save, at any depth, has a header of this form, so with
another byte in the place of the zero at its end, whatever follows, the save is refused. -/
theorem C91_ends (debug : Bool) (hints : String → Option String) (data : Bytes)
    (h : GvasHeader) (ps : List (String × Property)) (k : String) (p q : Property)
    (hr : (readData debug hints data).1 = .ok (h, ps)) (hp : (k, p) ∈ ps) (hn : Nested p q) :
    ∃ front hd back st ty, data = front ++ hd ++ [0] ++ back ∧
      InSave debug hints h front st ty ∧ (Heading ty hd ∨ Asserted ty hd) ∧
      (∃ c c', back = c ++ c' ∧
        Full ⟨debug, hints, h.customVersions⟩ st ty (hd ++ [0] ++ c) q) ∧
      ∀ t, t ≠ 0 → ∀ rest, ∃ e, (readData debug hints (front ++ hd ++ [t] ++ rest)).1 = .bad e ∧
        (e = .err (.invalidTerminator t (front ++ hd).length) ∨
          e = .panic "assertion `left == right` failed") := by
  obtain ⟨front, b, back, st, ty, rfl, hi, hf⟩ := C91_stands debug hints data h ps k p q hr hp hn
  obtain ⟨hd, tail, rfl, hh⟩ := full_heading hf
  refine ⟨front, hd, tail ++ back, st, ty, by simp only [List.append_assoc], hi, hh,
    ⟨tail, back, rfl, hf⟩, fun t ht rest => ?_⟩
  rcases hh with hh | hh
  · exact ⟨_, (C91_wrong_end debug hints h front hd rest st ty t hi ht).1 hh, .inl rfl⟩
  · exact ⟨_, (C91_wrong_end debug hints h front hd rest st ty t hi ht).2 hh, .inr rfl⟩

/-- A save with a struct named `s` of type `S` with a string named `n` in it; the headers end with
`a` and `b`. -/
def endBytes (a b : UInt8) : Bytes :=
  saveBytes (ascii "s" ++ ascii "StructProperty" ++ [45, 0, 0, 0, 0, 0, 0, 0] ++ ascii "S" ++
    leBytes 16 0 ++ [a] ++ (ascii "n" ++ ascii "StrProperty" ++ [5, 0, 0, 0, 0, 0, 0, 0, b] ++
      [1, 0, 0, 0, 0] ++ ascii "None"))

private theorem ends_read : ∃ h k g ty f v, (readData false noHints (endBytes 0 0)).1 =
    .ok (h, [(k, .struct g ty (.customStruct [(f, [.str v])]))]) := by
  have hk : (match (readData false noHints (endBytes 0 0)).1 with
    | .ok (_, [(_, .struct _ _ (.customStruct [(_, [.str _])]))]) => true
    | _ => false) = true := by decide +kernel
  split at hk
  · rename_i h k g ty f v heq
    exact ⟨h, k, g, ty, f, v, heq⟩
  · cases hk

/-- The hypotheses of both theorems for a property inside a struct. -/
example : ∃ h ps k p q, (readData false noHints (endBytes 0 0)).1 = .ok (h, ps) ∧ (k, p) ∈ ps ∧
    Nested p q ∧ q ≠ p ∧ ∃ front hd st ty, InSave false noHints h front st ty ∧ Heading ty hd := by
  obtain ⟨h, k, g, ty, f, v, hr⟩ := ends_read
  have hn : Nested (.struct g ty (.customStruct [(f, [.str v])])) (.str v) :=
    .field (.struct ⟨_, f, _, rfl, List.mem_singleton.mpr rfl, List.mem_singleton.mpr rfl⟩) .self
  refine ⟨h, _, k, _, _, hr, List.mem_singleton.mpr rfl, hn, nofun, ?_⟩
  obtain ⟨front, _, _, st, ty', _, hi, hf⟩ := C91_stands false noHints _ h _ k _ _ hr
    (List.mem_singleton.mpr rfl) hn
  have e : ty' = "StrProperty" := by
    cases hf with
    | number hm => cases hm
    | plain hm => cases hm; rfl
  subst e
  exact ⟨front, _, st, _, hi, .plain 5 (by decide)⟩

/-- What is reported for the two headers, and the panic for the one of an integer. -/
example : (readData false noHints (endBytes 7 0)).1 = .bad (.err (.invalidTerminator 7 104)) ∧
    (readData false noHints (endBytes 0 7)).1 = .bad (.err (.invalidTerminator 7 135)) ∧
    (readData false noHints (sizeBytes "IntProperty" 4 [1, 7, 0, 0, 0])).1 =
      .bad (.panic "assertion `left == right` failed") :=
  ⟨eq_bad (by decide +kernel), eq_bad (by decide +kernel), eq_bad (by decide +kernel)⟩

end Gvas
