import Verif.Lemmas.JsonNumber
import Verif.Lemmas.JsonString

/-!
# Lemmas: values in JSON text
-/

namespace Gvas.Text

open Spec Spec.Rfc8259

/-! ## Space -/

theorem isSpace_iff (c : Char) : isSpace c = true ↔ c = ' ' ∨ c = '\t' ∨ c = '\n' ∨ c = '\r' := by
  simp only [isSpace, Bool.or_eq_true, beq_iff_eq]
  constructor
  · rintro (((h | h) | h) | h) <;> simp [h]
  · rintro (h | h | h | h) <;> simp [h]

theorem skip_spec (cs : List Char) : ∃ w, cs = w ++ skip cs ∧ Space w :=
  ⟨cs.takeWhile isSpace, List.takeWhile_append_dropWhile.symm, fun c hc =>
    (isSpace_iff c).mp (List.all_eq_true.mp (List.all_takeWhile (p := isSpace) (l := cs)) c hc)⟩

theorem skip_append {w r : List Char} (hw : Space w)
    (hr : ∀ c, r.head? = some c → isSpace c = false) : skip (w ++ r) = r := by
  unfold skip
  rw [List.dropWhile_append_of_pos fun c hc => (isSpace_iff c).mpr (hw c hc)]
  cases r with
  | nil => rfl
  | cons c r => simp [hr c rfl]

theorem skip_cons {w : List Char} (hw : Space w) {c : Char} (hc : isSpace c = false)
    (r : List Char) : skip (w ++ c :: r) = c :: r :=
  skip_append hw fun d hd => by simp at hd; subst hd; exact hc

theorem skip_all {w : List Char} (hw : Space w) : skip w = [] := by
  have := skip_append (r := []) hw (by simp)
  simpa using this

theorem stop_space {w r : List Char} (hw : Space w) (hr : Stop r) : Stop (w ++ r) := by
  intro c hc
  cases w with
  | nil => exact hr c hc
  | cons d w =>
    simp at hc; subst hc
    rcases hw d (by simp) with rfl | rfl | rfl | rfl <;> decide

theorem stop_cons {c : Char} (h : isDigit c = false ∧ c ≠ '.' ∧ c ≠ 'e' ∧ c ≠ 'E') (r : List Char) :
    Stop (c :: r) := fun d hd => by simp at hd; subst hd; exact h

theorem stop_nil : Stop [] := fun _ h => by simp at h

/-! ## Values that are neither arrays nor objects -/

theorem numberIs_depth {d : Decimal} {j : J} (h : NumberIs d j) : j.depth = 0 := by
  cases h <;> rfl

theorem scalar_sound {cs r : List Char} {j : J} (h : scalar cs = some (j, r)) :
    ∃ t, cs = t ++ r ∧ Value t j ∧ j.depth = 0 := by
  unfold scalar at h
  split at h
  · cases h; exact ⟨_, rfl, .null, rfl⟩
  · cases h; exact ⟨_, rfl, .true, rfl⟩
  · cases h; exact ⟨_, rfl, .false, rfl⟩
  · simp only [Option.bind_eq_bind, Option.bind_eq_some_iff, Prod.exists, Option.pure_def,
      Option.some.injEq, Prod.mk.injEq] at h
    obtain ⟨s, r', h1, rfl, rfl⟩ := h
    obtain ⟨t, e, ht⟩ := string_sound h1
    exact ⟨t, e, .str ht, rfl⟩
  · obtain ⟨t, d, e, h1, h2⟩ := number_sound h
    exact ⟨t, e, .number h1 h2, numberIs_depth h2⟩

theorem str_start {t : List Char} {s : String} (h : Str t s) : ∃ l, t = '"' :: l := by
  obtain ⟨l, rfl, _⟩ := h
  exact ⟨_, rfl⟩

theorem scalar_str {t : List Char} {s : String} (h : Str t s) (r : List Char) :
    scalar (t ++ r) = some (.str s, r) := by
  have h1 := string_complete h r
  obtain ⟨l, rfl⟩ := str_start h
  simp only [List.cons_append] at *
  simp only [scalar, h1, Option.bind_eq_bind, Option.bind_some, Option.pure_def]

theorem scalar_number {t : List Char} {d : Decimal} {j : J} (h : Number t d) (hj : NumberIs d j)
    {r : List Char} (hr : Stop r) : scalar (t ++ r) = some (j, r) := by
  have h1 := number_complete h hj hr
  obtain ⟨c, l, rfl, hc⟩ := number_start h
  rw [← h1]
  unfold scalar
  split
  all_goals first
    | rfl
    | (rename_i e
       rw [List.cons_append, List.cons.injEq] at e
       obtain ⟨rfl, _⟩ := e
       rcases hc with hc | hc
       · exact absurd hc (by decide)
       · exact absurd hc (by decide))

/-! ## Arrays and objects -/

theorem items_sound {v : List Char → Option (J × List Char)} {d : Nat}
    (hv : ∀ {cs r j}, v cs = some (j, r) → ∃ t, cs = t ++ r ∧ Value t j ∧ j.depth ≤ d) :
    ∀ (n : Nat) {cs r l}, items v n cs = some (l, r) →
      ∃ t, cs = t ++ ']' :: r ∧ Items t l ∧ depthList l ≤ d := by
  intro n
  induction n with
  | zero => intro cs r l h; cases h
  | succ n ih =>
    intro cs r l h
    simp only [items, Option.bind_eq_bind, Option.bind_eq_some_iff, Prod.exists] at h
    obtain ⟨j, c1, h1, h⟩ := h
    obtain ⟨w, hw, sw⟩ := skip_spec cs
    obtain ⟨t, ht, vt, dt⟩ := hv h1
    obtain ⟨x, hx, sx⟩ := skip_spec c1
    split at h
    · rename_i r' e
      cases h
      refine ⟨w ++ t ++ x, ?_, .one sw vt sx, by simp [depthList, dt]⟩
      rw [hw, ht, hx, e]; simp
    · rename_i r' e
      simp only [Option.bind_eq_some_iff, Prod.exists, Option.pure_def, Option.some.injEq,
        Prod.mk.injEq] at h
      obtain ⟨l', r'', h2, rfl, rfl⟩ := h
      obtain ⟨u, rfl, hu, du⟩ := ih h2
      refine ⟨w ++ t ++ x ++ ',' :: u, ?_, .cons sw vt sx hu, Nat.max_le.mpr ⟨dt, du⟩⟩
      rw [hw, ht, hx, e]; simp
    · cases h

theorem members_sound {v : List Char → Option (J × List Char)} {d : Nat}
    (hv : ∀ {cs r j}, v cs = some (j, r) → ∃ t, cs = t ++ r ∧ Value t j ∧ j.depth ≤ d) :
    ∀ (n : Nat) {cs r l}, members v n cs = some (l, r) →
      ∃ t, cs = t ++ '}' :: r ∧ Members t l ∧ depthEntries l ≤ d := by
  intro n
  induction n with
  | zero => intro cs r l h; cases h
  | succ n ih =>
    intro cs r l h
    simp only [members, Option.bind_eq_bind, Option.bind_eq_some_iff, Prod.exists] at h
    obtain ⟨k, c0, h0, h⟩ := h
    obtain ⟨w, hw, sw⟩ := skip_spec cs
    obtain ⟨tk, hk, vk⟩ := string_sound h0
    obtain ⟨y, hy, sy⟩ := skip_spec c0
    split at h
    · rename_i c2 e2
      simp only [Option.bind_eq_some_iff, Prod.exists] at h
      obtain ⟨j, c1, h1, h⟩ := h
      obtain ⟨z, hz, sz⟩ := skip_spec c2
      obtain ⟨t, ht, vt, dt⟩ := hv h1
      obtain ⟨x, hx, sx⟩ := skip_spec c1
      split at h
      · rename_i r' e
        cases h
        refine ⟨w ++ tk ++ y ++ ':' :: (z ++ t ++ x), ?_, .one sw vk sy sz vt sx,
          by simp [depthEntries, dt]⟩
        rw [hw, hk, hy, e2, hz, ht, hx, e]; simp
      · rename_i r' e
        simp only [Option.bind_eq_some_iff, Prod.exists, Option.pure_def, Option.some.injEq,
          Prod.mk.injEq] at h
        obtain ⟨l', r'', h2, rfl, rfl⟩ := h
        obtain ⟨u, rfl, hu, du⟩ := ih h2
        refine ⟨w ++ tk ++ y ++ ':' :: (z ++ t ++ x ++ ',' :: u), ?_, .cons sw vk sy sz vt sx hu,
          Nat.max_le.mpr ⟨dt, du⟩⟩
        rw [hw, hk, hy, e2, hz, ht, hx, e]; simp
      · cases h
    · cases h

theorem value_sound : ∀ (d : Nat) {cs r j}, value d cs = some (j, r) →
    ∃ t, cs = t ++ r ∧ Value t j ∧ j.depth ≤ d := by
  intro d
  induction d with
  | zero =>
    intro cs r j h
    obtain ⟨t, e, h1, h2⟩ := scalar_sound (show scalar cs = _ from h)
    exact ⟨t, e, h1, by omega⟩
  | succ d ih =>
    intro cs r j h
    unfold value at h
    split at h
    · rename_i cs
      unfold array at h
      split at h
      · rename_i r' e
        cases h
        obtain ⟨w, hw, sw⟩ := skip_spec cs
        exact ⟨'[' :: w ++ [']'], by rw [hw, e]; simp, .emptyArray sw, by simp [J.depth, depthList]⟩
      · simp only [Option.bind_eq_bind, Option.bind_eq_some_iff, Prod.exists, Option.pure_def,
          Option.some.injEq, Prod.mk.injEq] at h
        obtain ⟨l, r', h1, rfl, rfl⟩ := h
        obtain ⟨t, rfl, ht, dt⟩ := items_sound (fun h => ih h) _ h1
        exact ⟨'[' :: t ++ [']'], by simp, .array ht, by simp [J.depth, dt]⟩
    · rename_i cs
      unfold object at h
      split at h
      · rename_i r' e
        cases h
        obtain ⟨w, hw, sw⟩ := skip_spec cs
        exact ⟨'{' :: w ++ ['}'], by rw [hw, e]; simp, .emptyObject sw,
          by simp [J.depth, depthEntries]⟩
      · simp only [Option.bind_eq_bind, Option.bind_eq_some_iff, Prod.exists, Option.pure_def,
          Option.some.injEq, Prod.mk.injEq] at h
        obtain ⟨l, r', h1, rfl, rfl⟩ := h
        obtain ⟨t, rfl, ht, dt⟩ := members_sound (fun h => ih h) _ h1
        exact ⟨'{' :: t ++ ['}'], by simp, .object ht, by simp [J.depth, dt]⟩
    · obtain ⟨t, e, h1, h2⟩ := scalar_sound h
      exact ⟨t, e, h1, by omega⟩

/-- A value starts with a letter that is neither space nor a closing bracket. -/
theorem value_start {t : List Char} {j : J} (h : Value t j) :
    ∃ c l, t = c :: l ∧ isSpace c = false ∧ c ≠ ']' := by
  cases h with
  | null => exact ⟨_, _, rfl, by decide, by decide⟩
  | true => exact ⟨_, _, rfl, by decide, by decide⟩
  | false => exact ⟨_, _, rfl, by decide, by decide⟩
  | number h =>
    obtain ⟨c, l, rfl, hc⟩ := number_start h
    refine ⟨c, l, rfl, ?_, ?_⟩
    · rcases hc with rfl | hc
      · decide
      · cases hs : isSpace c with
        | false => rfl
        | true => rcases (isSpace_iff c).mp hs with rfl | rfl | rfl | rfl <;> simp [isDigit] at hc
    · rintro rfl
      rcases hc with hc | hc
      · cases hc
      · simp [isDigit] at hc
  | str h =>
    obtain ⟨l, rfl⟩ := str_start h
    exact ⟨_, _, rfl, by decide, by decide⟩
  | emptyArray => exact ⟨_, _, rfl, by decide, by decide⟩
  | array => exact ⟨_, _, rfl, by decide, by decide⟩
  | emptyObject => exact ⟨_, _, rfl, by decide, by decide⟩
  | object => exact ⟨_, _, rfl, by decide, by decide⟩

theorem skip_value {w t : List Char} {j : J} (hw : Space w) (h : Value t j) (r : List Char) :
    skip (w ++ (t ++ r)) = t ++ r := by
  obtain ⟨c, l, rfl, hc, _⟩ := value_start h
  exact skip_cons hw hc _

theorem skip_str {w t : List Char} {s : String} (hw : Space w) (h : Str t s) (r : List Char) :
    skip (w ++ (t ++ r)) = t ++ r := by
  obtain ⟨l, rfl⟩ := str_start h
  exact skip_cons hw (by decide) _

theorem items_complete {v : List Char → Option (J × List Char)} {d : Nat}
    (hv : ∀ {t j}, Value t j → j.depth ≤ d → ∀ {r}, Stop r → v (t ++ r) = some (j, r)) :
    ∀ (l : List J) {t : List Char}, Items t l → depthList l ≤ d → ∀ (n : Nat) (r : List Char),
      t.length < n → items v n (t ++ ']' :: r) = some (l, r) := by
  intro l
  induction l with
  | nil => intro t h; cases h
  | cons j l ih =>
    intro t h hd n r hn
    cases n with
    | zero => omega
    | succ n =>
      simp only [depthList, Nat.max_le] at hd
      cases h with
      | @one w t _ x sw vt sx =>
        have e : w ++ t ++ x ++ ']' :: r = w ++ (t ++ (x ++ ']' :: r)) := by simp
        have hs : Stop (x ++ ']' :: r) := stop_space sx (stop_cons (by decide) r)
        simp only [items, e, skip_value sw vt, hv vt hd.1 hs, Option.bind_eq_bind, Option.bind_some,
          skip_cons sx (c := ']') (by decide), Option.pure_def]
      | @cons w t _ x u _ sw vt sx hu =>
        have e : w ++ t ++ x ++ ',' :: u ++ ']' :: r = w ++ (t ++ (x ++ ',' :: (u ++ ']' :: r))) := by
          simp
        have hs : Stop (x ++ ',' :: (u ++ ']' :: r)) := stop_space sx (stop_cons (by decide) _)
        have hn' : u.length < n := by simp at hn; omega
        simp only [items, e, skip_value sw vt, hv vt hd.1 hs, Option.bind_eq_bind, Option.bind_some,
          skip_cons sx (c := ',') (by decide), ih hu hd.2 n r hn', Option.pure_def]

theorem members_complete {v : List Char → Option (J × List Char)} {d : Nat}
    (hv : ∀ {t j}, Value t j → j.depth ≤ d → ∀ {r}, Stop r → v (t ++ r) = some (j, r)) :
    ∀ (l : List (String × J)) {t : List Char}, Members t l → depthEntries l ≤ d →
      ∀ (n : Nat) (r : List Char), t.length < n → members v n (t ++ '}' :: r) = some (l, r) := by
  intro l
  induction l with
  | nil => intro t h; cases h
  | cons p l ih =>
    intro t h hd n r hn
    obtain ⟨k, j⟩ := p
    cases n with
    | zero => omega
    | succ n =>
      simp only [depthEntries, Nat.max_le] at hd
      cases h with
      | @one w tk _ y z t _ x sw vk sy sz vt sx =>
        have e : w ++ tk ++ y ++ ':' :: (z ++ t ++ x) ++ '}' :: r =
            w ++ (tk ++ (y ++ ':' :: (z ++ (t ++ (x ++ '}' :: r))))) := by simp
        have hs : Stop (x ++ '}' :: r) := stop_space sx (stop_cons (by decide) r)
        simp only [members, e, skip_str sw vk, string_complete vk, skip_value sz vt, hv vt hd.1 hs,
          Option.bind_eq_bind, Option.bind_some, skip_cons sy (c := ':') (by decide),
          skip_cons sx (c := '}') (by decide), Option.pure_def]
      | @cons w tk _ y z t _ x u _ sw vk sy sz vt sx hu =>
        have e : w ++ tk ++ y ++ ':' :: (z ++ t ++ x ++ ',' :: u) ++ '}' :: r =
            w ++ (tk ++ (y ++ ':' :: (z ++ (t ++ (x ++ ',' :: (u ++ '}' :: r)))))) := by simp
        have hs : Stop (x ++ ',' :: (u ++ '}' :: r)) := stop_space sx (stop_cons (by decide) _)
        have hn' : u.length < n := by simp at hn; omega
        simp only [members, e, skip_str sw vk, string_complete vk, skip_value sz vt, hv vt hd.1 hs,
          Option.bind_eq_bind, Option.bind_some, skip_cons sy (c := ':') (by decide),
          skip_cons sx (c := ',') (by decide), ih hu hd.2 n r hn', Option.pure_def]

theorem items_start {t : List Char} {l : List J} (h : Items t l) (r : List Char) :
    ∃ c u, skip (t ++ r) = c :: u ∧ c ≠ ']' := by
  cases h with
  | @one w t _ x sw vt sx =>
    obtain ⟨c, l, rfl, hc, hn⟩ := value_start vt
    refine ⟨c, l ++ (x ++ r), ?_, hn⟩
    rw [show w ++ c :: l ++ x ++ r = w ++ c :: (l ++ (x ++ r)) by simp]
    exact skip_cons sw hc _
  | @cons w t _ x u _ sw vt sx hu =>
    obtain ⟨c, l, rfl, hc, hn⟩ := value_start vt
    refine ⟨c, l ++ (x ++ ',' :: (u ++ r)), ?_, hn⟩
    rw [show w ++ c :: l ++ x ++ ',' :: u ++ r = w ++ c :: (l ++ (x ++ ',' :: (u ++ r))) by simp]
    exact skip_cons sw hc _

theorem members_start {t : List Char} {l : List (String × J)} (h : Members t l) (r : List Char) :
    ∃ u, skip (t ++ r) = '"' :: u := by
  cases h with
  | @one w tk _ y z t _ x sw vk sy sz vt sx =>
    obtain ⟨l, rfl⟩ := str_start vk
    refine ⟨l ++ (y ++ ':' :: (z ++ t ++ x) ++ r), ?_⟩
    rw [show w ++ '"' :: l ++ y ++ ':' :: (z ++ t ++ x) ++ r =
      w ++ '"' :: (l ++ (y ++ ':' :: (z ++ t ++ x) ++ r)) by simp]
    exact skip_cons sw (by decide) _
  | @cons w tk _ y z t _ x u _ sw vk sy sz vt sx hu =>
    obtain ⟨l, rfl⟩ := str_start vk
    refine ⟨l ++ (y ++ ':' :: (z ++ t ++ x ++ ',' :: u) ++ r), ?_⟩
    rw [show w ++ '"' :: l ++ y ++ ':' :: (z ++ t ++ x ++ ',' :: u) ++ r =
      w ++ '"' :: (l ++ (y ++ ':' :: (z ++ t ++ x ++ ',' :: u) ++ r)) by simp]
    exact skip_cons sw (by decide) _

theorem value_scalar {d : Nat} {cs : List Char}
    (h : ∀ c, cs.head? = some c → c ≠ '[' ∧ c ≠ '{') : value d cs = scalar cs := by
  cases d with
  | zero => rfl
  | succ d =>
    unfold value
    split
    · exact absurd rfl (h '[' rfl).1
    · exact absurd rfl (h '{' rfl).2
    · rfl

theorem value_complete : ∀ (d : Nat) {t : List Char} {j : J}, Value t j → j.depth ≤ d →
    ∀ {r : List Char}, Stop r → value d (t ++ r) = some (j, r) := by
  intro d
  induction d with
  | zero =>
    intro t j h hd r hr
    cases h with
    | null | true | false => rfl
    | number h1 h2 => exact scalar_number h1 h2 hr
    | str h => exact scalar_str h r
    | emptyArray | array | emptyObject | object => simp [J.depth] at hd
  | succ d ih =>
    intro t j h hd r hr
    cases h with
    | null | true | false => rfl
    | number h1 h2 =>
      rw [value_scalar]
      · exact scalar_number h1 h2 hr
      · obtain ⟨c, l, rfl, hc⟩ := number_start h1
        intro c' e
        simp at e; subst e
        constructor <;>
        · rintro rfl
          rcases hc with hc | hc
          · cases hc
          · simp [isDigit] at hc
    | str h =>
      rw [value_scalar]
      · exact scalar_str h r
      · obtain ⟨l, rfl⟩ := str_start h
        intro c' e
        simp at e; subst e
        decide
    | @emptyArray w sw =>
      simp only [List.cons_append, List.append_assoc, List.nil_append, value, array,
        skip_cons sw (c := ']') (by decide)]
    | @array t l h =>
      simp only [J.depth] at hd
      have h1 := items_complete (d := d) ih l h (by omega)
        (t ++ ']' :: r).length r (by simp)
      obtain ⟨c, u, e, hc⟩ := items_start h (']' :: r)
      simp only [List.cons_append, List.append_assoc, List.nil_append, value, array, h1,
        Option.bind_eq_bind, Option.bind_some, Option.pure_def]
      split
      · rename_i e'; rw [e] at e'; cases e'; exact absurd rfl hc
      · rfl
    | @emptyObject w sw =>
      simp only [List.cons_append, List.append_assoc, List.nil_append, value, object,
        skip_cons sw (c := '}') (by decide)]
    | @object t l h =>
      simp only [J.depth] at hd
      have h1 := members_complete (d := d) ih l h (by omega)
        (t ++ '}' :: r).length r (by simp)
      obtain ⟨u, e⟩ := members_start h ('}' :: r)
      simp only [List.cons_append, List.append_assoc, List.nil_append, value, object, h1,
        Option.bind_eq_bind, Option.bind_some, Option.pure_def]
      split
      · rename_i e'; rw [e] at e'; cases e'
      · rfl

/-- Reading text, with repeated names still in place. -/
theorem ofText_iff (s : String) (j : J) : J.ofText s = some j ↔
    ∃ r, Document s.toList r ∧ r.depth ≤ 127 ∧ j = r.merge := by
  unfold J.ofText
  simp only [Option.bind_eq_bind, Option.bind_eq_some_iff, Prod.exists, Option.pure_def]
  constructor
  · rintro ⟨v, r, h, h'⟩
    split at h'
    · rename_i he
      cases h'
      obtain ⟨w, hw, sw⟩ := skip_spec s.toList
      obtain ⟨t, ht, vt, dt⟩ := value_sound 127 h
      obtain ⟨u, hu, su⟩ := skip_spec r
      rw [List.isEmpty_iff] at he
      refine ⟨v, ⟨w, t, u, ?_, sw, vt, su⟩, dt, rfl⟩
      rw [hw, ht, hu, he]; simp
    · cases h'
  · rintro ⟨v, ⟨w, t, u, e, sw, vt, su⟩, dt, rfl⟩
    have hs : Stop u := by have := stop_space su stop_nil; simpa using this
    refine ⟨v, u, ?_, ?_⟩
    · rw [e, List.append_assoc, skip_value sw vt]
      exact value_complete 127 vt dt hs
    · rw [skip_all su]; rfl

end Gvas.Text
