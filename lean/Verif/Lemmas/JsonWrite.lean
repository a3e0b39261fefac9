import Verif.Lemmas.JsonText
import Verif.Lemmas.Serde

/-!
# Lemmas: the text that is written
-/

namespace Gvas.Text

open Spec Spec.Rfc8259 Sd

/-! ## Strings -/

theorem hexLower_digit {n : Nat} (h : n < 16) : HexDigit (hexLower n) n := by
  have : n = 0 ∨ n = 1 ∨ n = 2 ∨ n = 3 ∨ n = 4 ∨ n = 5 ∨ n = 6 ∨ n = 7 ∨ n = 8 ∨ n = 9 ∨ n = 10 ∨
    n = 11 ∨ n = 12 ∨ n = 13 ∨ n = 14 ∨ n = 15 := by omega
  rcases this with rfl | rfl | rfl | rfl | rfl | rfl | rfl | rfl | rfl | rfl | rfl | rfl | rfl |
    rfl | rfl | rfl <;> exact .inl rfl

theorem escapeChar_character (c : Char) : Character (escapeChar c) c := by
  unfold escapeChar
  split
  · rename_i h; subst h; exact .escape (by simp [escapes])
  · rename_i hq
    split
    · rename_i h; subst h; exact .escape (by simp [escapes])
    · rename_i hb
      split
      · rename_i h; subst h; exact .escape (by simp [escapes])
      · split
        · rename_i h; subst h; exact .escape (by simp [escapes])
        · split
          · rename_i h; subst h; exact .escape (by simp [escapes])
          · split
            · rename_i h
              rw [char_eq h]; exact .escape (by simp [escapes])
            · split
              · rename_i h
                rw [char_eq h]; exact .escape (by simp [escapes])
              · split
                · refine .unicode ?_
                  have h0 : HexDigit '0' 0 := .inl rfl
                  have := Hex4.mk h0 h0 (hexLower_digit (n := c.toNat / 16) (by omega))
                    (hexLower_digit (n := c.toNat % 16) (by omega))
                  have e : 0 * 16 ^ 3 + 0 * 16 ^ 2 + c.toNat / 16 * 16 + c.toNat % 16 = c.toNat := by
                    omega
                  rw [e] at this
                  exact this
                · exact .plain hq hb (by omega)

theorem escape_characters (l : List Char) : Characters (l.flatMap escapeChar) l := by
  induction l with
  | nil => exact .nil
  | cons c l ih => exact .cons (escapeChar_character c) ih

theorem strText_str (s : String) : Str (strText s) s :=
  ⟨s.toList.flatMap escapeChar, rfl, escape_characters _⟩

/-! ## Whole numbers -/

theorem digitChar_digit {n : Nat} (h : n < 10) : Digit (Nat.digitChar n) n := by
  have : n = 0 ∨ n = 1 ∨ n = 2 ∨ n = 3 ∨ n = 4 ∨ n = 5 ∨ n = 6 ∨ n = 7 ∨ n = 8 ∨ n = 9 := by omega
  rcases this with rfl | rfl | rfl | rfl | rfl | rfl | rfl | rfl | rfl | rfl <;> rfl

theorem toDigits_digits (n : Nat) : Rfc8259.Int (Nat.toDigits 10 n) n := by
  induction n using Nat.strongRecOn with
  | _ n ih =>
    rw [Nat.toDigits_eq_if (by omega)]
    split
    · rename_i h
      refine ⟨.one (digitChar_digit h), ?_⟩
      have : n = 0 ∨ n = 1 ∨ n = 2 ∨ n = 3 ∨ n = 4 ∨ n = 5 ∨ n = 6 ∨ n = 7 ∨ n = 8 ∨ n = 9 := by
        omega
      rcases this with rfl | rfl | rfl | rfl | rfl | rfl | rfl | rfl | rfl | rfl <;> decide
    · rename_i h
      obtain ⟨h1, h2⟩ := ih (n / 10) (by omega)
      have := Digits.more h1 (digitChar_digit (n := n % 10) (by omega))
      rw [show 10 * (n / 10) + n % 10 = n by omega] at this
      refine ⟨this, .inr ?_⟩
      rcases h2 with h2 | h2
      · rw [h2] at h1
        have := (digits_iff _ _).mp h1
        have : n / 10 = 0 := this.2.2
        omega
      · have hne := ((digits_iff _ _).mp h1).1
        cases hd : Nat.toDigits 10 (n / 10) with
        | nil => exact absurd hd hne
        | cons a l => rw [hd] at h2; simpa using h2

theorem toDigits_magnitude (n : Nat) : Rfc8259.Magnitude (Nat.toDigits 10 n) n 0 true := by
  have := Magnitude.mk (toDigits_digits n) .absent .absent
  simpa using this

theorem intText_value {n : Int} (h1 : -2 ^ 63 ≤ n) (h2 : n < 2 ^ 64) :
    Value (intText n) (.int n) := by
  unfold intText
  have hm := toDigits_magnitude n.natAbs
  by_cases hn : n < 0
  · rw [if_pos hn]
    refine .number (.minus hm) (.int ⟨rfl, ?_, ?_, h1, h2⟩)
    · simp only [if_true]; omega
    · simp only [true_and]; omega
  · rw [if_neg hn]
    refine .number (.plus hm) (.int ⟨rfl, ?_, ?_, h1, h2⟩)
    · simp only [Bool.false_eq_true, if_false]; omega
    · simp

/-! ## Values -/

mutual
theorem text_value (t : FloatText) (num : F32 → F64)
    (h64 : ∀ f : F64, f.isFinite = true → ∃ d, Number (t.f64 f) d ∧ NumberIs d (.float f)) :
    ∀ s : Ser, Fine s → EveryF32 (fun f => f.isFinite = true →
      ∃ d, Number (t.f32 f) d ∧ NumberIs d (.float (num f))) s → Value (s.text t) (s.toJ num)
  | .null, _, _ => .null
  | .bool true, _, _ => .true
  | .bool false, _, _ => .false
  | .int n, hf, _ => by
    simp only [Ser.text, Ser.toJ]
    exact intText_value hf.1 hf.2
  | .f32 f, _, h32 => by
    simp only [Ser.text, Ser.toJ]
    split
    · rename_i h
      obtain ⟨d, h1, h2⟩ := h32 h
      exact .number h1 h2
    · exact .null
  | .f64 f, _, _ => by
    simp only [Ser.text, Ser.toJ]
    split
    · rename_i h
      obtain ⟨d, h1, h2⟩ := h64 f h
      exact .number h1 h2
    · exact .null
  | .str s, _, _ => .str (strText_str s)
  | .arr [], _, _ => .emptyArray (w := []) (by simp [Space])
  | .arr (a :: l), hf, h32 => .array (items_value t num h64 (a :: l) (by simp) hf h32)
  | .obj [], _, _ => .emptyObject (w := []) (by simp [Space])
  | .obj (e :: l), hf, h32 => .object (members_value t num h64 (e :: l) (by simp) hf.2 h32)
theorem items_value (t : FloatText) (num : F32 → F64)
    (h64 : ∀ f : F64, f.isFinite = true → ∃ d, Number (t.f64 f) d ∧ NumberIs d (.float f)) :
    ∀ l : List Ser, l ≠ [] → FineList l → EveryF32Items (fun f => f.isFinite = true →
      ∃ d, Number (t.f32 f) d ∧ NumberIs d (.float (num f))) l →
      Items (itemsText t l) (serList num l)
  | [], h, _, _ => absurd rfl h
  | [a], _, hf, h32 => by
    have := Items.one (w := []) (v := []) (by simp [Space])
      (text_value t num h64 a hf.1 h32.1) (by simp [Space])
    simpa [itemsText, serList] using this
  | a :: b :: l, _, hf, h32 => by
    have := Items.cons (w := []) (v := []) (by simp [Space])
      (text_value t num h64 a hf.1 h32.1) (by simp [Space])
      (items_value t num h64 (b :: l) (by simp) hf.2 h32.2)
    rw [itemsText, serList]
    simpa using this
theorem members_value (t : FloatText) (num : F32 → F64)
    (h64 : ∀ f : F64, f.isFinite = true → ∃ d, Number (t.f64 f) d ∧ NumberIs d (.float f)) :
    ∀ l : List (String × Ser), l ≠ [] → FineEntries l → EveryF32Members (fun f =>
      f.isFinite = true → ∃ d, Number (t.f32 f) d ∧ NumberIs d (.float (num f))) l →
      Members (membersText t l) (serEntries num l)
  | [], h, _, _ => absurd rfl h
  | [(k, a)], _, hf, h32 => by
    have := Members.one (w := []) (v := []) (x := []) (y := []) (by simp [Space]) (strText_str k)
      (by simp [Space]) (by simp [Space]) (text_value t num h64 a hf.1 h32.1) (by simp [Space])
    simpa [membersText, serEntries] using this
  | (k, a) :: e :: l, _, hf, h32 => by
    have := Members.cons (w := []) (v := []) (x := []) (y := []) (by simp [Space]) (strText_str k)
      (by simp [Space]) (by simp [Space]) (text_value t num h64 a hf.1 h32.1) (by simp [Space])
      (members_value t num h64 (e :: l) (by simp) hf.2 h32.2)
    rw [membersText, serEntries]
    simpa using this
end

mutual
theorem every_imp {P Q : F32 → Prop} (h : ∀ f, P f → Q f) : ∀ s : Ser, EveryF32 P s → EveryF32 Q s
  | .null, _ | .bool _, _ | .int _, _ | .f64 _, _ | .str _, _ => trivial
  | .f32 f, hs => h f hs
  | .arr l, hs => every_imp_list h l hs
  | .obj l, hs => every_imp_entries h l hs
theorem every_imp_list {P Q : F32 → Prop} (h : ∀ f, P f → Q f) :
    ∀ l : List Ser, EveryF32Items P l → EveryF32Items Q l
  | [], _ => trivial
  | a :: l, hs => ⟨every_imp h a hs.1, every_imp_list h l hs.2⟩
theorem every_imp_entries {P Q : F32 → Prop} (h : ∀ f, P f → Q f) :
    ∀ l : List (String × Ser), EveryF32Members P l → EveryF32Members Q l
  | [], _ => trivial
  | (_, a) :: l, hs => ⟨every_imp h a hs.1, every_imp_entries h l hs.2⟩
end

mutual
theorem every_all {P : F32 → Prop} (h : ∀ f, P f) : ∀ s : Ser, EveryF32 P s
  | .null | .bool _ | .int _ | .f64 _ | .str _ => trivial
  | .f32 f => h f
  | .arr l => every_all_list h l
  | .obj l => every_all_entries h l
theorem every_all_list {P : F32 → Prop} (h : ∀ f, P f) : ∀ l : List Ser, EveryF32Items P l
  | [] => trivial
  | a :: l => ⟨every_all h a, every_all_list h l⟩
theorem every_all_entries {P : F32 → Prop} (h : ∀ f, P f) :
    ∀ l : List (String × Ser), EveryF32Members P l
  | [] => trivial
  | (_, a) :: l => ⟨every_all h a, every_all_entries h l⟩
end

/-! ## Depth and names of a value -/

mutual
theorem toJ_depth (n m : F32 → F64) : ∀ s : Ser, (s.toJ n).depth = (s.toJ m).depth
  | .null | .bool _ | .int _ | .f64 _ | .str _ => rfl
  | .f32 f => by simp only [Ser.toJ]; split <;> rfl
  | .arr l => by simp only [Ser.toJ, J.depth, list_depth n m l]
  | .obj l => by simp only [Ser.toJ, J.depth, entries_depth n m l]
theorem list_depth (n m : F32 → F64) : ∀ l : List Ser,
    depthList (serList n l) = depthList (serList m l)
  | [] => rfl
  | a :: l => by simp only [serList, depthList, toJ_depth n m a, list_depth n m l]
theorem entries_depth (n m : F32 → F64) : ∀ l : List (String × Ser),
    depthEntries (serEntries n l) = depthEntries (serEntries m l)
  | [] => rfl
  | (k, a) :: l => by simp only [serEntries, depthEntries, toJ_depth n m a, entries_depth n m l]
end

theorem serEntries_keys (num : F32 → F64) (l : List (String × Ser)) :
    (serEntries num l).map Prod.fst = l.map Prod.fst := by
  induction l with
  | nil => rfl
  | cons e l ih => obtain ⟨k, a⟩ := e; simp [serEntries, ih]

mutual
theorem toJ_merge (num : F32 → F64) : ∀ s : Ser, Fine s → (s.toJ num).merge = s.toJ num
  | .null, _ | .bool _, _ | .int _, _ | .str _, _ => rfl
  | .f32 f, _ => by simp only [Ser.toJ]; split <;> rfl
  | .f64 f, _ => by simp only [Ser.toJ]; split <;> rfl
  | .arr l, h => by simp only [Ser.toJ, J.merge, list_merge num l h]
  | .obj l, h => by
    simp only [Ser.toJ, J.merge, entries_merge num l h.2]
    rw [imExtend_nil_fresh]
    rw [serEntries_keys]
    exact h.1.imp fun h => by simpa using h
theorem list_merge (num : F32 → F64) : ∀ l : List Ser, FineList l →
    mergeList (serList num l) = serList num l
  | [], _ => rfl
  | a :: l, h => by simp only [serList, mergeList, toJ_merge num a h.1, list_merge num l h.2]
theorem entries_merge (num : F32 → F64) : ∀ l : List (String × Ser), FineEntries l →
    mergeEntries (serEntries num l) = serEntries num l
  | [], _ => rfl
  | (k, a) :: l, h => by
    simp only [serEntries, mergeEntries, toJ_merge num a h.1, entries_merge num l h.2]
end

/-! ## Floats -/

theorem finite_abs32 (f : F32) : f.isFinite = true ↔ abs32 f < inf32 := by
  simp only [F32.isFinite, bne_iff_ne, ne_eq, abs32, inf32]
  have := f.bits.toNat_lt
  omega

theorem finite_abs64 (f : F64) : f.isFinite = true ↔ abs64 f < inf64 := by
  simp only [F64.isFinite, bne_iff_ne, ne_eq, abs64, inf64]
  have := f.bits.toNat_lt
  omega

theorem no_fit {d : Decimal} (h : d.whole = false) : ¬ ∃ n, Fits d n := by
  rintro ⟨n, hn, _⟩; rw [h] at hn; cases hn

/-- A number next to a finite `f32` is next to a finite `f64`. -/
theorem near64_of_near32 {d : Decimal} {f : F32} (h : Near32 d f) (hf : f.isFinite = true) :
    ∃ e, Near64 d e ∧ abs64 e < inf64 := by
  obtain ⟨c, hc, e2⟩ : ∃ c, c < inf64 ∧ magnitude 52 c = 2 ^ 128 * 2 ^ 1074 :=
    ⟨1151 * 2 ^ 52, by decide, by decide +kernel⟩
  have hu : 0 < 10 ^ (-d.exponent).toNat := Nat.pow_pos (by omega)
  have hspec := nearestBits_spec (x := d.mantissa * 10 ^ d.exponent.toNat * 2 ^ 1074) hu
  rw [finite_abs32] at hf
  obtain ⟨_, h⟩ := h
  unfold Near64
  generalize 10 ^ (-d.exponent).toNat = u at *
  generalize d.mantissa * 10 ^ d.exponent.toNat = x at *
  generalize min (nearestBits u (x * 2 ^ 1074)) inf64 = b at *
  have hx : x * 2 ^ 149 < magnitude 23 inf32 * u := by
    have h1 := (h.2 inf32 (Nat.le_refl _)).1
    have h2 : magnitude 23 (abs32 f) * u < magnitude 23 inf32 * u :=
      Nat.mul_lt_mul_of_pos_right (magnitude_strict 23 hf) hu
    unfold distance at h1
    omega
  have e1 : magnitude 23 inf32 = 2 ^ 128 * 2 ^ 149 := by decide +kernel
  have hp : 0 < 2 ^ 1074 := Nat.pow_pos (by omega)
  generalize 2 ^ 1074 = p at *
  have hx' : x < 2 ^ 128 * u := by
    rw [e1, Nat.mul_right_comm] at hx
    exact Nat.lt_of_mul_lt_mul_right hx
  have hx2 : x * p < magnitude 52 c * u := by
    rw [e2, Nat.mul_right_comm]
    exact Nat.mul_lt_mul_of_pos_right hx' hp
  have hb : b < inf64 := by
    rcases Nat.lt_or_ge b inf64 with h | h
    · exact h
    · exfalso
      have hb : b = inf64 := Nat.le_antisymm hspec.1 h
      subst hb
      have h1 := (hspec.2 c (Nat.le_of_lt hc)).1
      have h2 : magnitude 52 c * u < magnitude 52 inf64 * u :=
        Nat.mul_lt_mul_of_pos_right (magnitude_strict 52 hc) hu
      unfold distance at h1
      omega
  have hs2 : (if d.neg = true then 1 else 0) < 2 := by split <;> omega
  obtain ⟨s1, s2⟩ := split64 hs2 (show b < 2 ^ 63 by unfold inf64 at hb; omega)
  exact ⟨_, ⟨s1, by rw [s2]; exact hspec⟩, by rw [s2]; exact hb⟩

theorem double_text {t : FloatText} (ht : FloatsOf t) (f : F64) (hf : f.isFinite = true) :
    ∃ d, Number (t.f64 f) d ∧ NumberIs d (.float f) := by
  obtain ⟨d, h1, h2, h3⟩ := ht.f64 f hf
  exact ⟨d, h1, .float (no_fit h2) h3 ((finite_abs64 f).mp hf)⟩

theorem float_text {t : FloatText} (ht : FloatsOf t) (f : F32) (hf : f.isFinite = true) :
    ∃ e d, Number (t.f32 f) d ∧ NumberIs d (.float e) := by
  obtain ⟨d, h1, h2, h3⟩ := ht.f32 f hf
  obtain ⟨e, h4, h5⟩ := near64_of_near32 h3 hf
  exact ⟨e, d, h1, .float (no_fit h2) h4 h5⟩

theorem document_unique {t : List Char} {j k : J} (hj : Document t j) (hk : Document t k) :
    j = k := by
  have key : ∀ {j : J}, Document t j → ∀ d, j.depth ≤ d →
      ∃ u, value d (skip t) = some (j, u) := by
    rintro j ⟨w, v, u, e, sw, vt, su⟩ d hd
    have hs : Stop u := by have := stop_space su stop_nil; simpa using this
    refine ⟨u, ?_⟩
    rw [e, List.append_assoc, skip_value sw vt]
    exact value_complete d vt hd hs
  obtain ⟨u, hu⟩ := key hj (max j.depth k.depth) (Nat.le_max_left ..)
  obtain ⟨v, hv⟩ := key hk (max j.depth k.depth) (Nat.le_max_right ..)
  rw [hu] at hv
  cases hv
  rfl

theorem value_document {t : List Char} {j : J} (h : Value t j) : Document t j :=
  ⟨[], t, [], by simp, by simp [Space], h, by simp [Space]⟩

end Gvas.Text
