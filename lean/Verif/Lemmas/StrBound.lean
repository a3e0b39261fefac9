import Verif.Lemmas.Inv

/-! # Strings that were read are within the length limit, and how many bytes they took -/

namespace Gvas

open Spec

theorem charUnits_le (c : Char) : 1 ≤ charUnits c ∧ charUnits c ≤ 2 := by
  unfold charUnits; split <;> omega

theorem utf8EncodeChar_length (c : Char) : charUnits c ≤ (String.utf8EncodeChar c).length := by
  unfold charUnits String.utf8EncodeChar Char.toNat
  simp only []
  repeat' split
  all_goals first | omega | simp | (simp; omega)

theorem strUnits_le_utf16 (s : String) : strUnits s ≤ (utf16Encode s.toList).length := by
  by_cases h : isAscii s.toList = true
  · rw [strUnits_ascii h, utf16Encode_length]
    generalize s.toList = cs
    induction cs with
    | nil => simp
    | cons c cs ih => simp; have := charUnits_le c; omega
  · rw [strUnits_wide h]; exact Nat.le_refl _

theorem strUnits_le_utf8 (s : String) : strUnits s ≤ (utf8Encode s.toList).length := by
  refine Nat.le_trans (strUnits_le_utf16 s) ?_
  rw [utf16Encode_length]
  generalize s.toList = cs
  induction cs with
  | nil => simp
  | cons c cs ih =>
    rw [show utf8Encode (c :: cs) = String.utf8EncodeChar c ++ utf8Encode cs from rfl]
    have := utf8EncodeChar_length c
    rw [List.map_cons, List.sum_cons, List.length_append]
    omega

theorem strBytes_le (s : String) : strBytes s ≤ 2 * strUnits s + 6 ∧ strUnits s + 5 ≤ strBytes s := by
  unfold strBytes; split <;> omega

/-- A string that was read is within the limit; it took at least five bytes and at least half as
many bytes as it takes when written. -/
theorem readFString_ok {s s2 : RS} {r : Option String} (h : readFString s = (.ok r, s2)) :
    s2.stack = s.stack ∧ FStrOK r ∧ ∃ k, s2.pos = s.pos + k ∧ 4 ≤ k ∧
      (writeFString r).bytes.length ≤ 2 * k := by
  obtain ⟨hst, h | h | h⟩ := readFString_inv h
  · obtain ⟨rfl, _, hp⟩ := h
    exact ⟨hst, by simp [FStrOK], 4, hp, by omega, by decide⟩
  · obtain ⟨t, n, rfl, hn, hl, _, hp⟩ := h
    have h1 := strUnits_le_utf8 t
    have h2 := strBytes_le t
    refine ⟨hst, ?_, n + 5, hp, by omega, ?_⟩
    · intro t' ht; cases ht; unfold StrOK; omega
    · rw [writeFString, writeString_length]; omega
  · obtain ⟨t, n, rfl, hn, hl, _, hp⟩ := h
    have h1 := strUnits_le_utf16 t
    have h2 := strBytes_le t
    refine ⟨hst, ?_, 2 * n + 6, hp, by omega, ?_⟩
    · intro t' ht; cases ht; unfold StrOK; omega
    · rw [writeFString, writeString_length]; omega

theorem readString_ok {s s2 : RS} {r : String} (h : readString s = (.ok r, s2)) :
    s2.stack = s.stack ∧ StrOK r ∧ ∃ k, s2.pos = s.pos + k ∧ 5 ≤ k ∧
      (writeString r).bytes.length ≤ 2 * k := by
  obtain ⟨hst, h | h | h⟩ := readFString_inv (readString_inv' h)
  · cases h.1
  · obtain ⟨t, n, ht, hn, hl, _, hp⟩ := h
    cases ht
    have h1 := strUnits_le_utf8 r
    have h2 := strBytes_le r
    refine ⟨hst, by unfold StrOK; omega, n + 5, hp, by omega, ?_⟩
    rw [writeString_length]; omega
  · obtain ⟨t, n, ht, hn, hl, _, hp⟩ := h
    cases ht
    have h1 := strUnits_le_utf16 r
    have h2 := strBytes_le r
    refine ⟨hst, by unfold StrOK; omega, 2 * n + 6, hp, by omega, ?_⟩
    rw [writeString_length]; omega

end Gvas
