import Verif.Model.Float

/-! # Widening a float and narrowing it again -/

namespace Gvas

theorem roundShift_exact (m k : Nat) : roundShift (m * 2 ^ k) k = m := by
  have h : 0 < 2 ^ k := Nat.two_pow_pos k
  simp [roundShift, Nat.mul_div_cancel _ h, Nat.mul_mod_left]
  intro h'
  omega

theorem toF32_mk (s e m : Nat) (hs : s < 2) (he : e < 2 ^ 11) (hm : m < 2 ^ 52) :
    F64.toF32 ⟨UInt64.ofNat (s * 2 ^ 63 + (e * 2 ^ 52 + m))⟩ =
      ⟨UInt32.ofNat (s * 2 ^ 31 +
        (if 1151 ≤ e then 0x7F800000
        else if 897 ≤ e then (e - 896) * 2 ^ 23 + roundShift m 29
        else if e = 0 then 0
        else roundShift (2 ^ 52 + m) (926 - e)))⟩ := by
  have hv : (UInt64.ofNat (s * 2 ^ 63 + (e * 2 ^ 52 + m))).toNat = s * 2 ^ 63 + (e * 2 ^ 52 + m) := by
    rw [UInt64.toNat_ofNat']; apply Nat.mod_eq_of_lt; omega
  have h1 : (s * 2 ^ 63 + (e * 2 ^ 52 + m)) / 2 ^ 63 = s := by omega
  have h2 : (s * 2 ^ 63 + (e * 2 ^ 52 + m)) / 2 ^ 52 % 2 ^ 11 = e := by omega
  have h3 : (s * 2 ^ 63 + (e * 2 ^ 52 + m)) % 2 ^ 52 = m := by omega
  simp only [F64.toF32, hv, h1, h2, h3]

theorem toF32_toF64 (f : F32) (h : f.isFinite = true) : f.toF64.toF32 = f := by
  obtain ⟨b⟩ := f
  have hb := b.toNat_lt
  simp only [F32.isFinite, bne_iff_ne, ne_eq] at h
  have hs : b.toNat / 2 ^ 31 < 2 := by omega
  have he : b.toNat / 2 ^ 23 % 2 ^ 8 < 255 := by omega
  have hm : b.toNat % 2 ^ 23 < 2 ^ 23 := by omega
  have hdec : b.toNat =
      b.toNat / 2 ^ 31 * 2 ^ 31 + (b.toNat / 2 ^ 23 % 2 ^ 8 * 2 ^ 23 + b.toNat % 2 ^ 23) := by omega
  simp only [F32.toF64]
  generalize b.toNat / 2 ^ 31 = s at *
  generalize b.toNat / 2 ^ 23 % 2 ^ 8 = e at *
  generalize b.toNat % 2 ^ 23 = m at *
  have hfin : (⟨UInt32.ofNat (s * 2 ^ 31 + (e * 2 ^ 23 + m))⟩ : F32) = ⟨b⟩ := by
    rw [← hdec]; simp
  by_cases he0 : e = 0
  · subst he0
    by_cases hm0 : m = 0
    · subst hm0
      have := toF32_mk s 0 0 hs (by omega) (by omega)
      simp only [Nat.zero_mul, Nat.add_zero] at this
      simp only [ne_eq, not_true_eq_false, if_false, if_true, Nat.add_zero, this]
      simpa using hfin
    · simp only [ne_eq, not_true_eq_false, if_false, hm0]
      have hk1 : 2 ^ Nat.log2 m ≤ m := Nat.log2_self_le hm0
      have hk2 : m < 2 ^ (Nat.log2 m + 1) := Nat.lt_log2_self
      have hk3 : Nat.log2 m < 23 := (Nat.log2_lt hm0).2 hm
      generalize Nat.log2 m = k at *
      have hp : 2 ^ k * 2 ^ (52 - k) = 2 ^ 52 := by
        rw [← Nat.pow_add]; congr 1; omega
      have hmul : 2 ^ 52 + (m - 2 ^ k) * 2 ^ (52 - k) = m * 2 ^ (52 - k) := by
        rw [← hp, ← Nat.add_mul]; congr 1; omega
      have hlt : (m - 2 ^ k) * 2 ^ (52 - k) < 2 ^ 52 := by
        rw [← hp]
        apply Nat.mul_lt_mul_of_pos_right _ (Nat.two_pow_pos _)
        rw [Nat.pow_succ] at hk2; omega
      rw [toF32_mk s (k + 874) _ hs (by omega) hlt, hmul,
        if_neg (by omega), if_neg (by omega), if_neg (by omega),
        show 926 - (k + 874) = 52 - k from by omega, roundShift_exact]
      simpa using hfin
  · simp only [ne_eq, he0, not_false_eq_true, if_true]
    rw [toF32_mk s (e + 896) (m * 2 ^ 29) hs (by omega) (by omega),
      if_neg (by omega), if_pos (by omega), roundShift_exact,
      show e + 896 - 896 = e from by omega]
    exact hfin

end Gvas
