import Verif.Model.Json
import Verif.Spec.Nearest
import Verif.Lemmas.Float

/-! # C70: numbers in JSON become the nearest floats -/

namespace Gvas

open Spec

/-! ## Magnitudes -/

theorem magnitude_normal {w e m : Nat} (he : 0 < e) (hm : m < 2 ^ w) :
    magnitude w (e * 2 ^ w + m) = (2 ^ w + m) * 2 ^ (e - 1) := by
  have hp := Nat.two_pow_pos w
  have h1 : (e * 2 ^ w + m) / 2 ^ w = e := by
    rw [Nat.mul_comm, Nat.mul_add_div hp, Nat.div_eq_of_lt hm, Nat.add_zero]
  have h2 : (e * 2 ^ w + m) % 2 ^ w = m := by
    rw [Nat.mul_comm, Nat.mul_add_mod, Nat.mod_eq_of_lt hm]
  unfold magnitude
  rw [h1, h2, if_neg (by omega)]

theorem magnitude_small {w b : Nat} (h : b < 2 ^ w) : magnitude w b = b := by
  unfold magnitude
  rw [Nat.div_eq_of_lt h, if_pos rfl]

theorem bits_split (w b : Nat) : b = b / 2 ^ w * 2 ^ w + b % 2 ^ w := by
  rw [Nat.mul_comm]; exact (Nat.div_add_mod b (2 ^ w)).symm

/-- The gap above a float. -/
theorem magnitude_succ (w b : Nat) :
    magnitude w (b + 1) = magnitude w b + 2 ^ (b / 2 ^ w - 1) := by
  have hp := Nat.two_pow_pos w
  have hm := Nat.mod_lt b hp
  by_cases h0 : b / 2 ^ w = 0
  · have hb : b < 2 ^ w := by
      rcases Nat.lt_or_ge b (2 ^ w) with h | h
      · exact h
      · have := Nat.div_pos h hp; omega
    rw [magnitude_small hb, h0]
    by_cases hs : b + 1 < 2 ^ w
    · rw [magnitude_small hs]
    · have e : b + 1 = 1 * 2 ^ w + 0 := by omega
      rw [e, magnitude_normal (by omega) hp]
      simp
  · have hb := bits_split w b
    generalize he : b / 2 ^ w = e at *
    generalize b % 2 ^ w = m at *
    subst hb
    rw [magnitude_normal (by omega) hm]
    by_cases hs : m + 1 < 2 ^ w
    · rw [Nat.add_assoc, magnitude_normal (by omega) hs, ← Nat.add_assoc, Nat.add_mul (_ + _)]
      simp
    · have e' : e * 2 ^ w + m + 1 = (e + 1) * 2 ^ w + 0 := by rw [Nat.add_mul]; omega
      rw [e', magnitude_normal (by omega) hp]
      have h2 : 2 ^ (e + 1 - 1) = 2 * 2 ^ (e - 1) := by
        rw [show e + 1 - 1 = (e - 1) + 1 by omega, Nat.pow_succ, Nat.mul_comm]
      have h3 : 2 ^ w + m = 2 * 2 ^ w - 1 := by omega
      rw [h2, h3, ← Nat.mul_assoc, Nat.add_zero, Nat.mul_comm (2 ^ w) 2, Nat.sub_mul,
        Nat.one_mul]
      have : 2 ^ (e - 1) ≤ 2 * 2 ^ w * 2 ^ (e - 1) := Nat.le_mul_of_pos_left _ (by omega)
      omega

theorem magnitude_strict (w : Nat) {b c : Nat} (h : b < c) : magnitude w b < magnitude w c := by
  induction c with
  | zero => omega
  | succ c ih =>
    rw [magnitude_succ]
    have hp := Nat.two_pow_pos (c / 2 ^ w - 1)
    rcases Nat.lt_or_ge b c with hc | hc
    · have := ih hc; omega
    · have : b = c := by omega
      subst this; omega

/-! ## Rounding between two neighbours -/

theorem nearest_round {w top u x q r k v b : Nat} (hu : 0 < u) (hv : 0 < v)
    (hx : x = magnitude w q * u + r * v) (hr : r < 2 ^ k)
    (hg : 2 ^ (q / 2 ^ w - 1) * u = 2 ^ k * v) (hq : q < top)
    (hb : b = if 2 ^ k < 2 * r ∨ (2 * r = 2 ^ k ∧ q % 2 = 1) then q + 1 else q) :
    Nearest w top u x b := by
  have hs : magnitude w (q + 1) * u = magnitude w q * u + 2 ^ k * v := by
    rw [magnitude_succ, Nat.add_mul, hg]
  have hrv : r * v < 2 ^ k * v := Nat.mul_lt_mul_of_pos_right hr hv
  have up : 2 ^ k < 2 * r → 2 ^ k * v < 2 * (r * v) := fun h => by
    rw [← Nat.mul_assoc]; exact Nat.mul_lt_mul_of_pos_right h hv
  have down : 2 * r < 2 ^ k → 2 * (r * v) < 2 ^ k * v := fun h => by
    rw [← Nat.mul_assoc]; exact Nat.mul_lt_mul_of_pos_right h hv
  have tie : 2 * r = 2 ^ k → 2 * (r * v) = 2 ^ k * v := fun h => by
    rw [← Nat.mul_assoc, h]
  generalize hA : r * v = A at *
  generalize hG : 2 ^ k * v = G at *
  generalize hM : magnitude w q * u = M at *
  have low : ∀ c, c < q → magnitude w c * u < M := fun c hc =>
    hM ▸ Nat.mul_lt_mul_of_pos_right (magnitude_strict w hc) hu
  have high : ∀ c, q + 1 < c → M + G < magnitude w c * u := fun c hc =>
    hs ▸ Nat.mul_lt_mul_of_pos_right (magnitude_strict w hc) hu
  have all : ∀ c, magnitude w c * u < M ∧ c < q ∨ magnitude w c * u = M ∧ c = q ∨
      magnitude w c * u = M + G ∧ c = q + 1 ∨ M + G < magnitude w c * u ∧ q + 1 < c := by
    intro c
    rcases Nat.lt_trichotomy c q with h | h | h
    · exact .inl ⟨low c h, h⟩
    · subst h; exact .inr (.inl ⟨hM, rfl⟩)
    · rcases Nat.lt_or_ge (q + 1) c with h' | h'
      · exact .inr (.inr (.inr ⟨high c h', h'⟩))
      · have : c = q + 1 := by omega
        subst this; exact .inr (.inr (.inl ⟨hs, rfl⟩))
  subst hx
  unfold Nearest distance
  split at hb
  · rename_i h
    subst hb
    refine ⟨by omega, fun c _ => ?_⟩
    rw [hs]
    rcases h with h | ⟨h, h'⟩
    · have := up h
      rcases all c with ⟨h1, h2⟩ | ⟨h1, h2⟩ | ⟨h1, h2⟩ | ⟨h1, h2⟩ <;> omega
    · have := tie h
      rcases all c with ⟨h1, h2⟩ | ⟨h1, h2⟩ | ⟨h1, h2⟩ | ⟨h1, h2⟩ <;> omega
  · rename_i h
    subst hb
    refine ⟨by omega, fun c _ => ?_⟩
    rw [hM]
    rcases Nat.lt_trichotomy (2 * r) (2 ^ k) with h' | h' | h'
    · have := down h'
      rcases all c with ⟨h1, h2⟩ | ⟨h1, h2⟩ | ⟨h1, h2⟩ | ⟨h1, h2⟩ <;> omega
    · have := tie h'
      rcases all c with ⟨h1, h2⟩ | ⟨h1, h2⟩ | ⟨h1, h2⟩ | ⟨h1, h2⟩ <;> omega
    · exact absurd (.inl h') h

theorem roundShift_eq (m k : Nat) : roundShift m k =
    if 2 ^ k < 2 * (m % 2 ^ k) ∨ (2 * (m % 2 ^ k) = 2 ^ k ∧ m / 2 ^ k % 2 = 1) then m / 2 ^ k + 1
    else m / 2 ^ k := by
  simp [roundShift]

/-- Exact values are nearest. -/
theorem nearest_exact {w top u x b : Nat} (hu : 0 < u) (hx : x = magnitude w b * u) (hb : b ≤ top) :
    Nearest w top u x b := by
  refine ⟨hb, fun c _ => ?_⟩
  subst hx
  have h1 : c < b → magnitude w c * u < magnitude w b * u := fun h =>
    Nat.mul_lt_mul_of_pos_right (magnitude_strict w h) hu
  have h2 : b < c → magnitude w b * u < magnitude w c * u := fun h =>
    Nat.mul_lt_mul_of_pos_right (magnitude_strict w h) hu
  unfold distance
  constructor
  · omega
  · intro h
    rcases Nat.lt_trichotomy c b with h' | h' | h'
    · have := h1 h'; omega
    · exact .inl h'.symm
    · have := h2 h'; omega

/-- Too large numbers are nearest to infinity. -/
theorem nearest_top {w top u x : Nat} (hu : 0 < u) (hx : magnitude w top * u ≤ x) :
    Nearest w top u x top := by
  refine ⟨Nat.le_refl _, fun c hc => ?_⟩
  have h1 : c < top → magnitude w c * u < magnitude w top * u := fun h =>
    Nat.mul_lt_mul_of_pos_right (magnitude_strict w h) hu
  unfold distance
  rcases Nat.lt_or_ge c top with h | h
  · have := h1 h; omega
  · have : c = top := by omega
    subst this; exact ⟨Nat.le_refl _, fun _ => .inl rfl⟩

/-! ## Integers -/

theorem natToFloat_nearest {w bias top n : Nat} (hbias : 0 < bias) (hw : 0 < w)
    (hb : (Nat.log2 n + bias) * 2 ^ w + 2 ^ w ≤ top) :
    Nearest w top 1 (n * 2 ^ (bias + w - 1)) (natToFloat w bias n) := by
  unfold natToFloat
  have hp := Nat.two_pow_pos w
  by_cases h0 : n = 0
  · rw [if_pos h0]
    subst h0
    exact nearest_exact (by omega) (by simp [magnitude_small hp]) (Nat.zero_le _)
  · rw [if_neg h0]
    have hk1 : 2 ^ Nat.log2 n ≤ n := Nat.log2_self_le h0
    have hk2 : n < 2 ^ (Nat.log2 n + 1) := Nat.lt_log2_self
    simp only []
    generalize Nat.log2 n = k at *
    rw [Nat.pow_succ] at hk2
    split
    · rename_i hk
      have hpw : 2 ^ k * 2 ^ (w - k) = 2 ^ w := by rw [← Nat.pow_add]; congr 1; omega
      have hlt : (n - 2 ^ k) * 2 ^ (w - k) < 2 ^ w := by
        rw [← hpw]; exact Nat.mul_lt_mul_of_pos_right (by omega) (Nat.two_pow_pos _)
      refine nearest_exact (by omega) ?_ (by omega)
      rw [magnitude_normal (by omega) hlt, Nat.mul_one]
      have : 2 ^ w + (n - 2 ^ k) * 2 ^ (w - k) = n * 2 ^ (w - k) := by
        rw [← hpw, ← Nat.add_mul]; congr 1; omega
      rw [this, Nat.mul_assoc, ← Nat.pow_add]
      congr 2; omega
    · rename_i hk
      have hpk := Nat.two_pow_pos (k - w)
      have hq1 : 2 ^ w ≤ n / 2 ^ (k - w) := by
        rw [Nat.le_div_iff_mul_le hpk, ← Nat.pow_add, show w + (k - w) = k by omega]; exact hk1
      have hq2 : n / 2 ^ (k - w) < 2 * 2 ^ w := by
        rw [Nat.div_lt_iff_lt_mul hpk, Nat.mul_assoc, ← Nat.pow_add,
          show w + (k - w) = k by omega]; omega
      have hmod := Nat.mod_lt n hpk
      have hdm := Nat.div_add_mod n (2 ^ (k - w))
      rw [roundShift_eq]
      generalize n / 2 ^ (k - w) = q0 at *
      generalize n % 2 ^ (k - w) = r at *
      have hqq : (k + bias - 1) * 2 ^ w + q0 = (k + bias) * 2 ^ w + (q0 - 2 ^ w) := by
        rw [show k + bias = (k + bias - 1) + 1 by omega, Nat.add_mul]; simp; omega
      have hdiv : ((k + bias) * 2 ^ w + (q0 - 2 ^ w)) / 2 ^ w = k + bias := by
        rw [Nat.mul_comm, Nat.mul_add_div hp, Nat.div_eq_of_lt (by omega), Nat.add_zero]
      have hpar : ((k + bias - 1) * 2 ^ w + q0) % 2 = q0 % 2 := by
        rw [show 2 ^ w = 2 * 2 ^ (w - 1) by
          rw [show w = (w - 1) + 1 by omega, Nat.pow_succ, Nat.mul_comm]; rfl]
        rw [Nat.mul_left_comm]; omega
      refine nearest_round (q := (k + bias - 1) * 2 ^ w + q0) (r := r) (k := k - w)
        (v := 2 ^ (bias + w - 1)) (by omega) (Nat.two_pow_pos _) ?_ hmod ?_ ?_ ?_
      · rw [hqq, magnitude_normal (by omega) (by omega), show 2 ^ w + (q0 - 2 ^ w) = q0 by omega,
          Nat.mul_one, ← hdm, Nat.add_mul]
        congr 1
        rw [Nat.mul_comm (2 ^ (k - w)), Nat.mul_assoc, ← Nat.pow_add]
        congr 2; omega
      · rw [hqq, hdiv, Nat.mul_one, ← Nat.pow_add]
        congr 1; omega
      · rw [hqq]; omega
      · rw [hpar]
        split <;> omega

/-- The result of a conversion has its sign and magnitude bits. -/
theorem split32 {s m : Nat} (hs : s < 2) (hm : m < 2 ^ 31) :
    sign32 ⟨UInt32.ofNat (s * 2 ^ 31 + m)⟩ = s ∧ abs32 ⟨UInt32.ofNat (s * 2 ^ 31 + m)⟩ = m := by
  have : (UInt32.ofNat (s * 2 ^ 31 + m)).toNat = s * 2 ^ 31 + m := by
    rw [UInt32.toNat_ofNat']; apply Nat.mod_eq_of_lt; omega
  unfold sign32 abs32
  simp only [this]
  omega

theorem split64 {s m : Nat} (hs : s < 2) (hm : m < 2 ^ 63) :
    sign64 ⟨UInt64.ofNat (s * 2 ^ 63 + m)⟩ = s ∧ abs64 ⟨UInt64.ofNat (s * 2 ^ 63 + m)⟩ = m := by
  have : (UInt64.ofNat (s * 2 ^ 63 + m)).toNat = s * 2 ^ 63 + m := by
    rw [UInt64.toNat_ofNat']; apply Nat.mod_eq_of_lt; omega
  unfold sign64 abs64
  simp only [this]
  omega

theorem sign_eq (c : Prop) [Decidable c] (w : Nat) :
    (if c then 2 ^ w else 0) = (if c then 1 else 0) * 2 ^ w := by split <;> simp

/-- **C70**: a whole number in JSON, read as a 32 bit float, becomes the nearest float (of two the
even one), with its sign.  The smallest float is `2 ^ -149`. -/
theorem C70_int_to_f32 (n : Int) (h : n.natAbs ≤ 2 ^ 64) :
    ∃ f, J.getF32 (.int n) = some f ∧ sign32 f = (if n < 0 then 1 else 0) ∧
      Nearest 23 inf32 1 (n.natAbs * 2 ^ 149) (abs32 f) := by
  have hl : Nat.log2 n.natAbs ≤ 64 := by
    by_cases h0 : n.natAbs = 0
    · rw [h0]; decide
    · have := (Nat.log2_lt (k := 65) h0).2 (by omega); omega
  have key := natToFloat_nearest (w := 23) (bias := 127) (top := inf32) (n := n.natAbs) (by omega)
    (by omega) (by unfold inf32; omega)
  have hlt : natToFloat 23 127 n.natAbs < 2 ^ 31 :=
    Nat.lt_of_le_of_lt key.1 (by decide)
  have hsp := split32 (s := if n < 0 then 1 else 0) (m := natToFloat 23 127 n.natAbs)
    (by split <;> omega) hlt
  refine ⟨F32.ofInt n, rfl, ?_, ?_⟩
  · unfold F32.ofInt; rw [sign_eq]; exact hsp.1
  · unfold F32.ofInt; rw [sign_eq, hsp.2]; exact key

/-- **C70**: a whole number in JSON, read as a 64 bit float, becomes the nearest float (of two the
even one), with its sign.  The smallest float is `2 ^ -1074`. -/
theorem C70_int_to_f64 (n : Int) (h : n.natAbs ≤ 2 ^ 64) :
    ∃ f, J.getF64 (.int n) = some f ∧ sign64 f = (if n < 0 then 1 else 0) ∧
      Nearest 52 inf64 1 (n.natAbs * 2 ^ 1074) (abs64 f) := by
  have hl : Nat.log2 n.natAbs ≤ 64 := by
    by_cases h0 : n.natAbs = 0
    · rw [h0]; decide
    · have := (Nat.log2_lt (k := 65) h0).2 (by omega); omega
  have key := natToFloat_nearest (w := 52) (bias := 1023) (top := inf64) (n := n.natAbs) (by omega)
    (by omega) (by unfold inf64; omega)
  have hlt : natToFloat 52 1023 n.natAbs < 2 ^ 63 :=
    Nat.lt_of_le_of_lt key.1 (by decide)
  have hsp := split64 (s := if n < 0 then 1 else 0) (m := natToFloat 52 1023 n.natAbs)
    (by split <;> omega) hlt
  refine ⟨F64.ofInt n, rfl, ?_, ?_⟩
  · unfold F64.ofInt; rw [sign_eq]; exact hsp.1
  · unfold F64.ofInt; rw [sign_eq, hsp.2]; exact key

/-! ## 64 bit floats -/

/-- The narrowed magnitude. -/
theorem narrow_nearest {e m : Nat} (he : e < 2047) (hm : m < 2 ^ 52) :
    Nearest 23 inf32 (2 ^ 925) (magnitude 52 (e * 2 ^ 52 + m))
      (if 1151 ≤ e then 0x7F800000
        else if 897 ≤ e then (e - 896) * 2 ^ 23 + roundShift m 29
        else if e = 0 then 0
        else roundShift (2 ^ 52 + m) (926 - e)) := by
  have hu : 0 < 2 ^ 925 := Nat.two_pow_pos _
  split
  · refine nearest_top hu ?_
    rw [magnitude_normal (by omega) hm, show inf32 = 255 * 2 ^ 23 + 0 from rfl,
      magnitude_normal (by omega) (by omega), Nat.mul_assoc, ← Nat.pow_add, Nat.add_zero,
      ← Nat.pow_add]
    calc 2 ^ (23 + (255 - 1 + 925)) = 2 ^ 52 * 2 ^ 1150 := by rw [← Nat.pow_add]
      _ ≤ (2 ^ 52 + m) * 2 ^ (e - 1) :=
        Nat.mul_le_mul (by omega) (Nat.pow_le_pow_right (by omega) (by omega))
  · split
    · rename_i h1 h2
      rw [roundShift_eq]
      have hdm := Nat.div_add_mod m (2 ^ 29)
      have hmod := Nat.mod_lt m (Nat.two_pow_pos 29)
      have hq : m / 2 ^ 29 < 2 ^ 23 := by omega
      generalize m / 2 ^ 29 = q0 at *
      generalize m % 2 ^ 29 = r at *
      refine nearest_round (q := (e - 896) * 2 ^ 23 + q0) (r := r) (k := 29) (v := 2 ^ (e - 1)) hu
        (Nat.two_pow_pos _) ?_ hmod ?_ ?_ ?_
      · rw [magnitude_normal (by omega) hm, magnitude_normal (by omega) hq, ← hdm, Nat.mul_assoc,
          ← Nat.pow_add, show e - 896 - 1 + 925 = 29 + (e - 1) by omega, Nat.pow_add 2 29,
          ← Nat.mul_assoc, ← Nat.add_mul]
        exact congrArg (· * 2 ^ (e - 1)) (by omega)
      · rw [Nat.mul_comm (e - 896), Nat.mul_add_div (by omega), Nat.div_eq_of_lt hq, Nat.add_zero,
          ← Nat.pow_add, ← Nat.pow_add]
        exact congrArg (2 ^ ·) (by omega)
      · unfold inf32; omega
      · rw [show ((e - 896) * 2 ^ 23 + q0) % 2 = q0 % 2 by omega]
        split <;> omega
    · split
      · rename_i h1 h2 h3
        subst h3
        refine nearest_round (q := 0) (r := m) (k := 925) (v := 1) hu (by omega) ?_ ?_ ?_ ?_ ?_
        · rw [Nat.zero_mul, Nat.zero_add, magnitude_small hm]
          simp [magnitude]
        · exact Nat.lt_of_lt_of_le hm (Nat.pow_le_pow_right (by omega) (by omega))
        · simp
        · decide
        · have : 2 ^ 53 ≤ 2 ^ 925 := Nat.pow_le_pow_right (by omega) (by omega)
          rw [if_neg]
          omega
      · rename_i h1 h2 h3
        rw [roundShift_eq]
        have hpk := Nat.two_pow_pos (926 - e)
        have hdm := Nat.div_add_mod (2 ^ 52 + m) (2 ^ (926 - e))
        have hmod := Nat.mod_lt (2 ^ 52 + m) hpk
        have hq : (2 ^ 52 + m) / 2 ^ (926 - e) < 2 ^ 23 := by
          rw [Nat.div_lt_iff_lt_mul hpk, ← Nat.pow_add]
          calc 2 ^ 52 + m < 2 ^ 53 := by omega
            _ ≤ 2 ^ (23 + (926 - e)) := Nat.pow_le_pow_right (by omega) (by omega)
        generalize (2 ^ 52 + m) / 2 ^ (926 - e) = q0 at *
        generalize (2 ^ 52 + m) % 2 ^ (926 - e) = r at *
        refine nearest_round (q := q0) (r := r) (k := 926 - e) (v := 2 ^ (e - 1)) hu
          (Nat.two_pow_pos _) ?_ hmod ?_ ?_ rfl
        · rw [magnitude_normal (by omega) hm, magnitude_small hq, ← hdm, Nat.add_mul]
          refine congrArg (· + r * 2 ^ (e - 1)) ?_
          rw [Nat.mul_comm (2 ^ (926 - e)), Nat.mul_assoc, ← Nat.pow_add,
            show 926 - e + (e - 1) = 925 by omega]
        · rw [Nat.div_eq_of_lt hq, ← Nat.pow_add, ← Nat.pow_add]
          exact congrArg (2 ^ ·) (by omega)
        · unfold inf32; omega

/-- **C70**: a JSON number that is a 64 bit float, read as a 32 bit float, becomes the nearest one
(of two the even one; infinity from half a step behind the largest float on), with its sign.  The
smallest 32 bit float is `2 ^ 925` times the smallest 64 bit one. -/
theorem C70_f64_to_f32 (d : F64) (hd : d.isFinite = true) :
    ∃ f, J.getF32 (.float d) = some f ∧ sign32 f = sign64 d ∧
      Nearest 23 inf32 (2 ^ 925) (magnitude 52 (abs64 d)) (abs32 f) := by
  refine ⟨d.toF32, rfl, ?_⟩
  obtain ⟨b⟩ := d
  have hb := b.toNat_lt
  simp only [F64.isFinite, bne_iff_ne, ne_eq] at hd
  have hs : b.toNat / 2 ^ 63 < 2 := by omega
  have he : b.toNat / 2 ^ 52 % 2 ^ 11 < 2047 := by omega
  have hm : b.toNat % 2 ^ 52 < 2 ^ 52 := by omega
  have ha : b.toNat % 2 ^ 63 = b.toNat / 2 ^ 52 % 2 ^ 11 * 2 ^ 52 + b.toNat % 2 ^ 52 := by omega
  have key := narrow_nearest he hm
  have hsp := split32 hs (Nat.lt_of_le_of_lt key.1 (show inf32 < 2 ^ 31 by decide))
  refine ⟨hsp.1, ?_⟩
  rw [show abs64 ⟨b⟩ = _ from ha, show abs32 (F64.toF32 ⟨b⟩) = _ from hsp.2]
  exact key

/-- **C70**: writing a finite 32 bit float to JSON does not change the number. -/
theorem C70_f32_to_f64_exact (f : F32) (hf : f.isFinite = true) :
    sign64 f.toF64 = sign32 f ∧ magnitude 52 (abs64 f.toF64) = magnitude 23 (abs32 f) * 2 ^ 925 := by
  obtain ⟨b⟩ := f
  have hb := b.toNat_lt
  simp only [F32.isFinite, bne_iff_ne, ne_eq] at hf
  have hs : b.toNat / 2 ^ 31 < 2 := by omega
  have he : b.toNat / 2 ^ 23 % 2 ^ 8 < 255 := by omega
  have hm : b.toNat % 2 ^ 23 < 2 ^ 23 := by omega
  have ha : b.toNat % 2 ^ 31 = b.toNat / 2 ^ 23 % 2 ^ 8 * 2 ^ 23 + b.toNat % 2 ^ 23 := by omega
  simp only [F32.toF64, sign32, abs32, ha]
  generalize b.toNat / 2 ^ 31 = s at *
  generalize b.toNat / 2 ^ 23 % 2 ^ 8 = e at *
  generalize b.toNat % 2 ^ 23 = m at *
  by_cases he0 : e = 0
  · subst he0
    by_cases hm0 : m = 0
    · subst hm0
      have := split64 (s := s) (m := 0) hs (by omega)
      simp only [ne_eq, not_true_eq_false, if_false, if_true]
      rw [this.1, this.2]
      simp [magnitude]
    · simp only [ne_eq, not_true_eq_false, if_false, hm0]
      have hk1 : 2 ^ Nat.log2 m ≤ m := Nat.log2_self_le hm0
      have hk2 : m < 2 ^ (Nat.log2 m + 1) := Nat.lt_log2_self
      have hk3 : Nat.log2 m < 23 := (Nat.log2_lt hm0).2 hm
      generalize Nat.log2 m = k at *
      have hp : 2 ^ k * 2 ^ (52 - k) = 2 ^ 52 := by
        rw [← Nat.pow_add]; congr 1; omega
      have hmul : 2 ^ 52 + (m - 2 ^ k) * 2 ^ (52 - k) = m * 2 ^ (52 - k) := by
        rw [← hp, ← Nat.add_mul]; congr 1; omega
      have hlt : (m - 2 ^ k) * 2 ^ (52 - k) < 2 ^ 52 := by
        rw [← hp]
        apply Nat.mul_lt_mul_of_pos_right _ (Nat.two_pow_pos _)
        rw [Nat.pow_succ] at hk2; omega
      have := split64 (s := s) (m := (k + 874) * 2 ^ 52 + (m - 2 ^ k) * 2 ^ (52 - k)) hs (by omega)
      rw [this.1, this.2]
      refine ⟨rfl, ?_⟩
      rw [magnitude_normal (by omega) hlt, hmul, Nat.zero_mul, Nat.zero_add, magnitude_small hm,
        Nat.mul_assoc, ← Nat.pow_add, show 52 - k + (k + 874 - 1) = 925 by omega]
  · simp only [ne_eq, he0, not_false_eq_true, if_true]
    have := split64 (s := s) (m := (e + 896) * 2 ^ 52 + m * 2 ^ 29) hs (by omega)
    rw [this.1, this.2]
    refine ⟨rfl, ?_⟩
    rw [magnitude_normal (by omega) (by omega), magnitude_normal (by omega) hm, Nat.mul_assoc,
      ← Nat.pow_add, show e - 1 + 925 = 29 + (e + 896 - 1) - 0 by omega, Nat.sub_zero,
      Nat.pow_add 2 29, ← Nat.mul_assoc]
    exact congrArg (· * 2 ^ (e + 896 - 1)) (by omega)

/-! ## Examples -/

/-- The number `2 ^ 24 + 1` lies between two 32 bit floats and becomes the even one below,
`2 ^ 24 + 3` the even one above. -/
example : J.getF32 (.int 16777217) = some ⟨0x4B800000⟩ ∧
    J.getF32 (.int 16777219) = some ⟨0x4B800002⟩ := by decide

/-- The 64 bit float 0.1 becomes the 32 bit float 0.1, which is a different number. -/
example : J.getF32 (.float ⟨0x3FB999999999999A⟩) = some ⟨0x3DCCCCCD⟩ ∧
    (⟨0x3DCCCCCD⟩ : F32).toF64 ≠ ⟨0x3FB999999999999A⟩ := by decide

end Gvas
