import Verif.Spec.JsonText
import Verif.Props.Floats

/-!
# Lemmas: numbers in JSON text
-/

namespace Gvas.Text

open Spec Spec.Rfc8259

/-! ## Digits -/

theorem digit_iff (c : Char) (x : Nat) : Digit c x ↔ isDigit c = true ∧ x = c.toNat - 48 := by
  have char : ∀ d : Char, c = d ↔ c.toNat = d.toNat := fun d =>
    ⟨fun h => h ▸ rfl, fun h => by
      have : c.val.toNat = d.val.toNat := h
      exact Char.ext (UInt32.toNat_inj.mp this)⟩
  unfold Digit isDigit
  rw [decide_eq_true_eq]
  constructor
  · intro h
    have hx : x < 10 := by
      have := (List.getElem?_eq_some_iff.mp h).1; simpa using this
    have : x = 0 ∨ x = 1 ∨ x = 2 ∨ x = 3 ∨ x = 4 ∨ x = 5 ∨ x = 6 ∨ x = 7 ∨ x = 8 ∨ x = 9 := by
      omega
    rcases this with rfl | rfl | rfl | rfl | rfl | rfl | rfl | rfl | rfl | rfl <;> simp at h <;>
      subst h <;> decide
  · rintro ⟨⟨h1, h2⟩, rfl⟩
    have : c.toNat = 48 ∨ c.toNat = 49 ∨ c.toNat = 50 ∨ c.toNat = 51 ∨ c.toNat = 52 ∨
        c.toNat = 53 ∨ c.toNat = 54 ∨ c.toNat = 55 ∨ c.toNat = 56 ∨ c.toNat = 57 := by omega
    rcases this with h | h | h | h | h | h | h | h | h | h <;> rw [h] <;>
      simp [eq_comm (b := c), char, h]

theorem digitsVal_append (a b : List Char) :
    digitsVal (a ++ b) = 10 ^ b.length * digitsVal a + digitsVal b := by
  have key : ∀ (b : List Char) (n : Nat), b.foldl (fun n c => 10 * n + (c.toNat - 48)) n =
      10 ^ b.length * n + digitsVal b := by
    intro b
    induction b with
    | nil => intro n; simp [digitsVal]
    | cons c b ih =>
      intro n
      have e : digitsVal (c :: b) = 10 ^ b.length * (10 * 0 + (c.toNat - 48)) + digitsVal b := by
        conv => lhs; rw [digitsVal, List.foldl_cons, ih]
      rw [List.foldl_cons, ih, e, List.length_cons, Nat.pow_succ]
      simp [Nat.mul_add, Nat.add_assoc, Nat.mul_assoc]
  rw [digitsVal, List.foldl_append, key]
  rfl

theorem digits_iff (l : List Char) (n : Nat) :
    Digits l n ↔ l ≠ [] ∧ (∀ c ∈ l, isDigit c = true) ∧ n = digitsVal l := by
  constructor
  · intro h
    induction h with
    | one h =>
      obtain ⟨h1, rfl⟩ := (digit_iff _ _).mp h
      exact ⟨by simp, by simpa using h1, by simp [digitsVal]⟩
    | more _ h ih =>
      obtain ⟨h1, rfl⟩ := (digit_iff _ _).mp h
      refine ⟨by simp, ?_, ?_⟩
      · intro c hc
        rcases List.mem_append.mp hc with hc | hc
        · exact ih.2.1 c hc
        · simp at hc; subst hc; exact h1
      · rw [digitsVal_append, ih.2.2]; simp [digitsVal]
  · rintro ⟨h1, h2, rfl⟩
    have : ∀ (k : Nat) (l : List Char), l.length = k + 1 → (∀ c ∈ l, isDigit c = true) →
        Digits l (digitsVal l) := by
      intro k
      induction k with
      | zero =>
        intro l hl h
        obtain ⟨c, rfl⟩ := List.length_eq_one_iff.mp hl
        have := Digits.one ((digit_iff c _).mpr ⟨h c (by simp), rfl⟩)
        simpa [digitsVal] using this
      | succ k ih =>
        intro l hl h
        have hne : l ≠ [] := by intro e; subst e; simp at hl
        have hs := List.dropLast_concat_getLast hne
        have hd : Digits l.dropLast (digitsVal l.dropLast) :=
          ih _ (by simp [hl]) fun c hc => h c (List.dropLast_subset l hc)
        have := Digits.more hd ((digit_iff (l.getLast hne) _).mpr
          ⟨h _ (List.getLast_mem hne), rfl⟩)
        rw [hs] at this
        have e : digitsVal l = 10 * digitsVal l.dropLast + ((l.getLast hne).toNat - 48) := by
          conv => lhs; rw [← hs, digitsVal_append]
          simp [digitsVal]
        rw [e]; exact this
    have hl : 0 < l.length := List.length_pos_iff.mpr h1
    exact this (l.length - 1) l (by omega) h2

theorem digits_spec (cs : List Char) : cs = (digits cs).1 ++ (digits cs).2 ∧
    ∀ c ∈ (digits cs).1, isDigit c = true :=
  ⟨List.takeWhile_append_dropWhile.symm,
    List.all_eq_true.mp (List.all_takeWhile (p := isDigit) (l := cs))⟩

theorem digits_append {l r : List Char} (hl : ∀ c ∈ l, isDigit c = true)
    (hr : ∀ c, r.head? = some c → isDigit c = false) : digits (l ++ r) = (l, r) := by
  unfold digits
  have h0 : r.takeWhile isDigit = [] ∧ r.dropWhile isDigit = r := by
    cases r with
    | nil => simp
    | cons c r => simp [hr c rfl]
  rw [List.takeWhile_append_of_pos hl, List.dropWhile_append_of_pos hl, h0.1, h0.2]
  simp

/-! ## Parts of numbers -/

/-- What stands here does not continue a number. -/
def Stop (r : List Char) : Prop :=
  ∀ c, r.head? = some c → isDigit c = false ∧ c ≠ '.' ∧ c ≠ 'e' ∧ c ≠ 'E'

theorem whole_sound {cs w r : List Char} (h : whole cs = some (w, r)) :
    cs = w ++ r ∧ Rfc8259.Int w (digitsVal w) := by
  have hs := digits_spec cs
  unfold whole at h
  simp only [] at h
  split at h
  · cases h
  · rename_i h1
    split at h
    · cases h
    · rename_i h2
      cases h
      refine ⟨hs.1, (digits_iff _ _).mpr ⟨h1, hs.2, rfl⟩, ?_⟩
      by_cases h3 : (digits cs).1.head? = some '0'
      · left
        have hlen : (digits cs).1.length = 1 := by
          have : 0 < (digits cs).1.length := List.length_pos_iff.mpr h1
          have : ¬ 1 < (digits cs).1.length := fun h => h2 ⟨h3, h⟩
          omega
        obtain ⟨c, hc⟩ := List.length_eq_one_iff.mp hlen
        rw [hc] at h3
        simp at h3
        rw [h3] at hc
        exact hc
      · exact .inr h3

theorem whole_complete {w r : List Char} {n : Nat} (h : Rfc8259.Int w n)
    (hr : ∀ c, r.head? = some c → isDigit c = false) : whole (w ++ r) = some (w, r) := by
  obtain ⟨h1, h2⟩ := h
  obtain ⟨h3, h4, _⟩ := (digits_iff _ _).mp h1
  unfold whole
  simp only [digits_append h4 hr]
  rw [if_neg h3, if_neg]
  rintro ⟨h5, h6⟩
  rcases h2 with rfl | h2
  · simp at h6
  · exact h2 h5

theorem fraction_sound {cs f r : List Char} (h : fraction cs = some (f, r)) :
    ∃ t, cs = t ++ r ∧ Frac t f.length (digitsVal f) ∧ (t.isEmpty = f.isEmpty) := by
  unfold fraction at h
  split at h
  · rename_i cs
    simp only [] at h
    split at h
    · cases h
    · rename_i h1
      cases h
      have hs := digits_spec cs
      refine ⟨'.' :: (digits cs).1, ?_, .given ((digits_iff _ _).mpr ⟨h1, hs.2, rfl⟩), ?_⟩
      · exact congrArg _ hs.1
      · change _ = (digits cs).1.isEmpty
        cases hd : (digits cs).1 with
        | nil => exact absurd hd h1
        | cons => rfl
  · cases h
    exact ⟨[], rfl, .absent, rfl⟩

theorem fraction_complete {t r : List Char} {k m : Nat} (h : Frac t k m)
    (hr : ∀ c, r.head? = some c → isDigit c = false ∧ c ≠ '.') :
    ∃ f, fraction (t ++ r) = some (f, r) ∧ f.length = k ∧ digitsVal f = m ∧
      t.isEmpty = f.isEmpty := by
  cases h with
  | absent =>
    refine ⟨[], ?_, rfl, rfl, rfl⟩
    cases r with
    | nil => rfl
    | cons c r =>
      have := (hr c rfl).2
      simp only [List.nil_append]
      unfold fraction
      split
      · rename_i e; cases e; exact absurd rfl this
      · rfl
  | given h =>
    rename_i l
    obtain ⟨h3, h4, rfl⟩ := (digits_iff _ _).mp h
    refine ⟨l, ?_, rfl, rfl, ?_⟩
    · simp only [List.cons_append, fraction, digits_append h4 fun c hc => (hr c hc).1]
      rw [if_neg h3]
    · cases l with
      | nil => exact absurd rfl h3
      | cons => rfl

theorem exponentDigits_sound {neg : Bool} {cs r : List Char} {x : Option Int}
    (h : exponentDigits neg cs = some (x, r)) : ∃ l n, cs = l ++ r ∧ Digits l n ∧
      x = some (if neg then -(n : Int) else n) := by
  unfold exponentDigits at h
  simp only [] at h
  split at h
  · cases h
  · rename_i h1
    cases h
    have hs := digits_spec cs
    exact ⟨_, _, hs.1, (digits_iff _ _).mpr ⟨h1, hs.2, rfl⟩, rfl⟩

theorem exponentDigits_complete {neg : Bool} {l r : List Char} {n : Nat} (h : Digits l n)
    (hr : ∀ c, r.head? = some c → isDigit c = false) :
    exponentDigits neg (l ++ r) = some (some (if neg then -(n : Int) else n), r) := by
  obtain ⟨h3, h4, rfl⟩ := (digits_iff _ _).mp h
  simp only [exponentDigits, digits_append h4 hr]
  rw [if_neg h3]

theorem exponent_sound {cs r : List Char} {x : Option Int} (h : exponent cs = some (x, r)) :
    ∃ t, cs = t ++ r ∧ Exp t x ∧ t.isEmpty = x.isNone := by
  unfold exponent at h
  split at h
  · rename_i c cs
    split at h
    · rename_i he
      split at h
      · obtain ⟨l, n, rfl, h2, rfl⟩ := exponentDigits_sound h
        exact ⟨c :: '+' :: l, rfl, .plus he h2, rfl⟩
      · obtain ⟨l, n, rfl, h2, rfl⟩ := exponentDigits_sound h
        exact ⟨c :: '-' :: l, rfl, .minus he h2, rfl⟩
      · obtain ⟨l, n, rfl, h2, rfl⟩ := exponentDigits_sound h
        exact ⟨c :: l, rfl, .given he h2, rfl⟩
    · cases h; exact ⟨[], rfl, .absent, rfl⟩
  · cases h; exact ⟨[], rfl, .absent, rfl⟩

theorem exponent_complete {t r : List Char} {x : Option Int} (h : Exp t x) (hr : Stop r) :
    exponent (t ++ r) = some (x, r) ∧ t.isEmpty = x.isNone := by
  cases h with
  | absent =>
    refine ⟨?_, rfl⟩
    cases r with
    | nil => rfl
    | cons c r =>
      obtain ⟨_, _, h1, h2⟩ := hr c rfl
      simp only [List.nil_append, exponent]
      rw [if_neg (by rintro (h | h) <;> contradiction)]
  | given he h =>
    rename_i e l n
    refine ⟨?_, rfl⟩
    have hd := exponentDigits_complete (neg := false) h fun c hc => (hr c hc).1
    obtain ⟨h3, h4, _⟩ := (digits_iff _ _).mp h
    simp only [List.cons_append, exponent, if_pos he]
    split
    · rename_i e'
      cases l with
      | nil => exact absurd rfl h3
      | cons a l => cases e'; have := h4 _ List.mem_cons_self; simp [isDigit] at this
    · rename_i e'
      cases l with
      | nil => exact absurd rfl h3
      | cons a l => cases e'; have := h4 _ List.mem_cons_self; simp [isDigit] at this
    · rw [hd]; rfl
  | plus he h =>
    refine ⟨?_, rfl⟩
    simp only [List.cons_append, exponent, if_pos he]
    rw [exponentDigits_complete h fun c hc => (hr c hc).1]
    rfl
  | minus he h =>
    refine ⟨?_, rfl⟩
    simp only [List.cons_append, exponent, if_pos he]
    rw [exponentDigits_complete h fun c hc => (hr c hc).1]
    rfl

theorem decimal_sound {neg : Bool} {cs r : List Char} {d : Decimal}
    (h : decimal neg cs = some (d, r)) :
    d.neg = neg ∧ ∃ t, cs = t ++ r ∧ Rfc8259.Magnitude t d.mantissa d.exponent d.whole := by
  simp only [decimal, Option.bind_eq_bind, Option.bind_eq_some_iff, Prod.exists, Option.pure_def,
    Option.some.injEq, Prod.mk.injEq] at h
  obtain ⟨w, c1, h1, f, c2, h2, x, c3, h3, rfl, rfl⟩ := h
  obtain ⟨rfl, hw⟩ := whole_sound h1
  obtain ⟨tf, rfl, hf, ef⟩ := fraction_sound h2
  obtain ⟨tx, rfl, hx, ex⟩ := exponent_sound h3
  refine ⟨rfl, w ++ tf ++ tx, by simp, ?_⟩
  have := Magnitude.mk hw hf hx
  rw [ef, ex] at this
  rw [digitsVal_append]
  exact this

theorem decimal_complete {neg : Bool} {t r : List Char} {n : Nat} {e : Int} {w : Bool}
    (h : Rfc8259.Magnitude t n e w) (hr : Stop r) :
    decimal neg (t ++ r) = some (⟨neg, n, e, w⟩, r) := by
  cases h with
  | mk hw hf hx =>
    rename_i w n f k m x e
    have e0 : w ++ f ++ x ++ r = w ++ (f ++ (x ++ r)) := by simp
    have sx : ∀ c, (x ++ r).head? = some c → isDigit c = false ∧ c ≠ '.' := by
      intro c hc
      cases hx with
      | absent => have := hr c (by simpa using hc); exact ⟨this.1, this.2.1⟩
      | given he | plus he | minus he =>
        simp at hc; subst hc
        rcases he with rfl | rfl <;> decide
    have sf : ∀ c, (f ++ (x ++ r)).head? = some c → isDigit c = false := by
      intro c hc
      cases hf with
      | absent => exact (sx c (by simpa using hc)).1
      | given => simp at hc; subst hc; decide
    obtain ⟨f', h2, rfl, rfl, ef⟩ := fraction_complete hf sx
    obtain ⟨h3, ex⟩ := exponent_complete hx hr
    rw [e0]
    simp only [decimal, whole_complete hw sf, Option.bind_eq_bind, Option.bind_some, h2, h3,
      Option.pure_def]
    obtain ⟨_, _, hn⟩ := (digits_iff _ _).mp hw.1
    rw [digitsVal_append, ef, ex, hn]

/-! ## The nearest float -/

theorem floatUnits_eq (b : Nat) : floatUnits b = magnitude 52 b := rfl

theorem magnitude_mono (w : Nat) {b c : Nat} (h : b ≤ c) : magnitude w b ≤ magnitude w c := by
  rcases Nat.lt_or_eq_of_le h with h | rfl
  · exact Nat.le_of_lt (magnitude_strict w h)
  · exact Nat.le_refl _

theorem lowerBits_spec (u x top : Nat) : ∀ i b, floatUnits b * u ≤ x →
    (x < floatUnits (b + 2 ^ i) * u ∨ b + 2 ^ i = top) →
    floatUnits (lowerBits u x i b) * u ≤ x ∧
      (x < floatUnits (lowerBits u x i b + 1) * u ∨ lowerBits u x i b + 1 = top) := by
  intro i
  induction i with
  | zero => intro b h1 h2; exact ⟨h1, h2⟩
  | succ i ih =>
    intro b h1 h2
    have e : b + 2 ^ (i + 1) = b + 2 ^ i + 2 ^ i := by rw [Nat.pow_succ]; omega
    unfold lowerBits
    split
    · rename_i h
      exact ih _ h (by rw [← e]; exact h2)
    · rename_i h
      exact ih _ h1 (.inl (by omega))

/-- Between two neighbours, the nearer one. -/
theorem nearest_between {w top u x q b : Nat} (h1 : magnitude w q * u ≤ x)
    (h2 : x < magnitude w (q + 1) * u) (hq : q < top)
    (hb : b = if 2 * x < (magnitude w q + magnitude w (q + 1)) * u ∨
      (2 * x = (magnitude w q + magnitude w (q + 1)) * u ∧ q % 2 = 0) then q else q + 1) :
    Nearest w top u x b := by
  have hu : 0 < u := by
    rcases Nat.eq_zero_or_pos u with h | h
    · subst h; omega
    · exact h
  rw [Nat.add_mul] at hb
  have low : ∀ c, c < q → magnitude w c * u < magnitude w q * u := fun c hc =>
    Nat.mul_lt_mul_of_pos_right (magnitude_strict w hc) hu
  have high : ∀ c, q + 1 < c → magnitude w (q + 1) * u < magnitude w c * u := fun c hc =>
    Nat.mul_lt_mul_of_pos_right (magnitude_strict w hc) hu
  have all : ∀ c, magnitude w c * u < magnitude w q * u ∧ c < q ∨
      magnitude w c * u = magnitude w q * u ∧ c = q ∨
      magnitude w c * u = magnitude w (q + 1) * u ∧ c = q + 1 ∨
      magnitude w (q + 1) * u < magnitude w c * u ∧ q + 1 < c := by
    intro c
    rcases Nat.lt_trichotomy c q with h | h | h
    · exact .inl ⟨low c h, h⟩
    · subst h; exact .inr (.inl ⟨rfl, rfl⟩)
    · rcases Nat.lt_or_ge (q + 1) c with h' | h'
      · exact .inr (.inr (.inr ⟨high c h', h'⟩))
      · have : c = q + 1 := by omega
        subst this; exact .inr (.inr (.inl ⟨rfl, rfl⟩))
  unfold Nearest distance
  generalize hA : magnitude w q * u = A at *
  generalize hB : magnitude w (q + 1) * u = B at *
  split at hb
  · subst hb
    refine ⟨by omega, fun c _ => ?_⟩
    rw [hA]
    rcases all c with ⟨h3, h4⟩ | ⟨h3, h4⟩ | ⟨h3, h4⟩ | ⟨h3, h4⟩ <;> omega
  · subst hb
    refine ⟨by omega, fun c _ => ?_⟩
    rw [hB]
    rcases all c with ⟨h3, h4⟩ | ⟨h3, h4⟩ | ⟨h3, h4⟩ | ⟨h3, h4⟩ <;> omega

/-- There is one nearest float. -/
theorem nearest_unique {w top u x b c : Nat} (hu : 0 < u) (hb : Nearest w top u x b)
    (hc : Nearest w top u x c) : b = c := by
  have key : ∀ b c, Nearest w top u x b → Nearest w top u x c → ¬ b < c := by
    intro b c hb hc hlt
    obtain ⟨b1, b2⟩ := hb
    obtain ⟨c1, c2⟩ := hc
    have e : distance (magnitude w b * u) x = distance (magnitude w c * u) x := by
      have := (b2 c c1).1
      have := (c2 b b1).1
      omega
    have hb0 : b % 2 = 0 := by
      rcases (b2 c c1).2 e with h | h <;> omega
    have hc0 : c % 2 = 0 := by
      rcases (c2 b b1).2 e.symm with h | h <;> omega
    have m1 : magnitude w b * u < magnitude w (b + 1) * u :=
      Nat.mul_lt_mul_of_pos_right (magnitude_strict w (by omega)) hu
    have m2 : magnitude w (b + 1) * u < magnitude w c * u :=
      Nat.mul_lt_mul_of_pos_right (magnitude_strict w (by omega)) hu
    have := (b2 (b + 1) (by omega)).1
    unfold distance at *
    omega
  have := key b c hb hc
  have := key c b hc hb
  omega

theorem nearestBits_spec {u x : Nat} (hu : 0 < u) :
    Nearest 52 inf64 u x (min (nearestBits u x) inf64) := by
  have h := lowerBits_spec u x (2 ^ 63) 63 0 (by simp [floatUnits]) (.inr (by simp))
  unfold nearestBits
  simp only []
  generalize lowerBits u x 63 0 = b at *
  obtain ⟨h1, h2⟩ := h
  by_cases hb : b < inf64
  · have h3 : x < floatUnits (b + 1) * u := by
      rcases h2 with h2 | h2
      · exact h2
      · unfold inf64 at hb; omega
    have hn := nearest_between (top := inf64) (b := if 2 * x < (floatUnits b + floatUnits (b + 1)) * u
      ∨ (2 * x = (floatUnits b + floatUnits (b + 1)) * u ∧ b % 2 = 0) then b else b + 1) h1 h3 hb rfl
    rw [Nat.min_eq_left hn.1]
    exact hn
  · have e : min (if 2 * x < (floatUnits b + floatUnits (b + 1)) * u ∨
        (2 * x = (floatUnits b + floatUnits (b + 1)) * u ∧ b % 2 = 0) then b else b + 1) inf64 =
        inf64 := by
      apply Nat.min_eq_right
      split <;> omega
    rw [e]
    refine nearest_top hu (Nat.le_trans (Nat.mul_le_mul_right u ?_) h1)
    exact magnitude_mono 52 (Nat.le_of_not_lt hb)

theorem f64_parts {s m : Nat} (hs : s < 2) (hm : m < 2 ^ 63) {f : F64} :
    (sign64 f = s ∧ abs64 f = m) ↔ f = ⟨UInt64.ofNat (s * 2 ^ 63 + m)⟩ := by
  constructor
  · rintro ⟨rfl, rfl⟩
    obtain ⟨b⟩ := f
    unfold sign64 abs64
    have : b.toNat / 2 ^ 63 * 2 ^ 63 + b.toNat % 2 ^ 63 = b.toNat := by omega
    simp only [this, UInt64.ofNat_toNat]
  · rintro rfl; exact split64 hs hm

/-- The value of a number. -/
theorem toJ_iff (d : Decimal) (j : J) : d.toJ = some j ↔ NumberIs d j := by
  have hfit : ∀ n, Fits d n ↔ (d.whole = true ∧ ¬ (d.neg = true ∧ d.mantissa = 0) ∧
      -2 ^ 63 ≤ (if d.neg then -(d.mantissa : Int) else d.mantissa) ∧
      (if d.neg then -(d.mantissa : Int) else d.mantissa) < 2 ^ 64) ∧
      n = (if d.neg then -(d.mantissa : Int) else d.mantissa) := by
    intro n
    unfold Fits
    constructor
    · rintro ⟨h1, rfl, h2, h3, h4⟩; exact ⟨⟨h1, h2, h3, h4⟩, rfl⟩
    · rintro ⟨⟨h1, h2, h3, h4⟩, rfl⟩; exact ⟨h1, rfl, h2, h3, h4⟩
  unfold Decimal.toJ
  simp only []
  by_cases h : d.whole = true ∧ ¬ (d.neg = true ∧ d.mantissa = 0) ∧
      -2 ^ 63 ≤ (if d.neg then -(d.mantissa : Int) else d.mantissa) ∧
      (if d.neg then -(d.mantissa : Int) else d.mantissa) < 2 ^ 64
  · rw [if_pos h]
    constructor
    · intro e; cases e; exact .int ((hfit _).mpr ⟨h, rfl⟩)
    · intro hn
      cases hn with
      | int hn => rw [((hfit _).mp hn).2]
      | float hn => exact absurd ⟨_, (hfit _).mpr ⟨h, rfl⟩⟩ hn
  · rw [if_neg h]
    have hno : ¬ ∃ n, Fits d n := fun ⟨n, hn⟩ => h ((hfit n).mp hn).1
    have hu : 0 < 10 ^ (-d.exponent).toNat := Nat.pow_pos (by omega)
    have hspec := nearestBits_spec (x := d.mantissa * 10 ^ d.exponent.toNat * 2 ^ 1074) hu
    generalize nearestBits (10 ^ (-d.exponent).toNat)
      (d.mantissa * 10 ^ d.exponent.toNat * 2 ^ 1074) = b at hspec
    have hsg : (if d.neg = true then (2 : Nat) ^ 63 else 0) = (if d.neg = true then 1 else 0) * 2 ^ 63 := by
      split <;> simp
    rw [hsg]
    have hs2 : (if d.neg = true then 1 else 0) < 2 := by split <;> omega
    by_cases hb : b < inf64
    · rw [if_pos (show b < 0x7FF0000000000000 from hb)]
      rw [Nat.min_eq_left (Nat.le_of_lt hb)] at hspec
      have hb' : b < 2 ^ 63 := by unfold inf64 at hb; omega
      constructor
      · intro e
        cases e
        obtain ⟨h1, h2⟩ := split64 hs2 hb'
        exact .float hno ⟨h1, by rw [h2]; exact hspec⟩ (by rw [h2]; exact hb)
      · intro hn
        cases hn with
        | int hn => exact absurd ⟨_, hn⟩ hno
        | float _ hnear hlt =>
          have : abs64 _ = b := nearest_unique hu hnear.2 hspec
          rw [(f64_parts hs2 hb').mp ⟨hnear.1, this⟩]
    · rw [if_neg (show ¬ b < 0x7FF0000000000000 from hb)]
      constructor
      · intro e; cases e
      · intro hn
        cases hn with
        | int hn => exact absurd ⟨_, hn⟩ hno
        | float _ hnear hlt =>
          have := nearest_unique hu hnear.2 hspec
          rw [this] at hlt
          unfold inf64 at *
          omega

/-! ## Numbers -/

theorem signed_sound {cs r : List Char} {d : Decimal} (h : signed cs = some (d, r)) :
    ∃ t, cs = t ++ r ∧ Number t d := by
  unfold signed at h
  split at h
  · obtain ⟨hn, t, rfl, hm⟩ := decimal_sound h
    refine ⟨'-' :: t, rfl, ?_⟩
    have := Number.minus hm
    obtain ⟨a, b, c, e⟩ := d
    cases hn; exact this
  · obtain ⟨hn, t, rfl, hm⟩ := decimal_sound h
    refine ⟨t, rfl, ?_⟩
    have := Number.plus hm
    obtain ⟨a, b, c, e⟩ := d
    cases hn; exact this

theorem number_sound {cs r : List Char} {j : J} (h : number cs = some (j, r)) :
    ∃ t d, cs = t ++ r ∧ Number t d ∧ NumberIs d j := by
  simp only [number, Option.bind_eq_bind, Option.bind_eq_some_iff, Prod.exists, Option.pure_def,
    Option.some.injEq, Prod.mk.injEq] at h
  obtain ⟨d, c, h1, j', h2, rfl, rfl⟩ := h
  rw [toJ_iff] at h2
  obtain ⟨t, e, ht⟩ := signed_sound h1
  exact ⟨t, d, e, ht, h2⟩

/-- A number starts with a digit. -/
theorem magnitude_start {t : List Char} {n : Nat} {e : Int} {w : Bool}
    (h : Rfc8259.Magnitude t n e w) : ∃ c l, t = c :: l ∧ isDigit c = true := by
  cases h with
  | @mk w _ _ _ _ _ _ hw =>
    obtain ⟨h3, h4, _⟩ := (digits_iff _ _).mp hw.1
    cases w with
    | nil => exact absurd rfl h3
    | cons c l => exact ⟨c, _, rfl, h4 c (by simp)⟩

/-- A number starts with a minus sign or a digit. -/
theorem number_start {t : List Char} {d : Decimal} (h : Number t d) :
    ∃ c l, t = c :: l ∧ (c = '-' ∨ isDigit c = true) := by
  cases h with
  | plus h => obtain ⟨c, l, e, hc⟩ := magnitude_start h; exact ⟨c, l, e, .inr hc⟩
  | minus => exact ⟨_, _, rfl, .inl rfl⟩

theorem signed_complete {t r : List Char} {d : Decimal} (h : Number t d) (hr : Stop r) :
    signed (t ++ r) = some (d, r) := by
  cases h with
  | plus h =>
    obtain ⟨c, l, rfl, hc⟩ := magnitude_start h
    rw [← decimal_complete (neg := false) h hr]
    unfold signed
    split
    · rename_i e; cases e; simp [isDigit] at hc
    · rfl
  | minus h => exact decimal_complete (neg := true) h hr

theorem number_complete {t r : List Char} {d : Decimal} {j : J} (h : Number t d)
    (hj : NumberIs d j) (hr : Stop r) : number (t ++ r) = some (j, r) := by
  rw [← toJ_iff] at hj
  simp only [number, signed_complete h hr, hj, Option.bind_eq_bind, Option.bind_some,
    Option.pure_def]

theorem number_unique {t : List Char} {d e : Decimal} (h : Number t d) (h' : Number t e) :
    d = e := by
  have h1 := signed_complete h (r := []) fun _ h => by simp at h
  have h2 := signed_complete h' (r := []) fun _ h => by simp at h
  rw [h1] at h2
  cases h2
  rfl

/-- Being nearest does not depend on the unit. -/
theorem nearest_scale {w top u x b k : Nat} (hk : 0 < k) :
    Nearest w top (u * k) (x * k) b ↔ Nearest w top u x b := by
  have e : ∀ c, distance (magnitude w c * (u * k)) (x * k) =
      distance (magnitude w c * u) x * k := by
    intro c
    unfold distance
    rw [← Nat.mul_assoc, Nat.add_mul, Nat.sub_mul, Nat.sub_mul]
  unfold Nearest
  simp only [e, Nat.mul_le_mul_right_iff hk, Nat.mul_left_inj (Nat.ne_of_gt hk)]

end Gvas.Text
