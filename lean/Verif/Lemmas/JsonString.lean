import Verif.Spec.JsonText
import Verif.Props.JsonScalars

/-!
# Lemmas: strings in JSON text
-/

namespace Gvas.Text

open Spec Spec.Rfc8259

theorem hexDigit_iff (c : Char) (x : Nat) : hexCharVal c = some x ↔ HexDigit c x :=
  hexCharVal_iff c x

theorem hexDigit_lt {c : Char} {x : Nat} (h : HexDigit c x) : x < 16 := by
  rcases h with h | h <;>
    · have := (List.getElem?_eq_some_iff.mp h).1; simpa using this

theorem hex4_lt {l : List Char} {n : Nat} (h : Hex4 l n) : n < 65536 := by
  cases h with
  | mk h1 h2 h3 h4 =>
    have := hexDigit_lt h1
    have := hexDigit_lt h2
    have := hexDigit_lt h3
    have := hexDigit_lt h4
    omega

theorem hex4_sound {cs r : List Char} {n : Nat} (h : hex4 cs = some (n, r)) :
    ∃ t, cs = t ++ r ∧ Hex4 t n := by
  unfold hex4 at h
  split at h
  · rename_i a b c d r'
    simp only [Option.bind_eq_bind, Option.bind_eq_some_iff, Option.pure_def, Option.some.injEq,
      Prod.mk.injEq] at h
    obtain ⟨x, h1, y, h2, z, h3, w, h4, rfl, rfl⟩ := h
    refine ⟨[a, b, c, d], rfl, ?_⟩
    have := Hex4.mk ((hexDigit_iff _ _).mp h1) ((hexDigit_iff _ _).mp h2)
      ((hexDigit_iff _ _).mp h3) ((hexDigit_iff _ _).mp h4)
    have e : ((x * 16 + y) * 16 + z) * 16 + w = x * 16 ^ 3 + y * 16 ^ 2 + z * 16 + w := by omega
    rw [e]
    exact this
  · cases h

theorem hex4_complete {t : List Char} {n : Nat} (h : Hex4 t n) (r : List Char) :
    hex4 (t ++ r) = some (n, r) := by
  cases h with
  | @mk a b c d x y z w h1 h2 h3 h4 =>
    simp only [List.cons_append, List.nil_append, hex4, (hexDigit_iff _ _).mpr h1,
      (hexDigit_iff _ _).mpr h2, (hexDigit_iff _ _).mpr h3, (hexDigit_iff _ _).mpr h4,
      Option.bind_eq_bind, Option.bind_some, Option.pure_def]
    have e : ((x * 16 + y) * 16 + z) * 16 + w = x * 16 ^ 3 + y * 16 ^ 2 + z * 16 + w := by omega
    rw [e]

theorem toNat_ofNat {n : Nat} (h : n < 0xD800 ∨ (0xE000 ≤ n ∧ n < 0x110000)) :
    (Char.ofNat n).toNat = n := by
  have hv : n.isValidChar := by
    unfold Nat.isValidChar; omega
  rw [Char.ofNat, dif_pos hv]
  rfl

theorem char_valid (c : Char) : c.toNat < 0xD800 ∨ (0xE000 ≤ c.toNat ∧ c.toNat < 0x110000) := by
  have h : c.val.toNat.isValidChar := c.valid
  have e : c.val.toNat = c.toNat := rfl
  rw [e] at h
  unfold Nat.isValidChar at h
  omega

theorem char_eq {c : Char} {n : Nat} (h : c.toNat = n) : c = Char.ofNat n := by
  subst h; exact (Char.ofNat_toNat c).symm

theorem unicode_sound {cs r : List Char} {c : Char} (h : unicode cs = some (c, r)) :
    ∃ t, cs = t ++ r ∧ Character ('\\' :: 'u' :: t) c := by
  simp only [unicode, Option.bind_eq_bind, Option.bind_eq_some_iff, Prod.exists] at h
  obtain ⟨n, cs', h1, h⟩ := h
  obtain ⟨t, rfl, h2⟩ := hex4_sound h1
  have hlt := hex4_lt h2
  split at h
  · rename_i hn
    simp only [Option.pure_def, Option.some.injEq, Prod.mk.injEq] at h
    obtain ⟨rfl, rfl⟩ := h
    refine ⟨t, rfl, .unicode ?_⟩
    rw [toNat_ofNat (by omega)]
    exact h2
  · split at h
    · split at h
      · rename_i r'
        simp only [Option.bind_eq_some_iff, Prod.exists] at h
        obtain ⟨m, r'', h3, h⟩ := h
        obtain ⟨u, rfl, h4⟩ := hex4_sound h3
        split at h
        · simp only [Option.pure_def, Option.some.injEq, Prod.mk.injEq] at h
          obtain ⟨rfl, rfl⟩ := h
          refine ⟨t ++ '\\' :: 'u' :: u, by simp, ?_⟩
          exact .pair h2 h4 (by omega) (by omega) (by omega) (by omega) (toNat_ofNat (by omega))
        · cases h
      · cases h
    · cases h

theorem escaped_sound {cs r : List Char} {c : Char} (h : escaped cs = some (c, r)) :
    ∃ t, cs = t ++ r ∧ Character ('\\' :: t) c := by
  unfold escaped at h
  split at h
  · cases h
  · rename_i e cs
    repeat' split at h
    any_goals
      first
      | (cases h; done)
      | (rename_i he
         simp only [Option.some.injEq, Prod.mk.injEq] at h
         obtain ⟨rfl, rfl⟩ := h
         subst he
         exact ⟨[_], rfl, .escape (by simp [escapes])⟩)
    rename_i he
    subst he
    obtain ⟨t, rfl, h2⟩ := unicode_sound h
    exact ⟨'u' :: t, rfl, h2⟩

theorem chars_sound : ∀ (n : Nat) {cs r l : List Char}, chars n cs = some (l, r) →
    ∃ t, cs = t ++ '"' :: r ∧ Characters t l := by
  intro n
  induction n with
  | zero => intro cs r l h; cases h
  | succ n ih =>
    intro cs r l h
    cases cs with
    | nil => cases h
    | cons c cs =>
      unfold chars at h
      split at h
      · rename_i hc
        subst hc
        cases h
        exact ⟨[], rfl, .nil⟩
      · rename_i hq
        split at h
        · rename_i hc
          subst hc
          simp only [Option.bind_eq_bind, Option.bind_eq_some_iff, Prod.exists, Option.pure_def,
            Option.some.injEq, Prod.mk.injEq] at h
          obtain ⟨d, r1, h1, l1, r2, h2, rfl, rfl⟩ := h
          obtain ⟨t, rfl, ht⟩ := escaped_sound h1
          obtain ⟨u, rfl, hu⟩ := ih h2
          exact ⟨'\\' :: t ++ u, by simp, .cons ht hu⟩
        · rename_i hb
          split at h
          · cases h
          · rename_i hp
            simp only [Option.bind_eq_bind, Option.bind_eq_some_iff, Prod.exists, Option.pure_def,
              Option.some.injEq, Prod.mk.injEq] at h
            obtain ⟨l1, r1, h1, rfl, rfl⟩ := h
            obtain ⟨u, rfl, hu⟩ := ih h1
            exact ⟨[c] ++ u, by simp, .cons (.plain hq hb (by omega)) hu⟩

theorem character_step {t : List Char} {c : Char} (h : Character t c) (n : Nat) (r : List Char) :
    0 < t.length ∧ chars (n + 1) (t ++ r) = (chars n r).map fun p => (c :: p.1, p.2) := by
  cases h with
  | plain h1 h2 h3 =>
    refine ⟨by simp, ?_⟩
    simp only [List.cons_append, List.nil_append, chars]
    rw [if_neg h1, if_neg h2, if_neg (by omega)]
    cases chars n r <;> rfl
  | @escape e _ h =>
    refine ⟨by simp, ?_⟩
    simp only [List.cons_append, List.nil_append, chars]
    rw [if_neg (by decide), if_pos trivial]
    have : escaped (e :: r) = some (c, r) := by
      simp only [escapes, List.mem_cons, Prod.mk.injEq, List.not_mem_nil, or_false] at h
      rcases h with ⟨rfl, rfl⟩ | ⟨rfl, rfl⟩ | ⟨rfl, rfl⟩ | ⟨rfl, rfl⟩ | ⟨rfl, rfl⟩ | ⟨rfl, rfl⟩ |
        ⟨rfl, rfl⟩ | ⟨rfl, rfl⟩ <;> rfl
    rw [this, Option.bind_eq_bind, Option.bind_some]
    cases chars n r <;> rfl
  | @unicode l _ h =>
    refine ⟨by simp, ?_⟩
    simp only [List.cons_append, chars]
    rw [if_neg (by decide), if_pos trivial]
    have : escaped ('u' :: (l ++ r)) = some (c, r) := by
      change unicode (l ++ r) = _
      simp only [unicode, hex4_complete h, Option.bind_eq_bind, Option.bind_some]
      have := char_valid c
      rw [if_pos (by omega), Char.ofNat_toNat]
      rfl
    rw [this, Option.bind_eq_bind, Option.bind_some]
    cases chars n r <;> rfl
  | @pair l m hi lo _ h1 h2 h3 h4 h5 h6 h7 =>
    refine ⟨by simp, ?_⟩
    simp only [List.cons_append, chars]
    rw [if_neg (by decide), if_pos trivial]
    have : escaped ('u' :: (l ++ '\\' :: 'u' :: m ++ r)) = some (c, r) := by
      change unicode (l ++ '\\' :: 'u' :: m ++ r) = _
      rw [List.append_assoc]
      simp only [unicode, hex4_complete h1, Option.bind_eq_bind, Option.bind_some,
        List.cons_append, hex4_complete h2]
      rw [if_neg (by omega), if_pos h4, if_pos ⟨h5, h6⟩, ← h7, Char.ofNat_toNat]
      rfl
    rw [this, Option.bind_eq_bind, Option.bind_some]
    cases chars n r <;> rfl

theorem chars_complete {t l : List Char} (h : Characters t l) : ∀ (n : Nat) (r : List Char),
    t.length < n → chars n (t ++ '"' :: r) = some (l, r) := by
  induction h with
  | nil =>
    intro n r hn
    cases n with
    | zero => omega
    | succ n => rfl
  | cons hc _ ih =>
    intro n r hn
    cases n with
    | zero => omega
    | succ n =>
      rename_i u _ _
      obtain ⟨h1, h2⟩ := character_step hc n (u ++ '"' :: r)
      rw [List.append_assoc, h2, ih n r (by simp at hn; omega)]
      rfl

theorem string_sound {cs r : List Char} {s : String} (h : string cs = some (s, r)) :
    ∃ t, cs = t ++ r ∧ Str t s := by
  unfold string at h
  split at h
  · simp only [Option.bind_eq_bind, Option.bind_eq_some_iff, Prod.exists, Option.pure_def,
      Option.some.injEq, Prod.mk.injEq] at h
    obtain ⟨l, r', h1, rfl, rfl⟩ := h
    obtain ⟨t, rfl, ht⟩ := chars_sound _ h1
    exact ⟨'"' :: t ++ ['"'], by simp, t, rfl, by simpa using ht⟩
  · cases h

theorem string_complete {t : List Char} {s : String} (h : Str t s) (r : List Char) :
    string (t ++ r) = some (s, r) := by
  obtain ⟨l, rfl, hl⟩ := h
  have e : '"' :: l ++ ['"'] ++ r = '"' :: (l ++ '"' :: r) := by simp
  rw [e, string]
  simp only [chars_complete hl _ r (show l.length < (l ++ '"' :: r).length by simp),
    Option.bind_eq_bind, Option.bind_some, Option.pure_def, String.ofList_toList]

end Gvas.Text
