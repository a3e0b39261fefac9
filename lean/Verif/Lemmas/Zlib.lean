import Verif.Model.Zlib
import Verif.Spec.Zlib

/-!
# The decoder of zlib streams decodes exactly the streams of the specification
-/

namespace Gvas.Zlib

open Spec.Zlib (low high Code firstCode BitsOf Tokens Lengths Block Blocks Copies Usable Codes
  Triples)

/-! ## Decoders and relations -/

theorem D.bind_eq {α β : Type} (m : D α) (f : α → D β) : (m >>= f) = D.bind m f := rfl
theorem D.pure_eq {α : Type} (a : α) : (pure a : D α) = D.pure a := rfl

theorem D.bind_some {α β : Type} {m : D α} {f : α → D β} {s : List Bool} {x : β × List Bool} :
    D.bind m f s = some x ↔ ∃ a r, m s = some (a, r) ∧ f a r = some x := by
  unfold D.bind
  rcases m s with _ | ⟨a, r⟩
  · simp
  · constructor
    · intro h; exact ⟨a, r, rfl, h⟩
    · rintro ⟨a', r', h, h'⟩; cases h; exact h'

/-- The decoder `m` consumes exactly the sequences `S` allows. -/
def Exact {α : Type} (m : D α) (S : α → List Bool → Prop) : Prop :=
  ∀ s a r, m s = some (a, r) ↔ ∃ w, s = w ++ r ∧ S a w

theorem Exact.run {α : Type} {m : D α} {S : α → List Bool → Prop} (h : Exact m S) {a : α}
    {w : List Bool} (hw : S a w) (r : List Bool) : m (w ++ r) = some (a, r) :=
  (h _ _ _).2 ⟨w, rfl, hw⟩

theorem Exact.then {α β : Type} {m : D α} {S : α → List Bool → Prop} (h : Exact m S) {a : α}
    {w : List Bool} (hw : S a w) (r : List Bool) (f : α → D β) : D.bind m f (w ++ r) = f a r := by
  simp only [D.bind, h.run hw r]

theorem exact_pure {α : Type} (a : α) : Exact (D.pure a) (fun b w => b = a ∧ w = []) := by
  intro s b r
  simp only [D.pure, Option.some.injEq, Prod.mk.injEq]
  constructor
  · rintro ⟨rfl, rfl⟩; exact ⟨[], rfl, rfl, rfl⟩
  · rintro ⟨w, rfl, rfl, rfl⟩; exact ⟨rfl, rfl⟩

theorem exact_fail {α : Type} : Exact (D.fail : D α) (fun _ _ => False) := by
  intro s b r; simp [D.fail]

theorem exact_bind {α β : Type} {m : D α} {f : α → D β} {S : α → List Bool → Prop}
    {T : α → β → List Bool → Prop} (h : Exact m S)
    (hf : ∀ a, (∃ u, S a u) → Exact (f a) (T a)) :
    Exact (D.bind m f) (fun b w => ∃ a u v, w = u ++ v ∧ S a u ∧ T a b v) := by
  intro s b r
  rw [D.bind_some]
  constructor
  · rintro ⟨a, r', h1, h2⟩
    obtain ⟨u, rfl, hu⟩ := (h _ _ _).1 h1
    obtain ⟨v, rfl, hv⟩ := (hf a ⟨u, hu⟩ _ _ _).1 h2
    exact ⟨u ++ v, by simp, a, u, v, rfl, hu, hv⟩
  · rintro ⟨w, rfl, a, u, v, rfl, hu, hv⟩
    refine ⟨a, v ++ r, ?_, (hf a ⟨u, hu⟩).run hv r⟩
    rw [List.append_assoc]; exact h.run hu _

theorem Exact.congr {α : Type} {m : D α} {S T : α → List Bool → Prop} (h : Exact m S)
    (e : ∀ a w, S a w ↔ T a w) : Exact m T := by
  intro s a r; rw [h s a r]; simp only [e]

theorem exact_guard (c : Prop) [Decidable c] : Exact (D.guard c) (fun _ w => c ∧ w = []) := by
  unfold D.guard
  split
  · rename_i hc; exact (exact_pure ()).congr (by simp [hc])
  · rename_i hc; exact exact_fail.congr (by simp [hc])

theorem exact_take (n : Nat) : Exact (D.take n) (fun a w => w.length = n ∧ a = w) := by
  intro s a r
  unfold D.take
  split
  · rename_i hn
    simp only [Option.some.injEq, Prod.mk.injEq]
    constructor
    · rintro ⟨rfl, rfl⟩; exact ⟨s.take n, by simp, by simp [hn], rfl⟩
    · rintro ⟨w, rfl, rfl, rfl⟩; simp
  · rename_i hn
    simp only [reduceCtorEq, false_iff]
    rintro ⟨w, rfl, rfl, -⟩
    simp at hn

theorem lsb_low (w : List Bool) : lsb w = low w := by
  induction w with
  | nil => rfl
  | cons b w ih => simp only [lsb, low, ih]

theorem exact_number (n : Nat) : Exact (D.number n) (fun a w => w.length = n ∧ a = low w) := by
  unfold D.number
  rw [D.bind_eq]
  refine (exact_bind (exact_take n) fun a _ => exact_pure (lsb a)).congr fun a w => ?_
  constructor
  · rintro ⟨_, u, v, rfl, ⟨h1, rfl⟩, rfl, rfl⟩; simp [h1, lsb_low]
  · rintro ⟨h1, rfl⟩; exact ⟨w, w, [], by simp, ⟨h1, rfl⟩, (lsb_low w).symm, rfl⟩

/-! ## Huffman codes -/

theorem high_append (w : List Bool) (b : Bool) : high (w ++ [b]) = 2 * high w + b.toNat := by
  simp only [high, List.reverse_append, List.reverse_cons, List.reverse_nil, List.nil_append,
    List.cons_append, low]
  omega

theorem low_lt (w : List Bool) : low w < 2 ^ w.length := by
  induction w with
  | nil => simp [low]
  | cons b w ih =>
    have : b.toNat ≤ 1 := Bool.toNat_le b
    simp only [low, List.length_cons, Nat.pow_succ]; omega

theorem nthOf_some (len : Nat) (ls : List Nat) (k s : Nat) :
    nthOf len ls k = some s ↔ ls[s]? = some len ∧ (ls.take s).count len = k := by
  induction ls generalizing k s with
  | nil => simp [nthOf]
  | cons x ls ih =>
    unfold nthOf
    by_cases hx : x = len
    · subst hx
      rw [if_pos rfl]
      cases k with
      | zero =>
        cases s with
        | zero => simp
        | succ s => simp
      | succ k =>
        cases s with
        | zero => simp
        | succ s =>
          simp only [Option.map_eq_some_iff, Nat.add_right_cancel_iff, exists_eq_right, ih,
            List.getElem?_cons_succ, List.take_succ_cons, List.count_cons_self]
    · rw [if_neg hx]
      cases s with
      | zero => simp [hx]
      | succ s =>
        simp only [Option.map_eq_some_iff, Nat.add_right_cancel_iff, exists_eq_right, ih,
          List.getElem?_cons_succ, List.take_succ_cons]
        rw [List.count_cons_of_ne (by simpa using hx)]

theorem count_take_lt {ls : List Nat} {s l : Nat} (h : ls[s]? = some l) :
    (ls.take s).count l < ls.count l := by
  induction ls generalizing s with
  | nil => simp at h
  | cons x ls ih =>
    cases s with
    | zero => simp only [List.getElem?_cons_zero, Option.some.injEq] at h; subst h; simp
    | succ s =>
      simp only [List.getElem?_cons_succ] at h
      have := ih h
      simp only [List.take_succ_cons, List.count_cons]
      omega

/-- What is left of a code of which the bits `u` have been read. -/
def Rest (ls : List Nat) (u : List Bool) (s : Nat) (v : List Bool) : Prop :=
  v ≠ [] ∧ Code ls s (u ++ v)

theorem firstCode_le (ls : List Nat) (l k : Nat) (h : 0 < l) :
    (firstCode ls l + ls.count l) * 2 ^ k * 2 ≤ firstCode ls (l + k + 1) := by
  induction k with
  | zero => simp only [firstCode]; rw [if_neg (by omega)]; omega
  | succ k ih =>
    have e : firstCode ls (l + (k + 1) + 1) = 2 * (firstCode ls (l + k + 1) + ls.count (l + k + 1)) := by
      rw [← Nat.add_assoc, firstCode]; simp
    rw [e, Nat.pow_succ]
    have : (firstCode ls l + ls.count l) * (2 ^ k * 2) * 2 =
      2 * ((firstCode ls l + ls.count l) * 2 ^ k * 2) := by
      simp only [Nat.mul_assoc, Nat.mul_comm]
    omega

theorem high_append_ge (u v : List Bool) : high u * 2 ^ v.length ≤ high (u ++ v) ∧
    high (u ++ v) < (high u + 1) * 2 ^ v.length := by
  induction v generalizing u with
  | nil => simp
  | cons b v ih =>
    have h := ih (u ++ [b])
    rw [List.append_assoc, List.singleton_append, high_append] at h
    have hb : b.toNat ≤ 1 := Bool.toNat_le b
    rw [List.length_cons, Nat.pow_succ]
    refine ⟨Nat.le_trans ?_ h.1, Nat.lt_of_lt_of_le h.2 ?_⟩
    · calc high u * (2 ^ v.length * 2) = (2 * high u) * 2 ^ v.length := by
            simp only [Nat.mul_assoc, Nat.mul_comm, Nat.mul_left_comm]
        _ ≤ _ := Nat.mul_le_mul_right _ (by omega)
    · calc (2 * high u + b.toNat + 1) * 2 ^ v.length ≤ (2 * (high u + 1)) * 2 ^ v.length :=
            Nat.mul_le_mul_right _ (by omega)
        _ = _ := by simp only [Nat.mul_assoc, Nat.mul_comm, Nat.mul_left_comm]

theorem exact_symbolFrom (ls : List Nat) (n : Nat) (u : List Bool) (hn : u.length + n = 15)
    (hu : firstCode ls (u.length + 1) ≤ 2 * high u) :
    Exact (symbolFrom ls n (u.length + 1) (high u) (firstCode ls (u.length + 1))) (Rest ls u) := by
  induction n generalizing u with
  | zero =>
    refine exact_fail.congr fun s v => ?_
    simp only [false_iff]
    rintro ⟨hv, l, -, -, h15, hl, -⟩
    have : 0 < v.length := List.length_pos_iff.2 hv
    simp only [List.length_append] at hl
    omega
  | succ n ih =>
    unfold symbolFrom
    rw [D.bind_eq]
    refine (exact_bind (T := fun a s v => ∃ b : Bool, (a = b.toNat) ∧
      ((v = [] ∧ Code ls s (u ++ [b])) ∨ Rest ls (u ++ [b]) s v)) (exact_number 1) ?_).congr ?_
    · rintro a ⟨c, hc, rfl⟩
      obtain ⟨b, rfl⟩ := List.length_eq_one_iff.1 hc
      have eb : low [b] = b.toNat := by simp [low]
      rw [eb]
      have ec : 2 * high u + b.toNat = high (u ++ [b]) := (high_append u b).symm
      have el : u.length + 1 = (u ++ [b]).length := by simp
      simp only [ec]
      have hu' : firstCode ls (u ++ [b]).length ≤ high (u ++ [b]) := by
        rw [← el, ← ec]; omega
      have ne : ∀ b' : Bool, b.toNat = b'.toNat ↔ b' = b := by
        intro b'; cases b <;> cases b' <;> simp
      simp only [ne, exists_eq_left]
      rw [el]
      generalize hg : u ++ [b] = u' at *
      have hl : u'.length + n = 15 := by rw [← hg, List.length_append]; simp; omega
      have hpos : 0 < u'.length := by omega
      have hcode : ∀ s, Code ls s u' ↔ ls[s]? = some u'.length ∧
          (ls.take s).count u'.length = high u' - firstCode ls u'.length := by
        intro s
        constructor
        · rintro ⟨l, h1, -, -, rfl, h2⟩; exact ⟨h1, by omega⟩
        · rintro ⟨h1, h2⟩; exact ⟨_, h1, hpos, by omega, rfl, by omega⟩
      split
      · rename_i hlt
        have hno : ∀ s v, ¬Rest ls u' s v := by
          rintro s v ⟨hv, l, h1, h2, h3, h4, h5⟩
          cases v with
          | nil => exact hv rfl
          | cons c v =>
            simp only [List.length_append, List.length_cons] at h4
            have h6 := firstCode_le ls u'.length v.length hpos
            have h7 := (high_append_ge u' (c :: v)).2
            rw [← h4, ← Nat.add_assoc] at h5
            rw [List.length_cons, Nat.pow_succ, ← Nat.mul_assoc] at h7
            have h8 : (high u' + 1) * 2 ^ v.length * 2 ≤
                (firstCode ls u'.length + ls.count u'.length) * 2 ^ v.length * 2 :=
              Nat.mul_le_mul_right _ (Nat.mul_le_mul_right _ (by omega))
            omega
        split
        · rename_i t ht
          refine (exact_pure t).congr fun s v => ?_
          simp only [hno, or_false, hcode, ← nthOf_some, ht, Option.some.injEq]
          constructor
          · rintro ⟨rfl, rfl⟩; exact ⟨rfl, rfl⟩
          · rintro ⟨rfl, rfl⟩; exact ⟨rfl, rfl⟩
        · rename_i ht
          refine exact_fail.congr fun s v => ?_
          simp [hno, hcode, ← nthOf_some, ht]
      · rename_i hge
        have hno : ∀ s, ¬Code ls s u' := by
          intro s h
          obtain ⟨h1, h2⟩ := (hcode s).1 h
          have := count_take_lt h1
          omega
        have e : 2 * (firstCode ls u'.length + ls.count u'.length) = firstCode ls (u'.length + 1) := by
          rw [firstCode, if_neg (by omega)]
        rw [e]
        refine (ih u' hl (by rw [← e]; omega)).congr fun s v => ?_
        simp [hno]
    · intro s w
      constructor
      · rintro ⟨a, c, v, rfl, ⟨h1, rfl⟩, b, hb, h⟩
        obtain ⟨c, rfl⟩ := List.length_eq_one_iff.1 h1
        have : c = b := by cases b <;> cases c <;> simp_all [low]
        subst this
        refine ⟨by simp, ?_⟩
        rcases h with ⟨rfl, h⟩ | ⟨-, h⟩
        · exact h
        · simpa using h
      · rintro ⟨hw, h⟩
        cases w with
        | nil => exact absurd rfl hw
        | cons b v =>
          refine ⟨b.toNat, [b], v, rfl, ⟨rfl, by simp [low]⟩, b, rfl, ?_⟩
          by_cases hv : v = []
          · subst hv; exact .inl ⟨rfl, h⟩
          · exact .inr ⟨hv, by simpa using h⟩

theorem exact_symbol (ls : List Nat) : Exact (symbol ls) (fun s w => Code ls s w) := by
  have h := exact_symbolFrom ls 15 [] rfl (by simp [firstCode])
  refine Exact.congr (S := Rest ls []) ?_ fun s w => ?_
  · simpa [symbol, high, low, firstCode] using h
  · unfold Rest
    constructor
    · rintro ⟨-, h⟩; exact h
    · intro h
      refine ⟨?_, h⟩
      rintro rfl
      obtain ⟨l, -, h0, -, hl, -⟩ := h
      simp at hl; omega

theorem code_length_pos {ls : List Nat} {s : Nat} {w : List Bool} (h : Code ls s w) :
    0 < w.length := by
  obtain ⟨l, -, h0, -, rfl, -⟩ := h; exact h0

/-! ## Lengths, distances and copies -/

theorem exact_extended (table : List (Nat × Nat)) (i : Nat) : Exact (extended table i)
    (fun n w => ∃ b e, table[i]? = some (b, e) ∧ w.length = e ∧ n = b + low w) := by
  unfold extended
  split
  · rename_i b e h
    rw [D.bind_eq]
    refine (exact_bind (exact_number e) fun a _ => exact_pure (b + a)).congr fun n w => ?_
    constructor
    · rintro ⟨_, u, v, rfl, ⟨h1, rfl⟩, rfl, rfl⟩; exact ⟨b, e, h, by simpa using h1, by simp⟩
    · rintro ⟨b', e', h', h1, rfl⟩
      rw [h] at h'; cases h'
      exact ⟨low w, w, [], by simp, ⟨h1, rfl⟩, rfl, rfl⟩
  · rename_i h
    exact exact_fail.congr fun n w => by simp [h]

theorem length_iff {s : Nat} (hs : 256 < s) (w : List Bool) (n : Nat) :
    (∃ b e, lengthTable[s - 257]? = some (b, e) ∧ w.length = e ∧ n = b + low w) ↔
      Spec.Zlib.Length s w n := by
  obtain ⟨i, rfl⟩ : ∃ i, s = i + 257 := ⟨s - 257, by omega⟩
  rw [Nat.add_sub_cancel]
  have h1 : ∀ i < 28, lengthTable[i]? =
      some (Spec.Zlib.base 3 Spec.Zlib.lengthExtra i, Spec.Zlib.lengthExtra i) := by decide
  have h2 : lengthTable[28]? = some (258, 0) := by decide
  unfold Spec.Zlib.Length
  rw [Nat.add_sub_cancel]
  rcases Nat.lt_trichotomy i 28 with h | rfl | h
  · rw [h1 i h]
    constructor
    · rintro ⟨b, e, h', h3, h4⟩; cases h'; exact .inl ⟨by omega, by omega, h3, h4⟩
    · rintro (⟨-, -, h3, h4⟩ | ⟨h3, -⟩)
      · exact ⟨_, _, rfl, h3, h4⟩
      · omega
  · rw [h2]
    constructor
    · rintro ⟨b, e, h', h3, h4⟩; cases h'
      have := List.length_eq_zero_iff.1 h3; subst this
      exact .inr ⟨rfl, rfl, by simpa [low] using h4⟩
    · rintro (⟨-, h3, -⟩ | ⟨-, rfl, rfl⟩)
      · omega
      · exact ⟨_, _, rfl, rfl, rfl⟩
  · have h3 : lengthTable[i]? = none := List.getElem?_eq_none (by simp [lengthTable]; omega)
    rw [h3]
    constructor
    · rintro ⟨b, e, h', -⟩; cases h'
    · rintro (⟨-, h4, -⟩ | ⟨h4, -⟩) <;> omega

theorem distance_iff (s : Nat) (w : List Bool) (n : Nat) :
    (∃ b e, distanceTable[s]? = some (b, e) ∧ w.length = e ∧ n = b + low w) ↔
      Spec.Zlib.Distance s w n := by
  have h1 : ∀ i < 30, distanceTable[i]? =
      some (Spec.Zlib.base 1 Spec.Zlib.distanceExtra i, Spec.Zlib.distanceExtra i) := by decide
  unfold Spec.Zlib.Distance
  by_cases h : s < 30
  · rw [h1 s h]
    constructor
    · rintro ⟨b, e, h', h3, h4⟩; cases h'; exact ⟨by omega, h3, h4⟩
    · rintro ⟨-, h3, h4⟩; exact ⟨_, _, rfl, h3, h4⟩
  · have h3 : distanceTable[s]? = none := List.getElem?_eq_none (by simp [distanceTable]; omega)
    rw [h3]
    constructor
    · rintro ⟨b, e, h', -⟩; cases h'
    · rintro ⟨h4, -⟩; omega

theorem exact_length {s : Nat} (hs : 256 < s) :
    Exact (extended lengthTable (s - 257)) (fun n w => Spec.Zlib.Length s w n) :=
  (exact_extended _ _).congr fun n w => length_iff hs w n

theorem exact_distance (s : Nat) :
    Exact (extended distanceTable s) (fun n w => Spec.Zlib.Distance s w n) :=
  (exact_extended _ _).congr fun n w => distance_iff s w n

theorem distance_pos {s d : Nat} {w : List Bool} (h : Spec.Zlib.Distance s w d) : 0 < d := by
  obtain ⟨-, -, rfl⟩ := h; unfold Spec.Zlib.base; omega

theorem length_sym {s n : Nat} {w : List Bool} (h : Spec.Zlib.Length s w n) : 256 < s := by
  rcases h with ⟨h, -⟩ | ⟨rfl, -⟩ <;> omega

theorem copies_iff (d n : Nat) (out out' : Bytes) (hd : 0 < d) (hl : d ≤ out.length) :
    Copies d n out out' ↔ out' = copy d n out := by
  induction n generalizing out with
  | zero =>
    unfold copy
    constructor
    · rintro ⟨-, h1, h2, -⟩; exact (h2.eq_of_length h1.symm).symm
    · rintro rfl; exact ⟨hl, rfl, List.prefix_rfl, fun k h1 h2 => absurd h2 (by omega)⟩
  | succ n ih =>
    unfold copy
    rw [← ih _ (by simp; omega)]
    have hx : out[out.length - d]? = some (out.getD (out.length - d) 0) := by
      rw [List.getD_eq_getElem?_getD, List.getElem?_eq_getElem (by omega)]; rfl
    constructor
    · rintro ⟨-, h1, ⟨t, rfl⟩, h3⟩
      cases t with
      | nil => simp at h1
      | cons y t =>
        have h4 := h3 out.length (Nat.le_refl _) (by simp)
        rw [List.getElem?_append_left (i := out.length - d) (by omega), hx,
          List.getElem?_append_right (Nat.le_refl _), Nat.sub_self, List.getElem?_cons_zero] at h4
        cases h4
        refine ⟨by simp; omega, by simp at h1 ⊢; omega, ⟨t, by simp⟩, fun k h5 h6 => h3 k ?_ h6⟩
        simp at h5; omega
    · rintro ⟨-, h1, ⟨t, rfl⟩, h3⟩
      refine ⟨hl, by simp at h1 ⊢; omega, ⟨_ :: t, by simp; rfl⟩, fun k h5 h6 => ?_⟩
      rcases Nat.lt_or_ge out.length k with h | h
      · exact h3 k (by simp; omega) h6
      · obtain rfl : k = out.length := by omega
        simp only [List.append_assoc]
        rw [List.getElem?_append_left (i := out.length - d) (by omega), hx,
          List.getElem?_append_right (Nat.le_refl _), Nat.sub_self]
        simp

/-! ## The contents of a block -/

theorem tokens_sound {lit dist : List Nat} {n : Nat} {out : Bytes} {s : List Bool} {out' : Bytes}
    {r : List Bool} (h : tokens lit dist n out s = some (out', r)) :
    ∃ w, s = w ++ r ∧ Tokens lit dist out w out' := by
  induction n generalizing out s with
  | zero => simp [tokens, D.fail] at h
  | succ n ih =>
    unfold tokens at h
    rw [D.bind_eq, D.bind_some] at h
    obtain ⟨sym, r1, h1, h⟩ := h
    obtain ⟨w, rfl, hw⟩ := (exact_symbol lit _ _ _).1 h1
    split at h
    · rename_i hlt
      obtain ⟨v, rfl, hv⟩ := ih h
      refine ⟨w ++ v, by simp, .literal (UInt8.ofNat sym) ?_ hv⟩
      rwa [UInt8.toNat_ofNat_of_lt' (by simpa [UInt8.size] using hlt)]
    · split at h
      · rename_i heq
        have h : some (out, r1) = some (out', r) := h
        cases h
        subst heq
        exact ⟨w, rfl, .done hw⟩
      · rename_i hge hne
        rw [D.bind_eq, D.bind_some] at h
        obtain ⟨len, r2, h2, h⟩ := h
        rw [D.bind_eq, D.bind_some] at h
        obtain ⟨t, r3, h3, h⟩ := h
        rw [D.bind_eq, D.bind_some] at h
        obtain ⟨d, r4, h4, h⟩ := h
        rw [D.bind_eq, D.bind_some] at h
        obtain ⟨_, r5, h5, h⟩ := h
        obtain ⟨e, rfl, he⟩ := (exact_length (by omega) _ _ _).1 h2
        obtain ⟨w', rfl, hw'⟩ := (exact_symbol dist _ _ _).1 h3
        obtain ⟨e', rfl, he'⟩ := (exact_distance _ _ _ _).1 h4
        obtain ⟨_, rfl, hd, rfl⟩ := (exact_guard _ _ _ _).1 h5
        obtain ⟨v, rfl, hv⟩ := ih h
        exact ⟨w ++ e ++ w' ++ e' ++ v, by simp, .copy hw he hw' he'
          ((copies_iff d len out _ (distance_pos he') hd).2 rfl) hv⟩

theorem tokens_complete {lit dist : List Nat} {out : Bytes} {w : List Bool} {out' : Bytes}
    (h : Tokens lit dist out w out') (n : Nat) (hn : w.length < n) (r : List Bool) :
    tokens lit dist n out (w ++ r) = some (out', r) := by
  induction h generalizing n with
  | done hw =>
    cases n with
    | zero => omega
    | succ n =>
      unfold tokens
      rw [D.bind_eq, (exact_symbol lit).then hw, if_neg (by omega), if_pos rfl]
      rfl
  | @literal out w v out' b hw _ ih =>
    cases n with
    | zero => omega
    | succ n =>
      have := code_length_pos hw
      unfold tokens
      rw [D.bind_eq, List.append_assoc, (exact_symbol lit).then hw, if_pos b.toNat_lt]
      have e : UInt8.ofNat b.toNat = b := by simp
      rw [e]
      exact ih n (by simp at hn; omega)
  | @copy out w e w' e' v s m t d mid out' hw he hw' he' hc _ ih =>
    cases n with
    | zero => omega
    | succ n =>
      have := code_length_pos hw
      have hs := length_sym he
      unfold tokens
      simp only [List.append_assoc]
      rw [D.bind_eq, (exact_symbol lit).then hw, if_neg (by omega), if_neg (by omega),
        D.bind_eq, (exact_length hs).then he, D.bind_eq, (exact_symbol dist).then hw',
        D.bind_eq, (exact_distance t).then he', D.bind_eq]
      have hg : (d ≤ out.length ∧ ([] : List Bool) = []) := ⟨hc.1, rfl⟩
      have := (exact_guard (d ≤ out.length)).then (a := ()) hg (v ++ r)
        (fun _ => tokens lit dist n (copy d m out))
      rw [List.nil_append] at this
      rw [this, ← (copies_iff d m out mid (distance_pos he') hc.1).1 hc]
      exact ih n (by simp at hn; omega)

theorem exact_compressed (lit dist : List Nat) (out : Bytes) :
    Exact (compressed lit dist out) (fun out' w => Tokens lit dist out w out') := by
  intro s a r
  constructor
  · exact tokens_sound
  · rintro ⟨w, rfl, h⟩
    exact tokens_complete h _ (by simp; omega) r

/-! ## Dynamic codes -/

theorem lengths_sound {cl : List Nat} {n k : Nat} {acc : List Nat} {s : List Bool} {ls : List Nat}
    {r : List Bool} (hcl : cl.length = 19) (h : lengthsFrom cl n k acc s = some (ls, r)) :
    ∃ w, s = w ++ r ∧ Lengths cl n acc w ls := by
  induction k generalizing acc s with
  | zero => simp [lengthsFrom, D.fail] at h
  | succ k ih =>
    unfold lengthsFrom at h
    split at h
    · rw [D.bind_eq, D.bind_some] at h
      obtain ⟨_, r1, h1, h⟩ := h
      obtain ⟨_, rfl, hd, rfl⟩ := (exact_guard _ _ _ _).1 h1
      have h : some (acc, r1) = some (ls, r) := h
      cases h
      exact ⟨[], rfl, .done hd⟩
    · rename_i hlt
      have hlt : acc.length < n := by omega
      rw [D.bind_eq, D.bind_some] at h
      obtain ⟨sym, r1, h1, h⟩ := h
      obtain ⟨w, rfl, hw⟩ := (exact_symbol cl _ _ _).1 h1
      split at h
      · obtain ⟨v, rfl, hv⟩ := ih h
        exact ⟨w ++ v, by simp, .one hlt (by omega) hw hv⟩
      · split at h
        · rename_i heq
          subst heq
          cases hl : acc.getLast? with
          | some l =>
            simp only [hl] at h
            rw [D.bind_eq, D.bind_some] at h
            obtain ⟨x, r2, h2, h⟩ := h
            obtain ⟨e, rfl, he, rfl⟩ := (exact_number _ _ _ _).1 h2
            obtain ⟨v, rfl, hv⟩ := ih h
            exact ⟨w ++ e ++ v, by simp, .again l hlt hw hl he hv⟩
          | none => simp [hl, D.fail] at h
        · split at h
          · rename_i heq
            subst heq
            rw [D.bind_eq, D.bind_some] at h
            obtain ⟨x, r2, h2, h⟩ := h
            obtain ⟨e, rfl, he, rfl⟩ := (exact_number _ _ _ _).1 h2
            obtain ⟨v, rfl, hv⟩ := ih h
            exact ⟨w ++ e ++ v, by simp, .zeros hlt hw he hv⟩
          · rw [D.bind_eq, D.bind_some] at h
            obtain ⟨x, r2, h2, h⟩ := h
            obtain ⟨e, rfl, he, rfl⟩ := (exact_number _ _ _ _).1 h2
            obtain ⟨v, rfl, hv⟩ := ih h
            have : sym = 18 := by
              obtain ⟨l, hl, -⟩ := hw
              have := (List.getElem?_eq_some_iff.1 hl).1
              omega
            subst this
            exact ⟨w ++ e ++ v, by simp, .manyZeros hlt hw he hv⟩

theorem lengths_complete {cl : List Nat} {n : Nat} {acc : List Nat} {w : List Bool} {ls : List Nat}
    (h : Lengths cl n acc w ls) (k : Nat) (hk : n < acc.length + k) (r : List Bool) :
    lengthsFrom cl n k acc (w ++ r) = some (ls, r) := by
  have pos : ∀ {acc w ls}, Lengths cl n acc w ls → acc.length ≤ n := by
    intro acc w ls h; cases h <;> omega
  induction h generalizing k with
  | @done acc hd =>
    cases k with
    | zero => omega
    | succ k =>
      unfold lengthsFrom
      rw [if_pos (by omega)]
      simp only [D.bind_eq, D.bind, D.guard, if_pos hd, D.pure]
      rfl
  | @one acc w v r' s hlt hs hw _ ih =>
    cases k with
    | zero => omega
    | succ k =>
      unfold lengthsFrom
      rw [if_neg (by omega), D.bind_eq, List.append_assoc, (exact_symbol cl).then hw,
        if_pos (by omega)]
      exact ih k (by simp; omega)
  | @again acc w e v r' l hlt hw hl he hv ih =>
    cases k with
    | zero => omega
    | succ k =>
      unfold lengthsFrom
      simp only [List.append_assoc]
      rw [if_neg (by omega), D.bind_eq, (exact_symbol cl).then hw, if_neg (by omega), if_pos rfl]
      simp only [hl]
      rw [D.bind_eq, (exact_number 2).then (a := low e) ⟨he, rfl⟩]
      exact ih k (by simp; omega)
  | @zeros acc w e v r' hlt hw he hv ih =>
    cases k with
    | zero => omega
    | succ k =>
      unfold lengthsFrom
      simp only [List.append_assoc]
      rw [if_neg (by omega), D.bind_eq, (exact_symbol cl).then hw, if_neg (by omega),
        if_neg (by omega), if_pos rfl, D.bind_eq, (exact_number 3).then (a := low e) ⟨he, rfl⟩]
      exact ih k (by simp; omega)
  | @manyZeros acc w e v r' hlt hw he hv ih =>
    cases k with
    | zero => omega
    | succ k =>
      unfold lengthsFrom
      simp only [List.append_assoc]
      rw [if_neg (by omega), D.bind_eq, (exact_symbol cl).then hw, if_neg (by omega),
        if_neg (by omega), if_neg (by omega), D.bind_eq,
        (exact_number 7).then (a := low e) ⟨he, rfl⟩]
      exact ih k (by simp; omega)

theorem exact_lengths (cl : List Nat) (n k : Nat) (hcl : cl.length = 19) (hk : n < k) :
    Exact (lengthsFrom cl n k []) (fun ls w => Lengths cl n [] w ls) := by
  intro s a r
  constructor
  · exact lengths_sound hcl
  · rintro ⟨w, rfl, h⟩
    exact lengths_complete h _ (by simpa using hk) r

theorem lengths_length {cl : List Nat} {n : Nat} {acc : List Nat} {w : List Bool} {ls : List Nat}
    (h : Lengths cl n acc w ls) : ls.length = n := by
  induction h <;> assumption

/-- A relation for each of several values. -/
def All {α : Type} (S : α → List Bool → Prop) : List α → List Bool → Prop
  | [], w => w = []
  | a :: l, w => ∃ u v, w = u ++ v ∧ S a u ∧ All S l v

theorem exact_replicate {α : Type} {m : D α} {S : α → List Bool → Prop} (h : Exact m S) (n : Nat) :
    Exact (D.replicate m n) (fun l w => l.length = n ∧ All S l w) := by
  induction n with
  | zero =>
    refine (exact_pure []).congr fun l w => ?_
    constructor
    · rintro ⟨rfl, rfl⟩; exact ⟨rfl, rfl⟩
    · rintro ⟨hl, hw⟩
      have := List.length_eq_zero_iff.1 hl; subst this; exact ⟨rfl, hw⟩
  | succ n ih =>
    refine (exact_bind h fun a _ => exact_bind ih fun l _ => exact_pure (a :: l)).congr
      fun l w => ?_
    constructor
    · rintro ⟨a, u, _, rfl, hu, l, v, _, rfl, ⟨hl, hv⟩, rfl, rfl⟩
      exact ⟨by simp [hl], u, v, by simp, hu, hv⟩
    · rintro ⟨hl, hw⟩
      cases l with
      | nil => simp at hl
      | cons a l =>
        obtain ⟨u, v, rfl, hu, hv⟩ := hw
        exact ⟨a, u, v, rfl, hu, l, v, [], by simp, ⟨by simpa using hl, hv⟩, rfl, rfl⟩

theorem usable_iff (ls : List Nat) : usable ls = true ↔ Usable ls := by
  unfold usable Usable
  rw [Bool.or_eq_true, decide_eq_true_eq, decide_eq_true_eq]
  have : (ls.map fun l => if l = 0 then 0 else 2 ^ (15 - l)).sum =
      ((ls.filter (· ≠ 0)).map fun l => 2 ^ (15 - l)).sum := by
    induction ls with
    | nil => rfl
    | cons x ls ih =>
      by_cases hx : x = 0
      · simp only [List.map_cons, List.sum_cons, hx, ih]; simp
      · simp only [List.map_cons, List.sum_cons, ih, if_neg hx]
        rw [List.filter_cons_of_pos (by simpa using hx)]; simp
  rw [this]

theorem triples_iff (xs : List Nat) (w : List Bool) :
    All (fun a w => w.length = 3 ∧ a = low w) xs w ↔ Triples xs w := by
  induction xs generalizing w with
  | nil => exact Iff.rfl
  | cons x xs ih =>
    simp only [All, Triples, ih]
    constructor
    · rintro ⟨u, v, h1, ⟨h2, h3⟩, h4⟩; exact ⟨u, v, h1, h2, h3.symm, h4⟩
    · rintro ⟨u, v, h1, h2, h3, h4⟩; exact ⟨u, v, h1, ⟨h2, h3.symm⟩, h4⟩

theorem inOrder_iff (xs cl : List Nat) :
    (cl.length = 19 ∧ ∀ i s, Spec.Zlib.lengthOrder[i]? = some s → cl[s]? = some (xs.getD i 0)) ↔
      cl = inOrder xs := by
  have h1 : ∀ s < 19, Spec.Zlib.lengthOrder[lengthOrder.idxOf s]? = some s := by decide
  have h2 : ∀ i < 19, ∃ s < 19, lengthOrder[i]? = some s ∧ lengthOrder.idxOf s = i := by decide
  constructor
  · rintro ⟨hl, h⟩
    apply List.ext_getElem?
    intro s
    by_cases hs : s < 19
    · rw [h _ s (h1 s hs)]; simp [inOrder, hs]
    · rw [List.getElem?_eq_none (by omega), List.getElem?_eq_none (by simp [inOrder]; omega)]
  · rintro rfl
    refine ⟨by simp [inOrder], fun i s h => ?_⟩
    have hi : i < 19 := (List.getElem?_eq_some_iff.1 h).1
    obtain ⟨s', hs', h3, h4⟩ := h2 i hi
    have : s' = s := by
      have e : lengthOrder[i]? = some s := h
      rw [e] at h3; cases h3; rfl
    subst this
    simp [inOrder, hs', h4]

theorem exact_codes : Exact dynamicCodes (fun c w => Codes c.1 c.2 w) := by
  unfold dynamicCodes
  refine (exact_bind (exact_number 5) fun hlit _ => exact_bind (exact_number 5) fun hdist _ =>
    exact_bind (exact_number 4) fun hclen _ => exact_bind (exact_guard _) fun _ _ =>
    exact_bind (exact_replicate (exact_number 3) (hclen + 4)) fun xs _ =>
    exact_bind (exact_guard _) fun _ _ =>
    exact_bind (exact_lengths (inOrder xs) _ _ (by simp [inOrder]) (by omega)) fun ls _ =>
    exact_bind (exact_guard _) fun _ _ => exact_pure _).congr fun c w => ?_
  obtain ⟨lit, dist⟩ := c
  constructor
  · rintro ⟨_, a, _, rfl, ⟨ha, rfl⟩, _, b, _, rfl, ⟨hb, rfl⟩, _, c, _, rfl, ⟨hc, rfl⟩,
      _, _, _, rfl, ⟨⟨h1, h2⟩, rfl⟩, xs, t, _, rfl, ⟨hx, ht⟩, _, _, _, rfl, ⟨h3, rfl⟩,
      ls, v, _, rfl, hv, _, _, _, rfl, ⟨⟨h4, h5⟩, rfl⟩, he, rfl⟩
    cases he
    have hl := lengths_length hv
    have e1 : (ls.take (low a + 257)).length = low a + 257 := by
      rw [List.length_take]; omega
    have e2 : (ls.drop (low a + 257)).length = low b + 1 := by
      rw [List.length_drop]; omega
    refine ⟨a, b, c, t, v, xs, inOrder xs, by simp, ha, hb, hc, h1, h2, hx, (triples_iff _ _).1 ht,
      ((inOrder_iff _ _).2 rfl).1, ((inOrder_iff _ _).2 rfl).2, (usable_iff _).1 h3, e1, e2, ?_,
      (usable_iff _).1 h4, (usable_iff _).1 h5⟩
    rw [List.take_append_drop, e1, e2]; exact hv
  · rintro ⟨a, b, c, t, v, xs, cl, rfl, ha, hb, hc, h1, h2, hx, ht, h3, h4, h5, e1, e2, hv, h6, h7⟩
    have := (inOrder_iff xs cl).1 ⟨h3, h4⟩
    subst this
    have et : (lit ++ dist).take (low a + 257) = lit := by rw [← e1]; simp
    have ed : (lit ++ dist).drop (low a + 257) = dist := by rw [← e1]; simp
    refine ⟨low a, a, _, by simp only [List.append_assoc]; rfl, ⟨ha, rfl⟩,
      low b, b, _, rfl, ⟨hb, rfl⟩, low c, c, _, rfl, ⟨hc, rfl⟩,
      (), [], _, rfl, ⟨⟨h1, h2⟩, rfl⟩, xs, t, _, rfl, ⟨hx, (triples_iff _ _).2 ht⟩,
      (), [], _, rfl, ⟨(usable_iff _).2 h5, rfl⟩, lit ++ dist, v, [], by simp, ?_,
      (), [], [], rfl, ⟨⟨?_, ?_⟩, rfl⟩, ?_, rfl⟩
    · rw [← e1, ← e2]; exact hv
    · rw [et]; exact (usable_iff _).2 h6
    · rw [ed]; exact (usable_iff _).2 h7
    · rw [et, ed]

end Gvas.Zlib
