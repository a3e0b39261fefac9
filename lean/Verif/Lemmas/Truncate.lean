import Verif.Lemmas.Inflate

/-!
# Decompressors that have seen more and less of the same bytes

What a decompressor can give out is determined by the bits it has seen: of two outputs for inputs of
which one begins with the other, one begins with the other.
-/

namespace Gvas.Zlib

open Gvas.Spec.Zlib

/-- One is the beginning of the other. -/
def Along {α : Type} (a b : List α) : Prop := a <+: b ∨ b <+: a

theorem Along.symm {α : Type} {a b : List α} (h : Along a b) : Along b a := Or.symm h

theorem along_of_prefix {α : Type} {a b c : List α} (ha : a <+: c) (hb : b <+: c) : Along a b := by
  rcases Nat.le_total a.length b.length with h | h
  · exact .inl (List.prefix_of_prefix_length_le ha hb h)
  · exact .inr (List.prefix_of_prefix_length_le hb ha h)

theorem Along.mono {α : Type} {a b a' b' : List α} (h : Along a b) (ha : a' <+: a) (hb : b' <+: b) :
    Along a' b' := by
  rcases h with h | h
  · exact along_of_prefix (ha.trans h) hb
  · exact along_of_prefix ha (hb.trans h)

theorem Exact.unique {α : Type} {m : D α} {S : α → List Bool → Prop} (h : Exact m S) {a a' : α}
    {w w' v v' : List Bool} (hw : S a w) (hw' : S a' w') (he : w ++ v = w' ++ v') :
    a = a' ∧ w = w' ∧ v = v' := by
  have h1 := h.run hw v
  rw [he, h.run hw' v'] at h1
  cases h1
  exact ⟨rfl, List.append_cancel_right he, rfl⟩

theorem someTokens_grow {lit dist : List Nat} {out out' : Bytes} {w : List Bool}
    (h : SomeTokens lit dist out w out') : out <+: out' := by
  induction h with
  | here => exact List.prefix_rfl
  | literal b _ _ ih => exact (List.prefix_append _ _).trans ih
  | copy _ _ _ _ h5 _ ih => exact h5.2.2.1.trans ih

theorem tokens_grow {lit dist : List Nat} {out out' : Bytes} {w : List Bool}
    (h : Tokens lit dist out w out') : out <+: out' := by
  induction h with
  | done => exact List.prefix_rfl
  | literal b _ _ ih => exact (List.prefix_append _ _).trans ih
  | copy _ _ _ _ h5 _ ih => exact h5.2.2.1.trans ih

/-- The same for the whole of a copy: symbol, length and distance. -/
theorem copy_unique {lit dist : List Nat} {out mid mid' : Bytes}
    {w e w' e' u u' x x' x2 x2' : List Bool} {s n t d s' n' t' d' : Nat}
    (h1 : Code lit s w) (h2 : Length s e n) (h3 : Code dist t w') (h4 : Distance t e' d)
    (h5 : Copies d n out mid) (g1 : Code lit s' x) (g2 : Length s' x' n') (g3 : Code dist t' x2)
    (g4 : Distance t' x2' d') (g5 : Copies d' n' out mid')
    (he : w ++ (e ++ (w' ++ (e' ++ u))) = x ++ (x' ++ (x2 ++ (x2' ++ u')))) :
    mid = mid' ∧ u = u' := by
  obtain ⟨rfl, -, he1⟩ := (exact_symbol lit).unique h1 g1 he
  obtain ⟨rfl, -, he2⟩ := (exact_length (length_sym h2)).unique h2 g2 he1
  obtain ⟨rfl, -, he3⟩ := (exact_symbol dist).unique h3 g3 he2
  obtain ⟨rfl, -, he4⟩ := (exact_distance t).unique h4 g4 he3
  have hd := distance_pos h4
  rw [copies_iff _ _ _ _ hd h5.1] at h5
  rw [copies_iff _ _ _ _ hd g5.1] at g5
  exact ⟨h5.trans g5.symm, he4⟩

theorem someTokens_along {lit dist : List Nat} {out a b : Bytes} {w w' v v' : List Bool}
    (h : SomeTokens lit dist out w a) (h' : SomeTokens lit dist out w' b)
    (he : w ++ v = w' ++ v') : Along a b := by
  induction h generalizing w' with
  | here => exact .inl (someTokens_grow h')
  | literal c hc hr ih =>
    cases h' with
    | here => exact .inr ((List.prefix_append _ _).trans (someTokens_grow hr))
    | literal c' hc' hr' =>
      simp only [List.append_assoc] at he
      obtain ⟨h1, -, he1⟩ := (exact_symbol lit).unique hc hc' he
      cases UInt8.toNat_inj.mp h1
      exact ih hr' he1
    | copy h1 h2 h3 h4 h5 hr' =>
      simp only [List.append_assoc] at he
      obtain ⟨h6, -⟩ := (exact_symbol lit).unique hc h1 he
      have := length_sym h2
      have := c.toNat_lt
      omega
  | copy h1 h2 h3 h4 h5 hr ih =>
    cases h' with
    | here => exact .inr (h5.2.2.1.trans (someTokens_grow hr))
    | literal c' hc' hr' =>
      simp only [List.append_assoc] at he
      obtain ⟨h6, -⟩ := (exact_symbol lit).unique h1 hc' he
      have := length_sym h2
      have := c'.toNat_lt
      omega
    | copy g1 g2 g3 g4 g5 hr' =>
      simp only [List.append_assoc] at he
      obtain ⟨rfl, he1⟩ := copy_unique h1 h2 h3 h4 h5 g1 g2 g3 g4 g5 he
      exact ih hr' he1

/-- A part of a block gives no more than the block. -/
theorem someTokens_within {lit dist : List Nat} {out a b : Bytes} {w w' v v' : List Bool}
    (h : SomeTokens lit dist out w a) (h' : Tokens lit dist out w' b)
    (he : w ++ v = w' ++ v') : a <+: b := by
  induction h generalizing w' with
  | here =>
    exact tokens_grow h'
  | literal c hc hr ih =>
    cases h' with
    | done hc' =>
      simp only [List.append_assoc] at he
      obtain ⟨h1, -⟩ := (exact_symbol lit).unique hc hc' he
      have := c.toNat_lt
      omega
    | literal c' hc' hr' =>
      simp only [List.append_assoc] at he
      obtain ⟨h1, -, he1⟩ := (exact_symbol lit).unique hc hc' he
      cases UInt8.toNat_inj.mp h1
      exact ih hr' he1
    | copy h1 h2 h3 h4 h5 hr' =>
      simp only [List.append_assoc] at he
      obtain ⟨h6, -⟩ := (exact_symbol lit).unique hc h1 he
      have := length_sym h2
      have := c.toNat_lt
      omega
  | copy h1 h2 h3 h4 h5 hr ih =>
    cases h' with
    | done hc' =>
      simp only [List.append_assoc] at he
      obtain ⟨h6, -⟩ := (exact_symbol lit).unique h1 hc' he
      have := length_sym h2
      omega
    | literal c' hc' hr' =>
      simp only [List.append_assoc] at he
      obtain ⟨h6, -⟩ := (exact_symbol lit).unique h1 hc' he
      have := length_sym h2
      have := c'.toNat_lt
      omega
    | copy g1 g2 g3 g4 g5 hr' =>
      simp only [List.append_assoc] at he
      obtain ⟨rfl, he1⟩ := copy_unique h1 h2 h3 h4 h5 g1 g2 g3 g4 g5 he
      exact ih hr' he1

theorem block_unique {pos : Nat} {out a b : Bytes} {w w' v v' : List Bool}
    (h : Block pos out w a) (h' : Block pos out w' b) (he : w ++ v = w' ++ v') :
    a = b ∧ w = w' ∧ v = v' := by
  let e := List.replicate (8 - (pos + 1 + (w ++ v).length) % 8) false
  have hl : (pos + 1 + (w ++ (v ++ e)).length) % 8 = 0 := by
    simp only [e, List.length_append, List.length_replicate]
    omega
  have he' : w ++ (v ++ e) = w' ++ (v' ++ e) := by
    rw [← List.append_assoc, he, List.append_assoc]
  have h1 := (block_iff (pos := pos) hl).2 ⟨w, rfl, h⟩
  have h2 := (block_iff (pos := pos) (by rw [← he']; exact hl)).2 ⟨w', rfl, h'⟩
  rw [he', h2] at h1
  simp only [Option.some.injEq, Prod.mk.injEq] at h1
  have h3 : v = v' := (List.append_cancel_right h1.2).symm
  subst h3
  exact ⟨h1.1.symm, List.append_cancel_right he, rfl⟩

/-- The start of a block. -/
inductive Begun (pos : Nat) (out : Bytes) : List Bool → Bytes → Prop
  | stored {pad len nlen w} (bs : Bytes) : pad.length < 8 →
      (pos + 3 + pad.length) % 8 = 0 → len.length = 16 → nlen.length = 16 →
      bs.length ≤ low len → BitsOf bs w →
      Begun pos out ([false, false] ++ (pad ++ (len ++ (nlen ++ w)))) (out ++ bs)
  | fixed {w out'} : SomeTokens Spec.Zlib.fixedLiterals Spec.Zlib.fixedDistances out w out' →
      Begun pos out ([true, false] ++ w) out'
  | dynamic {lit dist v w out'} : Codes lit dist v →
      SomeTokens lit dist out w out' → Begun pos out ([false, true] ++ (v ++ w)) out'

theorem bits_along {a b : Bytes} {v v' : List Bool} (he : bits a ++ v = bits b ++ v') :
    Along a b := by
  induction a generalizing b with
  | nil => exact .inl (List.nil_prefix)
  | cons x a ih =>
    cases b with
    | nil => exact .inr (List.nil_prefix)
    | cons y b =>
      have e1 : ∀ (x : UInt8) (l : Bytes), bits (x :: l) = byteBits x ++ bits l := fun _ _ => rfl
      rw [e1, e1, List.append_assoc, List.append_assoc] at he
      obtain ⟨h1, h2⟩ := List.append_inj he (by rw [byteBits_length, byteBits_length])
      have h3 : x = y := by
        apply UInt8.toNat_inj.mp
        rw [← low_byteBits, ← low_byteBits, h1]
      subst h3
      rcases ih h2 with h | h
      · exact .inl (List.cons_prefix_cons.mpr ⟨rfl, h⟩)
      · exact .inr (List.cons_prefix_cons.mpr ⟨rfl, h⟩)

theorem begun_grow {pos : Nat} {out a : Bytes} {w : List Bool} (h : Begun pos out w a) :
    out <+: a := by
  cases h with
  | stored bs => exact List.prefix_append _ _
  | fixed h => exact someTokens_grow h
  | dynamic _ h => exact someTokens_grow h

theorem block_grow {pos : Nat} {out a : Bytes} {w : List Bool} (h : Block pos out w a) :
    out <+: a := by
  cases h with
  | stored bs => exact List.prefix_append _ _
  | fixed h => exact tokens_grow h
  | dynamic _ h => exact tokens_grow h

theorem along_append {out a b : Bytes} (h : Along a b) : Along (out ++ a) (out ++ b) := by
  rcases h with h | h
  · exact .inl ((List.prefix_append_right_inj out).mpr h)
  · exact .inr ((List.prefix_append_right_inj out).mpr h)

/-- The fields of a stored block are where they are. -/
theorem stored_fields {pos : Nat} {pad len nlen u pad' len' nlen' u' : List Bool}
    (h1 : pad.length < 8) (h2 : (pos + 3 + pad.length) % 8 = 0) (h3 : len.length = 16)
    (h4 : nlen.length = 16) (g1 : pad'.length < 8) (g2 : (pos + 3 + pad'.length) % 8 = 0)
    (g3 : len'.length = 16) (g4 : nlen'.length = 16)
    (he : pad ++ (len ++ (nlen ++ u)) = pad' ++ (len' ++ (nlen' ++ u'))) :
    len = len' ∧ u = u' := by
  obtain ⟨-, he⟩ := List.append_inj he (by omega)
  obtain ⟨h, he⟩ := List.append_inj he (by omega)
  obtain ⟨-, he⟩ := List.append_inj he (by omega)
  exact ⟨h, he⟩

theorem begun_along {pos : Nat} {out a b : Bytes} {w w' v v' : List Bool}
    (h : Begun pos out w a) (h' : Begun pos out w' b) (he : w ++ v = w' ++ v') : Along a b := by
  cases h with
  | stored bs h1 h2 h3 h4 h5 h6 =>
    cases h' with
    | stored bs' g1 g2 g3 g4 g5 g6 =>
      simp only [List.append_assoc, List.append_cancel_left_eq] at he
      obtain ⟨-, he⟩ := stored_fields h1 h2 h3 h4 g1 g2 g3 g4 he
      rw [bitsOf_iff] at h6 g6
      subst h6 g6
      exact along_append (bits_along he)
    | fixed g => simp at he
    | dynamic g1 g2 => simp at he
  | fixed h1 =>
    cases h' with
    | stored => simp at he
    | fixed g =>
      simp only [List.append_assoc, List.append_cancel_left_eq] at he
      exact someTokens_along h1 g he
    | dynamic g1 g2 => simp at he
  | dynamic h1 h2 =>
    cases h' with
    | stored => simp at he
    | fixed g => simp at he
    | @dynamic lit' dist' _ _ _ g1 g2 =>
      simp only [List.append_assoc, List.append_cancel_left_eq] at he
      obtain ⟨hc, -, he1⟩ := exact_codes.unique (a := (_, _)) (a' := (lit', dist')) h1 g1 he
      cases hc
      exact someTokens_along h2 g2 he1

theorem begun_within {pos : Nat} {out a b : Bytes} {w w' v v' : List Bool}
    (h : Begun pos out w a) (h' : Block pos out w' b) (he : w ++ v = w' ++ v') : a <+: b := by
  cases h with
  | stored bs h1 h2 h3 h4 h5 h6 =>
    cases h' with
    | stored bs' g1 g2 g3 g4 g5 g6 g7 =>
      simp only [List.append_assoc, List.append_cancel_left_eq] at he
      obtain ⟨rfl, he1⟩ := stored_fields h1 h2 h3 h4 g1 g2 g3 g4 he
      rw [bitsOf_iff] at h6 g7
      subst h6 g7
      rw [List.prefix_append_right_inj]
      rcases bits_along he1 with h | h
      · exact h
      · rw [h.eq_of_length (by have := h.length_le; omega)]
        exact List.prefix_rfl
    | fixed g => simp at he
    | dynamic g1 g2 => simp at he
  | fixed h1 =>
    cases h' with
    | stored => simp at he
    | fixed g =>
      simp only [List.append_assoc, List.append_cancel_left_eq] at he
      exact someTokens_within h1 g he
    | dynamic g1 g2 => simp at he
  | dynamic h1 h2 =>
    cases h' with
    | stored => simp at he
    | fixed g => simp at he
    | @dynamic lit' dist' _ _ _ g1 g2 =>
      simp only [List.append_assoc, List.append_cancel_left_eq] at he
      obtain ⟨hc, -, he1⟩ := exact_codes.unique (a := (_, _)) (a' := (lit', dist')) h1 g1 he
      cases hc
      exact someTokens_within h2 g2 he1

theorem someBlocks_grow {pos : Nat} {out a : Bytes} {w : List Bool}
    (h : SomeBlocks pos out w a) : out <+: a := by
  induction h with
  | here => exact List.prefix_rfl
  | block last hb _ ih => exact (block_grow hb).trans ih
  | stored last bs => exact List.prefix_append _ _
  | fixed last h => exact someTokens_grow h
  | dynamic last _ h => exact someTokens_grow h

/-- Nothing, a whole block and more, or the start of one. -/
theorem someBlocks_cases {pos : Nat} {out a : Bytes} {w : List Bool} (h : SomeBlocks pos out w a) :
    (w = [] ∧ a = out) ∨ (∃ last u mid v, w = last :: (u ++ v) ∧ Block pos out u mid ∧
      SomeBlocks (pos + 1 + u.length) mid v a) ∨ ∃ last u, w = last :: u ∧ Begun pos out u a := by
  cases h with
  | here => exact .inl ⟨rfl, rfl⟩
  | block last hb hr => exact .inr (.inl ⟨last, _, _, _, rfl, hb, hr⟩)
  | stored last bs h1 h2 h3 h4 h5 h6 =>
    exact .inr (.inr ⟨last, _, by simp, .stored bs h1 h2 h3 h4 h5 h6⟩)
  | fixed last h => exact .inr (.inr ⟨last, _, rfl, .fixed h⟩)
  | dynamic last h1 h2 => exact .inr (.inr ⟨last, _, by simp, .dynamic h1 h2⟩)

theorem someBlocks_along {pos : Nat} {out a b : Bytes} {w w' v v' : List Bool}
    (h : SomeBlocks pos out w a) (h' : SomeBlocks pos out w' b) (he : w ++ v = w' ++ v') :
    Along a b := by
  generalize hn : w.length = n
  induction n using Nat.strongRecOn generalizing pos out w w' with
  | ind n ih =>
    rcases someBlocks_cases h with ⟨rfl, rfl⟩ | ⟨l, u, mid, x, rfl, h1, h2⟩ | ⟨l, u, rfl, h1⟩
    · exact .inl (someBlocks_grow h')
    · rcases someBlocks_cases h' with ⟨rfl, rfl⟩ | ⟨l', u', mid', x', rfl, g1, g2⟩ |
        ⟨l', u', rfl, g1⟩
      · exact .inr (someBlocks_grow h)
      · simp only [List.cons_append, List.append_assoc, List.cons.injEq] at he
        obtain ⟨rfl, rfl, he'⟩ := block_unique h1 g1 he.2
        refine ih x.length ?_ h2 g2 he' rfl
        simp only [List.length_cons, List.length_append] at hn
        omega
      · simp only [List.cons_append, List.append_assoc, List.cons.injEq] at he
        exact .inr ((begun_within g1 h1 he.2.symm).trans (someBlocks_grow h2))
    · rcases someBlocks_cases h' with ⟨rfl, rfl⟩ | ⟨l', u', mid', x', rfl, g1, g2⟩ |
        ⟨l', u', rfl, g1⟩
      · exact .inr (someBlocks_grow h)
      · simp only [List.cons_append, List.append_assoc, List.cons.injEq] at he
        exact .inl ((begun_within h1 g1 he.2).trans (someBlocks_grow g2))
      · simp only [List.cons_append, List.cons.injEq] at he
        exact begun_along h1 g1 he.2

/-- Outputs for inputs of which one begins with the other. -/
theorem yields_along {input input' a b : Bytes} (h : Yields input a) (h' : Yields input' b)
    (hi : Along input input') : Along a b := by
  suffices hs : ∀ input input' a b : Bytes, Yields input a → Yields input' b →
      input <+: input' → Along a b by
    rcases hi with hi | hi
    · exact hs _ _ _ _ h h' hi
    · exact (hs _ _ _ _ h' h hi).symm
  intro input input' a b h h' hi
  rcases h with rfl | ⟨cmf, flg, body, w, v, out, rfl, h2, h3, h4⟩
  · exact .inl List.nil_prefix
  · rcases h' with rfl | ⟨cmf', flg', body', w', v', out', rfl, g2, g3, g4⟩
    · exact .inr List.nil_prefix
    · obtain ⟨t, ht⟩ := hi
      simp only [List.cons_append, List.cons.injEq] at ht
      obtain ⟨-, -, rfl⟩ := ht
      rw [bitsOf_iff] at h2 g2
      rw [bits_append, ← h2, List.append_assoc] at g2
      exact (someBlocks_along h3 g3 g2.symm).mono h4 g4

end Gvas.Zlib
