import Verif.Spec.LastWins
import Verif.Lemmas.IndexMap

/-! # `imExtend` collapses repeated keys -/

namespace Gvas

open Spec

variable {κ ν : Type} {same : κ → κ → Bool}

theorem Equiv.comm (h : Equiv same) (a b : κ) : same a b = same b a := by
  cases h1 : same a b with
  | true => exact (h.symm _ _ h1).symm
  | false =>
    cases h2 : same b a with
    | true => rw [h.symm _ _ h2] at h1; cases h1
    | false => rfl

theorem firsts_any (h : Equiv same) (l : List κ) (k : κ) :
    (firsts same l).any (same · k) = l.any (same · k) := by
  induction l with
  | nil => rfl
  | cons a l ih =>
    simp only [firsts, List.any_cons, List.any_filter]
    cases ha : same a k with
    | true => rfl
    | false =>
      simp only [Bool.false_or]
      rw [← ih]
      congr 1
      funext x
      cases hxk : same x k with
      | false => simp
      | true =>
        have : same a x = false := by
          cases hax : same a x with
          | false => rfl
          | true => rw [h.trans _ _ _ hax hxk] at ha; cases ha
        simp [this]

theorem firsts_concat (h : Equiv same) (l : List κ) (k : κ) :
    firsts same (l ++ [k]) =
      if l.any (same · k) then firsts same l else firsts same l ++ [k] := by
  induction l with
  | nil => rfl
  | cons a l ih =>
    simp only [List.cons_append, firsts, List.any_cons, ih]
    by_cases ha : same a k = true
    · simp only [ha, Bool.true_or, if_true]
      split
      · rfl
      · rw [List.filter_append]; simp [ha]
    · simp only [ha, Bool.false_or]
      split
      · rfl
      · rw [List.filter_append]; simp [ha]

theorem firsts_pairwise (l : List κ) :
    (firsts same l).Pairwise fun a b => same a b = false := by
  induction l with
  | nil => exact List.Pairwise.nil
  | cons a l ih =>
    simp only [firsts, List.pairwise_cons, List.mem_filter]
    exact ⟨fun x hx => by simpa using hx.2, ih.filter _⟩

theorem imInsert_mem' {k : κ} {v : ν} {m : List (κ × ν)} {e : κ × ν} (heq : Equiv same)
    (hp : (m.map Prod.fst).Pairwise fun a b => same a b = false)
    (h : e ∈ imInsert same k v m) :
    (e ∈ m ∧ same e.1 k = false) ∨ (e.2 = v ∧ same e.1 k = true) := by
  induction m with
  | nil => simp [imInsert] at h; subst h; exact .inr ⟨rfl, heq.refl _⟩
  | cons x m ih =>
    obtain ⟨k', v'⟩ := x
    simp only [List.map_cons, List.pairwise_cons, List.mem_map] at hp
    simp only [imInsert] at h
    split at h
    · rename_i hs
      rcases List.mem_cons.mp h with rfl | h
      · exact .inr ⟨rfl, hs⟩
      · refine .inl ⟨by simp [h], ?_⟩
        have := hp.1 e.1 ⟨e, h, rfl⟩
        cases hek : same e.1 k with
        | false => rfl
        | true => rw [heq.trans _ _ _ hs (heq.symm _ _ hek)] at this; cases this
    · rename_i hs
      rcases List.mem_cons.mp h with rfl | h
      · exact .inl ⟨by simp, by simpa using hs⟩
      · rcases ih hp.2 h with h | h
        · exact .inl ⟨by simp [h.1], h.2⟩
        · exact .inr h

theorem lastWins_concat (heq : Equiv same) {es m : List (κ × ν)} (h : LastWins same es m)
    (k : κ) (v : ν) : LastWins same (es ++ [(k, v)]) (imInsert same k v m) := by
  constructor
  · rw [imInsert_keys, List.map_append, h.keys, List.map_cons, List.map_nil, firsts_concat heq]
    have : (m.any fun e => same e.1 k) = (es.map Prod.fst).any (same · k) := by
      rw [← firsts_any heq, ← h.keys, List.any_map]; rfl
    rw [this]
  · intro k' v' hm
    have hp : (m.map Prod.fst).Pairwise fun a b => same a b = false := by
      rw [h.keys]; exact firsts_pairwise _
    rcases imInsert_mem' heq hp hm with ⟨hm, hs⟩ | ⟨hv, hs⟩
    · obtain ⟨pre, k2, post, he, h2, h3⟩ := h.last k' v' hm
      refine ⟨pre, k2, post ++ [(k, v)], by simp [he], h2, ?_⟩
      intro e hmem
      rcases List.mem_append.mp hmem with hmem | hmem
      · exact h3 e hmem
      · simp only [List.mem_singleton] at hmem
        subst hmem
        rw [Equiv.comm heq]; exact hs
    · simp only [] at hv hs
      subst hv
      exact ⟨es, k, [], by simp, heq.symm _ _ hs, by simp⟩

theorem lastWins_extend (heq : Equiv same) {es m : List (κ × ν)} (h : LastWins same es m)
    (es' : List (κ × ν)) : LastWins same (es ++ es') (imExtend same m es') := by
  induction es' generalizing es m with
  | nil => simpa [imExtend] using h
  | cons e es' ih =>
    have := ih (lastWins_concat heq h e.1 e.2)
    simpa [imExtend] using this

theorem lastWins_imExtend (heq : Equiv same) (es : List (κ × ν)) :
    LastWins same es (imExtend same [] es) := by
  have : LastWins same ([] : List (κ × ν)) [] := ⟨rfl, fun _ _ h => by simp at h⟩
  simpa using lastWins_extend heq this es

/-- Collapsed entries have pairwise different keys. -/
theorem LastWins.pairwise {es m : List (κ × ν)} (h : LastWins same es m) :
    (m.map Prod.fst).Pairwise fun a b => same a b = false := by
  rw [h.keys]; exact firsts_pairwise _

theorem equiv_beq {α : Type} [BEq α] [LawfulBEq α] : Equiv (fun a b : α => a == b) :=
  ⟨fun a => by simp, fun a b h => by simp_all, fun a b c h h' => by simp_all⟩

theorem equiv_decide {α : Type} [DecidableEq α] : Equiv (fun a b : α => decide (a = b)) :=
  ⟨fun a => by simp, fun a b h => by simp_all, fun a b c h h' => by simp_all⟩

theorem firsts_length (same : κ → κ → Bool) (l : List κ) : (firsts same l).length ≤ l.length := by
  induction l with
  | nil => simp [firsts]
  | cons k l ih =>
    rw [firsts, List.length_cons, List.length_cons]
    have := List.length_filter_le (fun k' => !same k k') (firsts same l)
    omega

/-- Collapsing determines the result: position, key and value of every entry. -/
theorem lastWins_unique {es m m' : List (κ × ν)}
    (h : LastWins same es m) (h' : LastWins same es m') : m = m' := by
  have hval : ∀ k v v', (k, v) ∈ m → (k, v') ∈ m' → v = v' := by
    intro k v v' hm hm'
    obtain ⟨pre, k1, post, e1, s1, p1⟩ := h.last k v hm
    obtain ⟨pre', k2, post', e2, s2, p2⟩ := h'.last k v' hm'
    have key : ∀ (pre pre' post post' : List (κ × ν)) (k1 k2 : κ) (v v' : ν),
        pre ++ (k1, v) :: post = pre' ++ (k2, v') :: post' → same k1 k = true → same k2 k = true →
        (∀ e ∈ post, same e.1 k = false) → (∀ e ∈ post', same e.1 k = false) → v = v' := by
      intro pre
      induction pre with
      | nil =>
        intro pre' post post' k1 k2 v v' e s1 s2 p1 p2
        cases pre' with
        | nil => simp only [List.nil_append, List.cons.injEq, Prod.mk.injEq] at e; exact e.1.2
        | cons x pre' =>
          simp only [List.nil_append, List.cons_append, List.cons.injEq] at e
          have := p1 (k2, v') (by rw [e.2]; simp)
          simp_all
      | cons y pre ih =>
        intro pre' post post' k1 k2 v v' e s1 s2 p1 p2
        cases pre' with
        | nil =>
          simp only [List.nil_append, List.cons_append, List.cons.injEq] at e
          have := p2 (k1, v) (by rw [← e.2]; simp)
          simp_all
        | cons x pre' =>
          simp only [List.cons_append, List.cons.injEq] at e
          exact ih _ _ _ _ _ _ _ e.2 s1 s2 p1 p2
    exact key _ _ _ _ _ _ _ _ (e1.symm.trans e2) s1 s2 p1 p2
  have hk : m.map Prod.fst = m'.map Prod.fst := by rw [h.keys, h'.keys]
  clear h h'
  induction m generalizing m' with
  | nil => cases m' with
    | nil => rfl
    | cons => simp at hk
  | cons e m ih =>
    cases m' with
    | nil => simp at hk
    | cons e' m' =>
      simp only [List.map_cons, List.cons.injEq] at hk
      obtain ⟨k, v⟩ := e
      obtain ⟨k', v'⟩ := e'
      obtain ⟨rfl, hk⟩ := hk
      rw [hval k v v' (by simp) (by simp), ih (fun k v v' h1 h2 => hval k v v' (by simp [h1]) (by simp [h2])) hk]

end Gvas
