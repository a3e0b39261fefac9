import Verif.Model.Equality
import Verif.Lemmas.Feed
import Verif.Spec.Json
import Verif.Spec.Pairs

/-!
# Trees: equality is an equivalence relation
-/

namespace Gvas

open Spec

mutual
/-- All maps in a tree have distinct keys. -/
def Tree.Distinct : Tree → Prop
  | .leaf _ => True
  | .node l => DistinctList l
  | .list l => DistinctList l
  | .umap l => (l.map Prod.fst).Nodup ∧ DistinctMap l
/-- All maps in trees have distinct keys. -/
def DistinctList : List Tree → Prop
  | [] => True
  | t :: l => t.Distinct ∧ DistinctList l
/-- All maps in the values of a map have distinct keys. -/
def DistinctMap : List (List Tok × Tree) → Prop
  | [] => True
  | (_, t) :: l => t.Distinct ∧ DistinctMap l
end

theorem distinctMap_mem {l : List (List Tok × Tree)} (h : DistinctMap l) :
    ∀ e ∈ l, e.2.Distinct := by
  induction l with
  | nil => simp
  | cons e l ih =>
    obtain ⟨k, t⟩ := e
    simp only [DistinctMap] at h
    intro e he
    rcases List.mem_cons.mp he with rfl | he
    · exact h.1
    · exact ih h.2 e he

theorem eqvAll_iff (l m : List (List Tok × Tree)) :
    eqvAll l m = true ↔ ∀ e ∈ l, ∃ t, m.lookup e.1 = some t ∧ e.2.eqv t = true := by
  induction l with
  | nil => simp [eqvAll]
  | cons e l ih =>
    obtain ⟨k, t⟩ := e
    rw [eqvAll, Bool.and_eq_true, ih]
    constructor
    · rintro ⟨h1, h2⟩ e he
      rcases List.mem_cons.mp he with rfl | he
      · cases hm : m.lookup k with
        | none => rw [hm] at h1; cases h1
        | some t' => rw [hm] at h1; exact ⟨t', rfl, h1⟩
      · exact h2 e he
    · intro h
      refine ⟨?_, fun e he => h e (List.mem_cons_of_mem _ he)⟩
      obtain ⟨t', h1, h2⟩ := h (k, t) (List.mem_cons_self ..)
      simp only [] at h1 h2
      rw [h1]
      exact h2

theorem lookup_mem {κ ν : Type} [BEq κ] [LawfulBEq κ] {m : List (κ × ν)} {k : κ} {v : ν}
    (h : m.lookup k = some v) : (k, v) ∈ m := by
  induction m with
  | nil => simp at h
  | cons e m ih =>
    obtain ⟨k', v'⟩ := e
    rw [List.lookup_cons] at h
    split at h
    · rename_i hk
      have := eq_of_beq hk
      subst this
      cases h
      exact List.mem_cons_self ..
    · exact List.mem_cons_of_mem _ (ih h)

theorem lookup_of_mem {κ ν : Type} [BEq κ] [LawfulBEq κ] {m : List (κ × ν)} {k : κ} {v : ν}
    (hd : (m.map Prod.fst).Nodup) (h : (k, v) ∈ m) : m.lookup k = some v := by
  induction m with
  | nil => simp at h
  | cons e m ih =>
    obtain ⟨k', v'⟩ := e
    simp only [List.map_cons, List.nodup_cons] at hd
    rw [List.lookup_cons]
    rcases List.mem_cons.mp h with h1 | h1
    · cases h1; simp
    · have : k ≠ k' := by
        intro hk
        exact hd.1 (List.mem_map.mpr ⟨(k, v), h1, hk⟩)
      rw [show (k == k') = false from beq_false_of_ne this]
      exact ih hd.2 h1

/-- Two maps whose entries agree one by one after reordering. -/
theorem matching {κ ν : Type} [BEq κ] [LawfulBEq κ] (R : ν → ν → Prop) (l m : List (κ × ν))
    (hl : (l.map Prod.fst).Nodup) (hn : l.length = m.length)
    (h : ∀ e ∈ l, ∃ v, m.lookup e.1 = some v ∧ R e.2 v) :
    ∃ p, p.Perm m ∧ Pairs (fun a b : κ × ν => a.1 = b.1 ∧ R a.2 b.2) l p := by
  induction l generalizing m with
  | nil =>
    have : m = [] := List.length_eq_zero_iff.mp hn.symm
    subst this
    exact ⟨[], .refl _, .nil⟩
  | cons e l ih =>
    obtain ⟨k, v⟩ := e
    simp only [List.map_cons, List.nodup_cons] at hl
    obtain ⟨v', h1, h2⟩ := h (k, v) (List.mem_cons_self ..)
    obtain ⟨m1, m2, rfl⟩ := List.append_of_mem (lookup_mem h1)
    obtain ⟨p, hp, hq⟩ := ih (m1 ++ m2) hl.2 (by simp at hn ⊢; omega) (by
      intro e he
      obtain ⟨w, h3, h4⟩ := h e (List.mem_cons_of_mem _ he)
      refine ⟨w, ?_, h4⟩
      have hne : e.1 ≠ k := by
        rintro rfl
        exact hl.1 (List.mem_map.mpr ⟨e, he, rfl⟩)
      rw [← h3, List.lookup_append, List.lookup_append, List.lookup_cons,
        show (e.1 == k) = false from beq_false_of_ne hne])
    refine ⟨(k, v') :: p, ?_, .cons ⟨rfl, h2⟩ hq⟩
    exact ((List.Perm.cons _ hp).trans List.perm_middle.symm)

/-- The converse. -/
theorem matching_conv {κ ν : Type} [BEq κ] [LawfulBEq κ] (R : ν → ν → Prop) (l p m : List (κ × ν))
    (hm : (m.map Prod.fst).Nodup) (hp : p.Perm m)
    (h : Pairs (fun a b : κ × ν => a.1 = b.1 ∧ R a.2 b.2) l p) :
    l.length = m.length ∧ ∀ e ∈ l, ∃ v, m.lookup e.1 = some v ∧ R e.2 v := by
  refine ⟨?_, ?_⟩
  · rw [← hp.length_eq]
    clear hp
    induction h with
    | nil => rfl
    | cons _ _ ih => simp [ih]
  · have hsub : ∀ b ∈ p, b ∈ m := fun b hb => hp.mem_iff.mp hb
    clear hp
    induction h with
    | nil => simp
    | @cons a b as bs hab _ ih =>
      intro e he
      rcases List.mem_cons.mp he with rfl | he
      · refine ⟨b.2, ?_, hab.2⟩
        rw [hab.1]
        exact lookup_of_mem hm (hsub b (List.mem_cons_self ..))
      · exact ih (fun b hb => hsub b (List.mem_cons_of_mem _ hb)) e he

mutual
theorem Tree.eqv_refl : ∀ t : Tree, t.Distinct → t.eqv t = true
  | .leaf a, _ => by simp [Tree.eqv]
  | .node l, h => by rw [Tree.eqv]; exact eqvList_refl l h
  | .list l, h => by rw [Tree.eqv]; exact eqvList_refl l h
  | .umap l, h => by
    rw [Tree.eqv]
    simp only [Tree.Distinct] at h
    rw [Bool.and_eq_true, eqvAll_iff]
    exact ⟨by simp, fun e he => ⟨e.2, lookup_of_mem h.1 he, eqvMap_refl l h.2 e he⟩⟩
theorem eqvList_refl : ∀ l : List Tree, DistinctList l → eqvList l l = true
  | [], _ => rfl
  | t :: l, h => by
    rw [eqvList, Tree.eqv_refl t h.1, eqvList_refl l h.2]; rfl
theorem eqvMap_refl : ∀ l : List (List Tok × Tree), DistinctMap l → ∀ e ∈ l, e.2.eqv e.2 = true
  | [], _, e, he => by simp at he
  | (k, t) :: l, h, e, he => by
    rcases List.mem_cons.mp he with he | he
    · rw [he]; exact Tree.eqv_refl t h.1
    · exact eqvMap_refl l h.2 e he
end

/-- If every entry of `l` is in `m` and both have equally many distinct keys, then every key of `m`
is in `l`. -/
theorem keys_back {κ ν : Type} [BEq κ] [LawfulBEq κ] (R : ν → ν → Prop) {l m : List (κ × ν)}
    (hl : (l.map Prod.fst).Nodup) (hn : l.length = m.length)
    (h : ∀ e ∈ l, ∃ v, m.lookup e.1 = some v ∧ R e.2 v) :
    ∀ b ∈ m, ∃ v, l.lookup b.1 = some v ∧ R v b.2 := by
  obtain ⟨p, hp, hq⟩ := matching R l m hl hn h
  intro b hb
  have hb := hp.mem_iff.mpr hb
  have : ∃ a ∈ l, a.1 = b.1 ∧ R a.2 b.2 := by
    clear h hn hp hl
    induction hq with
    | nil => simp at hb
    | @cons a b' as bs hab _ ih =>
      rcases List.mem_cons.mp hb with rfl | hb
      · exact ⟨a, List.mem_cons_self .., hab⟩
      · obtain ⟨a', h1, h2⟩ := ih hb
        exact ⟨a', List.mem_cons_of_mem _ h1, h2⟩
  obtain ⟨a, ha, hk, hr⟩ := this
  exact ⟨a.2, by rw [← hk]; exact lookup_of_mem hl ha, hr⟩

mutual
theorem Tree.eqv_symm : ∀ a b : Tree, a.Distinct → b.Distinct → a.eqv b = true → b.eqv a = true
  | .leaf a, b, _, _, h => by
    cases b <;> simp_all [Tree.eqv]
  | .node l, b, ha, hb, h => by
    cases b <;> simp only [Tree.eqv] at h ⊢ <;> try cases h
    exact eqvList_symm l _ ha hb h
  | .list l, b, ha, hb, h => by
    cases b <;> simp only [Tree.eqv] at h ⊢ <;> try cases h
    exact eqvList_symm l _ ha hb h
  | .umap l, b, ha, hb, h => by
    cases b with
    | umap m =>
      simp only [Tree.eqv, Bool.and_eq_true, beq_iff_eq, eqvAll_iff] at h ⊢
      refine ⟨h.1.symm, fun b hb' => ?_⟩
      obtain ⟨v, h1, h2⟩ := keys_back (fun a b => Tree.eqv a b = true) ha.1 h.1 h.2 b hb'
      exact ⟨v, h1, eqvMap_symm l ha.2 _ (lookup_mem h1) b.2 (distinctMap_mem hb.2 b hb') h2⟩
    | _ => simp [Tree.eqv] at h
theorem eqvList_symm : ∀ l m : List Tree, DistinctList l → DistinctList m →
    eqvList l m = true → eqvList m l = true
  | [], m, _, _, h => by cases m <;> simp_all [eqvList]
  | t :: l, m, hl, hm, h => by
    cases m with
    | nil => simp [eqvList] at h
    | cons u m =>
      simp only [eqvList, Bool.and_eq_true] at h ⊢
      exact ⟨Tree.eqv_symm t u hl.1 hm.1 h.1, eqvList_symm l m hl.2 hm.2 h.2⟩
theorem eqvMap_symm : ∀ l : List (List Tok × Tree), DistinctMap l → ∀ e ∈ l, ∀ b : Tree,
    b.Distinct → e.2.eqv b = true → b.eqv e.2 = true
  | [], _, e, he, _, _, _ => by simp at he
  | (k, t) :: l, h, e, he, b, hb, heq => by
    rcases List.mem_cons.mp he with he | he
    · rw [he] at heq ⊢; exact Tree.eqv_symm t b h.1 hb heq
    · exact eqvMap_symm l h.2 e he b hb heq
end

mutual
theorem Tree.eqv_trans : ∀ a b c : Tree, a.eqv b = true → b.eqv c = true → a.eqv c = true
  | .leaf a, b, c, h1, h2 => by
    cases b <;> simp only [Tree.eqv] at h1 <;> try cases h1
    cases c <;> simp_all [Tree.eqv]
  | .node l, b, c, h1, h2 => by
    cases b <;> simp only [Tree.eqv] at h1 <;> try cases h1
    cases c <;> simp only [Tree.eqv] at h2 ⊢ <;> try cases h2
    exact eqvList_trans l _ _ h1 h2
  | .list l, b, c, h1, h2 => by
    cases b <;> simp only [Tree.eqv] at h1 <;> try cases h1
    cases c <;> simp only [Tree.eqv] at h2 ⊢ <;> try cases h2
    exact eqvList_trans l _ _ h1 h2
  | .umap l, b, c, h1, h2 => by
    cases b with
    | umap m =>
      cases c with
      | umap n =>
        simp only [Tree.eqv, Bool.and_eq_true, beq_iff_eq, eqvAll_iff] at h1 h2 ⊢
        refine ⟨h1.1.trans h2.1, fun e he => ?_⟩
        obtain ⟨v, h3, h4⟩ := h1.2 e he
        obtain ⟨w, h5, h6⟩ := h2.2 (e.1, v) (lookup_mem h3)
        exact ⟨w, h5, eqvMap_trans l e he v w h4 h6⟩
      | _ => simp [Tree.eqv] at h2
    | _ => simp [Tree.eqv] at h1
theorem eqvList_trans : ∀ l m n : List Tree, eqvList l m = true → eqvList m n = true →
    eqvList l n = true
  | [], m, n, h1, h2 => by
    cases m <;> simp only [eqvList] at h1 <;> try cases h1
    cases n <;> simp_all [eqvList]
  | t :: l, m, n, h1, h2 => by
    cases m with
    | nil => simp [eqvList] at h1
    | cons u m =>
      cases n with
      | nil => simp [eqvList] at h2
      | cons w n =>
        simp only [eqvList, Bool.and_eq_true] at h1 h2 ⊢
        exact ⟨Tree.eqv_trans t u w h1.1 h2.1, eqvList_trans l m n h1.2 h2.2⟩
theorem eqvMap_trans : ∀ l : List (List Tok × Tree), ∀ e ∈ l, ∀ b c : Tree,
    e.2.eqv b = true → b.eqv c = true → e.2.eqv c = true
  | [], e, he, _, _, _, _ => by simp at he
  | (k, t) :: l, e, he, b, c, h1, h2 => by
    rcases List.mem_cons.mp he with he | he
    · rw [he] at h1 ⊢; exact Tree.eqv_trans t b c h1 h2
    · exact eqvMap_trans l e he b c h1 h2
end

end Gvas
