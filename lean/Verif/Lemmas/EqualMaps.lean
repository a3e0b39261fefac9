import Verif.Lemmas.EqualOrder

/-!
# Equal maps are reorderings of each other
-/

namespace Gvas

open Spec

theorem matchingBy {α β κ : Type} (ka : α → κ) (kb : β → κ) (R : α → β → Prop) (l : List α)
    (m : List β) (hl : (l.map ka).Nodup) (hn : l.length = m.length)
    (h : ∀ a ∈ l, ∃ b ∈ m, ka a = kb b ∧ R a b) :
    ∃ p, p.Perm m ∧ Pairs (fun a b => ka a = kb b ∧ R a b) l p := by
  induction l generalizing m with
  | nil =>
    have : m = [] := List.length_eq_zero_iff.mp hn.symm
    subst this
    exact ⟨[], .refl _, .nil⟩
  | cons a l ih =>
    simp only [List.map_cons, List.nodup_cons] at hl
    obtain ⟨b, hb, hk, hr⟩ := h a (List.mem_cons_self ..)
    obtain ⟨m1, m2, rfl⟩ := List.append_of_mem hb
    obtain ⟨p, hp, hq⟩ := ih (m1 ++ m2) hl.2 (by simp at hn ⊢; omega) (by
      intro a' ha'
      obtain ⟨b', hb', hk', hr'⟩ := h a' (List.mem_cons_of_mem _ ha')
      refine ⟨b', ?_, hk', hr'⟩
      simp only [List.mem_append, List.mem_cons] at hb' ⊢
      rcases hb' with hb' | rfl | hb'
      · exact .inl hb'
      · exact absurd (List.mem_map.mpr ⟨a', ha', hk'.trans hk.symm⟩) hl.1
      · exact .inr hb')
    exact ⟨b :: p, ((List.Perm.cons _ hp).trans List.perm_middle.symm), .cons ⟨hk, hr⟩ hq⟩

theorem pairs_mem {α β : Type} {r : α → β → Prop} {l : List α} {p : List β} (h : Pairs r l p) :
    l.length = p.length ∧ ∀ a ∈ l, ∃ b ∈ p, r a b := by
  induction h with
  | nil => simp
  | @cons a b as bs hab _ ih =>
    refine ⟨by simp [ih.1], fun a' ha' => ?_⟩
    rcases List.mem_cons.mp ha' with rfl | ha'
    · exact ⟨b, List.mem_cons_self .., hab⟩
    · obtain ⟨b', h1, h2⟩ := ih.2 a' ha'
      exact ⟨b', List.mem_cons_of_mem _ h1, h2⟩

theorem pairs_imp {α β : Type} {r s : α → β → Prop} {l : List α} {p : List β}
    (hrs : ∀ a b, r a b → s a b) (h : Pairs r l p) : Pairs s l p := by
  induction h with
  | nil => exact .nil
  | cons hab _ ih => exact .cons (hrs _ _ hab) ih

theorem umap_iff {α β : Type} (ka : α → List Tok) (kb : β → List Tok) (ta : α → Tree)
    (tb : β → Tree) (l : List α) (m : List β) (hl : (l.map ka).Nodup) (hm : (m.map kb).Nodup) :
    (Tree.umap (l.map fun e => (ka e, ta e))).eqv (.umap (m.map fun e => (kb e, tb e))) = true ↔
      ∃ p, p.Perm m ∧ Pairs (fun a b => ka a = kb b ∧ (ta a).eqv (tb b) = true) l p := by
  simp only [Tree.eqv, Bool.and_eq_true, beq_iff_eq, List.length_map, eqvAll_iff]
  constructor
  · rintro ⟨hn, h⟩
    refine matchingBy ka kb (fun a b => (ta a).eqv (tb b) = true) l m hl hn fun a ha => ?_
    obtain ⟨t, h1, h2⟩ := h _ (List.mem_map.mpr ⟨a, ha, rfl⟩)
    obtain ⟨b, hb, e⟩ := List.mem_map.mp (lookup_mem h1)
    simp only [Prod.mk.injEq] at e
    exact ⟨b, hb, e.1.symm, e.2 ▸ h2⟩
  · rintro ⟨p, hp, hq⟩
    obtain ⟨h1, h2⟩ := pairs_mem hq
    refine ⟨h1.trans hp.length_eq, fun e he => ?_⟩
    obtain ⟨a, ha, rfl⟩ := List.mem_map.mp he
    obtain ⟨b, hb, hk, hr⟩ := h2 a ha
    refine ⟨tb b, ?_, hr⟩
    refine lookup_of_mem (by simpa [List.map_map, Function.comp_def] using hm) ?_
    exact List.mem_map.mpr ⟨b, hp.mem_iff.mp hb, by rw [hk]⟩

theorem treeStrProps_map (l : List (String × Property)) :
    treeStrProps l = l.map fun e => ([Tok.s e.1], e.2.tree) := by
  induction l with
  | nil => rfl
  | cons e l ih => rw [treeStrProps, ih]; rfl

theorem treeKeys_map (l : List (Property × Property)) : treeKeys l = l.map fun e => e.1.tree := by
  induction l with
  | nil => rfl
  | cons e l ih => rw [treeKeys, ih]; rfl

theorem treePairs_map (l : List (Property × Property)) :
    treePairs l = l.map fun e => (e.1.feed, e.2.tree) := by
  induction l with
  | nil => rfl
  | cons e l ih => rw [treePairs, ih]; rfl

theorem treeFields_map (l : List (String × List Property)) :
    treeFields l = l.map fun e => ([Tok.s e.1], Tree.list (treeProps e.2)) := by
  induction l with
  | nil => rfl
  | cons e l ih => rw [treeFields, ih]; rfl

theorem strProps_iff {l m : List (String × Property)} (hl : KeysDistinct l)
    (hm : KeysDistinct m) :
    (Tree.umap (treeStrProps l)).eqv (.umap (treeStrProps m)) = true ↔
      ∃ p, p.Perm m ∧ Pairs (fun a b => a.1 = b.1 ∧ a.2.eqv b.2 = true) l p := by
  rw [treeStrProps_map, treeStrProps_map, umap_iff]
  · constructor <;> rintro ⟨p, hp, hq⟩ <;> refine ⟨p, hp, pairs_imp ?_ hq⟩ <;>
      rintro a b ⟨h1, h2⟩ <;> exact ⟨by simpa using h1, h2⟩
  · have := nodup_str hl; rwa [List.map_map] at this
  · have := nodup_str hm; rwa [List.map_map] at this

theorem props_iff (l m : List Property) : eqvList (treeProps l) (treeProps m) = true ↔
    Pairs (fun a b => a.eqv b = true) l m := by
  induction l generalizing m with
  | nil =>
    cases m with
    | nil => exact ⟨fun _ => .nil, fun _ => rfl⟩
    | cons b m => exact ⟨fun h => by simp [treeProps, eqvList] at h, fun h => by cases h⟩
  | cons a l ih =>
    cases m with
    | nil => exact ⟨fun h => by simp [treeProps, eqvList] at h, fun h => by cases h⟩
    | cons b m =>
      rw [treeProps, treeProps, eqvList_cons_iff, ih]
      exact ⟨fun h => .cons h.1 h.2, fun h => by cases h with | cons h1 h2 => exact ⟨h1, h2⟩⟩

theorem guid_key_inj {a b : Guid} (h : a.bytes.map (fun b => Tok.n b.toNat) =
    b.bytes.map fun b => Tok.n b.toNat) : a = b :=
  (guidFeed_inj (r := []) (r' := []) (by rw [h])).1

theorem pairs_eq {α : Type} {l p : List α} (h : Pairs (fun a b => a = b) l p) : l = p := by
  induction h with
  | nil => rfl
  | cons hab _ ih => rw [hab, ih]

theorem pairs_refl {α : Type} {r : α → α → Prop} (h : ∀ a, r a a) : ∀ l : List α, Pairs r l l
  | [] => .nil
  | a :: l => .cons (h a) (pairs_refl h l)

theorem pairs_self {α : Type} {r : α → α → Prop} : ∀ l : List α, (∀ a ∈ l, r a a) → Pairs r l l
  | [], _ => .nil
  | a :: l, h => .cons (h a (List.mem_cons_self ..))
      (pairs_self l fun b hb => h b (List.mem_cons_of_mem _ hb))

theorem versions_iff {l m : List (Guid × UInt32)} (hl : (l.map Prod.fst).Nodup)
    (hm : (m.map Prod.fst).Nodup) : (treeVersions l).eqv (treeVersions m) = true ↔ l.Perm m := by
  have hnd : ∀ l : List (Guid × UInt32), (l.map Prod.fst).Nodup →
      (l.map fun e => e.1.bytes.map (fun b => Tok.n b.toNat)).Nodup := fun l h => by
    have := nodup_inj (fun g : Guid => g.bytes.map (fun b => Tok.n b.toNat))
      (fun _ _ h => guid_key_inj h) h
    rwa [List.map_map] at this
  rw [treeVersions, treeVersions, umap_iff _ _ _ _ _ _ (hnd l hl) (hnd m hm)]
  constructor
  · rintro ⟨p, hp, hq⟩
    have : l = p := pairs_eq (pairs_imp (fun a b h => ?_) hq)
    · rw [this]; exact hp
    · obtain ⟨a1, a2⟩ := a
      obtain ⟨b1, b2⟩ := b
      have h1 := guid_key_inj h.1
      have h2 := (eqv_leaf_iff _ _).mp h.2
      simp only [List.cons.injEq, Tok.n.injEq, and_true, UInt32.toNat_inj] at h1 h2
      rw [h1, h2]
  · intro h
    exact ⟨l, h, pairs_refl (fun a => ⟨rfl, by rw [eqv_leaf_iff]⟩) l⟩

theorem engine_feed_inj {a b : FEngineVersion} (h : a.feed = b.feed) : a = b := by
  cases a; cases b
  simp only [FEngineVersion.feed, List.cons.injEq, Tok.n.injEq, Tok.s.injEq, UInt16.toNat_inj,
    UInt32.toNat_inj, and_true] at h
  simp [h]

theorem game_feed_inj {a b : DeserializedGameVersion} (h : a.feed = b.feed) : a = b := by
  revert h
  cases a with
  | default => cases b <;> simp [DeserializedGameVersion.feed]
  | palworld c =>
    cases b with
    | default => simp [DeserializedGameVersion.feed]
    | palworld c' => cases c <;> cases c' <;> decide

end Gvas
