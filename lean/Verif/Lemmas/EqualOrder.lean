import Verif.Lemmas.EqualTree

/-!
# Equal values whose maps are in the same order
-/

namespace Gvas

open Spec

theorem eqv_leaf {ts : List Tok} {t : Tree} (h : (Tree.leaf ts).eqv t = true) : t = .leaf ts := by
  cases t <;> simp [Tree.eqv] at h
  rw [h]

theorem eqv_node_iff (l m : List Tree) : (Tree.node l).eqv (.node m) = eqvList l m := by
  rw [Tree.eqv]
theorem eqv_list_iff (l m : List Tree) : (Tree.list l).eqv (.list m) = eqvList l m := by
  rw [Tree.eqv]
theorem eqv_leaf_iff (l m : List Tok) : (Tree.leaf l).eqv (.leaf m) = true ↔ l = m := by
  rw [Tree.eqv, beq_iff_eq]
theorem eqvList_cons_iff (a b : Tree) (l m : List Tree) :
    eqvList (a :: l) (b :: m) = true ↔ a.eqv b = true ∧ eqvList l m = true := by
  rw [eqvList, Bool.and_eq_true]

theorem eqvList_nil : eqvList [] [] = true := rfl

theorem umap_pos {l m : List (List Tok × Tree)} (hm : (m.map Prod.fst).Nodup)
    (hk : l.map Prod.fst = m.map Prod.fst)
    (h : ∀ e ∈ l, ∃ t, m.lookup e.1 = some t ∧ e.2.eqv t = true) :
    eqvList (l.map Prod.snd) (m.map Prod.snd) = true := by
  induction l generalizing m with
  | nil => cases m <;> simp_all [eqvList]
  | cons e l ih =>
    cases m with
    | nil => simp at hk
    | cons e' m =>
      obtain ⟨k, t⟩ := e
      obtain ⟨k', t'⟩ := e'
      simp only [List.map_cons, List.cons.injEq] at hk
      obtain ⟨rfl, hk⟩ := hk
      simp only [List.map_cons, List.nodup_cons] at hm
      simp only [List.map_cons, eqvList, Bool.and_eq_true]
      refine ⟨?_, ih hm.2 hk fun e he => ?_⟩
      · obtain ⟨u, h1, h2⟩ := h (k, t) (List.mem_cons_self ..)
        simp at h1
        rw [h1]; exact h2
      · obtain ⟨u, h1, h2⟩ := h e (List.mem_cons_of_mem _ he)
        refine ⟨u, ?_, h2⟩
        rw [List.lookup_cons] at h1
        have hne : e.1 ≠ k := by
          rintro rfl
          exact hm.1 (hk ▸ List.mem_map.mpr ⟨e, he, rfl⟩)
        rwa [show (e.1 == k) = false from beq_false_of_ne hne] at h1

theorem umap_order {l m : List (List Tok × Tree)} (hm : (m.map Prod.fst).Nodup)
    (hk : l.map Prod.fst = m.map Prod.fst) (h : (Tree.umap l).eqv (.umap m) = true) :
    eqvList (l.map Prod.snd) (m.map Prod.snd) = true := by
  simp only [Tree.eqv, Bool.and_eq_true, eqvAll_iff] at h
  exact umap_pos hm hk h.2

theorem strKeys_eq {α β : Type} {l : List (String × α)} {m : List (String × β)}
    (h : strKeys l = strKeys m) : l.map Prod.fst = m.map Prod.fst := by
  have := congrArg (List.map (Sum.elim id fun _ : Property => "")) h
  simpa [strKeys, List.map_map, Function.comp_def] using this

theorem propKeys_eq {l m : List (Property × Property)} (h : propKeys l = propKeys m) :
    (treePairs l).map Prod.fst = (treePairs m).map Prod.fst := by
  rw [treePairs_keys, treePairs_keys]
  have := congrArg (List.map (Sum.elim (fun _ : String => []) Property.feed)) h
  simpa [propKeys, List.map_map, Function.comp_def, Property.feed_norm] using this

theorem propKeys_trees {l m : List (Property × Property)} (h : propKeys l = propKeys m) :
    treeKeys l = treeKeys m := by
  have e : ∀ l, treeKeys l = l.map fun e => (norm e.1).tree := by
    intro l
    induction l with
    | nil => rfl
    | cons e l ih => rw [treeKeys, ih, List.map_cons, prop_norm]
  rw [e, e]
  have := congrArg (List.map (Sum.elim (fun _ : String => Tree.leaf []) Property.tree)) h
  simpa [propKeys, List.map_map, Function.comp_def] using this

theorem pairTree_order {ks : List Tree} {l m : List (List Tok × Tree)}
    (hm : (m.map Prod.fst).Nodup) (hk : l.map Prod.fst = m.map Prod.fst)
    (h : (pairTree ks l).eqv (pairTree ks m) = true) :
    eqvList (l.map Prod.snd) (m.map Prod.snd) = true := by
  have hn : l.length = m.length := by simpa using congrArg List.length hk
  rcases ks with _ | ⟨k, _ | ⟨k', ks⟩⟩
  · exact umap_order hm hk h
  · rcases l with _ | ⟨a, _ | ⟨a', l⟩⟩ <;> rcases m with _ | ⟨b, _ | ⟨b', m⟩⟩ <;>
      simp only [List.length_cons, List.length_nil] at hn <;> try omega
    · rfl
    · simp only [pairTree, eqv_node_iff, eqvList_cons_iff] at h
      simp only [List.map_cons, List.map_nil, eqvList_cons_iff, eqvList_nil, and_true]
      exact h.2.2.1
    · exact umap_order hm hk h
  · exact umap_order hm hk h

theorem leafMap_order {α : Type} (f : α → List Tok) {l m : List (String × α)}
    (hm : KeysDistinct m) (hk : strKeys l = strKeys m)
    (h : (Tree.umap (l.map fun e => ([Tok.s e.1], Tree.leaf (f e.2)))).eqv
      (.umap (m.map fun e => ([Tok.s e.1], Tree.leaf (f e.2)))) = true) :
    (l.map fun e => ([Tok.s e.1], Tree.leaf (f e.2))) =
      m.map fun e => ([Tok.s e.1], Tree.leaf (f e.2)) := by
  replace hk := strKeys_eq hk
  have hv := umap_order (by rw [leaf_keys]; exact nodup_str hm)
    (by rw [leaf_keys, leaf_keys, hk]) h
  clear h hm
  induction l generalizing m with
  | nil => cases m <;> simp_all
  | cons e l ih =>
    cases m with
    | nil => simp at hk
    | cons e' m =>
      simp only [List.map_cons, List.cons.injEq] at hk
      simp only [List.map_cons, eqvList, Bool.and_eq_true, Tree.eqv, beq_iff_eq] at hv
      simp only [List.map_cons]
      rw [ih hk.2 hv.2, hk.1, hv.1]

mutual
theorem text_order : ∀ a b : FText, TextMaps b → textKeys a = textKeys b →
    a.tree.eqv b.tree = true → a.tree = b.tree
  | .mk f h, .mk f' h', hb, hk, he => by
    simp only [FText.tree, Tree.eqv, eqvList, Bool.and_eq_true, beq_iff_eq] at he ⊢
    rw [history_order h h' hb hk he.2.1, he.1]
theorem history_order : ∀ a b : FTextHistory, HistoryMaps b → historyKeys a = historyKeys b →
    a.tree.eqv b.tree = true → a.tree = b.tree
  | .empty, b, _, _, h => by rw [eqv_leaf h]; rfl
  | .none .., b, _, _, h => by rw [eqv_leaf h]; rfl
  | .base .., b, _, _, h => by rw [eqv_leaf h]; rfl
  | .asDate .., b, _, _, h => by rw [eqv_leaf h]; rfl
  | .asTime .., b, _, _, h => by rw [eqv_leaf h]; rfl
  | .asDateTime .., b, _, _, h => by rw [eqv_leaf h]; rfl
  | .stringTableEntry .., b, _, _, h => by rw [eqv_leaf h]; rfl
  | .namedFormat src args, b, hb, hk, he => by
    cases b <;> simp [FTextHistory.tree, Tree.eqv, eqvList] at he ⊢
    rename_i src' args'
    simp only [historyKeys, Keys.mk.injEq, List.cons.injEq] at hk
    refine ⟨text_order src _ hb.1 hk.2.1 he.1, named_order args args' hb.2.2 (strKeys_eq hk.1)
      hk.2.2 ?_⟩
    refine umap_order ?_ ?_ (by simpa [Tree.eqv] using he.2)
    · rw [treeNamedArgs_keys]; exact nodup_str hb.2.1
    · rw [treeNamedArgs_keys, treeNamedArgs_keys, strKeys_eq hk.1]
  | .argumentFormat src args, b, hb, hk, he => by
    cases b <;> simp [FTextHistory.tree, Tree.eqv, eqvList] at he ⊢
    rename_i src' args'
    simp only [historyKeys, Keys.mk.injEq, List.cons.injEq] at hk
    refine ⟨text_order src _ hb.1 hk.2.1 he.1, named_order args args' hb.2.2 (strKeys_eq hk.1)
      hk.2.2 ?_⟩
    refine umap_order ?_ ?_ (by simpa [Tree.eqv] using he.2)
    · rw [treeNamedArgs_keys]; exact nodup_str hb.2.1
    · rw [treeNamedArgs_keys, treeNamedArgs_keys, strKeys_eq hk.1]
  | .orderedFormat src args, b, hb, hk, he => by
    cases b <;> simp [FTextHistory.tree, Tree.eqv, eqvList] at he ⊢
    simp only [historyKeys, Keys.mk.injEq, List.cons.injEq] at hk
    exact ⟨text_order src _ hb.1 hk.2.1 he.1, args_order args _ hb.2 hk.2.2 he.2⟩
  | .asNumber v _ _, b, hb, hk, he => by
    cases b <;> simp [FTextHistory.tree, Tree.eqv, eqvList] at he ⊢
    exact ⟨arg_order v _ hb hk he.1, he.2⟩
  | .asPercent v _ _, b, hb, hk, he => by
    cases b <;> simp [FTextHistory.tree, Tree.eqv, eqvList] at he ⊢
    exact ⟨arg_order v _ hb hk he.1, he.2⟩
  | .asCurrency _ v _ _, b, hb, hk, he => by
    cases b <;> simp [FTextHistory.tree, Tree.eqv, eqvList] at he ⊢
    exact ⟨he.1, arg_order v _ hb hk he.2.1, he.2.2⟩
  | .transform src _, b, hb, hk, he => by
    cases b <;> simp [FTextHistory.tree, Tree.eqv, eqvList] at he ⊢
    exact ⟨text_order src _ hb hk he.1, he.2⟩
theorem arg_order : ∀ a b : FormatArgumentValue, ArgMaps b → argKeys a = argKeys b →
    a.tree.eqv b.tree = true → a.tree = b.tree
  | .text t, b, hb, hk, he => by
    cases b <;> simp [FormatArgumentValue.tree, Tree.eqv, eqvList] at he ⊢
    exact text_order t _ hb hk he
  | .int _, b, _, _, h => by rw [eqv_leaf h]; rfl
  | .uint _, b, _, _, h => by rw [eqv_leaf h]; rfl
  | .float _, b, _, _, h => by rw [eqv_leaf h]; rfl
  | .double _, b, _, _, h => by rw [eqv_leaf h]; rfl
  | .int64 _, b, _, _, h => by rw [eqv_leaf h]; rfl
  | .uint64 _, b, _, _, h => by rw [eqv_leaf h]; rfl
theorem args_order : ∀ a b : List FormatArgumentValue, ArgsMaps b → argsKeys a = argsKeys b →
    eqvList (treeArgs a) (treeArgs b) = true → treeArgs a = treeArgs b
  | [], b, _, _, he => by cases b <;> simp [treeArgs, eqvList] at he ⊢
  | v :: l, b, hb, hk, he => by
    cases b <;> simp [treeArgs, eqvList] at he ⊢
    simp only [argsKeys, List.cons.injEq] at hk
    exact ⟨arg_order v _ hb.1 hk.1 he.1, args_order l _ hb.2 hk.2 he.2⟩
theorem named_order : ∀ a b : List (String × FormatArgumentValue), NamedArgsMaps b →
    a.map Prod.fst = b.map Prod.fst → namedArgsKeys a = namedArgsKeys b →
    eqvList ((treeNamedArgs a).map Prod.snd) ((treeNamedArgs b).map Prod.snd) = true →
    treeNamedArgs a = treeNamedArgs b
  | [], b, _, _, _, he => by cases b <;> simp [treeNamedArgs, eqvList] at he ⊢
  | (k, v) :: l, b, hb, hn, hk, he => by
    cases b <;> simp [treeNamedArgs, eqvList] at he hn ⊢
    simp only [namedArgsKeys, List.cons.injEq] at hk
    exact ⟨⟨hn.1, arg_order v _ hb.1 hk.1 he.1⟩, named_order l _ hb.2 (by simpa using hn.2) hk.2 he.2⟩
end

mutual
theorem prop_order : ∀ a b : Property, MapsDistinct b → keysOf a = keysOf b →
    a.tree.eqv b.tree = true → a.tree = b.tree
  | .bool _, b, _, _, h => by rw [eqv_leaf h]; rfl
  | .byte .., b, _, _, h => by rw [eqv_leaf h]; rfl
  | .enum .., b, _, _, h => by rw [eqv_leaf h]; rfl
  | .int16 _, b, _, _, h => by rw [eqv_leaf h]; rfl
  | .int64 _, b, _, _, h => by rw [eqv_leaf h]; rfl
  | .int8 _, b, _, _, h => by rw [eqv_leaf h]; rfl
  | .int _, b, _, _, h => by rw [eqv_leaf h]; rfl
  | .name .., b, _, _, h => by rw [eqv_leaf h]; rfl
  | .object _, b, _, _, h => by rw [eqv_leaf h]; rfl
  | .delegate _, b, _, _, h => by rw [eqv_leaf h]; rfl
  | .multicastInlineDelegate _, b, _, _, h => by rw [eqv_leaf h]; rfl
  | .multicastSparseDelegate _, b, _, _, h => by rw [eqv_leaf h]; rfl
  | .fieldPath _, b, _, _, h => by rw [eqv_leaf h]; rfl
  | .str _, b, _, _, h => by rw [eqv_leaf h]; rfl
  | .uint16 _, b, _, _, h => by rw [eqv_leaf h]; rfl
  | .uint32 _, b, _, _, h => by rw [eqv_leaf h]; rfl
  | .uint64 _, b, _, _, h => by rw [eqv_leaf h]; rfl
  | .unknown .., b, _, _, h => by rw [eqv_leaf h]; rfl
  | .double _, b, _, _, h => by rw [eqv_leaf h]; rfl
  | .float _, b, _, _, h => by rw [eqv_leaf h]; rfl
  | .array v, b, hb, hk, he => by
    cases b <;> simp [Property.tree, Tree.eqv, eqvList] at he ⊢
    exact array_order v _ hb hk he
  | .map v, b, hb, hk, he => by
    cases b <;> simp [Property.tree, Tree.eqv, eqvList] at he ⊢
    exact map_order v _ hb hk he
  | .structValue v, b, hb, hk, he => by
    cases b <;> simp [Property.tree, Tree.eqv, eqvList] at he ⊢
    exact struct_order v _ hb hk he
  | .text v, b, hb, hk, he => by
    cases b <;> simp [Property.tree, Tree.eqv, eqvList] at he ⊢
    exact text_order v _ hb hk he
  | .struct _ _ v, b, hb, hk, he => by
    cases b <;> simp [Property.tree, Tree.eqv, eqvList] at he ⊢
    exact ⟨he.1, struct_order v _ hb hk he.2⟩
  | .set t fl ps, b, hb, hk, he => by
    cases b <;> simp only [Property.tree, eqv_node_iff, eqvList_cons_iff, eqv_leaf_iff] at he ⊢ <;>
      first | (exfalso; simp at he; done) | (exfalso; simp [Tree.eqv] at he; done) | skip
    rw [eqv_list_iff] at he
    rw [he.1, props_order ps _ hb (Keys.mk.inj hk).2 he.2.1]
theorem array_order : ∀ a b : ArrayProperty, ArrayMaps b → arrayKeys a = arrayKeys b →
    a.tree.eqv b.tree = true → a.tree = b.tree
  | .bools _, b, _, _, h => by rw [eqv_leaf h]; rfl
  | .bytes _, b, _, _, h => by rw [eqv_leaf h]; rfl
  | .enums _, b, _, _, h => by rw [eqv_leaf h]; rfl
  | .floats _, b, _, _, h => by rw [eqv_leaf h]; rfl
  | .ints _, b, _, _, h => by rw [eqv_leaf h]; rfl
  | .names _, b, _, _, h => by rw [eqv_leaf h]; rfl
  | .strings _, b, _, _, h => by rw [eqv_leaf h]; rfl
  | .structs _ _ _ v, b, hb, hk, he => by
    cases b <;> simp [ArrayProperty.tree, Tree.eqv, eqvList] at he ⊢
    exact ⟨he.1, structs_order v _ hb (Keys.mk.inj hk).2 he.2⟩
  | .properties _ v, b, hb, hk, he => by
    cases b <;> simp [ArrayProperty.tree, Tree.eqv, eqvList] at he ⊢
    exact ⟨he.1, props_order v _ hb (Keys.mk.inj hk).2 he.2⟩
theorem map_order : ∀ a b : MapProperty, MapMaps b → mapKeys a = mapKeys b →
    a.tree.eqv b.tree = true → a.tree = b.tree
  | .enumBool v, b, hb, hk, he => by
    cases b <;> try (exfalso; revert he; simp [MapProperty.tree, eqv_node_iff, eqvList_cons_iff, eqv_leaf_iff, eqvList_nil]; done)
    simp only [MapProperty.tree, eqv_node_iff, eqvList_cons_iff, eqv_leaf_iff, eqvList_nil] at he
    rename_i w
    have := leafMap_order (fun v : Bool => [Tok.n v.toNat]) hb (Keys.mk.inj hk).1
      he.2.1
    simp only [MapProperty.tree]
    rw [this]
  | .enumInt v, b, hb, hk, he => by
    cases b <;> try (exfalso; revert he; simp [MapProperty.tree, eqv_node_iff, eqvList_cons_iff, eqv_leaf_iff, eqvList_nil]; done)
    simp only [MapProperty.tree, eqv_node_iff, eqvList_cons_iff, eqv_leaf_iff, eqvList_nil] at he
    rename_i w
    have := leafMap_order (fun v : Int32 => [Tok.n v.toUInt32.toNat]) hb (Keys.mk.inj hk).1
      he.2.1
    simp only [MapProperty.tree]
    rw [this]
  | .nameBool v, b, hb, hk, he => by
    cases b <;> try (exfalso; revert he; simp [MapProperty.tree, eqv_node_iff, eqvList_cons_iff, eqv_leaf_iff, eqvList_nil]; done)
    simp only [MapProperty.tree, eqv_node_iff, eqvList_cons_iff, eqv_leaf_iff, eqvList_nil] at he
    rename_i w
    have := leafMap_order (fun v : Bool => [Tok.n v.toNat]) hb (Keys.mk.inj hk).1
      he.2.1
    simp only [MapProperty.tree]
    rw [this]
  | .nameInt v, b, hb, hk, he => by
    cases b <;> try (exfalso; revert he; simp [MapProperty.tree, eqv_node_iff, eqvList_cons_iff, eqv_leaf_iff, eqvList_nil]; done)
    simp only [MapProperty.tree, eqv_node_iff, eqvList_cons_iff, eqv_leaf_iff, eqvList_nil] at he
    rename_i w
    have := leafMap_order (fun v : Int32 => [Tok.n v.toUInt32.toNat]) hb (Keys.mk.inj hk).1
      he.2.1
    simp only [MapProperty.tree]
    rw [this]
  | .strBool v, b, hb, hk, he => by
    cases b <;> try (exfalso; revert he; simp [MapProperty.tree, eqv_node_iff, eqvList_cons_iff, eqv_leaf_iff, eqvList_nil]; done)
    simp only [MapProperty.tree, eqv_node_iff, eqvList_cons_iff, eqv_leaf_iff, eqvList_nil] at he
    rename_i w
    have := leafMap_order (fun v : Bool => [Tok.n v.toNat]) hb (Keys.mk.inj hk).1
      he.2.1
    simp only [MapProperty.tree]
    rw [this]
  | .strInt v, b, hb, hk, he => by
    cases b <;> try (exfalso; revert he; simp [MapProperty.tree, eqv_node_iff, eqvList_cons_iff, eqv_leaf_iff, eqvList_nil]; done)
    simp only [MapProperty.tree, eqv_node_iff, eqvList_cons_iff, eqv_leaf_iff, eqvList_nil] at he
    rename_i w
    have := leafMap_order (fun v : Int32 => [Tok.n v.toUInt32.toNat]) hb (Keys.mk.inj hk).1
      he.2.1
    simp only [MapProperty.tree]
    rw [this]
  | .strStr v, b, hb, hk, he => by
    cases b <;> try (exfalso; revert he; simp [MapProperty.tree, eqv_node_iff, eqvList_cons_iff, eqv_leaf_iff, eqvList_nil]; done)
    simp only [MapProperty.tree, eqv_node_iff, eqvList_cons_iff, eqv_leaf_iff, eqvList_nil] at he
    rename_i w
    have := leafMap_order (feedOpt) hb (Keys.mk.inj hk).1
      he.2.1
    simp only [MapProperty.tree]
    rw [this]
  | .enumProperty _ v, b, hb, hk, he => by
    cases b <;> simp [MapProperty.tree, eqv_node_iff, eqvList_cons_iff, eqv_leaf_iff, eqvList_nil] at he ⊢
    have hs := strKeys_eq (Keys.mk.inj hk).1
    refine ⟨he.1, strs_order v _ hb.2 hs (Keys.mk.inj hk).2 ?_⟩
    refine umap_order ?_ ?_ he.2
    · rw [treeStrProps_keys]; exact nodup_str hb.1
    · rw [treeStrProps_keys, treeStrProps_keys, hs]
  | .nameProperty _ v, b, hb, hk, he => by
    cases b <;> simp [MapProperty.tree, eqv_node_iff, eqvList_cons_iff, eqv_leaf_iff, eqvList_nil] at he ⊢
    have hs := strKeys_eq (Keys.mk.inj hk).1
    refine ⟨he.1, strs_order v _ hb.2 hs (Keys.mk.inj hk).2 ?_⟩
    refine umap_order ?_ ?_ he.2
    · rw [treeStrProps_keys]; exact nodup_str hb.1
    · rw [treeStrProps_keys, treeStrProps_keys, hs]
  | .strProperty _ v, b, hb, hk, he => by
    cases b <;> simp [MapProperty.tree, eqv_node_iff, eqvList_cons_iff, eqv_leaf_iff, eqvList_nil] at he ⊢
    have hs := strKeys_eq (Keys.mk.inj hk).1
    refine ⟨he.1, strs_order v _ hb.2 hs (Keys.mk.inj hk).2 ?_⟩
    refine umap_order ?_ ?_ he.2
    · rw [treeStrProps_keys]; exact nodup_str hb.1
    · rw [treeStrProps_keys, treeStrProps_keys, hs]
  | .properties _ _ _ v, b, hb, hk, he => by
    cases b <;> simp [MapProperty.tree, eqv_node_iff, eqvList_cons_iff, eqv_leaf_iff, eqvList_nil] at he ⊢
    have hs := propKeys_eq (Keys.mk.inj hk).1
    rw [propKeys_trees (Keys.mk.inj hk).1] at he ⊢
    rw [pairs_order v _ hb.2 hs (Keys.mk.inj hk).2 (pairTree_order (pairs_nodup hb.1) hs he.2)]
    exact ⟨he.1, rfl⟩
theorem struct_order : ∀ a b : StructPropertyValue, StructMaps b → structKeys a = structKeys b →
    a.tree.eqv b.tree = true → a.tree = b.tree
  | .vector2F .., b, _, _, h => by rw [eqv_leaf h]; rfl
  | .vector2D .., b, _, _, h => by rw [eqv_leaf h]; rfl
  | .vectorF .., b, _, _, h => by rw [eqv_leaf h]; rfl
  | .vectorD .., b, _, _, h => by rw [eqv_leaf h]; rfl
  | .rotatorF .., b, _, _, h => by rw [eqv_leaf h]; rfl
  | .rotatorD .., b, _, _, h => by rw [eqv_leaf h]; rfl
  | .quatF .., b, _, _, h => by rw [eqv_leaf h]; rfl
  | .quatD .., b, _, _, h => by rw [eqv_leaf h]; rfl
  | .dateTime _, b, _, _, h => by rw [eqv_leaf h]; rfl
  | .timespan _, b, _, _, h => by rw [eqv_leaf h]; rfl
  | .guid _, b, _, _, h => by rw [eqv_leaf h]; rfl
  | .linearColor .., b, _, _, h => by rw [eqv_leaf h]; rfl
  | .intPoint .., b, _, _, h => by rw [eqv_leaf h]; rfl
  | .gameplayTagContainer _, b, _, _, h => by rw [eqv_leaf h]; rfl
  | .customStruct fs, b, hb, hk, he => by
    cases b <;> simp [StructPropertyValue.tree, Tree.eqv, eqvList] at he ⊢
    have hs := strKeys_eq (Keys.mk.inj hk).1
    refine fields_order fs _ hb.2 hs (Keys.mk.inj hk).2 ?_
    refine umap_order ?_ ?_ (by simpa [Tree.eqv] using he)
    · rw [treeFields_keys]; exact nodup_str hb.1
    · rw [treeFields_keys, treeFields_keys, hs]
theorem props_order : ∀ a b : List Property, PropsMaps b → propsKeys a = propsKeys b →
    eqvList (treeProps a) (treeProps b) = true → treeProps a = treeProps b
  | [], b, _, _, he => by cases b <;> simp [treeProps, eqvList] at he ⊢
  | v :: l, b, hb, hk, he => by
    cases b <;> simp [treeProps, eqvList] at he ⊢
    simp only [propsKeys, List.cons.injEq] at hk
    exact ⟨prop_order v _ hb.1 hk.1 he.1, props_order l _ hb.2 hk.2 he.2⟩
theorem structs_order : ∀ a b : List StructPropertyValue, StructsMaps b → structsKeys a = structsKeys b →
    eqvList (treeStructs a) (treeStructs b) = true → treeStructs a = treeStructs b
  | [], b, _, _, he => by cases b <;> simp [treeStructs, eqvList] at he ⊢
  | v :: l, b, hb, hk, he => by
    cases b <;> simp [treeStructs, eqvList] at he ⊢
    simp only [structsKeys, List.cons.injEq] at hk
    exact ⟨struct_order v _ hb.1 hk.1 he.1, structs_order l _ hb.2 hk.2 he.2⟩
theorem strs_order : ∀ a b : List (String × Property), ValuesMaps b →
    a.map Prod.fst = b.map Prod.fst → valuesKeys a = valuesKeys b →
    eqvList ((treeStrProps a).map Prod.snd) ((treeStrProps b).map Prod.snd) = true →
    treeStrProps a = treeStrProps b
  | [], b, _, _, _, he => by cases b <;> simp [treeStrProps, eqvList] at he ⊢
  | (k, v) :: l, b, hb, hn, hk, he => by
    cases b <;> simp [treeStrProps, eqvList] at he hn ⊢
    simp only [valuesKeys, List.cons.injEq] at hk
    exact ⟨⟨hn.1, prop_order v _ hb.1 hk.1 he.1⟩, strs_order l _ hb.2 (by simpa using hn.2) hk.2 he.2⟩
theorem pairs_order : ∀ a b : List (Property × Property), EntriesMaps b →
    (treePairs a).map Prod.fst = (treePairs b).map Prod.fst → entriesKeys a = entriesKeys b →
    eqvList ((treePairs a).map Prod.snd) ((treePairs b).map Prod.snd) = true →
    treePairs a = treePairs b
  | [], b, _, _, _, he => by cases b <;> simp [treePairs, eqvList] at he ⊢
  | (k, v) :: l, b, hb, hn, hk, he => by
    cases b <;> simp [treePairs, eqvList] at he hn ⊢
    simp only [entriesKeys, List.cons.injEq] at hk
    exact ⟨⟨hn.1, prop_order v _ hb.2.1 hk.1 he.1⟩,
      pairs_order l _ hb.2.2 (by simpa using hn.2) hk.2 he.2⟩
theorem fields_order : ∀ a b : List (String × List Property), FieldsMaps b →
    a.map Prod.fst = b.map Prod.fst → fieldsKeys a = fieldsKeys b →
    eqvList ((treeFields a).map Prod.snd) ((treeFields b).map Prod.snd) = true →
    treeFields a = treeFields b
  | [], b, _, _, _, he => by cases b <;> simp [treeFields, eqvList] at he ⊢
  | (k, v) :: l, b, hb, hn, hk, he => by
    cases b <;> simp [treeFields, eqvList, Tree.eqv] at he hn ⊢
    simp only [fieldsKeys, List.cons.injEq, Keys.mk.injEq] at hk
    exact ⟨⟨hn.1, props_order v _ hb.1 hk.1.2 he.1⟩,
      fields_order l _ hb.2 (by simpa using hn.2) hk.2 he.2⟩
end

end Gvas
