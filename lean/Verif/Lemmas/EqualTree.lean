import Verif.Lemmas.Equality
import Verif.Spec.Order

/-!
# Trees of values: distinct keys, normal floats, entries in the same order
-/

namespace Gvas

open Spec

theorem nodup_inj {α β : Type} (f : α → β) (hf : ∀ a b, f a = f b → a = b) {l : List α}
    (h : l.Nodup) : (l.map f).Nodup := by
  rw [List.nodup_iff_pairwise_ne] at h ⊢
  rw [List.pairwise_map]
  exact h.imp fun hab hfab => hab (hf _ _ hfab)

theorem nodup_str {l : List String} (h : l.Nodup) : (l.map fun k => [Tok.s k]).Nodup :=
  nodup_inj _ (by intro a b h; simpa using h) h

theorem treeNamedArgs_keys (l : List (String × FormatArgumentValue)) :
    (treeNamedArgs l).map Prod.fst = (l.map Prod.fst).map fun k => [Tok.s k] := by
  induction l with
  | nil => rfl
  | cons e l ih => obtain ⟨k, v⟩ := e; simp [treeNamedArgs, ih]

theorem treeStrProps_keys (l : List (String × Property)) :
    (treeStrProps l).map Prod.fst = (l.map Prod.fst).map fun k => [Tok.s k] := by
  induction l with
  | nil => rfl
  | cons e l ih => obtain ⟨k, v⟩ := e; simp [treeStrProps, ih]

theorem treeFields_keys (l : List (String × List Property)) :
    (treeFields l).map Prod.fst = (l.map Prod.fst).map fun k => [Tok.s k] := by
  induction l with
  | nil => rfl
  | cons e l ih => obtain ⟨k, v⟩ := e; simp [treeFields, ih]

theorem treePairs_keys (l : List (Property × Property)) :
    (treePairs l).map Prod.fst = (l.map Prod.fst).map Property.feed := by
  induction l with
  | nil => rfl
  | cons e l ih => obtain ⟨k, v⟩ := e; simp [treePairs, ih]

theorem leaf_keys {α : Type} (f : α → List Tok) (l : List (String × α)) :
    (l.map fun e => ([Tok.s e.1], Tree.leaf (f e.2))).map Prod.fst =
      (l.map Prod.fst).map fun k => [Tok.s k] := by
  simp [List.map_map, Function.comp_def]

theorem leaf_distinct {α : Type} (f : α → List Tok) (l : List (String × α)) :
    DistinctMap (l.map fun e => ([Tok.s e.1], Tree.leaf (f e.2))) := by
  induction l with
  | nil => trivial
  | cons e l ih => exact ⟨trivial, ih⟩

theorem leafMap_distinct {α : Type} (f : α → List Tok) (ts : List Tok) {l : List (String × α)}
    (h : KeysDistinct l) :
    (Tree.node [.leaf ts, .umap (l.map fun e => ([Tok.s e.1], Tree.leaf (f e.2)))]).Distinct := by
  refine ⟨trivial, ⟨?_, leaf_distinct f l⟩, trivial⟩
  rw [leaf_keys]
  exact nodup_str h

theorem pairs_nodup {m : List (Property × Property)}
    (h : (m.map Prod.fst).Pairwise (fun a b => sameKey a b = false)) :
    ((treePairs m).map Prod.fst).Nodup := by
  rw [treePairs_keys, List.nodup_iff_pairwise_ne, List.pairwise_map]
  exact h.imp fun h => by simpa [sameKey] using h

theorem pairTree_distinct {ks : List Tree} {l : List (List Tok × Tree)} (hk : DistinctList ks)
    (hl : (Tree.umap l).Distinct) : (pairTree ks l).Distinct := by
  unfold pairTree
  split
  · exact ⟨trivial, hk.1, hl.2.1, trivial⟩
  · exact hl

mutual
theorem text_distinct : ∀ t, TextMaps t → t.tree.Distinct
  | .mk _ h, hm => ⟨trivial, history_distinct h hm, trivial⟩
theorem history_distinct : ∀ t, HistoryMaps t → t.tree.Distinct
  | .empty, _ => trivial
  | .none .., _ => trivial
  | .base .., _ => trivial
  | .namedFormat src args, hm => by
    refine ⟨trivial, text_distinct src hm.1, ⟨?_, named_distinct args hm.2.2⟩, trivial⟩
    rw [treeNamedArgs_keys]; exact nodup_str hm.2.1
  | .orderedFormat src args, hm =>
    ⟨trivial, text_distinct src hm.1, args_distinct args hm.2, trivial⟩
  | .argumentFormat src args, hm => by
    refine ⟨trivial, text_distinct src hm.1, ⟨?_, named_distinct args hm.2.2⟩, trivial⟩
    rw [treeNamedArgs_keys]; exact nodup_str hm.2.1
  | .asNumber v _ _, hm => ⟨trivial, arg_distinct v hm, trivial, trivial, trivial⟩
  | .asPercent v _ _, hm => ⟨trivial, arg_distinct v hm, trivial, trivial, trivial⟩
  | .asCurrency _ v _ _, hm => ⟨trivial, arg_distinct v hm, trivial, trivial, trivial⟩
  | .asDate .., _ => trivial
  | .asTime .., _ => trivial
  | .asDateTime .., _ => trivial
  | .transform src _, hm => ⟨trivial, text_distinct src hm, trivial, trivial⟩
  | .stringTableEntry .., _ => trivial
theorem arg_distinct : ∀ v, ArgMaps v → v.tree.Distinct
  | .text t, hm => ⟨trivial, text_distinct t hm, trivial⟩
  | .int _, _ => trivial
  | .uint _, _ => trivial
  | .float _, _ => trivial
  | .double _, _ => trivial
  | .int64 _, _ => trivial
  | .uint64 _, _ => trivial
theorem args_distinct : ∀ l, ArgsMaps l → DistinctList (treeArgs l)
  | [], _ => trivial
  | v :: l, hm => ⟨arg_distinct v hm.1, args_distinct l hm.2⟩
theorem named_distinct : ∀ l, NamedArgsMaps l → DistinctMap (treeNamedArgs l)
  | [], _ => trivial
  | (_, v) :: l, hm => ⟨arg_distinct v hm.1, named_distinct l hm.2⟩
end

mutual
theorem prop_distinct : ∀ p, MapsDistinct p → p.tree.Distinct
  | .array v, h => ⟨trivial, array_distinct v h, trivial⟩
  | .map v, h => ⟨trivial, map_distinct v h, trivial⟩
  | .set _ _ ps, h => ⟨trivial, props_distinct ps h, trivial⟩
  | .struct _ _ v, h => ⟨trivial, struct_distinct v h, trivial⟩
  | .structValue v, h => ⟨trivial, struct_distinct v h, trivial⟩
  | .text v, h => ⟨trivial, text_distinct v h, trivial⟩
  | .bool _, _ => trivial
  | .byte .., _ => trivial
  | .double _, _ => trivial
  | .enum .., _ => trivial
  | .float _, _ => trivial
  | .int16 _, _ => trivial
  | .int64 _, _ => trivial
  | .int8 _, _ => trivial
  | .int _, _ => trivial
  | .name .., _ => trivial
  | .object _, _ => trivial
  | .delegate _, _ => trivial
  | .multicastInlineDelegate _, _ => trivial
  | .multicastSparseDelegate _, _ => trivial
  | .fieldPath _, _ => trivial
  | .str _, _ => trivial
  | .uint16 _, _ => trivial
  | .uint32 _, _ => trivial
  | .uint64 _, _ => trivial
  | .unknown .., _ => trivial
theorem array_distinct : ∀ v, ArrayMaps v → v.tree.Distinct
  | .structs _ _ _ v, h => ⟨trivial, structs_distinct v h, trivial⟩
  | .properties _ v, h => ⟨trivial, props_distinct v h, trivial⟩
  | .bools _, _ => trivial
  | .bytes _, _ => trivial
  | .enums _, _ => trivial
  | .floats _, _ => trivial
  | .ints _, _ => trivial
  | .names _, _ => trivial
  | .strings _, _ => trivial
theorem map_distinct : ∀ v, MapMaps v → v.tree.Distinct
  | .enumBool _, h => leafMap_distinct (fun v : Bool => [.n v.toNat]) _ h
  | .enumInt _, h => leafMap_distinct (fun v : Int32 => [.n v.toUInt32.toNat]) _ h
  | .enumProperty _ v, h =>
    ⟨trivial, ⟨by rw [treeStrProps_keys]; exact nodup_str h.1, strs_distinct v h.2⟩, trivial⟩
  | .nameBool _, h => leafMap_distinct (fun v : Bool => [.n v.toNat]) _ h
  | .nameInt _, h => leafMap_distinct (fun v : Int32 => [.n v.toUInt32.toNat]) _ h
  | .nameProperty _ v, h =>
    ⟨trivial, ⟨by rw [treeStrProps_keys]; exact nodup_str h.1, strs_distinct v h.2⟩, trivial⟩
  | .properties _ _ _ v, h =>
    ⟨trivial, pairTree_distinct (keys_distinct v h.2) ⟨pairs_nodup h.1, pairs_distinct v h.2⟩,
      trivial⟩
  | .strBool _, h => leafMap_distinct (fun v : Bool => [.n v.toNat]) _ h
  | .strInt _, h => leafMap_distinct (fun v : Int32 => [.n v.toUInt32.toNat]) _ h
  | .strProperty _ v, h =>
    ⟨trivial, ⟨by rw [treeStrProps_keys]; exact nodup_str h.1, strs_distinct v h.2⟩, trivial⟩
  | .strStr _, h => leafMap_distinct feedOpt _ h
theorem struct_distinct : ∀ v, StructMaps v → v.tree.Distinct
  | .customStruct fs, h =>
    ⟨trivial, ⟨by rw [treeFields_keys]; exact nodup_str h.1, fields_distinct fs h.2⟩, trivial⟩
  | .vector2F .., _ => trivial
  | .vector2D .., _ => trivial
  | .vectorF .., _ => trivial
  | .vectorD .., _ => trivial
  | .rotatorF .., _ => trivial
  | .rotatorD .., _ => trivial
  | .quatF .., _ => trivial
  | .quatD .., _ => trivial
  | .dateTime _, _ => trivial
  | .timespan _, _ => trivial
  | .guid _, _ => trivial
  | .linearColor .., _ => trivial
  | .intPoint .., _ => trivial
  | .gameplayTagContainer _, _ => trivial
theorem props_distinct : ∀ l, PropsMaps l → DistinctList (treeProps l)
  | [], _ => trivial
  | p :: l, h => ⟨prop_distinct p h.1, props_distinct l h.2⟩
theorem structs_distinct : ∀ l, StructsMaps l → DistinctList (treeStructs l)
  | [], _ => trivial
  | p :: l, h => ⟨struct_distinct p h.1, structs_distinct l h.2⟩
theorem strs_distinct : ∀ l, ValuesMaps l → DistinctMap (treeStrProps l)
  | [], _ => trivial
  | (_, p) :: l, h => ⟨prop_distinct p h.1, strs_distinct l h.2⟩
theorem keys_distinct : ∀ l, EntriesMaps l → DistinctList (treeKeys l)
  | [], _ => trivial
  | (k, _) :: l, h => ⟨prop_distinct k h.1, keys_distinct l h.2.2⟩
theorem pairs_distinct : ∀ l, EntriesMaps l → DistinctMap (treePairs l)
  | [], _ => trivial
  | (_, p) :: l, h => ⟨prop_distinct p h.2.1, pairs_distinct l h.2.2⟩
theorem fields_distinct : ∀ l, FieldsMaps l → DistinctMap (treeFields l)
  | [], _ => trivial
  | (_, ps) :: l, h => ⟨props_distinct ps h.1, fields_distinct l h.2⟩
end

/-! ## Normalising floats does not change the tree -/

mutual
theorem text_norm : ∀ t : FText, (normText t).tree = t.tree
  | .mk f h => by rw [normText, FText.tree, FText.tree, history_norm h]
theorem history_norm : ∀ t : FTextHistory, (normHistory t).tree = t.tree
  | .empty => rfl
  | .none .. => rfl
  | .base .. => rfl
  | .namedFormat src args => by
    simp only [normHistory, FTextHistory.tree, text_norm src, named_norm args]
  | .orderedFormat src args => by
    simp only [normHistory, FTextHistory.tree, text_norm src, args_norm args]
  | .argumentFormat src args => by
    simp only [normHistory, FTextHistory.tree, text_norm src, named_norm args]
  | .asNumber v _ _ => by simp only [normHistory, FTextHistory.tree, arg_norm v]
  | .asPercent v _ _ => by simp only [normHistory, FTextHistory.tree, arg_norm v]
  | .asCurrency _ v _ _ => by simp only [normHistory, FTextHistory.tree, arg_norm v]
  | .asDate .. => rfl
  | .asTime .. => rfl
  | .asDateTime .. => rfl
  | .transform src _ => by simp only [normHistory, FTextHistory.tree, text_norm src]
  | .stringTableEntry .. => rfl
theorem arg_norm : ∀ v : FormatArgumentValue, (normArg v).tree = v.tree
  | .text t => by simp only [normArg, FormatArgumentValue.tree, text_norm t]
  | .int _ => rfl
  | .uint _ => rfl
  | .float _ => by simp only [normArg, FormatArgumentValue.tree, canon32_norm]
  | .double _ => by simp only [normArg, FormatArgumentValue.tree, canon64_norm]
  | .int64 _ => rfl
  | .uint64 _ => rfl
theorem args_norm : ∀ l, treeArgs (normArgs l) = treeArgs l
  | [] => rfl
  | v :: l => by rw [normArgs, treeArgs, treeArgs, arg_norm v, args_norm l]
theorem named_norm : ∀ l, treeNamedArgs (normNamedArgs l) = treeNamedArgs l
  | [] => rfl
  | (_, v) :: l => by
    rw [normNamedArgs, treeNamedArgs, treeNamedArgs, arg_norm v, named_norm l]
end

mutual
theorem prop_norm : ∀ p : Property, (norm p).tree = p.tree
  | .array v => by simp only [norm, Property.tree, array_norm v]
  | .map v => by simp only [norm, Property.tree, map_norm v]
  | .set _ _ ps => by simp only [norm, Property.tree, props_norm ps]
  | .struct _ _ v => by simp only [norm, Property.tree, struct_norm v]
  | .structValue v => by simp only [norm, Property.tree, struct_norm v]
  | .text v => by simp only [norm, Property.tree, text_norm v]
  | .double _ => by simp only [norm, Property.tree, Property.feed, canon64_norm]
  | .float _ => by simp only [norm, Property.tree, Property.feed, canon32_norm]
  | .bool _ => rfl
  | .byte .. => rfl
  | .enum .. => rfl
  | .int16 _ => rfl
  | .int64 _ => rfl
  | .int8 _ => rfl
  | .int _ => rfl
  | .name .. => rfl
  | .object _ => rfl
  | .delegate _ => rfl
  | .multicastInlineDelegate _ => rfl
  | .multicastSparseDelegate _ => rfl
  | .fieldPath _ => rfl
  | .str _ => rfl
  | .uint16 _ => rfl
  | .uint32 _ => rfl
  | .uint64 _ => rfl
  | .unknown .. => rfl
theorem array_norm : ∀ v : ArrayProperty, (normArray v).tree = v.tree
  | .structs _ _ _ v => by simp only [normArray, ArrayProperty.tree, structs_norm v]
  | .properties _ v => by simp only [normArray, ArrayProperty.tree, props_norm v]
  | .bools _ => rfl
  | .bytes _ => rfl
  | .enums _ => rfl
  | .floats v => by
    simp only [normArray, ArrayProperty.tree, ArrayProperty.feed, List.length_map, List.map_map,
      Function.comp_def, canon32_norm]
  | .ints _ => rfl
  | .names _ => rfl
  | .strings _ => rfl
theorem map_norm : ∀ v : MapProperty, (normMap v).tree = v.tree
  | .enumBool _ => rfl
  | .enumInt _ => rfl
  | .enumProperty _ v => by simp only [normMap, MapProperty.tree, strs_norm v]
  | .nameBool _ => rfl
  | .nameInt _ => rfl
  | .nameProperty _ v => by simp only [normMap, MapProperty.tree, strs_norm v]
  | .properties _ _ _ v => by simp only [normMap, MapProperty.tree, keys_norm v, pairs_norm v]
  | .strBool _ => rfl
  | .strInt _ => rfl
  | .strProperty _ v => by simp only [normMap, MapProperty.tree, strs_norm v]
  | .strStr _ => rfl
theorem struct_norm : ∀ v : StructPropertyValue, (normStruct v).tree = v.tree
  | .customStruct fs => by simp only [normStruct, StructPropertyValue.tree, fields_norm fs]
  | .vector2F .. => by simp only [normStruct, StructPropertyValue.tree, canon32_norm]
  | .vector2D .. => by simp only [normStruct, StructPropertyValue.tree, canon64_norm]
  | .vectorF .. => by simp only [normStruct, StructPropertyValue.tree, canon32_norm]
  | .vectorD .. => by simp only [normStruct, StructPropertyValue.tree, canon64_norm]
  | .rotatorF .. => by simp only [normStruct, StructPropertyValue.tree, canon32_norm]
  | .rotatorD .. => by simp only [normStruct, StructPropertyValue.tree, canon64_norm]
  | .quatF .. => by simp only [normStruct, StructPropertyValue.tree, canon32_norm]
  | .quatD .. => by simp only [normStruct, StructPropertyValue.tree, canon64_norm]
  | .dateTime _ => rfl
  | .timespan _ => rfl
  | .guid _ => rfl
  | .linearColor .. => by simp only [normStruct, StructPropertyValue.tree, canon32_norm]
  | .intPoint .. => rfl
  | .gameplayTagContainer _ => rfl
theorem props_norm : ∀ l, treeProps (normProps l) = treeProps l
  | [] => rfl
  | p :: l => by rw [normProps, treeProps, treeProps, prop_norm p, props_norm l]
theorem structs_norm : ∀ l, treeStructs (normStructs l) = treeStructs l
  | [] => rfl
  | p :: l => by rw [normStructs, treeStructs, treeStructs, struct_norm p, structs_norm l]
theorem strs_norm : ∀ l, treeStrProps (normStrProps l) = treeStrProps l
  | [] => rfl
  | (_, p) :: l => by rw [normStrProps, treeStrProps, treeStrProps, prop_norm p, strs_norm l]
theorem keys_norm : ∀ l, treeKeys (normPairs l) = treeKeys l
  | [] => rfl
  | (k, _) :: l => by rw [normPairs, treeKeys, treeKeys, prop_norm k, keys_norm l]
theorem pairs_norm : ∀ l, treePairs (normPairs l) = treePairs l
  | [] => rfl
  | (k, p) :: l => by
    rw [normPairs, treePairs, treePairs, prop_norm p, pairs_norm l, Property.feed_norm k]
theorem fields_norm : ∀ l, treeFields (normFields l) = treeFields l
  | [] => rfl
  | (_, ps) :: l => by rw [normFields, treeFields, treeFields, props_norm ps, fields_norm l]
end

/-! ## A tree determines what the hasher is fed -/

mutual
/-- The data in a tree, in order, with the lengths of lists and maps. -/
def Tree.flat : Tree → List Tok
  | .leaf ts => ts
  | .node l => flats l
  | .list l => .n l.length :: flats l
  | .umap l => .n l.length :: flatMap l
/-- The data in trees. -/
def flats : List Tree → List Tok
  | [] => []
  | t :: l => t.flat ++ flats l
/-- The data in entries. -/
def flatMap : List (List Tok × Tree) → List Tok
  | [] => []
  | (k, t) :: l => k ++ (t.flat ++ flatMap l)
end

theorem treeArgs_length (l : List FormatArgumentValue) : (treeArgs l).length = l.length := by
  induction l with
  | nil => rfl
  | cons v l ih => rw [treeArgs, List.length_cons, List.length_cons, ih]
theorem treeNamedArgs_length (l : List (String × FormatArgumentValue)) :
    (treeNamedArgs l).length = l.length := by
  induction l with
  | nil => rfl
  | cons v l ih => rw [treeNamedArgs, List.length_cons, List.length_cons, ih]
theorem treeProps_length (l : List Property) : (treeProps l).length = l.length := by
  induction l with
  | nil => rfl
  | cons v l ih => rw [treeProps, List.length_cons, List.length_cons, ih]
theorem treeStructs_length (l : List StructPropertyValue) : (treeStructs l).length = l.length := by
  induction l with
  | nil => rfl
  | cons v l ih => rw [treeStructs, List.length_cons, List.length_cons, ih]
theorem treeStrProps_length (l : List (String × Property)) :
    (treeStrProps l).length = l.length := by
  induction l with
  | nil => rfl
  | cons v l ih => rw [treeStrProps, List.length_cons, List.length_cons, ih]
theorem treePairs_length (l : List (Property × Property)) : (treePairs l).length = l.length := by
  induction l with
  | nil => rfl
  | cons v l ih => rw [treePairs, List.length_cons, List.length_cons, ih]
theorem treeFields_length (l : List (String × List Property)) :
    (treeFields l).length = l.length := by
  induction l with
  | nil => rfl
  | cons v l ih => rw [treeFields, List.length_cons, List.length_cons, ih]

theorem pairTree_flat {ks : List Tree} {l : List (List Tok × Tree)}
    (h : ks.map Tree.flat = l.map Prod.fst) :
    (pairTree ks l).flat = .n l.length :: flatMap l := by
  unfold pairTree
  split
  · simp only [List.map_cons, List.map_nil, List.cons.injEq, and_true] at h
    simp [Tree.flat, flats, flatMap, h]
  · rw [Tree.flat]

theorem leafMap_flat {α : Type} (f : α → List Tok) (l : List (String × α)) :
    flatMap (l.map fun e => ([Tok.s e.1], Tree.leaf (f e.2))) =
      l.flatMap fun e => Tok.s e.1 :: f e.2 := by
  induction l with
  | nil => rfl
  | cons e l ih =>
    rw [List.map_cons, flatMap, ih, List.flatMap_cons, Tree.flat]
    rfl

mutual
theorem text_flat : ∀ t : FText, t.tree.flat = t.feed
  | .mk f h => by
    simp only [FText.tree, FText.feed, Tree.flat, flats, history_flat h]; simp
theorem history_flat : ∀ t : FTextHistory, t.tree.flat = t.feed
  | .empty => rfl
  | .none .. => rfl
  | .base .. => rfl
  | .namedFormat src args => by
    simp [FTextHistory.tree, FTextHistory.feed, Tree.flat, flats, text_flat src, named_flat args,
      treeNamedArgs_length]
  | .orderedFormat src args => by
    simp [FTextHistory.tree, FTextHistory.feed, Tree.flat, flats, text_flat src, args_flat args,
      treeArgs_length]
  | .argumentFormat src args => by
    simp [FTextHistory.tree, FTextHistory.feed, Tree.flat, flats, text_flat src, named_flat args,
      treeNamedArgs_length]
  | .asNumber v _ _ => by
    simp [FTextHistory.tree, FTextHistory.feed, Tree.flat, flats, arg_flat v]
  | .asPercent v _ _ => by
    simp [FTextHistory.tree, FTextHistory.feed, Tree.flat, flats, arg_flat v]
  | .asCurrency _ v _ _ => by
    simp [FTextHistory.tree, FTextHistory.feed, Tree.flat, flats, arg_flat v]
  | .asDate .. => rfl
  | .asTime .. => rfl
  | .asDateTime .. => rfl
  | .transform src _ => by
    simp [FTextHistory.tree, FTextHistory.feed, Tree.flat, flats, text_flat src]
  | .stringTableEntry .. => rfl
theorem arg_flat : ∀ v : FormatArgumentValue, v.tree.flat = v.feed
  | .text t => by
    simp [FormatArgumentValue.tree, FormatArgumentValue.feed, Tree.flat, flats, text_flat t]
  | .int _ => rfl
  | .uint _ => rfl
  | .float _ => rfl
  | .double _ => rfl
  | .int64 _ => rfl
  | .uint64 _ => rfl
theorem args_flat : ∀ l, flats (treeArgs l) = feedArgs l
  | [] => rfl
  | v :: l => by rw [treeArgs, flats, feedArgs, arg_flat v, args_flat l]
theorem named_flat : ∀ l, flatMap (treeNamedArgs l) = feedNamedArgs l
  | [] => rfl
  | (_, v) :: l => by
    rw [treeNamedArgs, flatMap, feedNamedArgs, arg_flat v, named_flat l]; rfl
end

mutual
theorem prop_flat : ∀ p : Property, p.tree.flat = p.feed
  | .array v => by simp [Property.tree, Property.feed, Tree.flat, flats, array_flat v]
  | .map v => by simp [Property.tree, Property.feed, Tree.flat, flats, map_flat v]
  | .set _ _ ps => by
    simp [Property.tree, Property.feed, Tree.flat, flats, props_flat ps, treeProps_length]
  | .struct _ _ v => by simp [Property.tree, Property.feed, Tree.flat, flats, struct_flat v]
  | .structValue v => by simp [Property.tree, Property.feed, Tree.flat, flats, struct_flat v]
  | .text v => by simp [Property.tree, Property.feed, Tree.flat, flats, text_flat v]
  | .double _ => rfl
  | .float _ => rfl
  | .bool _ => rfl
  | .byte .. => rfl
  | .enum .. => rfl
  | .int16 _ => rfl
  | .int64 _ => rfl
  | .int8 _ => rfl
  | .int _ => rfl
  | .name .. => rfl
  | .object _ => rfl
  | .delegate _ => rfl
  | .multicastInlineDelegate _ => rfl
  | .multicastSparseDelegate _ => rfl
  | .fieldPath _ => rfl
  | .str _ => rfl
  | .uint16 _ => rfl
  | .uint32 _ => rfl
  | .uint64 _ => rfl
  | .unknown .. => rfl
theorem array_flat : ∀ v : ArrayProperty, v.tree.flat = v.feed
  | .structs _ _ _ v => by
    simp [ArrayProperty.tree, ArrayProperty.feed, Tree.flat, flats, structs_flat v,
      treeStructs_length]
  | .properties _ v => by
    simp [ArrayProperty.tree, ArrayProperty.feed, Tree.flat, flats, props_flat v, treeProps_length]
  | .bools _ => rfl
  | .bytes _ => rfl
  | .enums _ => rfl
  | .floats _ => rfl
  | .ints _ => rfl
  | .names _ => rfl
  | .strings _ => rfl
theorem map_flat : ∀ v : MapProperty, v.tree.flat = v.feed
  | .enumBool v => by
    simp only [MapProperty.tree, MapProperty.feed, Tree.flat, flats, List.append_nil,
      List.length_map]
    rw [leafMap_flat (fun v : Bool => [Tok.n v.toNat]) v]
    rfl
  | .enumInt v => by
    simp only [MapProperty.tree, MapProperty.feed, Tree.flat, flats, List.append_nil,
      List.length_map]
    rw [leafMap_flat (fun v : Int32 => [Tok.n v.toUInt32.toNat]) v]
    rfl
  | .nameBool v => by
    simp only [MapProperty.tree, MapProperty.feed, Tree.flat, flats, List.append_nil,
      List.length_map]
    rw [leafMap_flat (fun v : Bool => [Tok.n v.toNat]) v]
    rfl
  | .nameInt v => by
    simp only [MapProperty.tree, MapProperty.feed, Tree.flat, flats, List.append_nil,
      List.length_map]
    rw [leafMap_flat (fun v : Int32 => [Tok.n v.toUInt32.toNat]) v]
    rfl
  | .strBool v => by
    simp only [MapProperty.tree, MapProperty.feed, Tree.flat, flats, List.append_nil,
      List.length_map]
    rw [leafMap_flat (fun v : Bool => [Tok.n v.toNat]) v]
    rfl
  | .strInt v => by
    simp only [MapProperty.tree, MapProperty.feed, Tree.flat, flats, List.append_nil,
      List.length_map]
    rw [leafMap_flat (fun v : Int32 => [Tok.n v.toUInt32.toNat]) v]
    rfl
  | .strStr v => by
    simp only [MapProperty.tree, MapProperty.feed, Tree.flat, flats, List.append_nil,
      List.length_map]
    rw [leafMap_flat (feedOpt) v]
    rfl
  | .enumProperty _ v => by
    simp [MapProperty.tree, MapProperty.feed, Tree.flat, flats, strs_flat v, treeStrProps_length]
  | .nameProperty _ v => by
    simp [MapProperty.tree, MapProperty.feed, Tree.flat, flats, strs_flat v, treeStrProps_length]
  | .strProperty _ v => by
    simp [MapProperty.tree, MapProperty.feed, Tree.flat, flats, strs_flat v, treeStrProps_length]
  | .properties _ _ _ v => by
    simp [MapProperty.tree, MapProperty.feed, Tree.flat, flats, pairTree_flat (keys_flat v), pairs_flat v,
      treePairs_length]
theorem struct_flat : ∀ v : StructPropertyValue, v.tree.flat = v.feed
  | .customStruct fs => by
    simp [StructPropertyValue.tree, StructPropertyValue.feed, Tree.flat, flats, fields_flat fs,
      treeFields_length]
  | .vector2F .. => rfl
  | .vector2D .. => rfl
  | .vectorF .. => rfl
  | .vectorD .. => rfl
  | .rotatorF .. => rfl
  | .rotatorD .. => rfl
  | .quatF .. => rfl
  | .quatD .. => rfl
  | .dateTime _ => rfl
  | .timespan _ => rfl
  | .guid _ => rfl
  | .linearColor .. => rfl
  | .intPoint .. => rfl
  | .gameplayTagContainer _ => rfl
theorem props_flat : ∀ l, flats (treeProps l) = feedProps l
  | [] => rfl
  | p :: l => by rw [treeProps, flats, feedProps, prop_flat p, props_flat l]
theorem structs_flat : ∀ l, flats (treeStructs l) = feedStructs l
  | [] => rfl
  | p :: l => by rw [treeStructs, flats, feedStructs, struct_flat p, structs_flat l]
theorem strs_flat : ∀ l, flatMap (treeStrProps l) = feedStrProps l
  | [] => rfl
  | (_, p) :: l => by
    rw [treeStrProps, flatMap, feedStrProps, prop_flat p, strs_flat l]; rfl
theorem keys_flat : ∀ l, (treeKeys l).map Tree.flat = (treePairs l).map Prod.fst
  | [] => rfl
  | (k, _) :: l => by simp only [treeKeys, treePairs, List.map_cons, prop_flat k, keys_flat l]
theorem pairs_flat : ∀ l, flatMap (treePairs l) = feedPairs l
  | [] => rfl
  | (_, p) :: l => by rw [treePairs, flatMap, feedPairs, prop_flat p, pairs_flat l]
theorem fields_flat : ∀ l, flatMap (treeFields l) = feedFields l
  | [] => rfl
  | (_, ps) :: l => by
    rw [treeFields, flatMap, feedFields, Tree.flat, props_flat ps, fields_flat l,
      treeProps_length]; rfl
end

/-- Trees are equal exactly for values that are equal up to zeros and NaNs. -/
theorem tree_eq_iff (a b : Property) : a.tree = b.tree ↔ norm a = norm b :=
  ⟨fun h => (sameKey_iff a b).mp (by
    rw [sameKey, beq_iff_eq, ← prop_flat, ← prop_flat, h]),
   fun h => by rw [← prop_norm a, h, prop_norm]⟩

end Gvas
