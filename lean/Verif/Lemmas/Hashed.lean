import Verif.Model.Hash
import Verif.Spec.PlainKeys
import Verif.Lemmas.EqualOrder

/-!
# Equal values that are hashed alike
-/

namespace Gvas

open Spec

/-! ## Nothing else is fed for a value without maps -/

mutual
theorem text_mapless : ∀ t : FText, TextMapless t → t.hashed = t.feed
  | .mk _ h, hm => by rw [FText.hashed, FText.feed, history_mapless h hm]
theorem history_mapless : ∀ t : FTextHistory, HistoryMapless t → t.hashed = t.feed
  | .empty, _ => rfl
  | .none .., _ => rfl
  | .base .., _ => rfl
  | .namedFormat .., hm => hm.elim
  | .argumentFormat .., hm => hm.elim
  | .orderedFormat src args, hm => by
    rw [FTextHistory.hashed, FTextHistory.feed, text_mapless src hm.1, args_mapless args hm.2]
  | .asNumber v _ _, hm => by rw [FTextHistory.hashed, FTextHistory.feed, arg_mapless v hm]
  | .asPercent v _ _, hm => by rw [FTextHistory.hashed, FTextHistory.feed, arg_mapless v hm]
  | .asCurrency _ v _ _, hm => by rw [FTextHistory.hashed, FTextHistory.feed, arg_mapless v hm]
  | .asDate .., _ => rfl
  | .asTime .., _ => rfl
  | .asDateTime .., _ => rfl
  | .transform src _, hm => by rw [FTextHistory.hashed, FTextHistory.feed, text_mapless src hm]
  | .stringTableEntry .., _ => rfl
theorem arg_mapless : ∀ v : FormatArgumentValue, ArgMapless v → v.hashed = v.feed
  | .text t, hm => by rw [FormatArgumentValue.hashed, FormatArgumentValue.feed, text_mapless t hm]
  | .int _, _ | .uint _, _ | .float _, _ | .double _, _ | .int64 _, _ | .uint64 _, _ => rfl
theorem args_mapless : ∀ l, ArgsMapless l → hashedArgs l = feedArgs l
  | [], _ => rfl
  | v :: l, hm => by rw [hashedArgs, feedArgs, arg_mapless v hm.1, args_mapless l hm.2]
end

theorem struct_mapless (v : StructPropertyValue) (h : StructMapless v) : v.hashed = v.feed := by
  cases v <;> first | rfl | exact h.elim

theorem structs_mapless : ∀ l : List StructPropertyValue, (∀ v ∈ l, StructMapless v) →
    hashedStructs l = feedStructs l
  | [], _ => rfl
  | v :: l, h => by
    rw [hashedStructs, feedStructs, struct_mapless v (h v (List.mem_cons_self ..)),
      structs_mapless l fun x hx => h x (List.mem_cons_of_mem _ hx)]

mutual
theorem prop_mapless : ∀ p : Property, Mapless p → p.hashed = p.feed
  | .array v, h => by rw [Property.hashed, Property.feed, array_mapless v h]
  | .map _, h => h.elim
  | .set _ _ ps, h => by rw [Property.hashed, Property.feed, props_mapless ps h]
  | .struct _ _ v, h => by rw [Property.hashed, Property.feed, struct_mapless v h]
  | .structValue v, h => by rw [Property.hashed, Property.feed, struct_mapless v h]
  | .text v, h => by rw [Property.hashed, Property.feed, text_mapless v h]
  | .bool _, _ | .byte .., _ | .double _, _ | .enum .., _ | .float _, _ | .int16 _, _
  | .int64 _, _ | .int8 _, _ | .int _, _ | .name .., _ | .object _, _ | .delegate _, _
  | .multicastInlineDelegate _, _ | .multicastSparseDelegate _, _ | .fieldPath _, _ | .str _, _
  | .uint16 _, _ | .uint32 _, _ | .uint64 _, _ | .unknown .., _ => rfl
theorem array_mapless : ∀ v : ArrayProperty, ArrayMapless v → v.hashed = v.feed
  | .structs _ _ _ v, h => by rw [ArrayProperty.hashed, ArrayProperty.feed, structs_mapless v h]
  | .properties _ v, h => by rw [ArrayProperty.hashed, ArrayProperty.feed, props_mapless v h]
  | .bools _, _ | .bytes _, _ | .enums _, _ | .floats _, _ | .ints _, _ | .names _, _
  | .strings _, _ => rfl
theorem props_mapless : ∀ l, PropsMapless l → hashedProps l = feedProps l
  | [], _ => rfl
  | p :: l, h => by rw [hashedProps, feedProps, prop_mapless p h.1, props_mapless l h.2]
end

/-! ## Trees -/

/-- What `pairTree` marks a single entry with. -/
def isMark : Tree → Bool
  | .leaf ts => ts == [.n 1]
  | _ => false

/-- Is this the tree of a map with one entry that has a property for a key? -/
def isOne : List Tree → Bool
  | a :: l => isMark a && l.length == 2
  | [] => false

mutual
/-- The data in a tree, in order, with the lengths of lists but not of maps. -/
def Tree.raw : Tree → List Tok
  | .leaf ts => ts
  | .node l => if isOne l then (raws l).tail else raws l
  | .list l => .n l.length :: raws l
  | .umap l => rawMap l
/-- The data in trees. -/
def raws : List Tree → List Tok
  | [] => []
  | t :: l => t.raw ++ raws l
/-- The data in entries. -/
def rawMap : List (List Tok × Tree) → List Tok
  | [] => []
  | (k, t) :: l => k ++ (t.raw ++ rawMap l)
end

/-- What is fed for a key of a map. -/
def IsKey (ts : List Tok) : Prop := (∃ s, ts = [.s s]) ∨ ∃ p : Property, ts = p.feed

theorem feed_head (p : Property) : ∃ n l, p.feed = .n n :: l := by
  cases p <;> exact ⟨_, _, rfl⟩

/-- What is fed for a key tells where it ends. -/
theorem isKey_inj {a b r r' : List Tok} (ha : IsKey a) (hb : IsKey b) (h : a ++ r = b ++ r') :
    a = b ∧ r = r' := by
  rcases ha with ⟨s, rfl⟩ | ⟨p, rfl⟩ <;> rcases hb with ⟨s', rfl⟩ | ⟨p', rfl⟩
  · simpa using h
  · obtain ⟨n, l, e⟩ := feed_head p'
    simp [e] at h
  · obtain ⟨n, l, e⟩ := feed_head p
    simp [e] at h
  · obtain ⟨h1, h2⟩ := Property.feed_inj p p' r r' h
    exact ⟨by rw [← Property.feed_norm p, h1, Property.feed_norm], h2⟩

mutual
/-- All maps in a tree have keys of this kind. -/
def Tree.Keyed : Tree → Prop
  | .leaf _ => True
  | .node l => KeyedList l
  | .list l => KeyedList l
  | .umap l => KeyedMap l
/-- All maps in trees do. -/
def KeyedList : List Tree → Prop
  | [] => True
  | t :: l => t.Keyed ∧ KeyedList l
/-- A map and the maps in its values do. -/
def KeyedMap : List (List Tok × Tree) → Prop
  | [] => True
  | (k, t) :: l => IsKey k ∧ t.Keyed ∧ KeyedMap l
end

theorem leafMap_keyed {α : Type} (f : α → List Tok) (ts : List Tok) (l : List (String × α)) :
    (Tree.node [.leaf ts, .umap (l.map fun e => ([Tok.s e.1], Tree.leaf (f e.2)))]).Keyed := by
  refine ⟨trivial, ?_, trivial⟩
  change KeyedMap _
  induction l with
  | nil => trivial
  | cons e l ih => exact ⟨.inl ⟨e.1, rfl⟩, trivial, ih⟩

theorem pairTree_keyed {ks : List Tree} {l : List (List Tok × Tree)} (hk : KeyedList ks)
    (hl : KeyedMap l) : (pairTree ks l).Keyed := by
  unfold pairTree
  split
  · exact ⟨trivial, hk.1, hl.2.1, trivial⟩
  · exact hl

mutual
theorem text_keyed : ∀ t : FText, t.tree.Keyed
  | .mk _ h => ⟨trivial, history_keyed h, trivial⟩
theorem history_keyed : ∀ t : FTextHistory, t.tree.Keyed
  | .empty => trivial
  | .none .. => trivial
  | .base .. => trivial
  | .namedFormat src args => ⟨trivial, text_keyed src, named_keyed args, trivial⟩
  | .orderedFormat src args =>
    ⟨trivial, text_keyed src, args_keyed args, trivial⟩
  | .argumentFormat src args => ⟨trivial, text_keyed src, named_keyed args, trivial⟩
  | .asNumber v _ _ => ⟨trivial, arg_keyed v, trivial, trivial, trivial⟩
  | .asPercent v _ _ => ⟨trivial, arg_keyed v, trivial, trivial, trivial⟩
  | .asCurrency _ v _ _ => ⟨trivial, arg_keyed v, trivial, trivial, trivial⟩
  | .asDate .. => trivial
  | .asTime .. => trivial
  | .asDateTime .. => trivial
  | .transform src _ => ⟨trivial, text_keyed src, trivial, trivial⟩
  | .stringTableEntry .. => trivial
theorem arg_keyed : ∀ v : FormatArgumentValue, v.tree.Keyed
  | .text t => ⟨trivial, text_keyed t, trivial⟩
  | .int _ => trivial
  | .uint _ => trivial
  | .float _ => trivial
  | .double _ => trivial
  | .int64 _ => trivial
  | .uint64 _ => trivial
theorem args_keyed : ∀ l, KeyedList (treeArgs l)
  | [] => trivial
  | v :: l => ⟨arg_keyed v, args_keyed l⟩
theorem named_keyed : ∀ l, KeyedMap (treeNamedArgs l)
  | [] => trivial
  | (k, v) :: l => ⟨.inl ⟨k, rfl⟩, arg_keyed v, named_keyed l⟩
end

mutual
theorem prop_keyed : ∀ p : Property, p.tree.Keyed
  | .array v => ⟨trivial, array_keyed v, trivial⟩
  | .map v => ⟨trivial, map_keyed v, trivial⟩
  | .set _ _ ps => ⟨trivial, props_keyed ps, trivial⟩
  | .struct _ _ v => ⟨trivial, struct_keyed v, trivial⟩
  | .structValue v => ⟨trivial, struct_keyed v, trivial⟩
  | .text v => ⟨trivial, text_keyed v, trivial⟩
  | .bool _ => trivial
  | .byte .. => trivial
  | .double _ => trivial
  | .enum .. => trivial
  | .float _ => trivial
  | .int16 _ => trivial
  | .int64 _ => trivial
  | .int8 _ => trivial
  | .int _ => trivial
  | .name .. => trivial
  | .object _ => trivial
  | .delegate _ => trivial
  | .multicastInlineDelegate _ => trivial
  | .multicastSparseDelegate _ => trivial
  | .fieldPath _ => trivial
  | .str _ => trivial
  | .uint16 _ => trivial
  | .uint32 _ => trivial
  | .uint64 _ => trivial
  | .unknown .. => trivial
theorem array_keyed : ∀ v : ArrayProperty, v.tree.Keyed
  | .structs _ _ _ v => ⟨trivial, structs_keyed v, trivial⟩
  | .properties _ v => ⟨trivial, props_keyed v, trivial⟩
  | .bools _ => trivial
  | .bytes _ => trivial
  | .enums _ => trivial
  | .floats _ => trivial
  | .ints _ => trivial
  | .names _ => trivial
  | .strings _ => trivial
theorem map_keyed : ∀ v : MapProperty, v.tree.Keyed
  | .enumBool _ => leafMap_keyed (fun v : Bool => [.n v.toNat]) _ _
  | .enumInt _ => leafMap_keyed (fun v : Int32 => [.n v.toUInt32.toNat]) _ _
  | .enumProperty _ v =>
    ⟨trivial, strs_keyed v, trivial⟩
  | .nameBool _ => leafMap_keyed (fun v : Bool => [.n v.toNat]) _ _
  | .nameInt _ => leafMap_keyed (fun v : Int32 => [.n v.toUInt32.toNat]) _ _
  | .nameProperty _ v =>
    ⟨trivial, strs_keyed v, trivial⟩
  | .properties _ _ _ v =>
    ⟨trivial, pairTree_keyed (keys_keyed v) (pairs_keyed v),
      trivial⟩
  | .strBool _ => leafMap_keyed (fun v : Bool => [.n v.toNat]) _ _
  | .strInt _ => leafMap_keyed (fun v : Int32 => [.n v.toUInt32.toNat]) _ _
  | .strProperty _ v =>
    ⟨trivial, strs_keyed v, trivial⟩
  | .strStr _ => leafMap_keyed feedOpt _ _
theorem struct_keyed : ∀ v : StructPropertyValue, v.tree.Keyed
  | .customStruct fs =>
    ⟨trivial, fields_keyed fs, trivial⟩
  | .vector2F .. => trivial
  | .vector2D .. => trivial
  | .vectorF .. => trivial
  | .vectorD .. => trivial
  | .rotatorF .. => trivial
  | .rotatorD .. => trivial
  | .quatF .. => trivial
  | .quatD .. => trivial
  | .dateTime _ => trivial
  | .timespan _ => trivial
  | .guid _ => trivial
  | .linearColor .. => trivial
  | .intPoint .. => trivial
  | .gameplayTagContainer _ => trivial
theorem props_keyed : ∀ l, KeyedList (treeProps l)
  | [] => trivial
  | p :: l => ⟨prop_keyed p, props_keyed l⟩
theorem structs_keyed : ∀ l, KeyedList (treeStructs l)
  | [] => trivial
  | p :: l => ⟨struct_keyed p, structs_keyed l⟩
theorem strs_keyed : ∀ l, KeyedMap (treeStrProps l)
  | [] => trivial
  | (k, p) :: l => ⟨.inl ⟨k, rfl⟩, prop_keyed p, strs_keyed l⟩
theorem keys_keyed : ∀ l, KeyedList (treeKeys l)
  | [] => trivial
  | (k, _) :: l => ⟨prop_keyed k, keys_keyed l⟩
theorem pairs_keyed : ∀ l, KeyedMap (treePairs l)
  | [] => trivial
  | (k, p) :: l => ⟨.inr ⟨k, rfl⟩, prop_keyed p, pairs_keyed l⟩
theorem fields_keyed : ∀ l, KeyedMap (treeFields l)
  | [] => trivial
  | (k, ps) :: l => ⟨.inl ⟨k, rfl⟩, props_keyed ps, fields_keyed l⟩
end


theorem eqvList_length : ∀ {l m : List Tree}, eqvList l m = true → l.length = m.length
  | [], [], _ => rfl
  | a :: l, b :: m, h => by
    rw [List.length_cons, List.length_cons, eqvList_length ((eqvList_cons_iff a b l m).mp h).2]
  | [], _ :: _, h => by simp [eqvList] at h
  | _ :: _, [], h => by simp [eqvList] at h

theorem isMark_eqv {a b : Tree} (h : a.eqv b = true) : isMark a = isMark b := by
  cases a <;> cases b <;> simp_all [Tree.eqv, isMark]

theorem isOne_eqv {l m : List Tree} (h : eqvList l m = true) : isOne l = isOne m := by
  match l, m with
  | [], [] => rfl
  | [], _ :: _ => simp [eqvList] at h
  | _ :: _, [] => simp [eqvList] at h
  | a :: l, b :: m =>
    rw [eqvList_cons_iff] at h
    rw [isOne, isOne, isMark_eqv h.1, eqvList_length h.2]

theorem isOne_raws {l : List Tree} (h : isOne l = true) : ∃ x, raws l = .n 1 :: x := by
  match l with
  | [] => cases h
  | .leaf ts :: l =>
    simp only [isOne, isMark, Bool.and_eq_true, beq_iff_eq] at h
    exact ⟨raws l, by rw [raws, Tree.raw, h.1]; rfl⟩
  | .node _ :: _ | .list _ :: _ | .umap _ :: _ => simp [isOne, isMark] at h

mutual
theorem raw_inj : ∀ (t t' : Tree) (r r' : List Tok), t.Keyed → t'.Keyed → t.Distinct → t'.Distinct →
    t.eqv t' = true → t.raw ++ r = t'.raw ++ r' → t = t' ∧ r = r'
  | .leaf a, t', r, r', _, _, _, _, he, h => by
    obtain rfl := eqv_leaf he
    exact ⟨rfl, List.append_cancel_left h⟩
  | .node l, .node m, r, r', hk, hk', hd0, hd, he, h => by
    rw [eqv_node_iff] at he
    simp only [Tree.raw, isOne_eqv he] at h
    have h' : raws l ++ r = raws m ++ r' := by
      cases ho : isOne m with
      | false => simpa [ho] using h
      | true =>
        obtain ⟨x, hx⟩ := isOne_raws ho
        obtain ⟨y, hy⟩ := isOne_raws ((isOne_eqv he).trans ho)
        rw [ho, hx, hy] at h
        rw [hx, hy]
        simpa using h
    obtain ⟨rfl, e⟩ := raws_inj l m r r' hk hk' hd0 hd he h'
    exact ⟨rfl, e⟩
  | .list l, .list m, r, r', hk, hk', hd0, hd, he, h => by
    rw [eqv_list_iff] at he
    simp only [Tree.raw, List.cons_append, List.cons.injEq] at h
    obtain ⟨rfl, e⟩ := raws_inj l m r r' hk hk' hd0 hd he h.2
    exact ⟨rfl, e⟩
  | .umap l, .umap m, r, r', hk, hk', hd0, hd, he, h => by
    simp only [Tree.eqv, Bool.and_eq_true, eqvAll_iff, beq_iff_eq] at he
    obtain ⟨rfl, e⟩ := rawMap_inj l m r r' hk hk' hd0.1 hd.1 hd0.2 hd.2 he.1 he.2 h
    exact ⟨rfl, e⟩
  | .node _, .leaf _, _, _, _, _, _, _, he, _ => by simp [Tree.eqv] at he
  | .node _, .list _, _, _, _, _, _, _, he, _ => by simp [Tree.eqv] at he
  | .node _, .umap _, _, _, _, _, _, _, he, _ => by simp [Tree.eqv] at he
  | .list _, .leaf _, _, _, _, _, _, _, he, _ => by simp [Tree.eqv] at he
  | .list _, .node _, _, _, _, _, _, _, he, _ => by simp [Tree.eqv] at he
  | .list _, .umap _, _, _, _, _, _, _, he, _ => by simp [Tree.eqv] at he
  | .umap _, .leaf _, _, _, _, _, _, _, he, _ => by simp [Tree.eqv] at he
  | .umap _, .node _, _, _, _, _, _, _, he, _ => by simp [Tree.eqv] at he
  | .umap _, .list _, _, _, _, _, _, _, he, _ => by simp [Tree.eqv] at he
theorem raws_inj : ∀ (l m : List Tree) (r r' : List Tok), KeyedList l → KeyedList m →
    DistinctList l → DistinctList m → eqvList l m = true → raws l ++ r = raws m ++ r' → l = m ∧ r = r'
  | [], [], r, r', _, _, _, _, _, h => ⟨rfl, h⟩
  | a :: l, b :: m, r, r', hk, hk', hd0, hd, he, h => by
    rw [eqvList_cons_iff] at he
    simp only [raws, List.append_assoc] at h
    obtain ⟨rfl, h'⟩ := raw_inj a b _ _ hk.1 hk'.1 hd0.1 hd.1 he.1 h
    obtain ⟨rfl, e⟩ := raws_inj l m r r' hk.2 hk'.2 hd0.2 hd.2 he.2 h'
    exact ⟨rfl, e⟩
  | [], _ :: _, _, _, _, _, _, _, he, _ => by simp [eqvList] at he
  | _ :: _, [], _, _, _, _, _, _, he, _ => by simp [eqvList] at he
theorem rawMap_inj : ∀ (l m : List (List Tok × Tree)) (r r' : List Tok), KeyedMap l → KeyedMap m →
    (l.map Prod.fst).Nodup → (m.map Prod.fst).Nodup → DistinctMap l → DistinctMap m → l.length = m.length →
    (∀ e ∈ l, ∃ t, m.lookup e.1 = some t ∧ e.2.eqv t = true) →
    rawMap l ++ r = rawMap m ++ r' → l = m ∧ r = r'
  | [], [], r, r', _, _, _, _, _, _, _, _, h => ⟨rfl, h⟩
  | (k, t) :: l, (k', t') :: m, r, r', hk, hk', hn0, hn, hd0, hd, hl, he, h => by
    simp only [rawMap, List.append_assoc] at h
    obtain ⟨rfl, h'⟩ := isKey_inj hk.1 hk'.1 h
    have h1 : t.eqv t' = true := by
      obtain ⟨u, h1, h2⟩ := he (k, t) (List.mem_cons_self ..)
      simp only [List.lookup_cons_self, Option.some.injEq] at h1
      rw [h1]; exact h2
    obtain ⟨rfl, h''⟩ := raw_inj t t' _ _ hk.2.1 hk'.2.1 hd0.1 hd.1 h1 h'
    simp only [List.map_cons, List.nodup_cons] at hn hn0
    obtain ⟨rfl, e⟩ := rawMap_inj l m r r' hk.2.2 hk'.2.2 hn0.2 hn.2 hd0.2 hd.2 (by simpa using hl)
      (fun e hm => by
        obtain ⟨u, h1, h2⟩ := he e (List.mem_cons_of_mem _ hm)
        have hne : e.1 ≠ k := by
          rintro rfl
          exact hn0.1 (List.mem_map.mpr ⟨e, hm, rfl⟩)
        rw [List.lookup_cons, beq_false_of_ne hne] at h1
        exact ⟨u, h1, h2⟩) h''
    exact ⟨rfl, e⟩
  | [], _ :: _, _, _, _, _, _, _, _, _, hl, _, _ => by simp at hl
  | _ :: _, [], _, _, _, _, _, _, _, _, hl, _, _ => by simp at hl
end


/-! ## A tree determines what is hashed -/

theorem leafMap_hash {α : Type} (f : α → List Tok) (l : List (String × α)) :
    rawMap (l.map fun e => ([Tok.s e.1], Tree.leaf (f e.2))) =
      l.flatMap fun e => Tok.s e.1 :: f e.2 := by
  induction l with
  | nil => rfl
  | cons e l ih =>
    rw [List.map_cons, rawMap, ih, List.flatMap_cons, Tree.raw]
    rfl

mutual
theorem text_hash : ∀ t : FText, t.tree.raw = t.hashed
  | .mk f h => by simp [FText.tree, FText.hashed, Tree.raw, raws, isOne, history_hash h]
theorem history_hash : ∀ t : FTextHistory, t.tree.raw = t.hashed
  | .namedFormat src args => by
    simp [FTextHistory.tree, FTextHistory.hashed, Tree.raw, raws, isOne, isMark, text_hash src,
      named_hash args]
  | .orderedFormat src args => by
    simp [FTextHistory.tree, FTextHistory.hashed, Tree.raw, raws, isOne, isMark, text_hash src,
      args_hash args, treeArgs_length]
  | .argumentFormat src args => by
    simp [FTextHistory.tree, FTextHistory.hashed, Tree.raw, raws, isOne, isMark, text_hash src,
      named_hash args]
  | .asNumber v _ _ => by
    simp [FTextHistory.tree, FTextHistory.hashed, Tree.raw, raws, isOne, arg_hash v]
  | .asPercent v _ _ => by
    simp [FTextHistory.tree, FTextHistory.hashed, Tree.raw, raws, isOne, arg_hash v]
  | .asCurrency _ v _ _ => by
    simp [FTextHistory.tree, FTextHistory.hashed, Tree.raw, raws, isOne, arg_hash v]
  | .transform src _ => by
    simp [FTextHistory.tree, FTextHistory.hashed, Tree.raw, raws, isOne, isMark, text_hash src]
  | .empty | .none .. | .base .. | .asDate .. | .asTime .. | .asDateTime ..
  | .stringTableEntry .. => rfl
theorem arg_hash : ∀ v : FormatArgumentValue, v.tree.raw = v.hashed
  | .text t => by
    simp [FormatArgumentValue.tree, FormatArgumentValue.hashed, Tree.raw, raws, isOne, text_hash t]
  | .int _ | .uint _ | .float _ | .double _ | .int64 _ | .uint64 _ => rfl
theorem args_hash : ∀ l, raws (treeArgs l) = hashedArgs l
  | [] => rfl
  | v :: l => by rw [treeArgs, raws, hashedArgs, arg_hash v, args_hash l]
theorem named_hash : ∀ l, rawMap (treeNamedArgs l) = hashedNamedArgs l
  | [] => rfl
  | (_, v) :: l => by
    rw [treeNamedArgs, rawMap, hashedNamedArgs, arg_hash v, named_hash l]; rfl
end

theorem treeKeys_length (l : List (Property × Property)) : (treeKeys l).length = l.length := by
  induction l with
  | nil => rfl
  | cons e l ih => rw [treeKeys, List.length_cons, List.length_cons, ih]

mutual
theorem prop_hash : ∀ p : Property, PlainKeys p → p.tree.raw = p.hashed
  | .array v, h => by
    simp [Property.tree, Property.hashed, Tree.raw, raws, isOne, array_hash v h]
  | .map v, h => by simp [Property.tree, Property.hashed, Tree.raw, raws, isOne, map_hash v h]
  | .set _ _ ps, h => by
    simp [Property.tree, Property.hashed, Tree.raw, raws, isOne, props_hash ps h, treeProps_length]
  | .struct _ _ v, h => by
    simp [Property.tree, Property.hashed, Tree.raw, raws, isOne, struct_hash v h]
  | .structValue v, h => by
    simp [Property.tree, Property.hashed, Tree.raw, raws, isOne, struct_hash v h]
  | .text v, _ => by simp [Property.tree, Property.hashed, Tree.raw, raws, isOne, text_hash v]
  | .bool _, _ | .byte .., _ | .double _, _ | .enum .., _ | .float _, _ | .int16 _, _
  | .int64 _, _ | .int8 _, _ | .int _, _ | .name .., _ | .object _, _ | .delegate _, _
  | .multicastInlineDelegate _, _ | .multicastSparseDelegate _, _ | .fieldPath _, _ | .str _, _
  | .uint16 _, _ | .uint32 _, _ | .uint64 _, _ | .unknown .., _ => rfl
theorem array_hash : ∀ v : ArrayProperty, ArrayPlain v → v.tree.raw = v.hashed
  | .structs _ _ _ v, h => by
    simp [ArrayProperty.tree, ArrayProperty.hashed, Tree.raw, raws, isOne, structs_hash v h,
      treeStructs_length]
  | .properties _ v, h => by
    simp [ArrayProperty.tree, ArrayProperty.hashed, Tree.raw, raws, isOne, props_hash v h,
      treeProps_length]
  | .bools _, _ | .bytes _, _ | .enums _, _ | .floats _, _ | .ints _, _ | .names _, _
  | .strings _, _ => rfl
theorem map_hash : ∀ v : MapProperty, MapPlain v → v.tree.raw = v.hashed
  | .enumBool v, _ | .nameBool v, _ | .strBool v, _ => by
    simp only [MapProperty.tree, MapProperty.hashed, Tree.raw, raws, isOne, List.append_nil]
    rw [leafMap_hash (fun v : Bool => [Tok.n v.toNat]) v]
    simp
  | .enumInt v, _ | .nameInt v, _ | .strInt v, _ => by
    simp only [MapProperty.tree, MapProperty.hashed, Tree.raw, raws, isOne, List.append_nil]
    rw [leafMap_hash (fun v : Int32 => [Tok.n v.toUInt32.toNat]) v]
    simp
  | .strStr v, _ => by
    simp only [MapProperty.tree, MapProperty.hashed, Tree.raw, raws, isOne, List.append_nil]
    rw [leafMap_hash feedOpt v]
    simp
  | .enumProperty _ v, h | .nameProperty _ v, h | .strProperty _ v, h => by
    simp [MapProperty.tree, MapProperty.hashed, Tree.raw, raws, isOne, strs_hash v h]
  | .properties _ _ _ [], _ => by
    simp [MapProperty.tree, MapProperty.hashed, Tree.raw, raws, isOne, treeKeys, treePairs,
      pairTree, rawMap, hashedPairs]
  | .properties _ _ _ [(k, p)], h => by
    simp [MapProperty.tree, MapProperty.hashed, Tree.raw, raws, isOne, isMark, treeKeys, treePairs,
      pairTree, hashedPairs, prop_hash k h.2.1, prop_hash p h.2.2.1]
  | .properties _ _ _ (a :: b :: l), h => by
    have hl : pairTree (treeKeys (a :: b :: l)) (treePairs (a :: b :: l)) =
        .umap (treePairs (a :: b :: l)) := rfl
    simp only [MapProperty.tree, MapProperty.hashed, Tree.raw, raws, isOne, hl, List.append_nil,
      pairs_hash (a :: b :: l) (h.1.resolve_left (by simp)) h.2]
    simp
theorem struct_hash : ∀ v : StructPropertyValue, StructPlain v → v.tree.raw = v.hashed
  | .customStruct fs, h => by
    simp [StructPropertyValue.tree, StructPropertyValue.hashed, Tree.raw, raws, isOne,
      fields_hash fs h]
  | .vector2F .., _ | .vector2D .., _ | .vectorF .., _ | .vectorD .., _ | .rotatorF .., _
  | .rotatorD .., _ | .quatF .., _ | .quatD .., _ | .dateTime _, _ | .timespan _, _ | .guid _, _
  | .linearColor .., _ | .intPoint .., _ | .gameplayTagContainer _, _ => rfl
theorem props_hash : ∀ l, PropsPlain l → raws (treeProps l) = hashedProps l
  | [], _ => rfl
  | p :: l, h => by rw [treeProps, raws, hashedProps, prop_hash p h.1, props_hash l h.2]
theorem structs_hash : ∀ l, StructsPlain l → raws (treeStructs l) = hashedStructs l
  | [], _ => rfl
  | p :: l, h => by rw [treeStructs, raws, hashedStructs, struct_hash p h.1, structs_hash l h.2]
theorem strs_hash : ∀ l, ValuesPlain l → rawMap (treeStrProps l) = hashedStrProps l
  | [], _ => rfl
  | (_, p) :: l, h => by
    rw [treeStrProps, rawMap, hashedStrProps, prop_hash p h.1, strs_hash l h.2]; rfl
theorem pairs_hash : ∀ l, (∀ e ∈ l, Mapless e.1) → EntriesPlain l →
    rawMap (treePairs l) = hashedPairs l
  | [], _, _ => rfl
  | (k, p) :: l, hk, h => by
    rw [treePairs, rawMap, hashedPairs, prop_hash p h.2.1,
      pairs_hash l (fun e he => hk e (List.mem_cons_of_mem _ he)) h.2.2,
      prop_mapless k (hk (k, p) (List.mem_cons_self ..))]
theorem fields_hash : ∀ l, FieldsPlain l → rawMap (treeFields l) = hashedFields l
  | [], _ => rfl
  | (_, ps) :: l, h => by
    rw [treeFields, rawMap, hashedFields, Tree.raw, props_hash ps h.1, fields_hash l h.2,
      treeProps_length]; rfl
end

/-! ## Normalising does not change what is hashed -/

mutual
theorem FText.hashed_norm : ∀ t : FText, (normText t).hashed = t.hashed
  | .mk f h => by simp only [normText, FText.hashed, FTextHistory.hashed_norm h]
theorem FTextHistory.hashed_norm : ∀ h : FTextHistory, (normHistory h).hashed = h.hashed
  | .empty => rfl
  | .none s => rfl
  | .base .. => rfl
  | .namedFormat x y => by
    simp only [normHistory, FTextHistory.hashed, FText.hashed_norm x, (hashedNamedArgs_norm y).1,
      (hashedNamedArgs_norm y).2]
  | .orderedFormat x y => by
    simp only [normHistory, FTextHistory.hashed, FText.hashed_norm x, (hashedArgs_norm y).1,
      (hashedArgs_norm y).2]
  | .argumentFormat x y => by
    simp only [normHistory, FTextHistory.hashed, FText.hashed_norm x, (hashedNamedArgs_norm y).1,
      (hashedNamedArgs_norm y).2]
  | .asNumber x y z => by
    simp only [normHistory, FTextHistory.hashed, FormatArgumentValue.hashed_norm x]
  | .asPercent x y z => by
    simp only [normHistory, FTextHistory.hashed, FormatArgumentValue.hashed_norm x]
  | .asCurrency w x y z => by
    simp only [normHistory, FTextHistory.hashed, FormatArgumentValue.hashed_norm x]
  | .asDate .. => rfl
  | .asTime .. => rfl
  | .asDateTime .. => rfl
  | .transform x y => by simp only [normHistory, FTextHistory.hashed, FText.hashed_norm x]
  | .stringTableEntry .. => rfl
theorem FormatArgumentValue.hashed_norm : ∀ v : FormatArgumentValue, (normArg v).hashed = v.hashed
  | .int x => rfl
  | .uint x => rfl
  | .float x => by simp only [normArg, FormatArgumentValue.hashed, FormatArgumentValue.feed, canon32_norm]
  | .double x => by simp only [normArg, FormatArgumentValue.hashed, FormatArgumentValue.feed, canon64_norm]
  | .text x => by simp only [normArg, FormatArgumentValue.hashed, FText.hashed_norm x]
  | .int64 x => rfl
  | .uint64 x => rfl
theorem hashedArgs_norm : ∀ l : List FormatArgumentValue,
    hashedArgs (normArgs l) = hashedArgs l ∧ (normArgs l).length = l.length
  | [] => ⟨rfl, rfl⟩
  | x :: l => by
    simp [normArgs, hashedArgs, FormatArgumentValue.hashed_norm x, (hashedArgs_norm l).1,
      (hashedArgs_norm l).2]
theorem hashedNamedArgs_norm : ∀ l : List (String × FormatArgumentValue),
    hashedNamedArgs (normNamedArgs l) = hashedNamedArgs l ∧ (normNamedArgs l).length = l.length
  | [] => ⟨rfl, rfl⟩
  | (k, x) :: l => by
    simp [normNamedArgs, hashedNamedArgs, FormatArgumentValue.hashed_norm x, (hashedNamedArgs_norm l).1,
      (hashedNamedArgs_norm l).2]
end

mutual
theorem Property.hashed_norm : ∀ p : Property, (norm p).hashed = p.hashed
  | .array v => by simp only [norm, Property.hashed, ArrayProperty.hashed_norm v]
  | .double v => by simp only [norm, Property.hashed, Property.feed, canon64_norm]
  | .float v => by simp only [norm, Property.hashed, Property.feed, canon32_norm]
  | .map v => by simp only [norm, Property.hashed, MapProperty.hashed_norm v]
  | .set t fl ps => by
    simp only [norm, Property.hashed, (hashedProps_norm ps).1, (hashedProps_norm ps).2]
  | .struct g t v => by simp only [norm, Property.hashed, StructPropertyValue.hashed_norm v]
  | .structValue v => by simp only [norm, Property.hashed, StructPropertyValue.hashed_norm v]
  | .text v => by simp only [norm, Property.hashed, FText.hashed_norm v]
  | .bool _ | .byte .. | .enum .. | .int16 _ | .int64 _ | .int8 _ | .int _ | .name .. | .object _
  | .delegate _ | .multicastInlineDelegate _ | .multicastSparseDelegate _ | .fieldPath _ | .str _
  | .uint16 _ | .uint32 _ | .uint64 _ | .unknown .. => rfl
theorem ArrayProperty.hashed_norm : ∀ a : ArrayProperty, (normArray a).hashed = a.hashed
  | .floats v => by
    simp only [normArray, ArrayProperty.hashed, ArrayProperty.feed, List.length_map, List.map_map]
    congr 2
    exact List.map_congr_left fun x _ => by simp [canon32_norm]
  | .structs f t g v => by
    simp only [normArray, ArrayProperty.hashed, (hashedStructs_norm v).1, (hashedStructs_norm v).2]
  | .properties t v => by
    simp only [normArray, ArrayProperty.hashed, (hashedProps_norm v).1, (hashedProps_norm v).2]
  | .bools _ | .bytes _ | .enums _ | .ints _ | .names _ | .strings _ => rfl
theorem MapProperty.hashed_norm : ∀ m : MapProperty, (normMap m).hashed = m.hashed
  | .enumProperty t v | .nameProperty t v | .strProperty t v => by
    simp only [normMap, MapProperty.hashed, (hashedStrProps_norm v).1, (hashedStrProps_norm v).2]
  | .properties kt vt fl v => by
    simp only [normMap, MapProperty.hashed, (hashedPairs_norm v).1, (hashedPairs_norm v).2]
  | .enumBool _ | .enumInt _ | .nameBool _ | .nameInt _ | .strBool _ | .strInt _ | .strStr _ => rfl
theorem StructPropertyValue.hashed_norm : ∀ v : StructPropertyValue, (normStruct v).hashed = v.hashed
  | .vector2F .. | .vector2D .. | .vectorF .. | .vectorD .. | .rotatorF .. | .rotatorD ..
  | .quatF .. | .quatD .. | .linearColor .. => by
    simp only [normStruct, StructPropertyValue.hashed, StructPropertyValue.feed, canon32_norm,
      canon64_norm]
  | .customStruct fs => by
    simp only [normStruct, StructPropertyValue.hashed, (hashedFields_norm fs).1,
      (hashedFields_norm fs).2]
  | .dateTime _ | .timespan _ | .guid _ | .intPoint .. | .gameplayTagContainer _ => rfl
theorem hashedProps_norm : ∀ l : List Property,
    hashedProps (normProps l) = hashedProps l ∧ (normProps l).length = l.length
  | [] => ⟨rfl, rfl⟩
  | x :: l => by
    simp [normProps, hashedProps, Property.hashed_norm x, (hashedProps_norm l).1, (hashedProps_norm l).2]
theorem hashedStructs_norm : ∀ l : List StructPropertyValue,
    hashedStructs (normStructs l) = hashedStructs l ∧ (normStructs l).length = l.length
  | [] => ⟨rfl, rfl⟩
  | x :: l => by
    simp [normStructs, hashedStructs, StructPropertyValue.hashed_norm x, (hashedStructs_norm l).1,
      (hashedStructs_norm l).2]
theorem hashedStrProps_norm : ∀ l : List (String × Property),
    hashedStrProps (normStrProps l) = hashedStrProps l ∧ (normStrProps l).length = l.length
  | [] => ⟨rfl, rfl⟩
  | (k, x) :: l => by
    simp [normStrProps, hashedStrProps, Property.hashed_norm x, (hashedStrProps_norm l).1,
      (hashedStrProps_norm l).2]
theorem hashedPairs_norm : ∀ l : List (Property × Property),
    hashedPairs (normPairs l) = hashedPairs l ∧ (normPairs l).length = l.length
  | [] => ⟨rfl, rfl⟩
  | (k, x) :: l => by
    simp [normPairs, hashedPairs, Property.hashed_norm k, Property.hashed_norm x, (hashedPairs_norm l).1,
      (hashedPairs_norm l).2]
theorem hashedFields_norm : ∀ l : List (String × List Property),
    hashedFields (normFields l) = hashedFields l ∧ (normFields l).length = l.length
  | [] => ⟨rfl, rfl⟩
  | (k, x) :: l => by
    simp [normFields, hashedFields, (hashedProps_norm x).1, (hashedProps_norm x).2, (hashedFields_norm l).1,
      (hashedFields_norm l).2]
end

end Gvas
