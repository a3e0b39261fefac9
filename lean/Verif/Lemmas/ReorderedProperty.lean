import Verif.Lemmas.ReorderedText

/-! # Reading properties and files with the entries of objects in another order -/

namespace Gvas.Reord

open Spec Js

variable {α β : Type}

/-- What is read for a property: an equal one, and the same if there are no maps in it. -/
def PropLike (p p' : Property) : Prop :=
  p.eqv p' = true ∧ MapsDistinct p' ∧ (Mapless p → p' = p)
/-- What is read for a struct. -/
def StructLike (v v' : StructPropertyValue) : Prop :=
  v.tree.eqv v'.tree = true ∧ StructMaps v' ∧ (StructMapless v → v' = v)
/-- What is read for an array. -/
def ArrayLike (v v' : ArrayProperty) : Prop :=
  v.tree.eqv v'.tree = true ∧ ArrayMaps v' ∧ (ArrayMapless v → v' = v)
/-- What is read for a map. -/
def MapLike (v v' : MapProperty) : Prop := v.tree.eqv v'.tree = true ∧ MapMaps v'

theorem propLike_refl {p : Property} (hm : MapsDistinct p) : PropLike p p :=
  ⟨Tree.eqv_refl _ (prop_distinct p hm), hm, fun _ => rfl⟩
theorem structLike_refl {p : StructPropertyValue} (hm : StructMaps p) : StructLike p p :=
  ⟨Tree.eqv_refl _ (struct_distinct p hm), hm, fun _ => rfl⟩
theorem arrayLike_refl {p : ArrayProperty} (hm : ArrayMaps p) : ArrayLike p p :=
  ⟨Tree.eqv_refl _ (array_distinct p hm), hm, fun _ => rfl⟩

/-- `rec` reads properties at most `n` deep. -/
def PropRead [FloatJ] (n : Nat) (rec : J → Option Property) : Prop :=
  ∀ p : Property, p.toJ.depth ≤ n → MapsDistinct p → PlainKeys p → allFinite p = true →
    ∀ j, Reordered p.toJ j → ∃ p', rec j = some p' ∧ PropLike p p'

theorem propsPlain_iff (l : List Property) : PropsPlain l ↔ ∀ p ∈ l, PlainKeys p := by
  induction l with
  | nil => simp [PropsPlain]
  | cons a l ih => simp [PropsPlain, ih]
theorem structsPlain_iff (l : List StructPropertyValue) :
    StructsPlain l ↔ ∀ p ∈ l, StructPlain p := by
  induction l with
  | nil => simp [StructsPlain]
  | cons a l ih => simp [StructsPlain, ih]
theorem valuesPlain_iff (l : List (String × Property)) :
    ValuesPlain l ↔ ∀ e ∈ l, PlainKeys e.2 := by
  induction l with
  | nil => simp [ValuesPlain]
  | cons a l ih => obtain ⟨k, v⟩ := a; simp [ValuesPlain, ih]
theorem entriesPlain_iff (l : List (Property × Property)) :
    EntriesPlain l ↔ ∀ e ∈ l, PlainKeys e.1 ∧ PlainKeys e.2 := by
  induction l with
  | nil => simp [EntriesPlain]
  | cons a l ih => obtain ⟨k, v⟩ := a; simp [EntriesPlain, ih, and_assoc]
theorem fieldsPlain_iff (l : List (String × List Property)) :
    FieldsPlain l ↔ ∀ e ∈ l, ∀ p ∈ e.2, PlainKeys p := by
  induction l with
  | nil => simp [FieldsPlain]
  | cons a l ih => obtain ⟨k, v⟩ := a; simp [FieldsPlain, ih, propsPlain_iff]
theorem propsMapless_iff (l : List Property) : PropsMapless l ↔ ∀ p ∈ l, Mapless p := by
  induction l with
  | nil => simp [PropsMapless]
  | cons a l ih => simp [PropsMapless, ih]

variable {n : Nat} {rec : J → Option Property}

theorem list_read [FloatJ] (hr : PropRead n rec) (ps : List Property)
    (hd : ∀ p ∈ ps, p.toJ.depth ≤ n) (hm : ∀ p ∈ ps, MapsDistinct p) (hk : ∀ p ∈ ps, PlainKeys p)
    (hf : ∀ p ∈ ps, allFinite p = true) {j : J} (hj : Reordered (.arr (ps.map Property.toJ)) j) :
    ∃ ps', J.getArr rec j = some ps' ∧ eqvList (treeProps ps) (treeProps ps') = true ∧
      PropsMaps ps' ∧ (PropsMapless ps → ps' = ps) := by
  obtain ⟨xs, h1, h2⟩ := getArr_pairs (R := PropLike) ps
    (fun p hp j hj => hr p (hd p hp) (hm p hp) (hk p hp) (hf p hp) j hj) hj
  exact ⟨xs, h1, (props_iff _ _).mpr (pairs_imp (fun _ _ h => h.1) h2),
    (PropsMaps_iff _).mpr (pairs_right h2 fun _ _ h => h.2.1),
    fun h => pairs_same h2 (fun _ _ h => h.2.2) ((propsMapless_iff _).mp h)⟩

theorem props_read [FloatJ] (hr : PropRead n rec) (ps : List Property)
    (hd : depthList (propsJ ps) ≤ n) (hm : PropsMaps ps) (hk : PropsPlain ps)
    (hf : propsFinite ps = true) {j : J} (hj : Reordered (.arr (propsJ ps)) j) :
    ∃ ps', J.getArr rec j = some ps' ∧ eqvList (treeProps ps) (treeProps ps') = true ∧
      PropsMaps ps' ∧ (PropsMapless ps → ps' = ps) := by
  rw [propsJ_eq] at hd hj
  rw [depthList_map] at hd
  rw [propsFinite_eq, List.all_eq_true] at hf
  exact list_read hr ps hd ((PropsMaps_iff _).mp hm) ((propsPlain_iff _).mp hk) hf hj

theorem values_read [FloatJ] (hr : PropRead n rec) (l : List (String × Property))
    (hd : depthEntries (strPropsJ l) ≤ n) (hu : KeysDistinct l) (hm : ValuesMaps l)
    (hk : ValuesPlain l) (hf : valuesFinite l = true) {j : J}
    (hj : Reordered (.obj (strPropsJ l)) j) :
    ∃ l', J.getStrMap rec j = some l' ∧
      (Tree.umap (treeStrProps l)).eqv (.umap (treeStrProps l')) = true ∧ KeysDistinct l' ∧
      ValuesMaps l' := by
  rw [strPropsJ_eq] at hd hj
  rw [depthEntries_map] at hd
  rw [ValuesMaps_iff] at hm
  rw [valuesPlain_iff] at hk
  rw [valuesFinite_eq, List.all_eq_true] at hf
  obtain ⟨p, xs, h1, h2, h3, h4⟩ := getStrMap_pairs (R := PropLike) l hu
    (fun e he j hj => hr e.2 (hd e he) (hm e he) (hk e he) (hf e he) j hj) hj
  refine ⟨xs, h1, (strProps_iff hu h3).mpr ⟨p, h2, pairs_imp (fun _ _ h => ⟨h.1, h.2.1⟩) h4⟩, h3,
    (ValuesMaps_iff _).mpr fun e he => ?_⟩
  exact pairs_right h4 (P := fun e => MapsDistinct e.2) (fun _ _ h => h.2.2.1) e
    (h2.mem_iff.mpr he)

theorem fields_read [FloatJ] (hr : PropRead n rec) (l : List (String × List Property))
    (hd : depthEntries (fieldsJ l) ≤ n) (hu : KeysDistinct l) (hm : FieldsMaps l)
    (hk : FieldsPlain l) (hf : fieldsFinite l = true) {j : J}
    (hj : Reordered (.obj (fieldsJ l)) j) :
    ∃ l', J.getStrMap (J.getArr rec) j = some l' ∧
      (Tree.umap (treeFields l)).eqv (.umap (treeFields l')) = true ∧ KeysDistinct l' ∧
      FieldsMaps l' := by
  rw [fieldsJ_eq] at hd hj
  rw [depthEntries_map] at hd
  rw [FieldsMaps_iff] at hm
  rw [fieldsPlain_iff] at hk
  rw [fieldsFinite_eq, List.all_eq_true] at hf
  obtain ⟨p, xs, h1, h2, h3, h4⟩ := getStrMap_pairs (d := J.getArr rec)
    (f := fun ps => .arr (ps.map Property.toJ))
    (R := fun ps ps' => eqvList (treeProps ps) (treeProps ps') = true ∧ PropsMaps ps') l hu
    (fun e he j hj => by
      have h := hd e he
      simp only [J.depth] at h
      have h' := (depthList_map Property.toJ e.2 n).1 (by omega)
      obtain ⟨ps', h1, h2, h3, -⟩ := list_read hr e.2 h' (hm e he) (hk e he)
        (by simpa only [List.all_eq_true] using hf e he) hj
      exact ⟨ps', h1, h2, h3⟩) hj
  refine ⟨xs, h1, ?_, h3, (FieldsMaps_iff _).mpr fun e he => ?_⟩
  · have hl := nodup_str hu
    have hx := nodup_str h3
    rw [treeFields_map, treeFields_map, umap_iff _ _ _ _ _ _
      (by simpa [List.map_map, Function.comp_def] using hl)
      (by simpa [List.map_map, Function.comp_def] using hx)]
    exact ⟨p, h2, pairs_imp (fun _ _ h => ⟨by rw [h.1], by rw [eqv_list_iff]; exact h.2.1⟩) h4⟩
  · exact (PropsMaps_iff _).mp (pairs_right h4 (P := fun e => PropsMaps e.2) (fun _ _ h => h.2.2) e
      (h2.mem_iff.mpr he))

/-! ## Structs -/

theorem variant_byName (rec : J → Option Property) {k : String} (hk : k ≠ "CustomStruct") :
    ByName (StructPropertyValue.ofVariant rec k) := fun es es' h => by
  simp only [StructPropertyValue.ofVariant, if_neg hk, get2_byName _ _ _ _ es es' h,
    get3_byName _ _ _ _ _ es es' h, get4_byName _ _ _ _ _ _ es es' h, ticks_byName es es' h,
    J.getGuid, J.getStr, J.getArr]

theorem struct_read [FloatJ] [FloatBack] (hr : PropRead n rec) (v : StructPropertyValue)
    (hd : v.entry.2.depth ≤ n) (hm : StructMaps v) (hk : StructPlain v)
    (hf : structFinite v = true) {j : J} (hj : Reordered v.entry.2 j) :
    ∃ v', StructPropertyValue.ofVariant rec v.entry.1 j = some v' ∧ StructLike v v' := by
  cases v with
  | customStruct fs =>
    simp only [StructPropertyValue.entry, J.depth] at hd
    obtain ⟨l', h1, h2, h3, h4⟩ := fields_read hr fs (by omega) hm.1 hm.2 hk hf hj
    refine ⟨.customStruct l', ?_, ?_, ⟨h3, h4⟩, fun h => h.elim⟩
    · simp only [StructPropertyValue.entry, StructPropertyValue.ofVariant, reduceIte,
        String.reduceEq, h1, Option.map_some]
    · simp only [StructPropertyValue.tree, eqv_node_iff, eqvList_cons_iff, eqv_leaf_iff, h2,
        eqvList_nil, and_self]
  | gameplayTagContainer tags =>
    refine ⟨_, ?_, structLike_refl hm⟩
    rw [arr_map (fun _ _ => str_iff.mp) hj]
    simp only [StructPropertyValue.entry, StructPropertyValue.ofVariant, reduceIte,
      String.reduceEq, getArr_some (d := J.getStr) (f := J.str) tags (fun _ _ => rfl),
      Option.map_some]
  | dateTime t =>
    refine ⟨_, ?_, structLike_refl hm⟩
    rw [ticks_iff.mp hj]
    simp only [StructPropertyValue.entry, StructPropertyValue.ofVariant, reduceIte,
      String.reduceEq, getTicks_ticksJ, Option.map_some]
  | timespan t =>
    refine ⟨_, ?_, structLike_refl hm⟩
    rw [ticks_iff.mp hj]
    simp only [StructPropertyValue.entry, StructPropertyValue.ofVariant, reduceIte,
      String.reduceEq, getTicks_ticksJ, Option.map_some]
  | guid g =>
    refine ⟨_, ?_, structLike_refl hm⟩
    rw [guid_iff.mp hj]
    simp only [StructPropertyValue.entry, StructPropertyValue.ofVariant, reduceIte,
      String.reduceEq, getGuid_toJ, Option.map_some]
  | intPoint x y =>
    refine ⟨_, ?_, structLike_refl hm⟩
    refine (byName_rigid (variant_byName rec (by simp [StructPropertyValue.entry]))
      (by simp) (fun m hm => by simpa [values_cons, values_nil, int_iff] using hm) hj).trans ?_
    simp only [StructPropertyValue.entry, StructPropertyValue.ofVariant, reduceIte,
      String.reduceEq, get2_back getI32_keep "x" "y" _ x y (by decide)]
    rfl
  | _ =>
    refine ⟨_, ?_, structLike_refl hm⟩
    refine (byName_rigid (variant_byName rec (by simp [StructPropertyValue.entry]))
      (by simp) (fun m hm => by simpa [values_cons, values_nil, f32_iff, f64_iff] using hm)
      hj).trans ?_
    simp only [structFinite] at hf
    simp only [StructPropertyValue.entry, StructPropertyValue.ofVariant, reduceIte,
      String.reduceEq, get2_back getF32_toJ, get2_back getF64_toJ, get3_back getF32_toJ,
      get3_back getF64_toJ, get4_back getF32_toJ, get4_back getF64_toJ, ne_eq,
      not_false_eq_true, hf, keep_true]

theorem structs_iff (l m : List StructPropertyValue) :
    eqvList (treeStructs l) (treeStructs m) = true ↔
      Pairs (fun a b => a.tree.eqv b.tree = true) l m := by
  induction l generalizing m with
  | nil =>
    cases m with
    | nil => exact ⟨fun _ => .nil, fun _ => rfl⟩
    | cons b m => exact ⟨fun h => by simp [treeStructs, eqvList] at h, fun h => by cases h⟩
  | cons a l ih =>
    cases m with
    | nil => exact ⟨fun h => by simp [treeStructs, eqvList] at h, fun h => by cases h⟩
    | cons b m =>
      rw [treeStructs, treeStructs, eqvList_cons_iff, ih]
      exact ⟨fun h => .cons h.1 h.2, fun h => by cases h with | cons h1 h2 => exact ⟨h1, h2⟩⟩

theorem structs_read [FloatJ] [FloatBack] (hr : PropRead n rec) (l : List StructPropertyValue)
    (hd : depthList (structsJ l) ≤ n) (hm : StructsMaps l) (hk : StructsPlain l)
    (hf : structsFinite l = true) {j : J} (hj : Reordered (.arr (structsJ l)) j) :
    ∃ l', J.getArr (StructPropertyValue.ofJ rec) j = some l' ∧
      eqvList (treeStructs l) (treeStructs l') = true ∧ StructsMaps l' ∧
      ((∀ x ∈ l, StructMapless x) → l' = l) := by
  rw [structsJ_eq] at hd hj
  rw [depthList_map] at hd
  rw [StructsMaps_iff] at hm
  rw [structsPlain_iff] at hk
  rw [structsFinite_eq, List.all_eq_true] at hf
  obtain ⟨xs, h1, h2⟩ := getArr_pairs (d := StructPropertyValue.ofJ rec) (R := StructLike) l
    (fun v hv j hj => by
      have h := hd v hv
      simp only [J.depth, depthEntries] at h
      obtain ⟨m, l', rfl, h1, hp⟩ := obj_iff.mp hj
      obtain ⟨b, _, rfl, h1, h2⟩ := values_cons.mp h1
      rw [values_nil.mp h2] at hp
      rw [(List.singleton_perm.mp hp).symm]
      exact struct_read hr v (by omega) (hm v hv) (hk v hv) (hf v hv) h1) hj
  exact ⟨xs, h1, (structs_iff _ _).mpr (pairs_imp (fun _ _ h => h.1) h2),
    (StructsMaps_iff _).mpr (pairs_right h2 fun _ _ h => h.2.1),
    fun h => pairs_same h2 (fun _ _ h => h.2.2) h⟩

theorem pairs_read [FloatJ] (hr : PropRead n rec) (l : List (Property × Property))
    (hd : depthList (pairsJ l) ≤ n)
    (hu : (l.map Prod.fst).Pairwise fun a b => sameKey a b = false) (hm : EntriesMaps l)
    (hk : (l.length = 1 ∨ ∀ e ∈ l, Mapless e.1) ∧ EntriesPlain l) (hf : entriesFinite l = true)
    {j : J} (hj : Reordered (.arr (pairsJ l)) j) :
    ∃ l', J.getArr (J.getPair rec) j = some l' ∧
      (pairTree (treeKeys l) (treePairs l)).eqv (pairTree (treeKeys l') (treePairs l')) = true ∧
      (l'.map Prod.fst).Pairwise (fun a b => sameKey a b = false) ∧ EntriesMaps l' := by
  rw [pairsJ_eq] at hd hj
  rw [depthList_map] at hd
  rw [EntriesMaps_iff] at hm
  obtain ⟨hk1, hk⟩ := hk
  rw [entriesPlain_iff] at hk
  rw [entriesFinite_eq, List.all_eq_true] at hf
  obtain ⟨xs, h1, h2⟩ := getArr_pairs (d := J.getPair rec)
    (R := fun a b => PropLike a.1 b.1 ∧ PropLike a.2 b.2) l
    (fun e he j hj => by
      have h := hd e he
      simp only [J.depth, depthList] at h
      have hf := hf e he
      simp only [Bool.and_eq_true] at hf
      obtain ⟨m, rfl, hm'⟩ := arr_iff.mp hj
      cases hm' with | @cons _ a _ _ ha hm' =>
      cases hm' with | @cons _ b _ _ hb hm' =>
      cases hm'
      obtain ⟨p, hp1, hp2⟩ := hr e.1 (by omega) (hm e he).1 (hk e he).1 hf.1 a ha
      obtain ⟨q, hq1, hq2⟩ := hr e.2 (by omega) (hm e he).2 (hk e he).2 hf.2 b hb
      refine ⟨(p, q), ?_, hp2, hq2⟩
      simp only [J.getPair, hp1, hq1, Option.bind_eq_bind, Option.bind_some, Option.pure_def]) hj
  have h3 : EntriesMaps xs :=
    (EntriesMaps_iff _).mpr (pairs_right h2 fun _ _ h => ⟨h.1.2.1, h.2.2.1⟩)
  have hlen := (pairs_mem h2).1
  have h4 : (xs.map Prod.fst).Pairwise fun a b => sameKey a b = false := by
    rcases hk1 with h | h
    · rw [h] at hlen
      match xs, hlen with
      | [x], _ => simp
    · have : xs.map Prod.fst = l.map Prod.fst := by
        clear h1 h3 hlen hu hm hd hf hj hk
        induction h2 with
        | nil => rfl
        | cons h1 _ ih =>
          rw [List.map_cons, List.map_cons, h1.1.2.2 (h _ (List.mem_cons_self ..)),
            ih fun e he => h e (List.mem_cons_of_mem _ he)]
      rw [this]
      exact hu
  refine ⟨xs, h1, (pairs_iff hu h4 h3).mpr ⟨xs, .refl _, ?_⟩, h4, h3⟩
  rcases hk1 with h | h
  · exact pairs_imp (fun a b hab => ⟨.inr ⟨h, hab.1.1⟩, hab.2.1⟩) h2
  · clear h1 h3 hlen hu hm hd hf hj hk h4
    generalize l.length = k
    induction h2 with
    | nil => exact .nil
    | cons h1 _ ih =>
      exact .cons ⟨.inl (by rw [h1.1.2.2 (h _ (List.mem_cons_self ..))]), h1.2.1⟩
        (ih fun e he => h e (List.mem_cons_of_mem _ he))

/-! ## Arrays and maps -/

theorem array_read [FloatJ] [FloatBack] (hr : PropRead n rec) (hb : PropBack n rec)
    (v : ArrayProperty) (hd : depthEntries v.entries ≤ n) (hm : ArrayMaps v) (hk : ArrayPlain v)
    (hf : arrayFinite v = true) {m : List (String × J)} (hv : ReorderedValues v.entries m) (j : J) :
    ∃ v', ArrayProperty.ofEntries rec (("type", j) :: m) = some v' ∧ ArrayLike v v' := by
  have rigid : m = v.entries →
      ∃ v', ArrayProperty.ofEntries rec (("type", j) :: m) = some v' ∧ ArrayLike v v' := fun h =>
    ⟨v, by rw [h, array_back hb v hd hm j, hf]; rfl, arrayLike_refl hm⟩
  cases v with
  | structs fld ty g l =>
    simp only [ArrayProperty.entries, depthEntries_append, depthEntries, J.depth] at hd
    simp only [ArrayProperty.entries, values_append, values_cons, values_nil, str_iff,
      guidE_iff] at hv
    obtain ⟨_, _, rfl, ⟨_, _, rfl, ⟨_, _, rfl, rfl, _, _, rfl, rfl, rfl⟩, rfl⟩,
      b, _, rfl, hj, rfl⟩ := hv
    obtain ⟨l', h1, h2, h3, h4⟩ := structs_read hr l (by omega) hm hk hf hj
    refine ⟨.structs fld ty g l', ?_, ?_, h3, fun h => by rw [h4 h]⟩
    · simp only [ArrayProperty.ofEntries, field_skip, field_head, field_nil,
        defaultField_skip, defaultField_guidE, field_guidE_skip, lookup_skip, List.lookup_nil,
        List.cons_append, List.nil_append,
        ne_eq, not_false_eq_true, String.reduceEq, Option.map_none, h1]
      rfl
    · simp only [ArrayProperty.tree, eqv_node_iff, eqvList_cons_iff, eqv_leaf_iff, eqv_list_iff,
        h2, eqvList_nil, and_self]
  | properties ty ps =>
    simp only [ArrayProperty.entries, depthEntries, J.depth] at hd
    simp only [ArrayProperty.entries, values_cons, values_nil, str_iff] at hv
    obtain ⟨_, _, rfl, rfl, b, _, rfl, hj, rfl⟩ := hv
    obtain ⟨ps', h1, h2, h3, h4⟩ := props_read hr ps (by omega) hm hk hf hj
    refine ⟨.properties ty ps', ?_, ?_, h3, fun h => by rw [h4 h]⟩
    · simp only [ArrayProperty.ofEntries, field_skip, field_head, field_nil,
        ne_eq, not_false_eq_true, String.reduceEq, Option.map_none, h1]
      rfl
    · simp only [ArrayProperty.tree, eqv_node_iff, eqvList_cons_iff, eqv_leaf_iff, eqv_list_iff,
        h2, eqvList_nil, and_self]
  | bytes l =>
    refine rigid ?_
    simpa only [ArrayProperty.entries, values_cons, values_nil, str_iff, exists_eq_left,
      exists_eq_right, exists_and_left, exists_eq_right_right, exists_and_right,
      exists_eq_left'] using hv
  | _ l =>
    refine rigid ?_
    simp only [ArrayProperty.entries, values_cons, values_nil] at hv
    obtain ⟨b, _, rfl, hj, rfl⟩ := hv
    simp only [ArrayProperty.entries]
    rw [arr_map (fun _ _ h => by
      first
      | exact bool_iff.mp h
      | exact str_iff.mp h
      | exact f32_iff.mp h
      | exact int_iff.mp h
      | exact opt_iff.mp h) hj]

/-- Maps with strings as keys and values that can be written only one way. -/
theorem simple_read {d : J → Option α} {f : α → J} (hf : ∀ a, d (f a) = some a)
    (hr : ∀ a j, Reordered (f a) j → j = f a) (l : List (String × α)) (hu : KeysDistinct l) {j : J}
    (hj : Reordered (.obj (l.map fun e => (e.1, f e.2))) j) :
    ∃ l', J.getStrMap d j = some l' ∧ l.Perm l' ∧ KeysDistinct l' := by
  obtain ⟨p, xs, h1, h2, h3, h4⟩ := getStrMap_pairs (d := d) (R := fun a b => b = a) l hu
    (fun e _ j hj => ⟨e.2, by rw [hr _ _ hj, hf], rfl⟩) hj
  have : p = l := all_eq (pairs_imp (fun a b h => Prod.ext h.1.symm h.2) h4)
  exact ⟨xs, h1, this ▸ h2, h3⟩

theorem umap_perm (g : String × α → Tree) (hg : ∀ e, (g e).eqv (g e) = true)
    {l m : List (String × α)} (hl : KeysDistinct l) (h : l.Perm m) :
    (Tree.umap (l.map fun e => ([.s e.1], g e))).eqv (.umap (m.map fun e => ([.s e.1], g e)))
      = true := by
  have hl' := nodup_str hl
  have hm' := nodup_str (h.map Prod.fst |>.nodup_iff.mp hl)
  rw [umap_iff _ _ _ _ _ _ (by simpa [List.map_map, Function.comp_def] using hl')
    (by simpa [List.map_map, Function.comp_def] using hm')]
  exact ⟨l, h, pairs_refl (fun e => ⟨rfl, hg e⟩) l⟩

theorem map_read [FloatJ] [FloatBack] (hr : PropRead n rec) (v : MapProperty)
    (hd : depthEntries v.entries ≤ n) (hm : MapMaps v) (hk : MapPlain v)
    (hf : mapFinite v = true) {m : List (String × J)} (hv : ReorderedValues v.entries m) (j : J) :
    ∃ v', MapProperty.ofEntries rec (("type", j) :: m) = some v' ∧ MapLike v v' := by
  cases v with
  | enumBool l =>
    simp only [MapProperty.entries, values_cons, values_nil] at hv
    obtain ⟨b, _, rfl, hj, rfl⟩ := hv
    obtain ⟨l', h1, h2, h3⟩ := simple_read (d := J.getBool) (f := J.bool) (fun _ => rfl) (fun _ _ => bool_iff.mp) l hm hj
    refine ⟨.enumBool l', ?_, ?_, h3⟩
    · simp only [MapProperty.ofEntries, field_skip, field_head, field_nil,
        ne_eq, not_false_eq_true, String.reduceEq, Option.map_none, h1]
      rfl
    · simp only [MapProperty.tree, eqv_node_iff, eqvList_cons_iff, eqv_leaf_iff,
        umap_perm (fun e => .leaf [.n e.2.toNat]) (fun e => by rw [eqv_leaf_iff]) hm h2, eqvList_nil, and_self]
  | enumInt l =>
    simp only [MapProperty.entries, values_cons, values_nil] at hv
    obtain ⟨b, _, rfl, hj, rfl⟩ := hv
    obtain ⟨l', h1, h2, h3⟩ := simple_read (d := J.getI32) (f := fun x => J.int x.toInt) (fun x => getI32_int x) (fun _ _ => int_iff.mp) l hm hj
    refine ⟨.enumInt l', ?_, ?_, h3⟩
    · simp only [MapProperty.ofEntries, field_skip, field_head, field_nil,
        ne_eq, not_false_eq_true, String.reduceEq, Option.map_none, h1]
      rfl
    · simp only [MapProperty.tree, eqv_node_iff, eqvList_cons_iff, eqv_leaf_iff,
        umap_perm (fun e => .leaf [.n e.2.toUInt32.toNat]) (fun e => by rw [eqv_leaf_iff]) hm h2, eqvList_nil, and_self]
  | enumProperty t l =>
    simp only [MapProperty.entries, depthEntries, J.depth] at hd
    simp only [MapProperty.entries, values_cons, values_nil, str_iff] at hv
    obtain ⟨_, _, rfl, rfl, b, _, rfl, hj, rfl⟩ := hv
    obtain ⟨l', h1, h2, h3, h4⟩ := values_read hr l (by omega) hm.1 hm.2 hk hf hj
    refine ⟨.enumProperty t l', ?_, ?_, h3, h4⟩
    · simp only [MapProperty.ofEntries, field_skip, field_head, field_nil,
        ne_eq, not_false_eq_true, String.reduceEq, Option.map_none, h1]
      rfl
    · simp only [MapProperty.tree, eqv_node_iff, eqvList_cons_iff, eqv_leaf_iff, h2,
        eqvList_nil, and_self]
  | nameBool l =>
    simp only [MapProperty.entries, values_cons, values_nil] at hv
    obtain ⟨b, _, rfl, hj, rfl⟩ := hv
    obtain ⟨l', h1, h2, h3⟩ := simple_read (d := J.getBool) (f := J.bool) (fun _ => rfl) (fun _ _ => bool_iff.mp) l hm hj
    refine ⟨.nameBool l', ?_, ?_, h3⟩
    · simp only [MapProperty.ofEntries, field_skip, field_head, field_nil,
        ne_eq, not_false_eq_true, String.reduceEq, Option.map_none, h1]
      rfl
    · simp only [MapProperty.tree, eqv_node_iff, eqvList_cons_iff, eqv_leaf_iff,
        umap_perm (fun e => .leaf [.n e.2.toNat]) (fun e => by rw [eqv_leaf_iff]) hm h2, eqvList_nil, and_self]
  | nameInt l =>
    simp only [MapProperty.entries, values_cons, values_nil] at hv
    obtain ⟨b, _, rfl, hj, rfl⟩ := hv
    obtain ⟨l', h1, h2, h3⟩ := simple_read (d := J.getI32) (f := fun x => J.int x.toInt) (fun x => getI32_int x) (fun _ _ => int_iff.mp) l hm hj
    refine ⟨.nameInt l', ?_, ?_, h3⟩
    · simp only [MapProperty.ofEntries, field_skip, field_head, field_nil,
        ne_eq, not_false_eq_true, String.reduceEq, Option.map_none, h1]
      rfl
    · simp only [MapProperty.tree, eqv_node_iff, eqvList_cons_iff, eqv_leaf_iff,
        umap_perm (fun e => .leaf [.n e.2.toUInt32.toNat]) (fun e => by rw [eqv_leaf_iff]) hm h2, eqvList_nil, and_self]
  | nameProperty t l =>
    simp only [MapProperty.entries, depthEntries, J.depth] at hd
    simp only [MapProperty.entries, values_cons, values_nil, str_iff] at hv
    obtain ⟨_, _, rfl, rfl, b, _, rfl, hj, rfl⟩ := hv
    obtain ⟨l', h1, h2, h3, h4⟩ := values_read hr l (by omega) hm.1 hm.2 hk hf hj
    refine ⟨.nameProperty t l', ?_, ?_, h3, h4⟩
    · simp only [MapProperty.ofEntries, field_skip, field_head, field_nil,
        ne_eq, not_false_eq_true, String.reduceEq, Option.map_none, h1]
      rfl
    · simp only [MapProperty.tree, eqv_node_iff, eqvList_cons_iff, eqv_leaf_iff, h2,
        eqvList_nil, and_self]
  | strBool l =>
    simp only [MapProperty.entries, values_cons, values_nil] at hv
    obtain ⟨b, _, rfl, hj, rfl⟩ := hv
    obtain ⟨l', h1, h2, h3⟩ := simple_read (d := J.getBool) (f := J.bool) (fun _ => rfl) (fun _ _ => bool_iff.mp) l hm hj
    refine ⟨.strBool l', ?_, ?_, h3⟩
    · simp only [MapProperty.ofEntries, field_skip, field_head, field_nil,
        ne_eq, not_false_eq_true, String.reduceEq, Option.map_none, h1]
      rfl
    · simp only [MapProperty.tree, eqv_node_iff, eqvList_cons_iff, eqv_leaf_iff,
        umap_perm (fun e => .leaf [.n e.2.toNat]) (fun e => by rw [eqv_leaf_iff]) hm h2, eqvList_nil, and_self]
  | strInt l =>
    simp only [MapProperty.entries, values_cons, values_nil] at hv
    obtain ⟨b, _, rfl, hj, rfl⟩ := hv
    obtain ⟨l', h1, h2, h3⟩ := simple_read (d := J.getI32) (f := fun x => J.int x.toInt) (fun x => getI32_int x) (fun _ _ => int_iff.mp) l hm hj
    refine ⟨.strInt l', ?_, ?_, h3⟩
    · simp only [MapProperty.ofEntries, field_skip, field_head, field_nil,
        ne_eq, not_false_eq_true, String.reduceEq, Option.map_none, h1]
      rfl
    · simp only [MapProperty.tree, eqv_node_iff, eqvList_cons_iff, eqv_leaf_iff,
        umap_perm (fun e => .leaf [.n e.2.toUInt32.toNat]) (fun e => by rw [eqv_leaf_iff]) hm h2, eqvList_nil, and_self]
  | strProperty t l =>
    simp only [MapProperty.entries, depthEntries, J.depth] at hd
    simp only [MapProperty.entries, values_cons, values_nil, str_iff] at hv
    obtain ⟨_, _, rfl, rfl, b, _, rfl, hj, rfl⟩ := hv
    obtain ⟨l', h1, h2, h3, h4⟩ := values_read hr l (by omega) hm.1 hm.2 hk hf hj
    refine ⟨.strProperty t l', ?_, ?_, h3, h4⟩
    · simp only [MapProperty.ofEntries, field_skip, field_head, field_nil,
        ne_eq, not_false_eq_true, String.reduceEq, Option.map_none, h1]
      rfl
    · simp only [MapProperty.tree, eqv_node_iff, eqvList_cons_iff, eqv_leaf_iff, h2,
        eqvList_nil, and_self]
  | strStr l =>
    simp only [MapProperty.entries, values_cons, values_nil] at hv
    obtain ⟨b, _, rfl, hj, rfl⟩ := hv
    obtain ⟨l', h1, h2, h3⟩ := simple_read (d := J.getOpt J.getStr) (f := optJ) (fun x => getOpt_optJ x) (fun _ _ => opt_iff.mp) l hm hj
    refine ⟨.strStr l', ?_, ?_, h3⟩
    · simp only [MapProperty.ofEntries, field_skip, field_head, field_nil,
        ne_eq, not_false_eq_true, String.reduceEq, Option.map_none, h1]
      rfl
    · simp only [MapProperty.tree, eqv_node_iff, eqvList_cons_iff, eqv_leaf_iff,
        umap_perm (fun e => .leaf (feedOpt e.2)) (fun e => by rw [eqv_leaf_iff]) hm h2, eqvList_nil, and_self]
  | properties kt vt fl l =>
    simp only [MapProperty.entries, depthEntries, J.depth] at hd
    simp only [MapProperty.entries, values_cons, values_nil, str_iff, int_iff] at hv
    obtain ⟨_, _, rfl, rfl, _, _, rfl, rfl, _, _, rfl, rfl, b, _, rfl, hj, rfl⟩ := hv
    obtain ⟨l', h1, h2, h3, h4⟩ := pairs_read hr l (by omega) hm.1 hm.2 hk hf hj
    refine ⟨.properties kt vt fl l', ?_, ?_, h3, h4⟩
    · simp only [MapProperty.ofEntries, field_skip, field_head, field_nil,
        ne_eq, not_false_eq_true, String.reduceEq, Option.map_none, h1, getU32_int]
      have hi := imExtend_nil_fresh l' h3
      simp [J.getStr, hi]
    · simp only [MapProperty.tree, eqv_node_iff, eqvList_cons_iff, eqv_leaf_iff, h2,
        eqvList_nil, and_self]

/-! ## Properties -/

theorem tag_byName {es es' : List (String × J)} (h : ∀ k, es'.lookup k = es.lookup k) (n : Nat)
    {tag : String}
    (hs : tag = "StructProperty" → es'.find? (fun e => structVariants.contains e.1) =
      es.find? fun e => structVariants.contains e.1)
    (hb : tag = "ByteProperty" → es'.find? (fun e => ["Byte", "Namespaced"].contains e.1) =
      es.find? fun e => ["Byte", "Namespaced"].contains e.1)
    (hv : tag = "StructPropertyValue" →
      es'.filter (fun e => e.1 != "type") = es.filter fun e => e.1 != "type") :
    Property.ofTag (FText.ofEntries n) rec es' tag = Property.ofTag (FText.ofEntries n) rec es tag := by
  by_cases ht : tag = "StructPropertyValue"
  · subst ht
    simp only [Property.ofTag, reduceIte, String.reduceEq, hv rfl]
  · by_cases ht' : tag = "StructProperty"
    · subst ht'
      simp only [Property.ofTag, reduceIte, String.reduceEq, StructPropertyValue.ofFlat, field_eq,
        defaultField_eq, h, hs rfl]
    · by_cases ht2 : tag = "ByteProperty"
      · subst ht2
        simp only [Property.ofTag, reduceIte, String.reduceEq, BytePropertyValue.ofFlat,
          optField_eq, h, hb rfl]
      · simp only [Property.ofTag, if_neg ht, if_neg ht', if_neg ht2, ArrayProperty.ofEntries,
          MapProperty.ofEntries, field_eq, optField_eq, defaultField_eq, h, text_byName n h]

theorem filter_names (p : String → Bool) (l : List (String × J)) :
    (l.filter fun e => p e.1).length = ((l.map Prod.fst).filter p).length := by
  induction l with
  | nil => rfl
  | cons e l ih => by_cases h : p e.1 <;> simp [h, ih]

theorem step_perm {tagOf : J → Option String} (ht : ∀ s, tagOf (.str s) = some s) (n : Nat)
    {tag : String} {body m l' : List (String × J)}
    (hn : ((("type", J.str tag) :: body).map Prod.fst).Nodup)
    (hv : ReorderedValues (("type", .str tag) :: body) m) (hp : m.Perm l')
    (hs : tag = "StructProperty" →
      (("type" :: body.map Prod.fst).filter structVariants.contains).length ≤ 1)
    (hb : tag = "ByteProperty" →
      (("type" :: body.map Prod.fst).filter ["Byte", "Namespaced"].contains).length ≤ 1)
    (hw : tag = "StructPropertyValue" →
      (("type" :: body.map Prod.fst).filter fun k => k != "type").length ≤ 1) :
    ∃ m', ReorderedValues body m' ∧
      Property.ofJStep tagOf (FText.ofEntries n) rec (.obj l') =
        Property.ofTag (FText.ofEntries n) rec (("type", .str tag) :: m') tag := by
  have hnames := values_names hv
  have hl := lookup_perm hp (hnames ▸ hn)
  obtain ⟨b, m', rfl, h1, h2⟩ := values_cons.mp hv
  rw [str_iff] at h1
  subst h1
  refine ⟨m', h2, ?_⟩
  unfold Property.ofJStep
  simp only [getTagged_obj, hl, List.lookup_cons_self, Option.bind_some, ht, Option.map_some]
  refine tag_byName hl n (fun h => (find_perm hp ?_).2) (fun h => (find_perm hp ?_).2)
    fun h => (find_perm hp ?_).1
  · rw [filter_names structVariants.contains, hnames]; exact hs h
  · rw [filter_names ["Byte", "Namespaced"].contains, hnames]; exact hb h
  · rw [filter_names fun k => k != "type", hnames]; exact hw h

theorem variant_names [FloatJ] (g : Guid) (t : String) (v : StructPropertyValue) :
    (("type" :: (guidE g ++ [("type_name", J.str t), v.entry]).map Prod.fst).filter
      structVariants.contains).length ≤ 1 := by
  unfold guidE
  cases g.isZero <;> cases v <;>
    simp only [StructPropertyValue.entry, List.map_append, List.map_cons, List.map_nil, reduceIte,
      Bool.false_eq_true, List.cons_append, List.nil_append] <;> decide

theorem byte_names (name : Option String) (v : BytePropertyValue) :
    (("type" :: (optE "name" name ++ [v.entry]).map Prod.fst).filter
      ["Byte", "Namespaced"].contains).length ≤ 1 := by
  cases name <;> cases v <;> 
    simp only [optE, BytePropertyValue.entry, List.map_append, List.map_cons, List.map_nil,
      List.cons_append, List.nil_append] <;> decide

theorem value_names [FloatJ] (v : StructPropertyValue) :
    (("type" :: [v.entry].map Prod.fst).filter fun k => k != "type").length ≤ 1 := by
  cases v <;> simp only [StructPropertyValue.entry, List.map_cons, List.map_nil] <;> decide

theorem step_read [FloatJ] [FloatBack] {n : Nat} {tagOf : J → Option String}
    (ht : ∀ s, tagOf (.str s) = some s) (hr : PropRead n (Property.ofJ n)) :
    PropRead (n + 1) (Property.ofJStep tagOf (FText.ofEntries (n + 1)) (Property.ofJ n)) := by
  intro p hd hm hk hf j hj
  have hb := property_back n
  have hback := property_step ht hb p hd hm
  rw [hf] at hback
  cases p with
  | array v =>
    have hn := property_names hm rfl
    simp only [Property.toJ, J.depth, depthEntries] at hd
    obtain ⟨m, l', rfl, hv, hp⟩ := obj_iff.mp hj
    obtain ⟨m', h1, h2⟩ := step_perm ht (n + 1) (rec := Property.ofJ n) hn hv hp (by simp) (by simp)
      (by simp)
    obtain ⟨v', h3, h4, h5, h6⟩ := array_read hr hb v (by omega) hm hk hf h1 (.str "ArrayProperty")
    refine ⟨.array v', ?_, ?_, h5, fun h => by rw [h6 h]⟩
    · rw [h2]
      simp only [Property.ofTag, reduceIte, h3]
      rfl
    · simp only [Property.eqv, Property.tree, eqv_node_iff, eqvList_cons_iff, eqv_leaf_iff, h4,
        eqvList_nil, and_self]
  | map v =>
    have hn := property_names hm rfl
    simp only [Property.toJ, J.depth, depthEntries] at hd
    obtain ⟨m, l', rfl, hv, hp⟩ := obj_iff.mp hj
    obtain ⟨m', h1, h2⟩ := step_perm ht (n + 1) (rec := Property.ofJ n) hn hv hp (by simp) (by simp)
      (by simp)
    obtain ⟨v', h3, h4, h5⟩ := map_read hr v (by omega) hm hk hf h1 (.str "MapProperty")
    refine ⟨.map v', ?_, ?_, h5, fun h => h.elim⟩
    · rw [h2]
      simp only [Property.ofTag, reduceIte, String.reduceEq, h3]
      rfl
    · simp only [Property.eqv, Property.tree, eqv_node_iff, eqvList_cons_iff, eqv_leaf_iff, h4,
        eqvList_nil, and_self]
  | set t fl ps =>
    have hn := property_names hm rfl
    simp only [Property.toJ, J.depth, depthEntries] at hd
    obtain ⟨m, l', rfl, hv, hp⟩ := obj_iff.mp hj
    obtain ⟨m', h1, h2⟩ := step_perm ht (n + 1) (rec := Property.ofJ n) hn hv hp (by simp) (by simp)
      (by simp)
    simp only [values_cons, values_nil, str_iff, int_iff] at h1
    obtain ⟨_, _, rfl, rfl, _, _, rfl, rfl, b, _, rfl, hj, rfl⟩ := h1
    obtain ⟨ps', h3, h4, h5, h6⟩ := props_read hr ps (by omega) hm hk hf hj
    refine ⟨.set t fl ps', ?_, ?_, h5, fun h => by rw [h6 h]⟩
    · rw [h2]
      simp only [Property.ofTag, reduceIte, String.reduceEq, field_skip, field_head, ne_eq,
        not_false_eq_true, getU32_int, h3]
      rfl
    · simp only [Property.eqv, Property.tree, eqv_node_iff, eqvList_cons_iff, eqv_leaf_iff,
        eqv_list_iff, h4, eqvList_nil, and_self]
  | struct g t v =>
    have hn := property_names hm rfl
    simp only [Property.toJ, J.depth, depthEntries, depthEntries_append] at hd
    obtain ⟨m, l', rfl, hv, hp⟩ := obj_iff.mp hj
    obtain ⟨m', h1, h2⟩ := step_perm ht (n + 1) (rec := Property.ofJ n) hn hv hp
      (fun _ => variant_names g t v) (by simp) (by simp)
    simp only [values_append, guidE_iff] at h1
    obtain ⟨_, y, rfl, rfl, h1⟩ := h1
    obtain ⟨_, y, rfl, h0, h7⟩ := values_cons.mp h1
    cases str_iff.mp h0
    obtain ⟨b, y, rfl, hj, h8⟩ := values_cons.mp h7
    cases values_nil.mp h8
    obtain ⟨v', h3, h4, h5, h6⟩ := struct_read hr v (by omega) hm hk hf hj
    have hl : List.lookup "guid" [("type_name", J.str t), (v.entry.1, b)] = none := by
      cases v <;> simp only [StructPropertyValue.entry, lookup_skip, ne_eq, not_false_eq_true,
        String.reduceEq, List.lookup_nil]
    have hv1 : structVariants.contains "type" = false := by decide
    have hv2 : structVariants.contains "type_name" = false := by decide
    have he : StructPropertyValue.ofFlat (Property.ofJ n) [(v.entry.1, b)] =
        StructPropertyValue.ofVariant (Property.ofJ n) v.entry.1 b := by
      unfold StructPropertyValue.ofFlat
      rw [List.find?_cons]
      simp only [entry_variant]
      rfl
    refine ⟨.struct g t v', ?_, ?_, h5, fun h => by rw [h6 h]⟩
    · rw [h2]
      simp only [Property.ofTag, reduceIte, String.reduceEq,
        field_skip, field_head, ne_eq, not_false_eq_true, defaultField_skip,
        defaultField_guidE g _ hl, field_guidE_skip, structFlat_skip _ _ _ hv1,
        structFlat_guidE, structFlat_skip _ _ _ hv2, he, h3]
      rfl
    · simp only [Property.eqv, Property.tree, eqv_node_iff, eqvList_cons_iff, eqv_leaf_iff, h4,
        eqvList_nil, and_self]
  | structValue v =>
    have hn := property_names hm rfl
    simp only [Property.toJ, J.depth, depthEntries] at hd
    obtain ⟨m, l', rfl, hv, hp⟩ := obj_iff.mp hj
    obtain ⟨m', h1, h2⟩ := step_perm ht (n + 1) (rec := Property.ofJ n) hn hv hp
      (by simp) (by simp) (fun _ => value_names v)
    obtain ⟨b, y, rfl, hj, h1⟩ := values_cons.mp h1
    cases values_nil.mp h1
    obtain ⟨v', h3, h4, h5, h6⟩ := struct_read hr v (by omega) hm hk hf hj
    have hfl : ([("type", J.str "StructPropertyValue"), (v.entry.1, b)].filter
        fun e => e.1 != "type") = [(v.entry.1, b)] := by
      rw [List.filter_cons_of_neg (by simp)]
      exact List.filter_cons_of_pos (entry_not_type v)
    have h' : StructPropertyValue.ofJ (Property.ofJ n) (.obj [(v.entry.1, b)]) =
      StructPropertyValue.ofVariant (Property.ofJ n) v.entry.1 b := rfl
    refine ⟨.structValue v', ?_, ?_, h5, fun h => by rw [h6 h]⟩
    · rw [h2]
      simp only [Property.ofTag, reduceIte, String.reduceEq, hfl, h', h3]
      rfl
    · simp only [Property.eqv, Property.tree, eqv_node_iff, eqvList_cons_iff, eqv_leaf_iff, h4,
        eqvList_nil, and_self]
  | text t =>
    have hn := property_names hm rfl
    simp only [Property.toJ, J.depth, depthEntries] at hd
    obtain ⟨m, l', rfl, hv, hp⟩ := obj_iff.mp hj
    obtain ⟨m', h1, h2⟩ := step_perm ht (n + 1) (rec := Property.ofJ n) hn hv hp (by simp) (by simp)
      (by simp)
    obtain ⟨t', h3, h4, h5, h6⟩ := text_values n (text_read n) t (by omega) hm hf h1
    refine ⟨.text t', ?_, ?_, h5, fun h => by rw [h6 h]⟩
    · rw [h2]
      simp only [Property.ofTag, reduceIte, String.reduceEq, text_skip, h3]
      rfl
    · simp only [Property.eqv, Property.tree, eqv_node_iff, eqvList_cons_iff, eqv_leaf_iff, h4,
        eqvList_nil, and_self]
  | delegate v =>
    have hn := property_names hm rfl
    obtain ⟨m, l', rfl, hv, hp⟩ := obj_iff.mp hj
    obtain ⟨m', h1, h2⟩ := step_perm ht (n + 1) (rec := Property.ofJ n) hn hv hp (by simp) (by simp)
      (by simp)
    obtain ⟨b, y, rfl, hj, h1⟩ := values_cons.mp h1
    cases values_nil.mp h1
    refine ⟨_, ?_, propLike_refl hm⟩
    rw [h2]
    simp only [Property.ofTag, reduceIte, String.reduceEq, field_skip, field_head, ne_eq,
        not_false_eq_true, delegate_back hj]
    rfl
  | multicastInlineDelegate v =>
    have hn := property_names hm rfl
    obtain ⟨m, l', rfl, hv, hp⟩ := obj_iff.mp hj
    obtain ⟨m', h1, h2⟩ := step_perm ht (n + 1) (rec := Property.ofJ n) hn hv hp (by simp) (by simp)
      (by simp)
    obtain ⟨b, y, rfl, hj, h1⟩ := values_cons.mp h1
    cases values_nil.mp h1
    refine ⟨_, ?_, propLike_refl hm⟩
    rw [h2]
    simp only [Property.ofTag, reduceIte, String.reduceEq, field_skip, field_head, ne_eq,
        not_false_eq_true, multicast_back hj]
    rfl
  | multicastSparseDelegate v =>
    have hn := property_names hm rfl
    obtain ⟨m, l', rfl, hv, hp⟩ := obj_iff.mp hj
    obtain ⟨m', h1, h2⟩ := step_perm ht (n + 1) (rec := Property.ofJ n) hn hv hp (by simp) (by simp)
      (by simp)
    obtain ⟨b, y, rfl, hj, h1⟩ := values_cons.mp h1
    cases values_nil.mp h1
    refine ⟨_, ?_, propLike_refl hm⟩
    rw [h2]
    simp only [Property.ofTag, reduceIte, String.reduceEq, field_skip, field_head, ne_eq,
        not_false_eq_true, multicast_back hj]
    rfl
  | fieldPath v =>
    have hn := property_names hm rfl
    obtain ⟨m, l', rfl, hv, hp⟩ := obj_iff.mp hj
    obtain ⟨m', h1, h2⟩ := step_perm ht (n + 1) (rec := Property.ofJ n) hn hv hp (by simp) (by simp)
      (by simp)
    obtain ⟨b, y, rfl, hj, h1⟩ := values_cons.mp h1
    cases values_nil.mp h1
    refine ⟨_, ?_, propLike_refl hm⟩
    rw [h2]
    simp only [Property.ofTag, reduceIte, String.reduceEq, field_skip, field_head, ne_eq,
        not_false_eq_true, fieldPath_back hj]
    rfl
  | byte name v =>
    have hn := property_names hm rfl
    obtain ⟨m, l', rfl, hv, hp⟩ := obj_iff.mp hj
    obtain ⟨m', h1, h2⟩ := step_perm ht (n + 1) (rec := Property.ofJ n) hn hv hp (by simp)
      (fun _ => byte_names name v) (by simp)
    refine ⟨_, ?_, propLike_refl hm⟩
    simp only [values_append, optE_iff] at h1
    obtain ⟨_, y, rfl, rfl, h1⟩ := h1
    have : y = [v.entry] := by
      cases v <;> simpa [BytePropertyValue.entry, values_cons, values_nil, int_iff, str_iff] using h1
    subst this
    rw [h2, ← property_of_tag ht]
    exact hback
  | unknown name raw =>
    have hn := property_names hm rfl
    obtain ⟨m, l', rfl, hv, hp⟩ := obj_iff.mp hj
    obtain ⟨m', h1, h2⟩ := step_perm ht (n + 1) (rec := Property.ofJ n) hn hv hp (by simp) (by simp)
      (by simp)
    refine ⟨_, ?_, propLike_refl hm⟩
    simp only [values_cons, values_nil, str_iff] at h1
    obtain ⟨_, _, rfl, rfl, _, _, rfl, h1, rfl⟩ := h1
    cases arr_map (fun _ _ => int_iff.mp) h1
    rw [h2, ← property_of_tag ht]
    exact hback
  | enum t v =>
    have hn := property_names hm rfl
    obtain ⟨m, l', rfl, hv, hp⟩ := obj_iff.mp hj
    obtain ⟨m', h1, h2⟩ := step_perm ht (n + 1) (rec := Property.ofJ n) hn hv hp (by simp) (by simp)
      (by simp)
    refine ⟨_, ?_, propLike_refl hm⟩
    simp only [values_append, optE_iff, values_cons, values_nil, str_iff] at h1
    obtain ⟨_, _, rfl, rfl, _, _, rfl, rfl, rfl⟩ := h1
    rw [h2, ← property_of_tag ht]
    exact hback
  | name i v =>
    have hn := property_names hm rfl
    obtain ⟨m, l', rfl, hv, hp⟩ := obj_iff.mp hj
    obtain ⟨m', h1, h2⟩ := step_perm ht (n + 1) (rec := Property.ofJ n) hn hv hp (by simp) (by simp)
      (by simp)
    refine ⟨_, ?_, propLike_refl hm⟩
    simp only [values_append, optE_iff, nonzeroE_iff] at h1
    obtain ⟨_, _, rfl, rfl, rfl⟩ := h1
    rw [h2, ← property_of_tag ht]
    exact hback
  | str v =>
    have hn := property_names hm rfl
    obtain ⟨m, l', rfl, hv, hp⟩ := obj_iff.mp hj
    obtain ⟨m', h1, h2⟩ := step_perm ht (n + 1) (rec := Property.ofJ n) hn hv hp (by simp) (by simp)
      (by simp)
    refine ⟨_, ?_, propLike_refl hm⟩
    cases optE_iff.mp h1
    rw [h2, ← property_of_tag ht]
    exact hback
  | _ v =>
    have hn := property_names hm rfl
    obtain ⟨m, l', rfl, hv, hp⟩ := obj_iff.mp hj
    obtain ⟨m', h1, h2⟩ := step_perm ht (n + 1) (rec := Property.ofJ n) hn hv hp (by simp) (by simp)
      (by simp)
    refine ⟨_, ?_, propLike_refl hm⟩
    obtain ⟨b, y, rfl, hj, h1⟩ := values_cons.mp h1
    cases values_nil.mp h1
    simp only [bool_iff, str_iff, int_iff, f32_iff, f64_iff] at hj
    subst hj
    rw [h2, ← property_of_tag ht]
    exact hback

theorem property_read [FloatJ] [FloatBack] : ∀ n, PropRead n (Property.ofJ n) := by
  intro n
  induction n with
  | zero =>
    intro p hd
    cases p <;> simp [Property.toJ, J.depth] at hd
  | succ n ih => exact step_read (fun _ => rfl) ih

theorem property_read_json [FloatJ] [FloatBack] : ∀ n, PropRead n (Property.ofJson n)
  | 0 => fun p hd => by cases p <;> simp [Property.toJ, J.depth] at hd
  | n + 1 => step_read (fun _ => rfl) (property_read n)

/-! ## Files -/

theorem versions_read {cv : List (Guid × UInt32)} (h : (cv.map Prod.fst).Nodup) {j : J}
    (hj : Reordered (customVersionsJ cv) j) :
    ∃ cv', J.getCustomVersions j = some cv' ∧ cv.Perm cv' := by
  obtain ⟨p, xs, h1, h2, h3, h4⟩ := getMap_pairs (same := (· == ·)) (dk := guidOfStr)
    (fk := fun g : Guid => String.ofList g.display)
    (d := J.getU32) (f := fun v : UInt32 => J.int v.toNat) (R := fun a b => b = a)
    (fun a b => by simp) cv guidOfStr_display h
    (fun e _ j hj => ⟨e.2, by rw [int_iff.mp hj, getU32_int], rfl⟩) hj
  have : p = cv := all_eq (pairs_imp (fun a b h => Prod.ext h.1.symm h.2) h4)
  exact ⟨xs, h1, this ▸ h2⟩

/-- The header with other custom versions. -/
def withVersions : GvasHeader → List (Guid × UInt32) → GvasHeader
  | .version2 a b c _ e, cv => .version2 a b c cv e
  | .version3 a b c d _ e, cv => .version3 a b c d cv e

theorem header_byName : ByName GvasHeader.ofJ := fun es es' h => by
  unfold GvasHeader.ofJ
  simp only [getTagged_obj, h]
  cases es.lookup "type" with
  | none => rfl
  | some t =>
    simp only [Option.bind_some]
    cases t.getStr with
    | none => rfl
    | some s => simp only [Option.map_some, Option.bind_some, GvasHeader.ofTag, field_eq, h]

theorem header_read {h : GvasHeader} (hc : (h.customVersions.map Prod.fst).Nodup) {j : J}
    (hj : Reordered h.toJ j) :
    ∃ cv, GvasHeader.ofJ j = some (withVersions h cv) ∧ h.customVersions.Perm cv := by
  cases h with
  | version2 =>
    simp only [GvasHeader.customVersions] at hc
    simp only [GvasHeader.toJ] at hj
    obtain ⟨m, l', rfl, hv, hp⟩ := obj_iff.mp hj
    rw [header_byName _ _ (lookup_perm hp (by rw [values_names hv]; simp))]
    simp only [values_cons, values_nil, int_iff, str_iff] at hv
    obtain ⟨_, _, rfl, rfl, _, _, rfl, rfl, _, _, rfl, he, _, _, rfl, rfl, _, _, rfl, hcv,
        _, _, rfl, rfl, rfl⟩ := hv
    obtain ⟨cv, h1, h2⟩ := versions_read hc hcv
    refine ⟨cv, ?_, h2⟩
    simp only [header_of_tag, GvasHeader.ofTag, reduceIte, field_head, field_skip,
      ne_eq, not_false_eq_true, String.reduceEq, getU32_int, engine_back he, h1]
    rfl
  | version3 =>
    simp only [GvasHeader.customVersions] at hc
    simp only [GvasHeader.toJ] at hj
    obtain ⟨m, l', rfl, hv, hp⟩ := obj_iff.mp hj
    rw [header_byName _ _ (lookup_perm hp (by rw [values_names hv]; simp))]
    simp only [values_cons, values_nil, int_iff, str_iff] at hv
    obtain ⟨_, _, rfl, rfl, _, _, rfl, rfl, _, _, rfl, rfl, _, _, rfl, he, _, _, rfl, rfl,
        _, _, rfl, hcv, _, _, rfl, rfl, rfl⟩ := hv
    obtain ⟨cv, h1, h2⟩ := versions_read hc hcv
    refine ⟨cv, ?_, h2⟩
    simp only [header_of_tag, GvasHeader.ofTag, reduceIte, field_head, field_skip,
      ne_eq, not_false_eq_true, String.reduceEq, getU32_int, engine_back he, h1]
    rfl

theorem header_like {h : GvasHeader} (hc : (h.customVersions.map Prod.fst).Nodup)
    {cv : List (Guid × UInt32)} (hp : h.customVersions.Perm cv) :
    h.tree.eqv (withVersions h cv).tree = true ∧
      ((withVersions h cv).customVersions.map Prod.fst).Nodup := by
  have hn := (hp.map Prod.fst).nodup_iff.mp hc
  have := (versions_iff hc hn).mpr hp
  cases h <;>
  · refine ⟨?_, hn⟩
    simp only [GvasHeader.customVersions] at this
    simp only [withVersions, GvasHeader.tree, eqv_node_iff, eqvList_cons_iff, eqv_leaf_iff, this,
      eqvList_nil, and_self]

theorem file_read [FloatJ] [FloatBack] {f : GvasFile} (hm : FileMaps f)
    (hk : ∀ e ∈ f.properties, PlainKeys e.2) (hf : fileFinite f = true) {j : J}
    (hj : Reordered f.toJson j) :
    ∃ g, GvasFile.ofJson j = some g ∧ f.eqv g = true ∧ FileMaps g := by
  have hdj := depth_eq _ _ hj
  obtain ⟨gv, hdr, ps⟩ := f
  obtain ⟨h1, h2, h3⟩ := hm
  have hd : depthEntries (strPropsJ ps) ≤ (GvasFile.toJson ⟨gv, hdr, ps⟩).depth := by
    simp only [GvasFile.toJson, J.depth, depthEntries_append, depthEntries]
    omega
  unfold fileFinite at hf
  rw [← valuesFinite_eq] at hf
  have hpr := fun j hj => values_read (property_read_json _) ps hd h2 ((ValuesMaps_iff _).2 h3)
    ((valuesPlain_iff _).2 hk) hf (j := j) hj
  rw [← hdj] at hpr
  simp only [GvasFile.toJson] at hj
  obtain ⟨m, l', rfl, hv, hp⟩ := obj_iff.mp hj
  have hl := lookup_perm hp (by rw [values_names hv]; cases gv <;> simp)
  simp only [values_append] at hv
  obtain ⟨y, _, rfl, hgv, hv⟩ := hv
  simp only [values_cons, values_nil] at hv
  obtain ⟨a, _, rfl, ha, b, _, rfl, hb, rfl⟩ := hv
  obtain ⟨cv, hh1, hh2⟩ := header_read h1 ha
  obtain ⟨ps', hp1, hp2, hp3, hp4⟩ := hpr b hb
  obtain ⟨ht, hn⟩ := header_like h1 hh2
  refine ⟨⟨gv, withVersions hdr cv, ps'⟩, ?_, ?_, hn, hp3, (ValuesMaps_iff _).1 hp4⟩
  · rw [file_of_obj _ gv (withVersions hdr cv)]
    · have e : List.lookup "properties" (y ++ [("header", a), ("properties", b)]) = some b := by
        cases gv with
        | default =>
          cases values_nil.mp hgv
          simp only [List.nil_append, lookup_skip, List.lookup_cons_self, ne_eq, not_false_eq_true,
            String.reduceEq]
        | palworld c =>
          simp only [values_cons, values_nil] at hgv
          obtain ⟨_, _, rfl, -, rfl⟩ := hgv
          simp only [List.nil_append, List.cons_append, lookup_skip, List.lookup_cons_self, ne_eq,
            not_false_eq_true, String.reduceEq]
      rw [field_eq, hl, e]
      simp only [Option.bind_some, hp1, Option.map_some]
    · rw [defaultField_eq, hl]
      cases gv with
      | default =>
        cases values_nil.mp hgv
        simp only [List.nil_append, lookup_skip, ne_eq, not_false_eq_true, String.reduceEq,
          List.lookup_nil]
      | palworld c =>
        simp only [values_cons, values_nil] at hgv
        obtain ⟨x, _, rfl, hx, rfl⟩ := hgv
        obtain ⟨m, l, rfl, h5, h6⟩ := obj_iff.mp hx
        simp only [values_cons, values_nil, str_iff] at h5
        obtain ⟨_, _, rfl, rfl, rfl⟩ := h5
        cases List.singleton_perm.mp h6
        simp only [List.cons_append, List.nil_append, List.lookup_cons_self,
          getGameVersion_palworld]
    · have e : List.lookup "header" (y ++ [("header", a), ("properties", b)]) = some a := by
        cases gv with
        | default =>
          cases values_nil.mp hgv
          simp only [List.nil_append, List.lookup_cons_self]
        | palworld c =>
          simp only [values_cons, values_nil] at hgv
          obtain ⟨_, _, rfl, -, rfl⟩ := hgv
          simp only [List.nil_append, List.cons_append, lookup_skip, List.lookup_cons_self, ne_eq,
            not_false_eq_true, String.reduceEq]
      rw [field_eq, hl, e]
      simp only [Option.bind_some, hh1]
  · simp only [GvasFile.eqv, GvasFile.tree, eqv_node_iff, eqvList_cons_iff, eqv_leaf_iff, ht, hp2,
      eqvList_nil, and_self]

end Gvas.Reord
