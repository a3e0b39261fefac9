import Verif.Lemmas.EqualSize
import Verif.Spec.File

/-!
# Equal values can be represented alike
-/

namespace Gvas

open Spec

/-- Environments that mean the same. -/
def SameEnv (env env' : Env) : Prop :=
  env.debug = env'.debug ∧ env.hints = env'.hints ∧ SameVersions env.cv env'.cv

theorem SameVersions.refl (cv : List (Guid × UInt32)) : SameVersions cv cv := ⟨rfl, rfl, rfl⟩
theorem SameEnv.refl (env : Env) : SameEnv env env := ⟨rfl, rfl, .refl _⟩

/-! ## Normalised floats -/

theorem normProps_length (l : List Property) : (normProps l).length = l.length := by
  induction l with
  | nil => rfl
  | cons e l ih => simp [normProps, ih]

theorem normStructs_length (l : List StructPropertyValue) : (normStructs l).length = l.length := by
  induction l with
  | nil => rfl
  | cons e l ih => simp [normStructs, ih]

theorem normStrProps_length (l : List (String × Property)) : (normStrProps l).length = l.length := by
  induction l with
  | nil => rfl
  | cons e l ih => simp [normStrProps, ih]

theorem normPairs_length (l : List (Property × Property)) : (normPairs l).length = l.length := by
  induction l with
  | nil => rfl
  | cons e l ih => simp [normPairs, ih]

theorem normArgs_length (l : List FormatArgumentValue) : (normArgs l).length = l.length := by
  induction l with
  | nil => rfl
  | cons e l ih => simp [normArgs, ih]

theorem normNamedArgs_length (l : List (String × FormatArgumentValue)) : (normNamedArgs l).length = l.length := by
  induction l with
  | nil => rfl
  | cons e l ih => simp [normNamedArgs, ih]

theorem normFields_length (l : List (String × List Property)) : (normFields l).length = l.length := by
  induction l with
  | nil => rfl
  | cons e l ih => simp [normFields, ih]

theorem normStrProps_keys (l : List (String × Property)) : (normStrProps l).map Prod.fst = l.map Prod.fst := by
  induction l with
  | nil => rfl
  | cons e l ih => simp [normStrProps, ih]

theorem normNamedArgs_keys (l : List (String × FormatArgumentValue)) : (normNamedArgs l).map Prod.fst = l.map Prod.fst := by
  induction l with
  | nil => rfl
  | cons e l ih => simp [normNamedArgs, ih]

theorem normFields_keys (l : List (String × List Property)) : (normFields l).map Prod.fst = l.map Prod.fst := by
  induction l with
  | nil => rfl
  | cons e l ih => simp [normFields, ih]

mutual
theorem nw_text {cv cv' : List (Guid × UInt32)} (hv : SameVersions cv cv') : ∀ t : FText, WidthsOK cv (normText t) ↔ WidthsOK cv' t
  | .mk _ h => nw_history hv h
theorem nw_history {cv cv' : List (Guid × UInt32)} (hv : SameVersions cv cv') :
    ∀ t : FTextHistory, HistoryWidthsOK cv (normHistory t) ↔ HistoryWidthsOK cv' t
  | .empty => Iff.rfl
  | .none _ => Iff.rfl
  | .base .. => Iff.rfl
  | .asDate .. => Iff.rfl
  | .asTime .. => Iff.rfl
  | .asDateTime .. => Iff.rfl
  | .stringTableEntry .. => Iff.rfl
  | .namedFormat src l => by
    simp only [normHistory, HistoryWidthsOK, nw_text hv src, nw_named hv l]
  | .argumentFormat src l => by
    simp only [normHistory, HistoryWidthsOK, nw_text hv src, nw_named hv l]
  | .orderedFormat src l => by
    simp only [normHistory, HistoryWidthsOK, nw_text hv src, nw_args hv l]
  | .asNumber v _ _ => by simp only [normHistory, HistoryWidthsOK, nw_arg hv v]
  | .asPercent v _ _ => by simp only [normHistory, HistoryWidthsOK, nw_arg hv v]
  | .asCurrency _ v _ _ => by simp only [normHistory, HistoryWidthsOK, nw_arg hv v]
  | .transform src _ => nw_text hv src
theorem nw_arg {cv cv' : List (Guid × UInt32)} (hv : SameVersions cv cv') :
    ∀ v : FormatArgumentValue, ArgWidthsOK cv (normArg v) ↔ ArgWidthsOK cv' v
  | .text t => nw_text hv t
  | .int _ => by simp only [normArg, ArgWidthsOK, hv.2.1]
  | .uint _ => by simp only [normArg, ArgWidthsOK, hv.2.1]
  | .int64 _ => by simp only [normArg, ArgWidthsOK, hv.2.1]
  | .uint64 _ => by simp only [normArg, ArgWidthsOK, hv.2.1]
  | .float _ => Iff.rfl
  | .double _ => Iff.rfl
theorem nw_args {cv cv' : List (Guid × UInt32)} (hv : SameVersions cv cv') :
    ∀ l, ArgsWidthsOK cv (normArgs l) ↔ ArgsWidthsOK cv' l
  | [] => Iff.rfl
  | v :: l => by simp only [normArgs, ArgsWidthsOK, nw_arg hv v, nw_args hv l]
theorem nw_named {cv cv' : List (Guid × UInt32)} (hv : SameVersions cv cv') :
    ∀ l, NamedWidthsOK cv (normNamedArgs l) ↔ NamedWidthsOK cv' l
  | [] => Iff.rfl
  | (_, v) :: l => by simp only [normNamedArgs, NamedWidthsOK, nw_arg hv v, nw_named hv l]
end

mutual
theorem ns_text {cv cv' : List (Guid × UInt32)} (hv : SameVersions cv cv') : ∀ t : FText, TextShapeOK cv (normText t) ↔ TextShapeOK cv' t
  | .mk _ h => ns_history hv h
theorem ns_history {cv cv' : List (Guid × UInt32)} (hv : SameVersions cv cv') :
    ∀ t : FTextHistory, HistoryShapeOK cv (normHistory t) ↔ HistoryShapeOK cv' t
  | .empty => Iff.rfl
  | .base .. => Iff.rfl
  | .asDate .. => Iff.rfl
  | .asTime .. => Iff.rfl
  | .asDateTime .. => Iff.rfl
  | .stringTableEntry .. => Iff.rfl
  | .none s => by simp only [normHistory, HistoryShapeOK, hv.2.2]
  | .namedFormat src l => by
    simp only [normHistory, HistoryShapeOK, ns_text hv src, ns_named hv l, normNamedArgs_keys, normNamedArgs_length]
  | .argumentFormat src l => by
    simp only [normHistory, HistoryShapeOK, ns_text hv src, ns_named hv l, normNamedArgs_keys, normNamedArgs_length]
  | .orderedFormat src l => by
    simp only [normHistory, HistoryShapeOK, ns_text hv src, ns_args hv l, normArgs_length]
  | .asNumber v _ _ => by simp only [normHistory, HistoryShapeOK, ns_arg hv v]
  | .asPercent v _ _ => by simp only [normHistory, HistoryShapeOK, ns_arg hv v]
  | .asCurrency _ v _ _ => by simp only [normHistory, HistoryShapeOK, ns_arg hv v]
  | .transform src _ => ns_text hv src
theorem ns_arg {cv cv' : List (Guid × UInt32)} (hv : SameVersions cv cv') :
    ∀ v : FormatArgumentValue, ArgShapeOK cv (normArg v) ↔ ArgShapeOK cv' v
  | .text t => ns_text hv t
  | .int _ => Iff.rfl
  | .uint _ => Iff.rfl
  | .float _ => Iff.rfl
  | .double _ => Iff.rfl
  | .int64 _ => Iff.rfl
  | .uint64 _ => Iff.rfl
theorem ns_args {cv cv' : List (Guid × UInt32)} (hv : SameVersions cv cv') :
    ∀ l, ArgsShapeOK cv (normArgs l) ↔ ArgsShapeOK cv' l
  | [] => Iff.rfl
  | v :: l => by simp only [normArgs, ArgsShapeOK, ns_arg hv v, ns_args hv l]
theorem ns_named {cv cv' : List (Guid × UInt32)} (hv : SameVersions cv cv') :
    ∀ l, NamedShapeOK cv (normNamedArgs l) ↔ NamedShapeOK cv' l
  | [] => Iff.rfl
  | (_, v) :: l => by simp only [normNamedArgs, NamedShapeOK, ns_arg hv v, ns_named hv l]
end

theorem nt_text {cv cv' : List (Guid × UInt32)} (hv : SameVersions cv cv') (t : FText) : TextOK cv (normText t) ↔ TextOK cv' t := by
  rw [TextOK, TextOK, nw_text hv, ns_text hv]

/-- What about a property the format looks at besides its contents: everything but what is inside
of containers and texts. -/
def outside : Property → Property
  | .array _ => .bool false
  | .map _ => .bool false
  | .set .. => .bool false
  | .struct .. => .bool false
  | .structValue _ => .bool false
  | .text _ => .bool false
  | p => norm p

theorem outside_class (p : Property) : sizeClass (outside p) = sizeClass p := by
  cases p <;> rfl
theorem outside_namespaced (p : Property) : isNamespaced (outside p) ↔ isNamespaced p := by
  cases p <;> exact Iff.rfl
theorem outside_free (p : Property) : SizeFree (outside p) ↔ SizeFree p := by
  cases p <;> exact Iff.rfl
theorem outside_null (p : Property) : isNullKey (outside p) ↔ isNullKey p := by
  cases p <;> exact Iff.rfl
theorem outside_index (p : Property) : storedIndex (outside p) = storedIndex p := by
  cases p <;> rfl
theorem outside_norm (p : Property) : outside (norm p) = outside p := by
  cases p <;> simp only [norm, outside]
  · rw [norm64_idem]
  · rw [norm32_idem]

theorem outside_eqv {a b : Property} (h : a.tree.eqv b.tree = true) : outside a = outside b := by
  have key : a.tree = b.tree → outside a = outside b := fun e => by
    rw [← outside_norm a, ← outside_norm b, (tree_eq_iff a b).mp e]
  cases a <;> first
    | exact key (eqv_leaf h).symm
    | (cases b <;> first
        | rfl
        | (exfalso; revert h; simp [Property.tree, Tree.eqv]; done))

theorem class_norm (p : Property) : sizeClass (norm p) = sizeClass p := by
  rw [← outside_class, outside_norm, outside_class]
theorem namespaced_norm (p : Property) : isNamespaced (norm p) ↔ isNamespaced p := by
  rw [← outside_namespaced, outside_norm, outside_namespaced]
theorem free_norm (p : Property) : SizeFree (norm p) ↔ SizeFree p := by
  rw [← outside_free, outside_norm, outside_free]
theorem null_norm (p : Property) : isNullKey (norm p) ↔ isNullKey p := by
  rw [← outside_null, outside_norm, outside_null]
theorem index_norm (p : Property) : storedIndex (norm p) = storedIndex p := by
  rw [← outside_index, outside_norm, outside_index]

theorem normProps_map (l : List Property) : normProps l = l.map norm := by
  induction l with
  | nil => rfl
  | cons e l ih => simp [normProps, ih]

theorem normPairs_map (l : List (Property × Property)) :
    normPairs l = l.map fun e => (norm e.1, norm e.2) := by
  induction l with
  | nil => rfl
  | cons e l ih => simp [normPairs, ih]

theorem uniform_norm (l : List Property) : Uniform (normProps l) ↔ Uniform l := by
  simp only [Uniform, normProps_map, List.forall_mem_map, class_norm]

theorem someNamespaced_norm (l : List Property) :
    (∃ p ∈ normProps l, isNamespaced p) ↔ ∃ p ∈ l, isNamespaced p := by
  exact ⟨fun ⟨p, h, e⟩ => by
    rw [normProps_map] at h
    obtain ⟨q, hq, rfl⟩ := List.mem_map.mp h
    exact ⟨q, hq, (namespaced_norm q).mp e⟩, fun ⟨p, h, e⟩ => ⟨norm p, by
    rw [normProps_map]; exact List.mem_map.mpr ⟨p, h, rfl⟩, (namespaced_norm p).mpr e⟩⟩

theorem sameKey_norm (a b : Property) : sameKey (norm a) (norm b) = sameKey a b := by
  simp only [sameKey, Property.feed_norm]

theorem distinct_norm (l : List (Property × Property)) :
    ((normPairs l).map Prod.fst).Pairwise (fun a b => sameKey a b = false) ↔
      (l.map Prod.fst).Pairwise fun a b => sameKey a b = false := by
  rw [normPairs_map, List.map_map, List.pairwise_map, List.pairwise_map]
  simp only [Function.comp_apply, sameKey_norm]

theorem someNull_norm (l : List (Property × Property)) :
    (∃ e ∈ normPairs l, isNullKey e.1) ↔ ∃ e ∈ l, isNullKey e.1 := by
  exact ⟨fun ⟨p, h, e⟩ => by
    rw [normPairs_map] at h
    obtain ⟨q, hq, rfl⟩ := List.mem_map.mp h
    exact ⟨q, hq, (null_norm q.1).mp e⟩, fun ⟨p, h, e⟩ => ⟨(norm p.1, norm p.2), by
    rw [normPairs_map]; exact List.mem_map.mpr ⟨p, h, rfl⟩, (null_norm p.1).mpr e⟩⟩

theorem forall_keys {ν μ : Type} {l : List (String × ν)} {m : List (String × μ)}
    (h : l.map Prod.fst = m.map Prod.fst) (Q : String → Prop) :
    (∀ e ∈ l, Q e.1) ↔ ∀ e ∈ m, Q e.1 := by
  have e : ∀ {κ : Type} (l : List (String × κ)), (∀ e ∈ l, Q e.1) ↔ ∀ k ∈ l.map Prod.fst, Q k := by
    intro κ l; simp only [List.forall_mem_map]
  rw [e, e, h]

theorem keysOK_norm (l : List (String × Property)) : KeysOK (normStrProps l) ↔ KeysOK l := by
  simp only [KeysOK, normStrProps_length, normStrProps_keys,
    forall_keys (normStrProps_keys l) StrOK]

theorem normFields_ne (l : List Property) : normProps l ≠ [] ↔ l ≠ [] := by
  cases l <;> simp [normProps]

mutual
theorem nh_prop {env env' : Env} (hv : SameEnv env env') (st : List String) : ∀ p : Property, HeadOK env st (norm p) ↔ HeadOK env' st p
  | .array v => nh_array hv _ v
  | .map v => nh_map hv _ v
  | .set _ _ ps => by
    simp only [norm, HeadOK, normProps_length, uniform_norm, nh_bares hv _ _ ps]
  | .struct _ ty v => by simp only [norm, HeadOK, nh_struct hv _ ty v]
  | .text v => nt_text hv.2.2 v
  | .structValue _ => Iff.rfl
  | .bool _ => Iff.rfl
  | .byte .. => Iff.rfl
  | .double _ => Iff.rfl
  | .enum .. => Iff.rfl
  | .float _ => Iff.rfl
  | .int16 _ => Iff.rfl
  | .int64 _ => Iff.rfl
  | .int8 _ => Iff.rfl
  | .int _ => Iff.rfl
  | .name .. => Iff.rfl
  | .object _ => Iff.rfl
  | .delegate _ => Iff.rfl
  | .multicastInlineDelegate _ => Iff.rfl
  | .multicastSparseDelegate _ => Iff.rfl
  | .fieldPath _ => Iff.rfl
  | .str _ => Iff.rfl
  | .uint16 _ => Iff.rfl
  | .uint32 _ => Iff.rfl
  | .uint64 _ => Iff.rfl
  | .unknown .. => Iff.rfl
theorem nb_prop {env env' : Env} (hv : SameEnv env env') (st : List String) (ty : String) :
    ∀ p : Property, BareOK env st ty (norm p) ↔ BareOK env' st ty p
  | .structValue v => by
    simp only [norm, BareOK, hv.2.1]
    refine and_congr_right fun _ => exists_congr fun hint => and_congr_right fun _ => ?_
    exact nh_struct hv _ hint v
  | .text v => by simp only [norm, BareOK, nt_text hv.2.2 v]
  | .array _ => Iff.rfl
  | .map _ => Iff.rfl
  | .set .. => Iff.rfl
  | .struct .. => Iff.rfl
  | .bool _ => Iff.rfl
  | .byte .. => Iff.rfl
  | .double _ => Iff.rfl
  | .enum .. => Iff.rfl
  | .float _ => Iff.rfl
  | .int16 _ => Iff.rfl
  | .int64 _ => Iff.rfl
  | .int8 _ => Iff.rfl
  | .int _ => Iff.rfl
  | .name .. => Iff.rfl
  | .object _ => Iff.rfl
  | .delegate _ => Iff.rfl
  | .multicastInlineDelegate _ => Iff.rfl
  | .multicastSparseDelegate _ => Iff.rfl
  | .fieldPath _ => Iff.rfl
  | .str _ => Iff.rfl
  | .uint16 _ => Iff.rfl
  | .uint32 _ => Iff.rfl
  | .uint64 _ => Iff.rfl
  | .unknown .. => Iff.rfl
theorem nh_array {env env' : Env} (hv : SameEnv env env') (st : List String) : ∀ v, ArrayOK env st (normArray v) ↔ ArrayOK env' st v
  | .floats l => by simp only [normArray, ArrayOK, List.length_map]
  | .structs _ ty _ l => by
    simp only [normArray, ArrayOK, normStructs_length, nh_structs hv _ ty l]
  | .properties ty l => by
    simp only [normArray, ArrayOK, normProps_length, uniform_norm, someNamespaced_norm,
      nh_bares hv _ ty l]
  | .bools _ => Iff.rfl
  | .bytes _ => Iff.rfl
  | .enums _ => Iff.rfl
  | .ints _ => Iff.rfl
  | .names _ => Iff.rfl
  | .strings _ => Iff.rfl
theorem nh_map {env env' : Env} (hv : SameEnv env env') (st : List String) : ∀ v, MapOK env st (normMap v) ↔ MapOK env' st v
  | .enumProperty vt l => by simp only [normMap, MapOK, keysOK_norm, nh_values hv _ vt l]
  | .nameProperty vt l => by simp only [normMap, MapOK, keysOK_norm, nh_values hv _ vt l]
  | .strProperty vt l => by simp only [normMap, MapOK, keysOK_norm, nh_values hv _ vt l]
  | .properties kt vt _ l => by
    simp only [normMap, MapOK, normPairs_length, distinct_norm, someNull_norm,
      nh_entries hv _ kt vt l]
  | .enumBool _ => Iff.rfl
  | .enumInt _ => Iff.rfl
  | .nameBool _ => Iff.rfl
  | .nameInt _ => Iff.rfl
  | .strBool _ => Iff.rfl
  | .strInt _ => Iff.rfl
  | .strStr _ => Iff.rfl
theorem nh_struct {env env' : Env} (hv : SameEnv env env') (st : List String) (ty : String) :
    ∀ v, StructOK env st ty (normStruct v) ↔ StructOK env' st ty v
  | .vector2F .. => by simp only [normStruct, StructOK, hv.2.2.1]
  | .vector2D .. => by simp only [normStruct, StructOK, hv.2.2.1]
  | .vectorF .. => by simp only [normStruct, StructOK, hv.2.2.1]
  | .vectorD .. => by simp only [normStruct, StructOK, hv.2.2.1]
  | .rotatorF .. => by simp only [normStruct, StructOK, hv.2.2.1]
  | .rotatorD .. => by simp only [normStruct, StructOK, hv.2.2.1]
  | .quatF .. => by simp only [normStruct, StructOK, hv.2.2.1]
  | .quatD .. => by simp only [normStruct, StructOK, hv.2.2.1]
  | .dateTime _ => Iff.rfl
  | .timespan _ => Iff.rfl
  | .guid _ => Iff.rfl
  | .linearColor .. => Iff.rfl
  | .intPoint .. => Iff.rfl
  | .gameplayTagContainer _ => Iff.rfl
  | .customStruct fs => by
    simp only [normStruct, StructOK, normFields_keys, nh_fields hv _ fs]
theorem nh_bares {env env' : Env} (hv : SameEnv env env') (st : List String) (ty : String) :
    ∀ l, BaresOK env st ty (normProps l) ↔ BaresOK env' st ty l
  | [] => Iff.rfl
  | p :: l => by simp only [normProps, BaresOK, nb_prop hv _ ty p, nh_bares hv _ ty l]
theorem nh_structs {env env' : Env} (hv : SameEnv env env') (st : List String) (ty : String) :
    ∀ l, StructsOK env st ty (normStructs l) ↔ StructsOK env' st ty l
  | [] => Iff.rfl
  | p :: l => by simp only [normStructs, StructsOK, nh_struct hv _ ty p, nh_structs hv _ ty l]
theorem nh_values {env env' : Env} (hv : SameEnv env env') (st : List String) (ty : String) :
    ∀ l, ValuesOK env st ty (normStrProps l) ↔ ValuesOK env' st ty l
  | [] => Iff.rfl
  | (_, p) :: l => by
    simp only [normStrProps, ValuesOK, free_norm, nb_prop hv _ ty p, nh_values hv _ ty l]
theorem nh_entries {env env' : Env} (hv : SameEnv env env') (st : List String) (kt vt : String) :
    ∀ l, EntriesOK env st kt vt (normPairs l) ↔ EntriesOK env' st kt vt l
  | [] => Iff.rfl
  | (k, p) :: l => by
    simp only [normPairs, EntriesOK, free_norm, nb_prop hv _ kt k, nb_prop hv _ vt p,
      nh_entries hv _ kt vt l]
theorem nh_fields {env env' : Env} (hv : SameEnv env env') (st : List String) :
    ∀ l, FieldsOK env st (normFields l) ↔ FieldsOK env' st l
  | [] => Iff.rfl
  | (k, ps) :: l => by
    simp only [normFields, FieldsOK, normFields_ne, nh_vals hv _ 0 ps, nh_fields hv _ l]
theorem nh_vals {env env' : Env} (hv : SameEnv env env') (st : List String) (i : Nat) :
    ∀ l, ValsOK env st i (normProps l) ↔ ValsOK env' st i l
  | [] => Iff.rfl
  | p :: l => by
    simp only [normProps, ValsOK, index_norm, hv.1, nh_prop hv _ p, nh_vals hv _ (i + 1) l]
end

/-! ## Equal values -/

theorem head_tree {env env' : Env} (hv : SameEnv env env') {st : List String} {a b : Property} (h : HeadOK env st a)
    (e : a.tree = b.tree) : HeadOK env' st b := by
  rw [← nh_prop hv st b, ← (tree_eq_iff a b).mp e]
  exact (nh_prop (.refl _) st a).mpr h

theorem bare_tree {env env' : Env} (hv : SameEnv env env') {st : List String} {ty : String} {a b : Property}
    (h : BareOK env st ty a) (e : a.tree = b.tree) : BareOK env' st ty b := by
  rw [← nb_prop hv st ty b, ← (tree_eq_iff a b).mp e]
  exact (nb_prop (.refl _) st ty a).mpr h

theorem arrayOK_tree {env env' : Env} (hv : SameEnv env env') {st : List String} {a b : ArrayProperty} (h : ArrayOK env st a)
    (e : a.tree = b.tree) : ArrayOK env' st b := by
  have := (tree_eq_iff (.array a) (.array b)).mp (by rw [Property.tree, Property.tree, e])
  rw [norm, norm, Property.array.injEq] at this
  rw [← nh_array hv st b, ← this]
  exact (nh_array (.refl _) st a).mpr h

theorem structOK_tree {env env' : Env} (hv : SameEnv env env') {st : List String} {ty : String} {a b : StructPropertyValue}
    (h : StructOK env st ty a) (e : a.tree = b.tree) : StructOK env' st ty b := by
  have := (tree_eq_iff (.structValue a) (.structValue b)).mp (by rw [Property.tree, Property.tree, e])
  rw [norm, norm, Property.structValue.injEq] at this
  rw [← nh_struct hv st ty b, ← this]
  exact (nh_struct (.refl _) st ty a).mpr h

theorem historyOK_tree {cv cv' : List (Guid × UInt32)} (hv : SameVersions cv cv') {a b : FTextHistory} (h : HistoryWidthsOK cv a ∧ HistoryShapeOK cv a)
    (e : a.tree = b.tree) :
    HistoryWidthsOK cv' b ∧ HistoryShapeOK cv' b := by
  have := (tree_eq_iff (.text (.mk 0 a)) (.text (.mk 0 b))).mp
    (by rw [Property.tree, Property.tree, FText.tree, FText.tree, e])
  rw [norm, norm, normText, normText, Property.text.injEq, FText.mk.injEq] at this
  rw [← nw_history hv b, ← ns_history hv b, ← this.2]
  exact ⟨(nw_history (.refl _) a).mpr h.1, (ns_history (.refl _) a).mpr h.2⟩

theorem argOK_tree {cv cv' : List (Guid × UInt32)} (hv : SameVersions cv cv') {a b : FormatArgumentValue} (h : ArgWidthsOK cv a ∧ ArgShapeOK cv a)
    (e : a.tree = b.tree) : ArgWidthsOK cv' b ∧ ArgShapeOK cv' b := by
  have := (tree_eq_iff (.text (.mk 0 (.orderedFormat (.mk 0 .empty) [a])))
    (.text (.mk 0 (.orderedFormat (.mk 0 .empty) [b])))).mp
    (by simp only [Property.tree, FText.tree, FTextHistory.tree, treeArgs, e])
  simp only [norm, normText, normHistory, normArgs, Property.text.injEq, FText.mk.injEq,
    FTextHistory.orderedFormat.injEq, List.cons.injEq, and_true, true_and] at this
  rw [← nw_arg hv b, ← ns_arg hv b, ← this]
  exact ⟨(nw_arg (.refl _) a).mpr h.1, (ns_arg (.refl _) a).mpr h.2⟩

theorem opt_inj {a b : Option String} (h : feedOpt a = feedOpt b) : a = b := by
  cases a <;> cases b <;> simp [feedOpt] at h
  · rfl
  · rw [h]

theorem named_all (cv : List (Guid × UInt32)) (l : List (String × FormatArgumentValue)) :
    NamedWidthsOK cv l ∧ NamedShapeOK cv l ↔
      ∀ e ∈ l, StrOK e.1 ∧ ArgWidthsOK cv e.2 ∧ ArgShapeOK cv e.2 := by
  induction l with
  | nil => simp [NamedWidthsOK, NamedShapeOK]
  | cons e l ih =>
    rw [List.forall_mem_cons, ← ih]
    simp only [NamedWidthsOK, NamedShapeOK]
    constructor
    · rintro ⟨⟨h1, h2⟩, h3, h4, h5⟩; exact ⟨⟨h3, h1, h4⟩, h2, h5⟩
    · rintro ⟨⟨h3, h1, h4⟩, h2, h5⟩; exact ⟨⟨h1, h2⟩, h3, h4, h5⟩

theorem values_all (env : Env) (st : List String) (ty : String) (l : List (String × Property)) :
    ValuesOK env st ty l ↔ ∀ e ∈ l, SizeFree e.2 ∧ BareOK env st ty e.2 := by
  induction l with
  | nil => simp [ValuesOK]
  | cons e l ih => rw [List.forall_mem_cons, ← ih]; simp only [ValuesOK, and_assoc]

theorem entries_all (env : Env) (st : List String) (kt vt : String)
    (l : List (Property × Property)) :
    EntriesOK env st kt vt l ↔ ∀ e ∈ l, SizeFree e.1 ∧ BareOK env (st ++ ["Key"]) kt e.1 ∧
      SizeFree e.2 ∧ BareOK env (st ++ ["Value"]) vt e.2 := by
  induction l with
  | nil => simp [EntriesOK]
  | cons e l ih => rw [List.forall_mem_cons, ← ih]; simp only [EntriesOK, and_assoc]

theorem fields_all (env : Env) (st : List String) (l : List (String × List Property)) :
    FieldsOK env st l ↔ ∀ e ∈ l, StrOK e.1 ∧ e.1 ≠ "None" ∧ e.2 ≠ [] ∧
      ValsOK env (st ++ [e.1]) 0 e.2 := by
  induction l with
  | nil => simp [FieldsOK]
  | cons e l ih => rw [List.forall_mem_cons, ← ih]; simp only [FieldsOK, and_assoc]

theorem outside_list {a b : List Property} (h : eqvList (treeProps a) (treeProps b) = true) :
    a.map outside = b.map outside := by
  induction a generalizing b with
  | nil => cases b <;> simp [treeProps, eqvList] at h ⊢
  | cons x a ih =>
    cases b <;> simp [treeProps, eqvList] at h ⊢
    exact ⟨outside_eqv h.1, ih h.2⟩

theorem uniform_outside {a b : List Property} (h : a.map outside = b.map outside)
    (ha : Uniform a) : Uniform b := by
  have e : ∀ l : List Property, Uniform l ↔ ∀ p ∈ l.map outside, ∀ q ∈ l.map outside,
      sizeClass p = sizeClass q := fun l => by
    simp only [Uniform, List.forall_mem_map, outside_class]
  rw [e] at *
  rwa [← h]

theorem someNamespaced_outside {a b : List Property} (h : a.map outside = b.map outside)
    (ha : ∃ p ∈ a, isNamespaced p) : ∃ p ∈ b, isNamespaced p := by
  obtain ⟨p, hp, hn⟩ := ha
  have : outside p ∈ b.map outside := h ▸ List.mem_map.mpr ⟨p, hp, rfl⟩
  obtain ⟨q, hq, e⟩ := List.mem_map.mp this
  exact ⟨q, hq, (outside_namespaced q).mp (e ▸ (outside_namespaced p).mpr hn)⟩

theorem outside_length {a b : List Property} (h : a.map outside = b.map outside) :
    a.length = b.length := by
  have := congrArg List.length h
  simpa using this

theorem eqvStructs_length {a b : List StructPropertyValue}
    (h : eqvList (treeStructs a) (treeStructs b) = true) : a.length = b.length := by
  induction a generalizing b with
  | nil => cases b <;> simp [treeStructs, eqvList] at h ⊢
  | cons x a ih =>
    cases b <;> simp [treeStructs, eqvList] at h ⊢
    exact ih h.2

theorem eqvArgs_length {a b : List FormatArgumentValue}
    (h : eqvList (treeArgs a) (treeArgs b) = true) : a.length = b.length := by
  induction a generalizing b with
  | nil => cases b <;> simp [treeArgs, eqvList] at h ⊢
  | cons x a ih =>
    cases b <;> simp [treeArgs, eqvList] at h ⊢
    exact ih h.2

theorem pairs_keys {ν μ : Type} {r : String × ν → String × μ → Prop} {l : List (String × ν)}
    {m : List (String × μ)} (hr : ∀ a b, r a b → a.1 = b.1) (h : Pairs r l m) :
    l.map Prod.fst = m.map Prod.fst := by
  induction h with
  | nil => rfl
  | cons hab _ ih => simp only [List.map_cons, hr _ _ hab, ih]

theorem keysOK_pairs {ν μ : Type} {r : String × ν → String × μ → Prop} {l : List (String × ν)}
    {m p : List (String × μ)} (hr : ∀ a b, r a b → a.1 = b.1) (hp : p.Perm m) (h : Pairs r l p)
    (hm : KeysDistinct m) (hl : KeysOK l) : KeysOK m := by
  refine ⟨?_, hm, fun e he => ?_⟩
  · rw [← hp.length_eq, ← (pairs_mem h).1]; exact hl.1
  · exact (forall_keys (pairs_keys hr h) StrOK).mp hl.2.2 e (hp.mem_iff.mpr he)

theorem leafMap_ok {α : Type} (f : α → List Tok) {l m : List (String × α)}
    (hl : KeysDistinct l) (hm : KeysDistinct m)
    (h : (Tree.umap (l.map fun e => ([Tok.s e.1], Tree.leaf (f e.2)))).eqv
      (.umap (m.map fun e => ([Tok.s e.1], Tree.leaf (f e.2)))) = true) (hk : KeysOK l) :
    KeysOK m ∧ ∀ e ∈ m, ∃ e' ∈ l, f e'.2 = f e.2 := by
  rw [umap_iff (fun e : String × α => [Tok.s e.1]) (fun e : String × α => [Tok.s e.1])
    (fun e => .leaf (f e.2)) (fun e => .leaf (f e.2))] at h
  · obtain ⟨p, hp, hq⟩ := h
    refine ⟨keysOK_pairs (fun a b h => by simpa using h.1) hp hq hm hk, fun e he => ?_⟩
    have : ∀ {l p : List (String × α)}, Pairs (fun a b => [Tok.s a.1] = [Tok.s b.1] ∧
        (Tree.leaf (f a.2)).eqv (.leaf (f b.2)) = true) l p → ∀ e ∈ p, ∃ e' ∈ l, f e'.2 = f e.2 := by
      intro l p h
      induction h with
      | nil => simp
      | @cons a b as bs hab _ ih =>
        rw [List.forall_mem_cons]
        refine ⟨⟨a, List.mem_cons_self .., (eqv_leaf_iff _ _).mp hab.2⟩, fun e he => ?_⟩
        obtain ⟨e', h1, h2⟩ := ih e he
        exact ⟨e', List.mem_cons_of_mem _ h1, h2⟩
    exact this hq e (hp.mem_iff.mpr he)
  · have := nodup_str hl; rwa [List.map_map] at this
  · have := nodup_str hm; rwa [List.map_map] at this

theorem feed_norm_eq {a b : Property} (h : a.feed = b.feed) : norm a = norm b := by
  rwa [← sameKey_iff, sameKey, beq_iff_eq]

mutual
theorem oh_text {cv cv' : List (Guid × UInt32)} (hv : SameVersions cv cv') : ∀ a b : FText, TextMaps a → TextMaps b → a.tree.eqv b.tree = true →
    TextOK cv a → TextOK cv' b
  | .mk f h, .mk f' h', ha, hb, he, ho => by
    simp only [FText.tree, eqv_node_iff, eqvList_cons_iff, eqv_leaf_iff] at he
    exact oh_history hv h h' ha hb he.2.1 ho
termination_by structural a => a
theorem oh_history {cv cv' : List (Guid × UInt32)} (hv : SameVersions cv cv') : ∀ a b : FTextHistory, HistoryMaps a → HistoryMaps b →
    a.tree.eqv b.tree = true → HistoryWidthsOK cv a ∧ HistoryShapeOK cv a →
    HistoryWidthsOK cv' b ∧ HistoryShapeOK cv' b
  | .empty, b, _, _, e, ho => historyOK_tree hv ho (eqv_leaf e).symm
  | .none .., b, _, _, e, ho => historyOK_tree hv ho (eqv_leaf e).symm
  | .base .., b, _, _, e, ho => historyOK_tree hv ho (eqv_leaf e).symm
  | .asDate .., b, _, _, e, ho => historyOK_tree hv ho (eqv_leaf e).symm
  | .asTime .., b, _, _, e, ho => historyOK_tree hv ho (eqv_leaf e).symm
  | .asDateTime .., b, _, _, e, ho => historyOK_tree hv ho (eqv_leaf e).symm
  | .stringTableEntry .., b, _, _, e, ho => historyOK_tree hv ho (eqv_leaf e).symm
  | .namedFormat src args, b, ha, hb, he, ho => by
    cases b <;> try (exfalso; revert he; simp [FTextHistory.tree, Tree.eqv, eqvList]; done)
    simp only [FTextHistory.tree, eqv_node_iff, eqvList_cons_iff] at he
    rename_i src' args'
    obtain ⟨p, hp, hq⟩ := (named_iff ha.2.1 hb.2.1).mp he.2.2.1
    obtain ⟨⟨h1, h2⟩, h3, h4, h5, h6⟩ := ho
    have ht := oh_text hv src src' ha.1 hb.1 he.2.1 ⟨h1, h3⟩
    have hn := (named_all cv' p).mp
      (oh_named hv args p ha.2.2 (namedMaps_perm hp.symm hb.2.2) hq ⟨h2, h4⟩)
    have hn' := (named_all cv' args').mpr fun e he => hn e (hp.mem_iff.mpr he)
    exact ⟨⟨ht.1, hn'.1⟩, ht.2, hn'.2, hb.2.1, by rw [← hp.length_eq, ← (pairs_mem hq).1]; exact h6⟩
  | .argumentFormat src args, b, ha, hb, he, ho => by
    cases b <;> try (exfalso; revert he; simp [FTextHistory.tree, Tree.eqv, eqvList]; done)
    simp only [FTextHistory.tree, eqv_node_iff, eqvList_cons_iff] at he
    rename_i src' args'
    obtain ⟨p, hp, hq⟩ := (named_iff ha.2.1 hb.2.1).mp he.2.2.1
    obtain ⟨⟨h1, h2⟩, h3, h4, h5, h6⟩ := ho
    have ht := oh_text hv src src' ha.1 hb.1 he.2.1 ⟨h1, h3⟩
    have hn := (named_all cv' p).mp
      (oh_named hv args p ha.2.2 (namedMaps_perm hp.symm hb.2.2) hq ⟨h2, h4⟩)
    have hn' := (named_all cv' args').mpr fun e he => hn e (hp.mem_iff.mpr he)
    exact ⟨⟨ht.1, hn'.1⟩, ht.2, hn'.2, hb.2.1, by rw [← hp.length_eq, ← (pairs_mem hq).1]; exact h6⟩
  | .orderedFormat src args, b, ha, hb, he, ho => by
    cases b <;> simp [FTextHistory.tree, Tree.eqv, eqvList] at he
    rename_i src' args'
    obtain ⟨⟨h1, h2⟩, h3, h4, h5⟩ := ho
    have ht := oh_text hv src src' ha.1 hb.1 he.1 ⟨h1, h3⟩
    have hn := oh_args hv args args' ha.2 hb.2 he.2 ⟨h2, h4⟩
    exact ⟨⟨ht.1, hn.1⟩, ht.2, hn.2, by rw [← eqvArgs_length he.2]; exact h5⟩
  | .asNumber v o c, b, ha, hb, he, ho => by
    cases b <;> simp [FTextHistory.tree, Tree.eqv, eqvList] at he
    have hv' := oh_arg hv v _ ha hb he.1 ⟨ho.1, ho.2.1⟩
    exact ⟨hv'.1, hv'.2, opt_inj he.2.2 ▸ ho.2.2⟩
  | .asPercent v o c, b, ha, hb, he, ho => by
    cases b <;> simp [FTextHistory.tree, Tree.eqv, eqvList] at he
    have hv' := oh_arg hv v _ ha hb he.1 ⟨ho.1, ho.2.1⟩
    exact ⟨hv'.1, hv'.2, opt_inj he.2.2 ▸ ho.2.2⟩
  | .asCurrency k v o c, b, ha, hb, he, ho => by
    cases b <;> simp [FTextHistory.tree, Tree.eqv, eqvList] at he
    have hv' := oh_arg hv v _ ha hb he.2.1 ⟨ho.1, ho.2.2.1⟩
    exact ⟨hv'.1, opt_inj he.1 ▸ ho.2.1, hv'.2, opt_inj he.2.2.2 ▸ ho.2.2.2⟩
  | .transform src tt, b, ha, hb, he, ho => by
    cases b <;> simp [FTextHistory.tree, Tree.eqv, eqvList] at he
    exact oh_text hv src _ ha hb he.1 ho
termination_by structural a => a
theorem oh_arg {cv cv' : List (Guid × UInt32)} (hv : SameVersions cv cv') : ∀ a b : FormatArgumentValue, ArgMaps a → ArgMaps b →
    a.tree.eqv b.tree = true → ArgWidthsOK cv a ∧ ArgShapeOK cv a →
    ArgWidthsOK cv' b ∧ ArgShapeOK cv' b
  | .text t, b, ha, hb, he, ho => by
    cases b <;> simp [FormatArgumentValue.tree, Tree.eqv, eqvList] at he
    exact oh_text hv t _ ha hb he ho
  | .int _, b, _, _, e, ho => argOK_tree hv ho (eqv_leaf e).symm
  | .uint _, b, _, _, e, ho => argOK_tree hv ho (eqv_leaf e).symm
  | .float _, b, _, _, e, ho => argOK_tree hv ho (eqv_leaf e).symm
  | .double _, b, _, _, e, ho => argOK_tree hv ho (eqv_leaf e).symm
  | .int64 _, b, _, _, e, ho => argOK_tree hv ho (eqv_leaf e).symm
  | .uint64 _, b, _, _, e, ho => argOK_tree hv ho (eqv_leaf e).symm
termination_by structural a => a
theorem oh_args {cv cv' : List (Guid × UInt32)} (hv : SameVersions cv cv') : ∀ a b : List FormatArgumentValue, ArgsMaps a → ArgsMaps b →
    eqvList (treeArgs a) (treeArgs b) = true → ArgsWidthsOK cv a ∧ ArgsShapeOK cv a →
    ArgsWidthsOK cv' b ∧ ArgsShapeOK cv' b
  | [], b, _, _, he, ho => by cases b <;> simp [treeArgs, eqvList] at he; exact ⟨trivial, trivial⟩
  | v :: l, b, ha, hb, he, ho => by
    cases b <;> simp [treeArgs, eqvList] at he
    have h1 := oh_arg hv v _ ha.1 hb.1 he.1 ⟨ho.1.1, ho.2.1⟩
    have h2 := oh_args hv l _ ha.2 hb.2 he.2 ⟨ho.1.2, ho.2.2⟩
    exact ⟨⟨h1.1, h2.1⟩, h1.2, h2.2⟩
termination_by structural a => a
theorem oh_named {cv cv' : List (Guid × UInt32)} (hv : SameVersions cv cv') : ∀ a b : List (String × FormatArgumentValue), NamedArgsMaps a →
    NamedArgsMaps b → Pairs (fun a b => a.1 = b.1 ∧ a.2.tree.eqv b.2.tree = true) a b →
    NamedWidthsOK cv a ∧ NamedShapeOK cv a → NamedWidthsOK cv' b ∧ NamedShapeOK cv' b
  | [], b, _, _, he, ho => by cases he; exact ⟨trivial, trivial⟩
  | (k, v) :: l, b, ha, hb, he, ho => by
    cases he with
    | @cons _ b _ bs h1 h2 =>
      obtain ⟨k', v'⟩ := b
      obtain ⟨rfl, h1⟩ := h1
      have h3 := oh_arg hv v _ ha.1 hb.1 h1 ⟨ho.1.1, ho.2.2.1⟩
      have h4 := oh_named hv l _ ha.2 hb.2 h2 ⟨ho.1.2, ho.2.2.2⟩
      exact ⟨⟨h3.1, h4.1⟩, ho.2.1, h3.2, h4.2⟩
termination_by structural a => a
end

mutual
theorem oh_prop {env env' : Env} (hv : SameEnv env env') (st : List String) : ∀ a b : Property, MapsDistinct a → MapsDistinct b →
    a.tree.eqv b.tree = true → HeadOK env st a → HeadOK env' st b
  | .bool _, b, _, _, e, ho => head_tree hv ho (eqv_leaf e).symm
  | .byte .., b, _, _, e, ho => head_tree hv ho (eqv_leaf e).symm
  | .double _, b, _, _, e, ho => head_tree hv ho (eqv_leaf e).symm
  | .enum .., b, _, _, e, ho => head_tree hv ho (eqv_leaf e).symm
  | .float _, b, _, _, e, ho => head_tree hv ho (eqv_leaf e).symm
  | .int16 _, b, _, _, e, ho => head_tree hv ho (eqv_leaf e).symm
  | .int64 _, b, _, _, e, ho => head_tree hv ho (eqv_leaf e).symm
  | .int8 _, b, _, _, e, ho => head_tree hv ho (eqv_leaf e).symm
  | .int _, b, _, _, e, ho => head_tree hv ho (eqv_leaf e).symm
  | .name .., b, _, _, e, ho => head_tree hv ho (eqv_leaf e).symm
  | .object _, b, _, _, e, ho => head_tree hv ho (eqv_leaf e).symm
  | .delegate _, b, _, _, e, ho => head_tree hv ho (eqv_leaf e).symm
  | .multicastInlineDelegate _, b, _, _, e, ho => head_tree hv ho (eqv_leaf e).symm
  | .multicastSparseDelegate _, b, _, _, e, ho => head_tree hv ho (eqv_leaf e).symm
  | .fieldPath _, b, _, _, e, ho => head_tree hv ho (eqv_leaf e).symm
  | .str _, b, _, _, e, ho => head_tree hv ho (eqv_leaf e).symm
  | .uint16 _, b, _, _, e, ho => head_tree hv ho (eqv_leaf e).symm
  | .uint32 _, b, _, _, e, ho => head_tree hv ho (eqv_leaf e).symm
  | .uint64 _, b, _, _, e, ho => head_tree hv ho (eqv_leaf e).symm
  | .unknown .., b, _, _, e, ho => head_tree hv ho (eqv_leaf e).symm
  | .array v, b, ha, hb, he, ho => by
    cases b <;> try (exfalso; revert he; simp [Property.tree, Tree.eqv, eqvList]; done)
    simp only [Property.tree, eqv_node_iff, eqvList_cons_iff] at he
    exact oh_array hv _ v _ ha hb he.2.1 ho
  | .map v, b, ha, hb, he, ho => by
    cases b <;> try (exfalso; revert he; simp [Property.tree, Tree.eqv, eqvList]; done)
    simp only [Property.tree, eqv_node_iff, eqvList_cons_iff] at he
    exact oh_map hv _ v _ ha hb he.2.1 ho
  | .structValue v, b, ha, hb, he, ho => ho.elim
  | .text v, b, ha, hb, he, ho => by
    cases b <;> try (exfalso; revert he; simp [Property.tree, Tree.eqv, eqvList]; done)
    simp only [Property.tree, eqv_node_iff, eqvList_cons_iff] at he
    exact oh_text hv.2.2 v _ ha hb he.2.1 ho
  | .struct g t v, b, ha, hb, he, ho => by
    cases b <;> try (exfalso; revert he; simp [Property.tree, Tree.eqv, eqvList]; done)
    rename_i g' t' v'
    simp only [Property.tree, eqv_node_iff, eqvList_cons_iff, eqv_leaf_iff, List.cons.injEq,
      true_and] at he
    have ht := (guidFeed_inj he.1).2
    rw [List.cons.injEq, Tok.s.injEq] at ht
    obtain ⟨rfl, _⟩ := ht
    exact ⟨ho.1, oh_struct hv _ t v _ ha hb he.2.1 ho.2⟩
  | .set t fl ps, b, ha, hb, he, ho => by
    cases b <;> simp only [Property.tree, eqv_node_iff, eqvList_cons_iff, eqv_leaf_iff] at he <;>
      first | (exfalso; simp at he; done) | (exfalso; simp [Tree.eqv] at he; done) | skip
    rename_i t' fl' ps'
    rw [eqv_list_iff, List.cons.injEq, List.cons.injEq, Tok.s.injEq] at he
    obtain ⟨⟨_, rfl, _⟩, he, _⟩ := he
    have hm := outside_list he
    exact ⟨ho.1, outside_length hm ▸ ho.2.1, uniform_outside hm ho.2.2.1,
      oh_bares hv _ t ps ps' ha hb he ho.2.2.2⟩
termination_by structural a => a
theorem ob_prop {env env' : Env} (hv : SameEnv env env') (st : List String) (ty : String) : ∀ a b : Property, MapsDistinct a →
    MapsDistinct b → a.tree.eqv b.tree = true → BareOK env st ty a → BareOK env' st ty b
  | .bool _, b, _, _, e, ho => bare_tree hv ho (eqv_leaf e).symm
  | .byte .., b, _, _, e, ho => bare_tree hv ho (eqv_leaf e).symm
  | .double _, b, _, _, e, ho => bare_tree hv ho (eqv_leaf e).symm
  | .enum .., b, _, _, e, ho => bare_tree hv ho (eqv_leaf e).symm
  | .float _, b, _, _, e, ho => bare_tree hv ho (eqv_leaf e).symm
  | .int16 _, b, _, _, e, ho => bare_tree hv ho (eqv_leaf e).symm
  | .int64 _, b, _, _, e, ho => bare_tree hv ho (eqv_leaf e).symm
  | .int8 _, b, _, _, e, ho => bare_tree hv ho (eqv_leaf e).symm
  | .int _, b, _, _, e, ho => bare_tree hv ho (eqv_leaf e).symm
  | .name .., b, _, _, e, ho => bare_tree hv ho (eqv_leaf e).symm
  | .object _, b, _, _, e, ho => bare_tree hv ho (eqv_leaf e).symm
  | .delegate _, b, _, _, e, ho => bare_tree hv ho (eqv_leaf e).symm
  | .multicastInlineDelegate _, b, _, _, e, ho => bare_tree hv ho (eqv_leaf e).symm
  | .multicastSparseDelegate _, b, _, _, e, ho => bare_tree hv ho (eqv_leaf e).symm
  | .fieldPath _, b, _, _, e, ho => bare_tree hv ho (eqv_leaf e).symm
  | .str _, b, _, _, e, ho => bare_tree hv ho (eqv_leaf e).symm
  | .uint16 _, b, _, _, e, ho => bare_tree hv ho (eqv_leaf e).symm
  | .uint32 _, b, _, _, e, ho => bare_tree hv ho (eqv_leaf e).symm
  | .uint64 _, b, _, _, e, ho => bare_tree hv ho (eqv_leaf e).symm
  | .unknown .., b, _, _, e, ho => bare_tree hv ho (eqv_leaf e).symm
  | .array v, b, ha, hb, he, ho => ho.elim
  | .map v, b, ha, hb, he, ho => ho.elim
  | .set .., b, ha, hb, he, ho => ho.elim
  | .struct .., b, ha, hb, he, ho => ho.elim
  | .structValue v, b, ha, hb, he, ho => by
    cases b <;> try (exfalso; revert he; simp [Property.tree, Tree.eqv, eqvList]; done)
    simp only [Property.tree, eqv_node_iff, eqvList_cons_iff] at he
    obtain ⟨h1, hint, h2, h3⟩ := ho
    exact ⟨h1, hint, hv.2.1 ▸ h2, oh_struct hv _ hint v _ ha hb he.2.1 h3⟩
  | .text v, b, ha, hb, he, ho => by
    cases b <;> try (exfalso; revert he; simp [Property.tree, Tree.eqv, eqvList]; done)
    simp only [Property.tree, eqv_node_iff, eqvList_cons_iff] at he
    exact ⟨ho.1, oh_text hv.2.2 v _ ha hb he.2.1 ho.2⟩
termination_by structural a => a
theorem oh_array {env env' : Env} (hv : SameEnv env env') (st : List String) : ∀ a b : ArrayProperty, ArrayMaps a → ArrayMaps b →
    a.tree.eqv b.tree = true → ArrayOK env st a → ArrayOK env' st b
  | .bools _, b, _, _, e, ho => arrayOK_tree hv ho (eqv_leaf e).symm
  | .bytes _, b, _, _, e, ho => arrayOK_tree hv ho (eqv_leaf e).symm
  | .enums _, b, _, _, e, ho => arrayOK_tree hv ho (eqv_leaf e).symm
  | .floats _, b, _, _, e, ho => arrayOK_tree hv ho (eqv_leaf e).symm
  | .ints _, b, _, _, e, ho => arrayOK_tree hv ho (eqv_leaf e).symm
  | .names _, b, _, _, e, ho => arrayOK_tree hv ho (eqv_leaf e).symm
  | .strings _, b, _, _, e, ho => arrayOK_tree hv ho (eqv_leaf e).symm
  | .structs f t g v, b, ha, hb, he, ho => by
    cases b <;> simp only [ArrayProperty.tree, eqv_node_iff, eqvList_cons_iff, eqv_leaf_iff] at he <;>
      first | (exfalso; simp at he; done) | (exfalso; simp [Tree.eqv] at he; done) | skip
    rename_i f' t' g' v'
    have he' := he.1
    simp only [List.cons.injEq, Tok.s.injEq, true_and] at he'
    rw [eqv_list_iff] at he
    obtain ⟨h1, h2, _⟩ := he'
    subst h1 h2
    exact ⟨ho.1, ho.2.1, eqvStructs_length he.2.1 ▸ ho.2.2.1,
      oh_structs hv _ t v v' ha hb he.2.1 ho.2.2.2⟩
  | .properties t v, b, ha, hb, he, ho => by
    cases b <;> simp only [ArrayProperty.tree, eqv_node_iff, eqvList_cons_iff, eqv_leaf_iff] at he <;>
      first | (exfalso; simp at he; done) | (exfalso; simp [Tree.eqv] at he; done) | skip
    rename_i t' v'
    have he' := he.1
    simp only [List.cons.injEq, Tok.s.injEq, true_and] at he'
    rw [eqv_list_iff] at he
    obtain ⟨h1, _⟩ := he'
    subst h1
    have hm := outside_list he.2.1
    obtain ⟨h1, h2, h3, h4, h5, h6, h7⟩ := ho
    exact ⟨h1, h2, h3, fun e => someNamespaced_outside hm (h4 e), outside_length hm ▸ h5,
      uniform_outside hm h6, oh_bares hv _ t v v' ha hb he.2.1 h7⟩
termination_by structural a => a
theorem oh_map {env env' : Env} (hv : SameEnv env env') (st : List String) : ∀ a b : MapProperty, MapMaps a → MapMaps b →
    a.tree.eqv b.tree = true → MapOK env st a → MapOK env' st b
  | .enumBool v, b, ha, hb, he, ho => by
    cases b <;> try (exfalso; revert he; simp [MapProperty.tree, eqv_node_iff, eqvList_cons_iff, eqv_leaf_iff, eqvList_nil]; done)
    simp only [MapProperty.tree, eqv_node_iff, eqvList_cons_iff, eqv_leaf_iff] at he
    exact (leafMap_ok (fun v : Bool => [Tok.n v.toNat]) ha hb he.2.1 ho).1
  | .nameBool v, b, ha, hb, he, ho => by
    cases b <;> try (exfalso; revert he; simp [MapProperty.tree, eqv_node_iff, eqvList_cons_iff, eqv_leaf_iff, eqvList_nil]; done)
    simp only [MapProperty.tree, eqv_node_iff, eqvList_cons_iff, eqv_leaf_iff] at he
    exact (leafMap_ok (fun v : Bool => [Tok.n v.toNat]) ha hb he.2.1 ho).1
  | .strBool v, b, ha, hb, he, ho => by
    cases b <;> try (exfalso; revert he; simp [MapProperty.tree, eqv_node_iff, eqvList_cons_iff, eqv_leaf_iff, eqvList_nil]; done)
    simp only [MapProperty.tree, eqv_node_iff, eqvList_cons_iff, eqv_leaf_iff] at he
    exact (leafMap_ok (fun v : Bool => [Tok.n v.toNat]) ha hb he.2.1 ho).1
  | .enumInt v, b, ha, hb, he, ho => by
    cases b <;> try (exfalso; revert he; simp [MapProperty.tree, eqv_node_iff, eqvList_cons_iff, eqv_leaf_iff, eqvList_nil]; done)
    simp only [MapProperty.tree, eqv_node_iff, eqvList_cons_iff, eqv_leaf_iff] at he
    exact (leafMap_ok (fun v : Int32 => [Tok.n v.toUInt32.toNat]) ha hb he.2.1 ho).1
  | .nameInt v, b, ha, hb, he, ho => by
    cases b <;> try (exfalso; revert he; simp [MapProperty.tree, eqv_node_iff, eqvList_cons_iff, eqv_leaf_iff, eqvList_nil]; done)
    simp only [MapProperty.tree, eqv_node_iff, eqvList_cons_iff, eqv_leaf_iff] at he
    exact (leafMap_ok (fun v : Int32 => [Tok.n v.toUInt32.toNat]) ha hb he.2.1 ho).1
  | .strInt v, b, ha, hb, he, ho => by
    cases b <;> try (exfalso; revert he; simp [MapProperty.tree, eqv_node_iff, eqvList_cons_iff, eqv_leaf_iff, eqvList_nil]; done)
    simp only [MapProperty.tree, eqv_node_iff, eqvList_cons_iff, eqv_leaf_iff] at he
    exact (leafMap_ok (fun v : Int32 => [Tok.n v.toUInt32.toNat]) ha hb he.2.1 ho).1
  | .strStr v, b, ha, hb, he, ho => by
    cases b <;> try (exfalso; revert he; simp [MapProperty.tree, eqv_node_iff, eqvList_cons_iff, eqv_leaf_iff, eqvList_nil]; done)
    simp only [MapProperty.tree, eqv_node_iff, eqvList_cons_iff, eqv_leaf_iff] at he
    have hk := leafMap_ok feedOpt ha hb he.2.1 ho.1
    refine ⟨hk.1, fun e he => ?_⟩
    obtain ⟨e', h1, h2⟩ := hk.2 e he
    exact opt_inj h2 ▸ ho.2 e' h1
  | .enumProperty vt v, b, ha, hb, he, ho => by
    cases b <;> try (exfalso; revert he; simp [MapProperty.tree, eqv_node_iff, eqvList_cons_iff, eqv_leaf_iff, eqvList_nil]; done)
    simp only [MapProperty.tree, eqv_node_iff, eqvList_cons_iff, eqv_leaf_iff] at he
    rename_i vt' v'
    obtain ⟨h1, he, _⟩ := he
    simp only [List.cons.injEq, Tok.s.injEq, true_and, and_true] at h1
    subst h1
    obtain ⟨p, hp, hq⟩ := (strProps_iff ha.1 hb.1).mp he
    obtain ⟨h1, h2, h3, h4⟩ := ho
    have hn := (values_all env' _ _ p).mp
      (oh_values hv _ vt v p ha.2 (valuesMaps_perm hp.symm hb.2) hq h4)
    exact ⟨h1, h2, keysOK_pairs (fun a b h => h.1) hp hq hb.1 h3,
      (values_all env' _ _ v').mpr fun e he => hn e (hp.mem_iff.mpr he)⟩
  | .nameProperty vt v, b, ha, hb, he, ho => by
    cases b <;> try (exfalso; revert he; simp [MapProperty.tree, eqv_node_iff, eqvList_cons_iff, eqv_leaf_iff, eqvList_nil]; done)
    simp only [MapProperty.tree, eqv_node_iff, eqvList_cons_iff, eqv_leaf_iff] at he
    rename_i vt' v'
    obtain ⟨h1, he, _⟩ := he
    simp only [List.cons.injEq, Tok.s.injEq, true_and, and_true] at h1
    subst h1
    obtain ⟨p, hp, hq⟩ := (strProps_iff ha.1 hb.1).mp he
    obtain ⟨h1, h2, h3, h4⟩ := ho
    have hn := (values_all env' _ _ p).mp
      (oh_values hv _ vt v p ha.2 (valuesMaps_perm hp.symm hb.2) hq h4)
    exact ⟨h1, h2, keysOK_pairs (fun a b h => h.1) hp hq hb.1 h3,
      (values_all env' _ _ v').mpr fun e he => hn e (hp.mem_iff.mpr he)⟩
  | .strProperty vt v, b, ha, hb, he, ho => by
    cases b <;> try (exfalso; revert he; simp [MapProperty.tree, eqv_node_iff, eqvList_cons_iff, eqv_leaf_iff, eqvList_nil]; done)
    simp only [MapProperty.tree, eqv_node_iff, eqvList_cons_iff, eqv_leaf_iff] at he
    rename_i vt' v'
    obtain ⟨h1, he, _⟩ := he
    simp only [List.cons.injEq, Tok.s.injEq, true_and, and_true] at h1
    subst h1
    obtain ⟨p, hp, hq⟩ := (strProps_iff ha.1 hb.1).mp he
    obtain ⟨h1, h2, h3, h4⟩ := ho
    have hn := (values_all env' _ _ p).mp
      (oh_values hv _ vt v p ha.2 (valuesMaps_perm hp.symm hb.2) hq h4)
    exact ⟨h1, h2, keysOK_pairs (fun a b h => h.1) hp hq hb.1 h3,
      (values_all env' _ _ v').mpr fun e he => hn e (hp.mem_iff.mpr he)⟩
  | .properties kt vt fl v, b, ha, hb, he, ho => by
    cases b <;> try (exfalso; revert he; simp [MapProperty.tree, eqv_node_iff, eqvList_cons_iff, eqv_leaf_iff, eqvList_nil]; done)
    simp only [MapProperty.tree, eqv_node_iff, eqvList_cons_iff, eqv_leaf_iff] at he
    rename_i kt' vt' fl' v'
    obtain ⟨h1, he, _⟩ := he
    simp only [List.cons.injEq, Tok.s.injEq, Tok.n.injEq, UInt32.toNat_inj, true_and, and_true] at h1
    obtain ⟨g1, g2, g3⟩ := h1
    subst g1 g2 g3
    obtain ⟨p, hp, hd, hq⟩ := pairs_eqv ha.1 hb.1 hb.2 he
    obtain ⟨h1, h2, h3, h4, h5, h6, h7⟩ := ho
    have hn := (entries_all env' _ _ _ p).mp
      (oh_entries hv _ kt vt v p ha.2 hd hq h7)
    refine ⟨h1, h2, by rw [← hp.length_eq, ← (pairs_mem hq).1]; exact h3, hb.1, h5,
      fun e1 e2 => ?_, (entries_all env' _ _ _ v').mpr fun e he => hn e (hp.mem_iff.mpr he)⟩
    obtain ⟨e, g1, g2⟩ := h6 e1 e2
    obtain ⟨e', g3, g4⟩ := (pairs_mem hq).2 e g1
    refine ⟨e', hp.mem_iff.mp g3, ?_⟩
    rw [← outside_null, ← outside_eqv g4.1, outside_null]
    exact g2
termination_by structural a => a
theorem oh_struct {env env' : Env} (hv : SameEnv env env') (st : List String) (ty : String) : ∀ a b : StructPropertyValue,
    StructMaps a → StructMaps b → a.tree.eqv b.tree = true → StructOK env st ty a →
    StructOK env' st ty b
  | .vector2F .., b, _, _, e, ho => structOK_tree hv ho (eqv_leaf e).symm
  | .vector2D .., b, _, _, e, ho => structOK_tree hv ho (eqv_leaf e).symm
  | .vectorF .., b, _, _, e, ho => structOK_tree hv ho (eqv_leaf e).symm
  | .vectorD .., b, _, _, e, ho => structOK_tree hv ho (eqv_leaf e).symm
  | .rotatorF .., b, _, _, e, ho => structOK_tree hv ho (eqv_leaf e).symm
  | .rotatorD .., b, _, _, e, ho => structOK_tree hv ho (eqv_leaf e).symm
  | .quatF .., b, _, _, e, ho => structOK_tree hv ho (eqv_leaf e).symm
  | .quatD .., b, _, _, e, ho => structOK_tree hv ho (eqv_leaf e).symm
  | .dateTime _, b, _, _, e, ho => structOK_tree hv ho (eqv_leaf e).symm
  | .timespan _, b, _, _, e, ho => structOK_tree hv ho (eqv_leaf e).symm
  | .guid _, b, _, _, e, ho => structOK_tree hv ho (eqv_leaf e).symm
  | .linearColor .., b, _, _, e, ho => structOK_tree hv ho (eqv_leaf e).symm
  | .intPoint .., b, _, _, e, ho => structOK_tree hv ho (eqv_leaf e).symm
  | .gameplayTagContainer _, b, _, _, e, ho => structOK_tree hv ho (eqv_leaf e).symm
  | .customStruct fs, b, ha, hb, he, ho => by
    cases b <;> try (exfalso; revert he; simp [StructPropertyValue.tree, Tree.eqv, eqvList]; done)
    simp only [StructPropertyValue.tree, eqv_node_iff, eqvList_cons_iff] at he
    rename_i fs'
    obtain ⟨p, hp, hq⟩ := (fields_iff ha.1 hb.1).mp he.2.1
    have hn := (fields_all env' _ p).mp
      (oh_fields hv _ fs p ha.2 (fieldsMaps_perm hp.symm hb.2) hq ho.2.2)
    exact ⟨ho.1, hb.1, (fields_all env' _ fs').mpr fun e he => hn e (hp.mem_iff.mpr he)⟩
termination_by structural a => a
theorem oh_bares {env env' : Env} (hv : SameEnv env env') (st : List String) (ty : String) : ∀ a b : List Property, PropsMaps a →
    PropsMaps b → eqvList (treeProps a) (treeProps b) = true → BaresOK env st ty a →
    BaresOK env' st ty b
  | [], b, _, _, he, ho => by cases b <;> simp [treeProps, eqvList] at he; exact trivial
  | v :: l, b, ha, hb, he, ho => by
    cases b <;> simp [treeProps, eqvList] at he
    exact ⟨ob_prop hv _ ty v _ ha.1 hb.1 he.1 ho.1, oh_bares hv _ ty l _ ha.2 hb.2 he.2 ho.2⟩
termination_by structural a => a
theorem oh_structs {env env' : Env} (hv : SameEnv env env') (st : List String) (ty : String) : ∀ a b : List StructPropertyValue,
    StructsMaps a → StructsMaps b → eqvList (treeStructs a) (treeStructs b) = true →
    StructsOK env st ty a → StructsOK env' st ty b
  | [], b, _, _, he, ho => by cases b <;> simp [treeStructs, eqvList] at he; exact trivial
  | v :: l, b, ha, hb, he, ho => by
    cases b <;> simp [treeStructs, eqvList] at he
    exact ⟨oh_struct hv _ ty v _ ha.1 hb.1 he.1 ho.1, oh_structs hv _ ty l _ ha.2 hb.2 he.2 ho.2⟩
termination_by structural a => a
theorem oh_values {env env' : Env} (hv : SameEnv env env') (st : List String) (ty : String) : ∀ a b : List (String × Property),
    ValuesMaps a → ValuesMaps b → Pairs (fun a b => a.1 = b.1 ∧ a.2.eqv b.2 = true) a b →
    ValuesOK env st ty a → ValuesOK env' st ty b
  | [], b, _, _, he, ho => by cases he; exact trivial
  | (k, v) :: l, b, ha, hb, he, ho => by
    cases he with
    | @cons _ b _ bs h1 h2 =>
      obtain ⟨k', v'⟩ := b
      obtain ⟨rfl, h1⟩ := h1
      refine ⟨?_, ob_prop hv _ ty v _ ha.1 hb.1 h1 ho.2.1, oh_values hv _ ty l _ ha.2 hb.2 h2 ho.2.2⟩
      rw [← outside_free, ← outside_eqv h1, outside_free]
      exact ho.1
termination_by structural a => a
theorem oh_entries {env env' : Env} (hv : SameEnv env env') (st : List String) (kt vt : String) : ∀ a b : List (Property × Property),
    EntriesMaps a → EntriesMaps b →
    Pairs (fun a b => a.1.tree.eqv b.1.tree = true ∧ a.2.tree.eqv b.2.tree = true) a b →
    EntriesOK env st kt vt a → EntriesOK env' st kt vt b
  | [], b, _, _, he, ho => by cases he; exact trivial
  | (k, v) :: l, b, ha, hb, he, ho => by
    cases he with
    | @cons _ b _ bs h1 h2 =>
      obtain ⟨k', v'⟩ := b
      obtain ⟨g1, g2, g3, g4, g5⟩ := ho
      refine ⟨?_, ob_prop hv _ kt k _ ha.1 hb.1 h1.1 g2, ?_,
        ob_prop hv _ vt v _ ha.2.1 hb.2.1 h1.2 g4, oh_entries hv _ kt vt l _ ha.2.2 hb.2.2 h2 g5⟩
      · rw [← outside_free, ← outside_eqv h1.1, outside_free]; exact g1
      · rw [← outside_free, ← outside_eqv h1.2, outside_free]; exact g3
termination_by structural a => a
theorem oh_fields {env env' : Env} (hv : SameEnv env env') (st : List String) : ∀ a b : List (String × List Property),
    FieldsMaps a → FieldsMaps b →
    Pairs (fun a b => a.1 = b.1 ∧ eqvList (treeProps a.2) (treeProps b.2) = true) a b →
    FieldsOK env st a → FieldsOK env' st b
  | [], b, _, _, he, ho => by cases he; exact trivial
  | (k, v) :: l, b, ha, hb, he, ho => by
    cases he with
    | @cons _ b _ bs h1 h2 =>
      obtain ⟨k', v'⟩ := b
      obtain ⟨rfl, h1⟩ := h1
      obtain ⟨g1, g2, g3, g4, g5⟩ := ho
      refine ⟨g1, g2, ?_, oh_vals hv _ 0 v _ ha.1 hb.1 h1 g4, oh_fields hv _ l _ ha.2 hb.2 h2 g5⟩
      rintro rfl
      exact g3 (List.map_eq_nil_iff.mp (outside_list h1))
termination_by structural a => a
theorem oh_vals {env env' : Env} (hv : SameEnv env env') (st : List String) (i : Nat) : ∀ a b : List Property, PropsMaps a →
    PropsMaps b → eqvList (treeProps a) (treeProps b) = true → ValsOK env st i a →
    ValsOK env' st i b
  | [], b, _, _, he, ho => by cases b <;> simp [treeProps, eqvList] at he; exact trivial
  | v :: l, b, ha, hb, he, ho => by
    cases b <;> simp [treeProps, eqvList] at he
    refine ⟨?_, oh_prop hv _ v _ ha.1 hb.1 he.1 ho.2.1,
      oh_vals hv _ (i + 1) l _ ha.2 hb.2 he.2 ho.2.2⟩
    rw [← outside_index, ← outside_eqv he.1, outside_index, ← hv.1]
    exact ho.1
termination_by structural a => a
end

end Gvas
