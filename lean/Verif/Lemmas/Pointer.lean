import Verif.Spec.Pointer
import Verif.Spec.Place
import Verif.Spec.Json
import Verif.Model.JsonText

/-!
# Places of properties in JSON

A property in one place of a value is one subtree of the JSON of that value and one piece of its
text.
-/

namespace Gvas

open Spec

/-- Two JSON values are the same except in one place.  The first has `p` there and `q` is what the
second one has at `e` from there. -/
def Located (p q s t : J) (e : List Step := []) : Prop :=
  ∃ w, follow w s = some p ∧ replace q (w ++ e) s = t

theorem Located.plain {p q s t : J} (h : Located p q s t) :
    ∃ w, follow w s = some p ∧ replace q w s = t := by
  obtain ⟨w, h1, h2⟩ := h
  exact ⟨w, h1, by rwa [List.append_nil] at h2⟩

theorem located_here (p q : J) : Located p q p q := ⟨[], rfl, rfl⟩

theorem located_at {p q t : J} {e : List Step} (h : replace q e p = t) : Located p q p t e :=
  ⟨[], rfl, h⟩

theorem lookup_middle {α : Type} (l r : List (String × α)) (k : String) (a : α)
    (hl : k ∉ l.map Prod.fst) : (l ++ (k, a) :: r).lookup k = some a := by
  induction l with
  | nil => simp
  | cons e l ih =>
    obtain ⟨k', b⟩ := e
    simp only [List.map_cons, List.mem_cons, not_or] at hl
    have : (k == k') = false := by simpa using hl.1
    simp only [List.cons_append, List.lookup, this]
    exact ih hl.2

theorem map_apart {l : List (String × J)} {k : String} (g : J → J) (hl : k ∉ l.map Prod.fst) :
    l.map (fun e => if e.1 = k then (k, g e.2) else e) = l := by
  induction l with
  | nil => rfl
  | cons e l ih =>
    simp only [List.map_cons, List.mem_cons, not_or] at hl
    rw [List.map_cons, ih hl.2, if_neg (fun h => hl.1 h.symm)]

theorem located_field {p q a b : J} {e : List Step} (h : Located p q a b e)
    (l r : List (String × J)) (k : String) (hl : k ∉ l.map Prod.fst) (hr : k ∉ r.map Prod.fst) :
    Located p q (.obj (l ++ (k, a) :: r)) (.obj (l ++ (k, b) :: r)) e := by
  obtain ⟨w, h1, h2⟩ := h
  refine ⟨.field k :: w, ?_, ?_⟩
  · simp only [follow, lookup_middle l r k a hl, Option.bind_some, h1]
  · simp only [List.cons_append, replace, List.map_append, List.map_cons, if_true, map_apart _ hl,
      map_apart _ hr, h2]

theorem located_index {p q a b : J} {e : List Step} (h : Located p q a b e) (l r : List J) :
    Located p q (.arr (l ++ a :: r)) (.arr (l ++ b :: r)) e := by
  obtain ⟨w, h1, h2⟩ := h
  refine ⟨.index l.length :: w, ?_, ?_⟩
  · simp [follow, h1]
  · simp only [List.cons_append, replace]
    congr 1
    induction l with
    | nil => simp [h2]
    | cons x l ih => simpa using ih

theorem keys_apart {α : Type} {l r : List (String × α)} {k : String} {a : α}
    (h : KeysDistinct (l ++ (k, a) :: r)) : k ∉ l.map Prod.fst ∧ k ∉ r.map Prod.fst := by
  unfold KeysDistinct at h
  rw [List.map_append, List.map_cons, List.nodup_append] at h
  obtain ⟨-, h2, h3⟩ := h
  refine ⟨fun hk => h3 _ hk _ (List.mem_cons_self) rfl, (List.nodup_cons.mp h2).1⟩

theorem guidE_names (g : Guid) (k : String) (hk : k ≠ "guid") : k ∉ (guidE g).map Prod.fst := by
  unfold guidE
  split <;> simp [hk]

theorem propsMaps_iff (l : List Property) : PropsMaps l ↔ ∀ p ∈ l, MapsDistinct p := by
  induction l with
  | nil => simp [PropsMaps]
  | cons p l ih => simp [PropsMaps, ih]

theorem structsMaps_iff (l : List StructPropertyValue) :
    StructsMaps l ↔ ∀ p ∈ l, StructMaps p := by
  induction l with
  | nil => simp [StructsMaps]
  | cons p l ih => simp [StructsMaps, ih]

theorem valuesMaps_iff (l : List (String × Property)) :
    ValuesMaps l ↔ ∀ e ∈ l, MapsDistinct e.2 := by
  induction l with
  | nil => simp [ValuesMaps]
  | cons p l ih => simp [ValuesMaps, ih]

theorem fieldsMaps_iff (l : List (String × List Property)) :
    FieldsMaps l ↔ ∀ e ∈ l, PropsMaps e.2 := by
  induction l with
  | nil => simp [FieldsMaps]
  | cons p l ih => simp [FieldsMaps, ih]

theorem entriesMaps_iff (l : List (Property × Property)) :
    EntriesMaps l ↔ ∀ e ∈ l, MapsDistinct e.1 ∧ MapsDistinct e.2 := by
  induction l with
  | nil => simp [EntriesMaps]
  | cons p l ih => simp [EntriesMaps, ih, and_assoc]

theorem structWith_maps {s : Property} {fs gs : List (String × List Property)} {k : String}
    {l r : List Property} (h : StructMaps (structWith fs k l s r gs)) :
    KeysDistinct (fs ++ (k, l ++ s :: r) :: gs) ∧ MapsDistinct s := by
  simp only [structWith, StructMaps, fieldsMaps_iff] at h
  refine ⟨h.1, ?_⟩
  have := h.2 (k, l ++ s :: r) (by simp)
  rw [propsMaps_iff] at this
  exact this s (by simp)

section
variable [FloatJ]

theorem propsJ_append (l r : List Property) : propsJ (l ++ r) = propsJ l ++ propsJ r := by
  induction l with
  | nil => rfl
  | cons p l ih => simp [propsJ, ih]

theorem structsJ_append (l r : List StructPropertyValue) :
    structsJ (l ++ r) = structsJ l ++ structsJ r := by
  induction l with
  | nil => rfl
  | cons p l ih => simp [structsJ, ih]

theorem strPropsJ_append (l r : List (String × Property)) :
    strPropsJ (l ++ r) = strPropsJ l ++ strPropsJ r := by
  induction l with
  | nil => rfl
  | cons p l ih => simp [strPropsJ, ih]

theorem strPropsJ_names (l : List (String × Property)) :
    (strPropsJ l).map Prod.fst = l.map Prod.fst := by
  induction l with
  | nil => rfl
  | cons p l ih => simp [strPropsJ, ih]

theorem pairsJ_append (l r : List (Property × Property)) :
    pairsJ (l ++ r) = pairsJ l ++ pairsJ r := by
  induction l with
  | nil => rfl
  | cons p l ih => simp [pairsJ, ih]

theorem fieldsJ_append (l r : List (String × List Property)) :
    fieldsJ (l ++ r) = fieldsJ l ++ fieldsJ r := by
  induction l with
  | nil => rfl
  | cons p l ih => simp [fieldsJ, ih]

theorem fieldsJ_names (l : List (String × List Property)) :
    (fieldsJ l).map Prod.fst = l.map Prod.fst := by
  induction l with
  | nil => rfl
  | cons p l ih => simp [fieldsJ, ih]

theorem located_props {p q : J} {e : List Step} {s t : Property} (h : Located p q s.toJ t.toJ e)
    (l r : List Property) :
    Located p q (.arr (propsJ (l ++ s :: r))) (.arr (propsJ (l ++ t :: r))) e := by
  simp only [propsJ_append, propsJ]
  exact located_index h _ _

theorem located_values {p q : J} {e : List Step} {s t : Property} (h : Located p q s.toJ t.toJ e)
    (k : String) (l r : List (String × Property)) (hk : KeysDistinct (l ++ (k, s) :: r)) :
    Located p q (.obj (strPropsJ (l ++ (k, s) :: r))) (.obj (strPropsJ (l ++ (k, t) :: r))) e := by
  simp only [strPropsJ_append, strPropsJ]
  obtain ⟨h1, h2⟩ := keys_apart hk
  exact located_field h _ _ _ (by rwa [strPropsJ_names]) (by rwa [strPropsJ_names])

theorem located_struct {p q : J} {e : List Step} {s t : Property} (h : Located p q s.toJ t.toJ e)
    (fs gs : List (String × List Property)) (k : String) (l r : List Property)
    (hk : KeysDistinct (fs ++ (k, l ++ s :: r) :: gs)) :
    Located p q (StructPropertyValue.entry (structWith fs k l s r gs)).2
      (StructPropertyValue.entry (structWith fs k l t r gs)).2 e := by
  simp only [structWith, StructPropertyValue.entry, fieldsJ_append, fieldsJ]
  obtain ⟨h1, h2⟩ := keys_apart hk
  exact located_field (located_props h l r) _ _ _ (by rwa [fieldsJ_names]) (by rwa [fieldsJ_names])

theorem differ_located {u v : J} {e : List Step} {keys b h : Bool} {p q s t : Property}
    (h0 : Located u v p.toJ q.toJ e) (hd : Differ keys b p q h s t)
    (hm : MapsDistinct s) : Located u v s.toJ t.toJ e := by
  induction hd with
  | here => exact h0
  | array ty l r _ ih =>
    simp only [MapsDistinct, ArrayMaps, propsMaps_iff] at hm
    simp only [Property.toJ, ArrayProperty.entries]
    exact located_field (located_props (ih (hm _ (by simp))) l r)
      [("type", .str "ArrayProperty"), ("property_type", .str ty)] [] "properties" (by simp)
      (by simp)
  | set ty fl l r _ ih =>
    simp only [MapsDistinct, propsMaps_iff] at hm
    simp only [Property.toJ]
    exact located_field (located_props (ih (hm _ (by simp))) l r)
      [("type", .str "SetProperty"), ("property_type", .str ty),
        ("allocation_flags", .int fl.toNat)] [] "properties" (by simp) (by simp)
  | struct g ty fs gs k l r _ ih =>
    simp only [MapsDistinct] at hm
    obtain ⟨h1, h2⟩ := structWith_maps hm
    have := located_field (located_struct (ih h2) fs gs k l r h1)
      (("type", .str "StructProperty") :: (guidE g ++ [("type_name", .str ty)])) [] "CustomStruct"
      (by simpa using guidE_names g "CustomStruct" (by decide)) (by simp)
    simpa [Property.toJ, structWith, StructPropertyValue.entry] using this
  | structValue fs gs k l r _ ih =>
    simp only [MapsDistinct] at hm
    obtain ⟨h1, h2⟩ := structWith_maps hm
    exact located_field (located_struct (ih h2) fs gs k l r h1)
      [("type", .str "StructPropertyValue")] [] "CustomStruct" (by simp) (by simp)
  | structs f ty g vs ws fs gs k l r _ ih =>
    simp only [MapsDistinct, ArrayMaps, structsMaps_iff] at hm
    obtain ⟨h1, h2⟩ := structWith_maps (hm _ (List.mem_append_right _ List.mem_cons_self))
    have := located_field (located_index (located_field (located_struct (ih h2) fs gs k l r h1)
      [] [] "CustomStruct" (by simp) (by simp)) (structsJ vs) (structsJ ws))
      (("type", .str "ArrayProperty") :: ("field_name", .str f) :: ("type_name", .str ty) ::
        guidE g) [] "structs" (by simpa using guidE_names g "structs" (by decide)) (by simp)
    simpa [Property.toJ, ArrayProperty.entries, structsJ_append, structsJ, structWith,
      StructPropertyValue.entry] using this
  | enumMap ty k l r _ ih =>
    simp only [MapsDistinct, MapMaps, valuesMaps_iff] at hm
    exact located_field (located_values (ih (hm.2 (k, _) (by simp))) k l r hm.1)
      [("type", .str "MapProperty"), ("value_type", .str ty)] [] "enum_props" (by simp) (by simp)
  | nameMap ty k l r _ ih =>
    simp only [MapsDistinct, MapMaps, valuesMaps_iff] at hm
    exact located_field (located_values (ih (hm.2 (k, _) (by simp))) k l r hm.1)
      [("type", .str "MapProperty"), ("value_type", .str ty)] [] "name_props" (by simp) (by simp)
  | strMap ty k l r _ ih =>
    simp only [MapsDistinct, MapMaps, valuesMaps_iff] at hm
    exact located_field (located_values (ih (hm.2 (k, _) (by simp))) k l r hm.1)
      [("type", .str "MapProperty"), ("value_type", .str ty)] [] "str_props" (by simp) (by simp)
  | mapKey kt vt fl v l r _ _ ih =>
    simp only [MapsDistinct, MapMaps, entriesMaps_iff] at hm
    have := located_field (located_index (located_index (ih (hm.2 (_, v) (by simp)).1) []
      [v.toJ]) (pairsJ l) (pairsJ r))
      [("type", .str "MapProperty"), ("key_type", .str kt), ("value_type", .str vt),
        ("allocation_flags", .int fl.toNat)] [] "value" (by simp) (by simp)
    simpa [Property.toJ, MapProperty.entries, pairsJ_append, pairsJ] using this
  | mapValue kt vt fl k l r _ ih =>
    simp only [MapsDistinct, MapMaps, entriesMaps_iff] at hm
    have := located_field (located_index (located_index (ih (hm.2 (k, _) (by simp)).2) [k.toJ]
      []) (pairsJ l) (pairsJ r))
      [("type", .str "MapProperty"), ("key_type", .str kt), ("value_type", .str vt),
        ("allocation_flags", .int fl.toNat)] [] "value" (by simp) (by simp)
    simpa [Property.toJ, MapProperty.entries, pairsJ_append, pairsJ] using this

theorem file_located {f : GvasFile} {p q : J} {e : List Step} {s t : Property} {k : String}
    {pre post : List (String × Property)} (hf : f.properties = pre ++ (k, s) :: post)
    (hk : KeysDistinct f.properties) (h : Located p q s.toJ t.toJ e) :
    Located p q f.toJson { f with properties := pre ++ (k, t) :: post }.toJson e := by
  obtain ⟨gv, hd, ps⟩ := f
  simp only at hf hk
  subst hf
  have h1 := located_values h k pre post hk
  cases gv with
  | default =>
    exact located_field h1 [("header", hd.toJ)] [] "properties" (by simp) (by simp)
  | palworld c =>
    exact located_field h1 [("deserialized_game_version", .obj [("Palworld", .str c.json)]),
      ("header", hd.toJ)] [] "properties" (by simp) (by simp)

end

theorem alike_located {p q : Property} (ha : Alike p q) : ∃ k u v, valueField p = some (k, u) ∧
    valueField q = some (k, v) ∧ Located u v p.toJ q.toJ := by
  cases ha with
  | bool a b =>
    exact ⟨_, _, _, rfl, rfl, located_field (located_here _ _) [("type", _)] [] _ (by simp) (by simp)⟩
  | byte n a b =>
    refine ⟨_, _, _, rfl, rfl, located_field (located_here _ _)
      (("type", .str "ByteProperty") :: optE "name" n) [] _ ?_ (by simp)⟩
    cases n <;> simp [optE]
  | byteName n a b =>
    refine ⟨_, _, _, rfl, rfl, located_field (located_here _ _)
      (("type", .str "ByteProperty") :: optE "name" n) [] _ ?_ (by simp)⟩
    cases n <;> simp [optE]
  | enum n a b =>
    refine ⟨_, _, _, rfl, rfl, located_field (located_here _ _)
      (("type", .str "EnumProperty") :: optE "enum_type" n) [] _ ?_ (by simp)⟩
    cases n <;> simp [optE]
  | name i a b =>
    refine ⟨_, _, _, rfl, rfl, located_field (located_here _ _)
      (("type", .str "NameProperty") :: nonzeroE "array_index" i) [] _ ?_ (by simp)⟩
    unfold nonzeroE
    split <;> simp
  | str a b =>
    exact ⟨_, _, _, rfl, rfl, located_field (located_here _ _) [("type", _)] [] _ (by simp) (by simp)⟩
  | _ =>
    exact ⟨_, _, _, rfl, rfl, located_field (located_here _ _) [("type", _)] [] _ (by simp) (by simp)⟩

/-! ## Maps and floats of the changed value -/

theorem keys_kept {α : Type} {l r : List (String × α)} {k : String} {a b : α}
    (h : KeysDistinct (l ++ (k, a) :: r)) : KeysDistinct (l ++ (k, b) :: r) := by
  simpa [KeysDistinct] using h

theorem all_replaced {α : Type} {P : α → Prop} {l r : List α} {a b : α}
    (h : ∀ x ∈ l ++ a :: r, P x) (hb : P b) : ∀ x ∈ l ++ b :: r, P x := by
  intro x hx
  simp only [List.mem_append, List.mem_cons] at hx
  rcases hx with hx | rfl | hx
  · exact h x (by simp [hx])
  · exact hb
  · exact h x (by simp [hx])

theorem structWith_kept {s t : Property} {fs gs : List (String × List Property)} {k : String}
    {l r : List Property} (h : StructMaps (structWith fs k l s r gs)) (ht : MapsDistinct t) :
    StructMaps (structWith fs k l t r gs) := by
  simp only [structWith, StructMaps, fieldsMaps_iff] at h ⊢
  refine ⟨keys_kept h.1, all_replaced h.2 ?_⟩
  have := h.2 (k, l ++ s :: r) (by simp)
  rw [propsMaps_iff] at this ⊢
  exact all_replaced this ht

theorem differ_maps {b h : Bool} {p q s t : Property} (hd : Differ false b p q h s t)
    (hm : MapsDistinct s) (hq : MapsDistinct q) : MapsDistinct t := by
  induction hd with
  | here => exact hq
  | array ty l r _ ih =>
    simp only [MapsDistinct, ArrayMaps, propsMaps_iff] at hm ⊢
    exact all_replaced hm (ih (hm _ (by simp)))
  | set ty fl l r _ ih =>
    simp only [MapsDistinct, propsMaps_iff] at hm ⊢
    exact all_replaced hm (ih (hm _ (by simp)))
  | struct g ty fs gs k l r _ ih =>
    simp only [MapsDistinct] at hm ⊢
    exact structWith_kept hm (ih (structWith_maps hm).2)
  | structValue fs gs k l r _ ih =>
    simp only [MapsDistinct] at hm ⊢
    exact structWith_kept hm (ih (structWith_maps hm).2)
  | structs f ty g vs ws fs gs k l r _ ih =>
    simp only [MapsDistinct, ArrayMaps, structsMaps_iff] at hm ⊢
    have := hm _ (List.mem_append_right _ List.mem_cons_self)
    exact all_replaced hm (structWith_kept this (ih (structWith_maps this).2))
  | enumMap ty k l r _ ih =>
    simp only [MapsDistinct, MapMaps, valuesMaps_iff] at hm ⊢
    exact ⟨keys_kept hm.1, all_replaced hm.2 (ih (hm.2 (k, _) (by simp)))⟩
  | nameMap ty k l r _ ih =>
    simp only [MapsDistinct, MapMaps, valuesMaps_iff] at hm ⊢
    exact ⟨keys_kept hm.1, all_replaced hm.2 (ih (hm.2 (k, _) (by simp)))⟩
  | strMap ty k l r _ ih =>
    simp only [MapsDistinct, MapMaps, valuesMaps_iff] at hm ⊢
    exact ⟨keys_kept hm.1, all_replaced hm.2 (ih (hm.2 (k, _) (by simp)))⟩
  | mapKey kt vt fl v l r hk => cases hk
  | mapValue kt vt fl k l r _ ih =>
    simp only [MapsDistinct, MapMaps, entriesMaps_iff] at hm ⊢
    have := hm.2 (k, _) (List.mem_append_right _ List.mem_cons_self)
    exact ⟨by simpa using hm.1, all_replaced hm.2 ⟨this.1, ih this.2⟩⟩

/-- A property in one place of another has distinct keys too. -/
theorem differ_inner {b h : Bool} {p q s t : Property} (hd : Differ false b p q h s t)
    (hm : MapsDistinct s) : MapsDistinct p := by
  induction hd with
  | here => exact hm
  | array ty l r _ ih =>
    simp only [MapsDistinct, ArrayMaps, propsMaps_iff] at hm
    exact ih (hm _ (by simp))
  | set ty fl l r _ ih =>
    simp only [MapsDistinct, propsMaps_iff] at hm
    exact ih (hm _ (by simp))
  | struct g ty fs gs k l r _ ih =>
    simp only [MapsDistinct] at hm
    exact ih (structWith_maps hm).2
  | structValue fs gs k l r _ ih =>
    simp only [MapsDistinct] at hm
    exact ih (structWith_maps hm).2
  | structs f ty g vs ws fs gs k l r _ ih =>
    simp only [MapsDistinct, ArrayMaps, structsMaps_iff] at hm
    exact ih (structWith_maps (hm _ (List.mem_append_right _ List.mem_cons_self))).2
  | enumMap ty k l r _ ih | nameMap ty k l r _ ih | strMap ty k l r _ ih =>
    simp only [MapsDistinct, MapMaps, valuesMaps_iff] at hm
    exact ih (hm.2 (k, _) (by simp))
  | mapKey kt vt fl v l r hk => cases hk
  | mapValue kt vt fl k l r _ ih =>
    simp only [MapsDistinct, MapMaps, entriesMaps_iff] at hm
    exact ih (hm.2 (k, _) (List.mem_append_right _ List.mem_cons_self)).2

theorem propsFinite_iff (l : List Property) :
    propsFinite l = true ↔ ∀ p ∈ l, allFinite p = true := by
  induction l with
  | nil => simp [propsFinite]
  | cons p l ih => simp [propsFinite, ih]

theorem structsFinite_iff (l : List StructPropertyValue) :
    structsFinite l = true ↔ ∀ p ∈ l, structFinite p = true := by
  induction l with
  | nil => simp [structsFinite]
  | cons p l ih => simp [structsFinite, ih]

theorem valuesFinite_iff (l : List (String × Property)) :
    valuesFinite l = true ↔ ∀ e ∈ l, allFinite e.2 = true := by
  induction l with
  | nil => simp [valuesFinite]
  | cons p l ih => simp [valuesFinite, ih]

theorem fieldsFinite_iff (l : List (String × List Property)) :
    fieldsFinite l = true ↔ ∀ e ∈ l, propsFinite e.2 = true := by
  induction l with
  | nil => simp [fieldsFinite]
  | cons p l ih => simp [fieldsFinite, ih]

theorem entriesFinite_iff (l : List (Property × Property)) :
    entriesFinite l = true ↔ ∀ e ∈ l, allFinite e.1 = true ∧ allFinite e.2 = true := by
  induction l with
  | nil => simp [entriesFinite]
  | cons p l ih => simp [entriesFinite, ih, and_assoc]

theorem structWith_finite {s t : Property} {fs gs : List (String × List Property)} {k : String}
    {l r : List Property} (h : structFinite (structWith fs k l s r gs) = true) :
    allFinite s = true ∧
      (allFinite t = true → structFinite (structWith fs k l t r gs) = true) := by
  simp only [structWith, structFinite, fieldsFinite_iff] at h ⊢
  have h1 := h (k, l ++ s :: r) (by simp)
  rw [propsFinite_iff] at h1
  refine ⟨h1 s (by simp), fun ht => all_replaced h ?_⟩
  rw [propsFinite_iff]
  exact all_replaced h1 ht

theorem differ_finite {keys b h : Bool} {p q s t : Property} (hd : Differ keys b p q h s t)
    (hm : allFinite s = true) (hq : allFinite q = true) : allFinite t = true := by
  induction hd with
  | here => exact hq
  | array ty l r _ ih =>
    simp only [allFinite, arrayFinite, propsFinite_iff] at hm ⊢
    exact all_replaced hm (ih (hm _ (by simp)))
  | set ty fl l r _ ih =>
    simp only [allFinite, propsFinite_iff] at hm ⊢
    exact all_replaced hm (ih (hm _ (by simp)))
  | struct g ty fs gs k l r _ ih =>
    simp only [allFinite] at hm ⊢
    exact (structWith_finite hm).2 (ih (structWith_finite (t := q) hm).1)
  | structValue fs gs k l r _ ih =>
    simp only [allFinite] at hm ⊢
    exact (structWith_finite hm).2 (ih (structWith_finite (t := q) hm).1)
  | structs f ty g vs ws fs gs k l r _ ih =>
    simp only [allFinite, arrayFinite, structsFinite_iff] at hm ⊢
    have := hm _ (List.mem_append_right _ List.mem_cons_self)
    exact all_replaced hm ((structWith_finite this).2 (ih (structWith_finite (t := q) this).1))
  | enumMap ty k l r _ ih =>
    simp only [allFinite, mapFinite, valuesFinite_iff] at hm ⊢
    exact all_replaced hm (ih (hm (k, _) (by simp)))
  | nameMap ty k l r _ ih =>
    simp only [allFinite, mapFinite, valuesFinite_iff] at hm ⊢
    exact all_replaced hm (ih (hm (k, _) (by simp)))
  | strMap ty k l r _ ih =>
    simp only [allFinite, mapFinite, valuesFinite_iff] at hm ⊢
    exact all_replaced hm (ih (hm (k, _) (by simp)))
  | mapKey kt vt fl v l r _ _ ih =>
    simp only [allFinite, mapFinite, entriesFinite_iff] at hm ⊢
    have := hm (_, v) (List.mem_append_right _ List.mem_cons_self)
    exact all_replaced hm ⟨ih this.1, this.2⟩
  | mapValue kt vt fl k l r _ ih =>
    simp only [allFinite, mapFinite, entriesFinite_iff] at hm ⊢
    have := hm (k, _) (List.mem_append_right _ List.mem_cons_self)
    exact all_replaced hm ⟨this.1, ih this.2⟩

/-! ## Text -/

/-- Two values have the same text except for one piece. -/
def Piece (x : FloatText) (p q s t : Ser) : Prop := ∃ front back,
  s.text x = front ++ p.text x ++ back ∧ t.text x = front ++ q.text x ++ back

theorem piece_items {x : FloatText} {p q a b : Ser} (h : Piece x p q a b) (l r : List Ser) :
    ∃ front back, itemsText x (l ++ a :: r) = front ++ p.text x ++ back ∧
      itemsText x (l ++ b :: r) = front ++ q.text x ++ back := by
  obtain ⟨u, v, h1, h2⟩ := h
  induction l with
  | nil =>
    exact ⟨u, v ++ (if r.isEmpty then [] else ',' :: itemsText x r), by simp [itemsText, h1],
      by simp [itemsText, h2]⟩
  | cons c l ih =>
    obtain ⟨f, g, h3, h4⟩ := ih
    exact ⟨c.text x ++ ',' :: f, g, by simp [itemsText, h3], by simp [itemsText, h4]⟩

theorem piece_members {x : FloatText} {p q a b : Ser} (h : Piece x p q a b)
    (l r : List (String × Ser)) (k : String) :
    ∃ front back, membersText x (l ++ (k, a) :: r) = front ++ p.text x ++ back ∧
      membersText x (l ++ (k, b) :: r) = front ++ q.text x ++ back := by
  obtain ⟨u, v, h1, h2⟩ := h
  induction l with
  | nil =>
    exact ⟨strText k ++ ':' :: u, v ++ (if r.isEmpty then [] else ',' :: membersText x r),
      by simp [membersText, h1], by simp [membersText, h2]⟩
  | cons c l ih =>
    obtain ⟨f, g, h3, h4⟩ := ih
    obtain ⟨k', c⟩ := c
    exact ⟨strText k' ++ ':' :: c.text x ++ ',' :: f, g, by simp [membersText, h3],
      by simp [membersText, h4]⟩

theorem piece_index {x : FloatText} {p q a b : Ser} (h : Piece x p q a b) (l r : List Ser) :
    Piece x p q (.arr (l ++ a :: r)) (.arr (l ++ b :: r)) := by
  obtain ⟨f, g, h1, h2⟩ := piece_items h l r
  exact ⟨'[' :: f, g ++ [']'], by simp [Ser.text, h1], by simp [Ser.text, h2]⟩

theorem piece_field {x : FloatText} {p q a b : Ser} (h : Piece x p q a b)
    (l r : List (String × Ser)) (k : String) :
    Piece x p q (.obj (l ++ (k, a) :: r)) (.obj (l ++ (k, b) :: r)) := by
  obtain ⟨f, g, h1, h2⟩ := piece_members h l r k
  exact ⟨'{' :: f, g ++ ['}'], by simp [Ser.text, h1], by simp [Ser.text, h2]⟩

theorem propsS_append (l r : List Property) : propsS (l ++ r) = propsS l ++ propsS r := by
  induction l with
  | nil => rfl
  | cons p l ih => simp [propsS, ih]

theorem structsS_append (l r : List StructPropertyValue) :
    structsS (l ++ r) = structsS l ++ structsS r := by
  induction l with
  | nil => rfl
  | cons p l ih => simp [structsS, ih]

theorem strPropsS_append (l r : List (String × Property)) :
    strPropsS (l ++ r) = strPropsS l ++ strPropsS r := by
  induction l with
  | nil => rfl
  | cons p l ih => simp [strPropsS, ih]

theorem pairsS_append (l r : List (Property × Property)) :
    pairsS (l ++ r) = pairsS l ++ pairsS r := by
  induction l with
  | nil => rfl
  | cons p l ih => simp [pairsS, ih]

theorem fieldsS_append (l r : List (String × List Property)) :
    fieldsS (l ++ r) = fieldsS l ++ fieldsS r := by
  induction l with
  | nil => rfl
  | cons p l ih => simp [fieldsS, ih]

theorem piece_props {x : FloatText} {p q : Ser} {s t : Property} (h : Piece x p q s.toS t.toS)
    (l r : List Property) :
    Piece x p q (.arr (propsS (l ++ s :: r))) (.arr (propsS (l ++ t :: r))) := by
  simp only [propsS_append, propsS]
  exact piece_index h _ _

theorem piece_values {x : FloatText} {p q : Ser} {s t : Property} (h : Piece x p q s.toS t.toS)
    (k : String) (l r : List (String × Property)) :
    Piece x p q (.obj (strPropsS (l ++ (k, s) :: r))) (.obj (strPropsS (l ++ (k, t) :: r))) := by
  simp only [strPropsS_append, strPropsS]
  exact piece_field h _ _ _

theorem piece_struct {x : FloatText} {p q : Ser} {s t : Property} (h : Piece x p q s.toS t.toS)
    (fs gs : List (String × List Property)) (k : String) (l r : List Property) :
    Piece x p q (StructPropertyValue.entryS (structWith fs k l s r gs)).2
      (StructPropertyValue.entryS (structWith fs k l t r gs)).2 := by
  simp only [structWith, StructPropertyValue.entryS, fieldsS_append, fieldsS]
  exact piece_field (piece_props h l r) _ _ _

theorem differ_piece {x : FloatText} {keys b h : Bool} {p q s t : Property}
    (hd : Differ keys b p q h s t) : Piece x p.toS q.toS s.toS t.toS := by
  induction hd with
  | here => exact ⟨[], [], by simp, by simp⟩
  | array ty l r _ ih =>
    exact piece_field (piece_props ih l r)
      [("type", .str "ArrayProperty"), ("property_type", .str ty)] [] "properties"
  | set ty fl l r _ ih =>
    exact piece_field (piece_props ih l r)
      [("type", .str "SetProperty"), ("property_type", .str ty),
        ("allocation_flags", .int fl.toNat)] [] "properties"
  | struct g ty fs gs k l r _ ih =>
    have := piece_field (piece_struct ih fs gs k l r)
      (("type", .str "StructProperty") :: (guidES g ++ [("type_name", .str ty)])) [] "CustomStruct"
    simpa [Property.toS, structWith, StructPropertyValue.entryS] using this
  | structValue fs gs k l r _ ih =>
    exact piece_field (piece_struct ih fs gs k l r)
      [("type", .str "StructPropertyValue")] [] "CustomStruct"
  | structs f ty g vs ws fs gs k l r _ ih =>
    have := piece_field (piece_index (piece_field (piece_struct ih fs gs k l r)
      [] [] "CustomStruct") (structsS vs) (structsS ws))
      (("type", .str "ArrayProperty") :: ("field_name", .str f) :: ("type_name", .str ty) ::
        guidES g) [] "structs"
    simpa [Property.toS, ArrayProperty.entriesS, structsS_append, structsS, structWith,
      StructPropertyValue.entryS] using this
  | enumMap ty k l r _ ih =>
    exact piece_field (piece_values ih k l r)
      [("type", .str "MapProperty"), ("value_type", .str ty)] [] "enum_props"
  | nameMap ty k l r _ ih =>
    exact piece_field (piece_values ih k l r)
      [("type", .str "MapProperty"), ("value_type", .str ty)] [] "name_props"
  | strMap ty k l r _ ih =>
    exact piece_field (piece_values ih k l r)
      [("type", .str "MapProperty"), ("value_type", .str ty)] [] "str_props"
  | mapKey kt vt fl v l r _ _ ih =>
    have := piece_field (piece_index (piece_index ih [] [v.toS]) (pairsS l) (pairsS r))
      [("type", .str "MapProperty"), ("key_type", .str kt), ("value_type", .str vt),
        ("allocation_flags", .int fl.toNat)] [] "value"
    simpa [Property.toS, MapProperty.entriesS, pairsS_append, pairsS] using this
  | mapValue kt vt fl k l r _ ih =>
    have := piece_field (piece_index (piece_index ih [k.toS] []) (pairsS l) (pairsS r))
      [("type", .str "MapProperty"), ("key_type", .str kt), ("value_type", .str vt),
        ("allocation_flags", .int fl.toNat)] [] "value"
    simpa [Property.toS, MapProperty.entriesS, pairsS_append, pairsS] using this

theorem file_piece {x : FloatText} {f : GvasFile} {p q : Ser} {s t : Property} {k : String}
    {pre post : List (String × Property)} (hf : f.properties = pre ++ (k, s) :: post)
    (h : Piece x p q s.toS t.toS) :
    Piece x p q f.toSerde { f with properties := pre ++ (k, t) :: post }.toSerde := by
  obtain ⟨gv, hd, ps⟩ := f
  simp only at hf
  subst hf
  have h1 := piece_values h k pre post
  cases gv with
  | default => exact piece_field h1 [("header", hd.toS)] [] "properties"
  | palworld c =>
    exact piece_field h1 [("deserialized_game_version", .obj [("Palworld", .str c.json)]),
      ("header", hd.toS)] [] "properties"

end Gvas
