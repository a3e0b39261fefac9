import Verif.Lemmas.JsonDirect
import Verif.Spec.MoreEntries

/-! # Reading JSON with more entries than needed -/

namespace Gvas.Extra

open Spec Once

variable {α β κ : Type}

/-- Entries of an object. -/
abbrev Fields := List (String × J)

/-- A field is found by its name alone. -/
class FieldLocal [FieldJ] : Prop where
  near : ∀ (es : Fields) k, FieldJ.get es k = FieldJ.get (es.filter fun e => e.1 == k) k
  first : ∀ {es : Fields} {k j}, FieldJ.get es k = some (some j) → es.lookup k = some j
  swap : ∀ (a b : Fields) k j j', FieldJ.get (a ++ (k, j) :: b) k = FieldJ.get (a ++ (k, j') :: b) k ∨
    (FieldJ.get (a ++ (k, j) :: b) k = some (some j) ∧
      FieldJ.get (a ++ (k, j') :: b) k = some (some j'))

theorem lookup_filter (es : Fields) (k : String) :
    es.lookup k = (es.filter fun e => e.1 == k).lookup k := by
  induction es with
  | nil => rfl
  | cons e es ih =>
    obtain ⟨a, j⟩ := e
    by_cases h : a = k
    · subst h; rw [List.filter_cons_of_pos (by simp)]; simp
    · have h' : (k == a) = false := by simpa using fun e => h e.symm
      rw [List.filter_cons_of_neg (by simpa using h), List.lookup_cons, h', ih]

theorem lookup_swap (a b : Fields) (k : String) (j j' : J) :
    (a ++ (k, j) :: b).lookup k = (a ++ (k, j') :: b).lookup k ∨
    ((a ++ (k, j) :: b).lookup k = some j ∧ (a ++ (k, j') :: b).lookup k = some j') := by
  induction a with
  | nil => right; simp
  | cons e a ih =>
    obtain ⟨n, i⟩ := e
    simp only [List.cons_append, List.lookup_cons]
    split
    · exact .inl rfl
    · exact ih

instance : FieldLocal where
  near es k := by
    show some _ = some _
    rw [lookup_filter]
  first h := Option.some.inj h
  swap a b k j j' := by
    rcases lookup_swap a b k j j' with h | h
    · exact .inl (congrArg some h)
    · exact .inr ⟨congrArg some h.1, congrArg some h.2⟩

instance : @FieldLocal U := by
  refine @FieldLocal.mk U ?_ ?_ ?_
  · intro es k
    show uniqueField _ _ = uniqueField _ _
    simp only [uniqueField, List.filter_filter, Bool.and_self]
  · intro es k j h
    have h : uniqueField es k = some (some j) := h
    unfold uniqueField at h
    rw [lookup_filter]
    split at h
    · cases h
    · rename_i e he
      have : e ∈ es.filter fun e => e.1 == k := by rw [he]; simp
      have := (List.mem_filter.mp this).2
      rw [beq_iff_eq] at this
      cases h
      rw [he, List.lookup_cons, this]
      simp
    · cases h
  · intro a b k j j'
    show uniqueField _ _ = uniqueField _ _ ∨ uniqueField _ _ = _ ∧ uniqueField _ _ = _
    simp only [uniqueField, List.filter_append, List.filter_cons, beq_self_eq_true, reduceIte]
    generalize List.filter (fun e => e.1 == k) a = u, List.filter (fun e => e.1 == k) b = v
    match u, v with
    | [], [] => exact .inr ⟨rfl, rfl⟩
    | [], _ :: _ => exact .inl rfl
    | [_], _ => exact .inl rfl
    | _ :: _ :: _, _ => exact .inl rfl

variable [FieldJ] [FieldLocal]

/-- The entries with these names are the same. -/
def Alike (ws : List String) (es es' : Fields) : Prop :=
  (es.filter fun e => ws.contains e.1) = es'.filter fun e => ws.contains e.1

omit [FieldJ] [FieldLocal] in
theorem alike_extra {ws : List String} {k : String} (h : k ∉ ws) (a b : Fields) (x : J) :
    Alike ws (a ++ b) (a ++ (k, x) :: b) := by
  unfold Alike
  rw [List.filter_append, List.filter_append, List.filter_cons_of_neg (by simpa using h)]

omit [FieldJ] [FieldLocal] in
theorem alike_inside {ws : List String} {k : String} (h : k ∉ ws) (a b : Fields) (j j' : J) :
    Alike ws (a ++ (k, j) :: b) (a ++ (k, j') :: b) := by
  unfold Alike
  rw [List.filter_append, List.filter_append, List.filter_cons_of_neg (by simpa using h),
    List.filter_cons_of_neg (by simpa using h)]

omit [FieldJ] [FieldLocal] in
theorem alike_sub {ws vs : List String} {es es' : Fields} (h : Alike ws es es')
    (hs : ∀ k ∈ vs, k ∈ ws) : Alike vs es es' := by
  have e : ∀ es : Fields, (es.filter fun e => vs.contains e.1) =
      (es.filter fun e => ws.contains e.1).filter fun e => vs.contains e.1 := fun es => by
    rw [List.filter_filter]
    congr 1
    funext e
    by_cases hv : e.1 ∈ vs
    · simp [hv, hs _ hv]
    · simp [hv]
  unfold Alike at *
  rw [e es, e es', h]

theorem get_alike {ws : List String} {es es' : Fields} (h : Alike ws es es') (k : String)
    (hk : k ∈ ws) : FieldJ.get es k = FieldJ.get es' k := by
  have := alike_sub h (vs := [k]) (by simpa using hk)
  unfold Alike at this
  rw [FieldLocal.near es, FieldLocal.near es']
  simp only [List.contains_cons, List.contains_nil, Bool.or_false] at this
  rw [this]

theorem get_inside {k K : String} (h : K ≠ k) (a b : Fields) (j j' : J) :
    FieldJ.get (a ++ (k, j) :: b) K = FieldJ.get (a ++ (k, j') :: b) K :=
  get_alike (alike_inside (ws := [K]) (by simpa using h.symm) a b j j') K (by simp)

theorem field_inside {k : String} {d : J → Option α} {j j' : J} (h : d j = d j') (a b : Fields) :
    field (a ++ (k, j) :: b) k d = field (a ++ (k, j') :: b) k d := by
  unfold field
  rcases FieldLocal.swap a b k j j' with e | ⟨e, e'⟩
  · rw [e]
  · rw [e, e']; simpa using h

theorem optField_inside {k : String} {d : J → Option α} {j j' : J} (h : j.getOpt d = j'.getOpt d)
    (a b : Fields) : optField (a ++ (k, j) :: b) k d = optField (a ++ (k, j') :: b) k d := by
  unfold optField
  rcases FieldLocal.swap a b k j j' with e | ⟨e, e'⟩
  · rw [e]
  · rw [e, e']; simpa using h

/-! ## Reading by words -/

theorem property_words (text : Fields → Option FText) (rec : J → Option Property)
    {tag : String} (hs : tag ≠ "StructPropertyValue" ∧ tag ≠ "TextProperty") {es es' : Fields}
    (h : Alike (propertyWords tag) es es') :
    Property.ofTag text rec es tag = Property.ofTag text rec es' tag := by
  have hg := get_alike h
  by_cases h1 : tag = "ArrayProperty"
  · subst h1
    simp [propertyWords] at hg
    simp only [Property.ofTag, reduceIte, ArrayProperty.ofEntries, field, defaultField, hg]
  by_cases h2 : tag = "MapProperty"
  · subst h2
    simp [propertyWords] at hg
    simp only [Property.ofTag, reduceIte, String.reduceEq, MapProperty.ofEntries, field, hg]
  by_cases h3 : tag = "ByteProperty"
  · subst h3
    simp [propertyWords] at hg
    have e := alike_sub h (vs := ["Byte", "Namespaced"]) (by simp [propertyWords])
    unfold Alike at e
    have e : (es.find? fun e => ["Byte", "Namespaced"].contains e.1) =
        es'.find? fun e => ["Byte", "Namespaced"].contains e.1 := by
      rw [← List.head?_filter, ← List.head?_filter, e]
    simp only [Property.ofTag, reduceIte, String.reduceEq, BytePropertyValue.ofFlat, optField, hg, e]
  by_cases h4 : tag = "StructProperty"
  · subst h4
    have e := alike_sub h (vs := structVariants) (by simp [propertyWords, structVariants, variantWords])
    simp [propertyWords] at hg
    unfold Alike at e
    have e : (es.find? fun e => structVariants.contains e.1) =
        es'.find? fun e => structVariants.contains e.1 := by
      rw [← List.head?_filter, ← List.head?_filter, e]
    simp only [Property.ofTag, reduceIte, String.reduceEq, StructPropertyValue.ofFlat, field,
      defaultField, hg, e]
  by_cases h5 : tag = "EnumProperty"
  · subst h5
    simp [propertyWords] at hg
    simp only [Property.ofTag, reduceIte, String.reduceEq, field, optField, hg]
  by_cases h6 : tag = "NameProperty"
  · subst h6
    simp [propertyWords] at hg
    simp only [Property.ofTag, reduceIte, String.reduceEq, defaultField, optField, hg]
  by_cases h7 : tag = "SetProperty"
  · subst h7
    simp [propertyWords] at hg
    simp only [Property.ofTag, reduceIte, String.reduceEq, field, hg]
  by_cases h8 : tag = "UnknownProperty"
  · subst h8
    simp [propertyWords] at hg
    simp only [Property.ofTag, reduceIte, String.reduceEq, field, hg]
  simp [propertyWords, h1, h2, h3, h4, h5, h6, h7, h8] at hg
  simp only [Property.ofTag, if_neg h1, if_neg h2, if_neg h3, if_neg h4, if_neg h5, if_neg h6,
    if_neg h7, if_neg h8, if_neg hs.1, if_neg hs.2, field, optField, hg]

theorem history_words (rec : J → Option FText) {tag : String} {es es' : Fields}
    (h : Alike (textWords tag) es es') :
    FTextHistory.ofTag rec es tag = FTextHistory.ofTag rec es' tag := by
  have hg := get_alike h
  by_cases ht : tag ∈ historyTags
  · simp only [historyTags, List.mem_cons, List.not_mem_nil, or_false] at ht
    rcases ht with rfl | rfl | rfl | rfl | rfl | rfl | rfl | rfl | rfl | rfl | rfl | rfl | rfl | rfl
    all_goals
      simp [textWords] at hg
      simp only [FTextHistory.ofTag, reduceIte, String.reduceEq, field, optField, hg]
  · simp only [historyTags, List.mem_cons, List.not_mem_nil, or_false, not_or] at ht
    simp only [FTextHistory.ofTag, ht, reduceIte]

theorem header_words {tag : String} {es es' : Fields} (h : Alike (headerWords tag) es es') :
    GvasHeader.ofTag es tag = GvasHeader.ofTag es' tag := by
  have hg := get_alike h
  by_cases h1 : tag = "Version2"
  · subst h1
    simp [headerWords] at hg
    simp only [GvasHeader.ofTag, reduceIte, field, hg]
  · simp [headerWords, h1] at hg
    simp only [GvasHeader.ofTag, if_neg h1, field, hg]

end Gvas.Extra
