import Verif.Lemmas.MoreEntries

/-! # Reading JSON with more entries than needed somewhere inside -/

namespace Gvas.Extra

open Spec

variable {α β κ : Type}

/-! ## Arrays and maps -/

theorem mapM_inside {γ : Type} {d : γ → Option α} {x x' : γ} (h : d x = d x') (l m : List γ) :
    (l ++ x :: m).mapM d = (l ++ x' :: m).mapM d := by
  induction l with
  | nil => simp only [List.nil_append, List.mapM_cons, h]
  | cons a l ih => simp only [List.cons_append, List.mapM_cons, ih]

theorem getArr_inside {d : J → Option α} {j j' : J} (h : d j = d j') (l m : List J) :
    J.getArr d (.arr (l ++ j :: m)) = J.getArr d (.arr (l ++ j' :: m)) := mapM_inside h l m

theorem getStrMap_inside {d : J → Option α} {j j' : J} (h : d j = d j') (n : String) (c e : Fields) :
    J.getStrMap d (.obj (c ++ (n, j) :: e)) = J.getStrMap d (.obj (c ++ (n, j') :: e)) := by
  unfold J.getStrMap J.getMap
  have : (c ++ (n, j) :: e).mapM (fun e => do return ((← some e.1 : String), ← d e.2)) =
      (c ++ (n, j') :: e).mapM (fun e => do return (← some e.1, ← d e.2)) :=
    mapM_inside (by simp only [h]) c e
  simp only [this]

variable [FieldJ] [FieldLocal]

/-! ## Texts -/

theorem text_near {es es' : Fields} (hf : FieldJ.get es "flags" = FieldJ.get es' "flags")
    (hh : FieldJ.get es "history" = FieldJ.get es' "history") (n : Nat)
    (h : ∀ m < n, ∀ tag, (∀ s, es.lookup "history" = some (.str s) → s = tag) →
      FTextHistory.ofTag (fun j => j.getEntries.bind (FText.ofEntries m)) es tag =
        FTextHistory.ofTag (fun j => j.getEntries.bind (FText.ofEntries m)) es' tag) :
    FText.ofEntries n es = FText.ofEntries n es' := by
  cases n with
  | zero => rfl
  | succ n =>
    simp only [FText.ofEntries, FTextHistory.ofEntries, defaultField, field, hf]
    rw [← hh]
    match hg : FieldJ.get es "history" with
    | none => rfl
    | some none => rfl
    | some (some t) =>
      have hl := FieldLocal.first hg
      simp only [Option.bind_some]
      match he : J.getTag historyTags t with
      | none => rfl
      | some tag =>
        simp only [Option.bind_some]
        rw [h n (by omega) tag]
        intro s hs
        rw [hl] at hs
        cases hs
        exact Option.some.inj he

/-- A name that means nothing in texts. -/
theorem text_other {k : String} (h1 : k ≠ "flags") (h2 : k ≠ "history")
    (h : ∀ tag, k ∉ textWords tag) (a b : Fields) (j j' : J) (n : Nat) :
    FText.ofEntries n (a ++ (k, j) :: b) = FText.ofEntries n (a ++ (k, j') :: b) :=
  text_near (get_inside h1.symm ..) (get_inside h2.symm ..)
    n fun _ _ tag _ => history_words _ (alike_inside (h tag) ..)

omit [FieldJ] [FieldLocal] in
theorem textWords_sub (tag : String) : ∀ k ∈ textWords tag, k ∈ ["culture_invariant_string",
    "namespace", "key", "source_string", "source_format", "arguments", "source_value",
    "format_options", "target_culture", "currency_code", "date_time", "date_style",
    "source_date_time", "time_style", "time_zone", "source_text", "transform", "table_id"] := by
  intro k hk
  unfold textWords at hk
  repeat' split at hk
  all_goals
    revert k
    simp

/-- A file read with a bound for the nesting of its properties. -/
def fileN (n : Nat) (j : J) : Option GvasFile := do
  let es ← j.getFields ["deserialized_game_version", "header", "properties"]
  return {
    gameVersion := ← defaultField es "deserialized_game_version" .default J.getGameVersion
    header := ← field es "header" GvasHeader.ofJ
    properties := ← field es "properties" (J.getStrMap (Property.ofJson n)) }

/-! ## Structs -/

omit [FieldLocal] in
theorem one_inside {rec : J → Option Property} {k : String} {j j' : J}
    (h : StructPropertyValue.ofVariant rec k j = StructPropertyValue.ofVariant rec k j')
    (a b : Fields) : StructPropertyValue.ofJ rec (.obj (a ++ (k, j) :: b)) =
      StructPropertyValue.ofJ rec (.obj (a ++ (k, j') :: b)) := by
  match a, b with
  | [], [] => exact h
  | [], _ :: _ => rfl
  | [_], _ => rfl
  | _ :: _ :: _, _ => rfl

omit [FieldLocal] in
theorem flat_inside {rec : J → Option Property} {k : String} {j j' : J}
    (h : StructPropertyValue.ofVariant rec k j = StructPropertyValue.ofVariant rec k j')
    (a b : Fields) : StructPropertyValue.ofFlat rec (a ++ (k, j) :: b) =
      StructPropertyValue.ofFlat rec (a ++ (k, j') :: b) := by
  unfold StructPropertyValue.ofFlat
  simp only [List.find?_append, List.find?_cons]
  generalize List.find? (fun e => structVariants.contains e.1) a = u
  match u with
  | some e => rfl
  | none =>
    by_cases hk : structVariants.contains k = true
    · simp only [Option.none_or, hk]
      exact h
    · simp only [hk]

/-- The content of an entry of a property matters only where its name means something. -/
theorem tag_inside {rec : J → Option Property} {k : String} {j j' : J} (a b : Fields) (n : Nat)
    (h1 : k ≠ "flags") (h2 : k ≠ "history") (h3 : k ≠ "type") (ht : ∀ tag, k ∉ textWords tag)
    (hv : StructPropertyValue.ofVariant rec k j = StructPropertyValue.ofVariant rec k j')
    (hw : ∀ tag, k ∈ propertyWords tag →
      Property.ofTag (FText.ofEntries n) rec (a ++ (k, j) :: b) tag =
        Property.ofTag (FText.ofEntries n) rec (a ++ (k, j') :: b) tag) (tag : String) :
    Property.ofTag (FText.ofEntries n) rec (a ++ (k, j) :: b) tag =
      Property.ofTag (FText.ofEntries n) rec (a ++ (k, j') :: b) tag := by
  by_cases hs : tag = "StructPropertyValue"
  · subst hs
    have h3 : (k != "type") = true := by simpa using h3
    simp only [Property.ofTag, reduceIte, String.reduceEq, List.filter_append, List.filter_cons, h3,
      one_inside hv]
  by_cases hx : tag = "TextProperty"
  · subst hx
    simp only [Property.ofTag, reduceIte, String.reduceEq, text_other h1 h2 ht a b j j']
  by_cases hk : k ∈ propertyWords tag
  · exact hw tag hk
  · exact property_words _ _ ⟨hs, hx⟩ (alike_inside hk a b j j')

theorem step_all {tagOf : J → Option String} {text : Fields → Option FText}
    {rec : J → Option Property} {es es' : Fields} (hg : FieldJ.get es "type" = FieldJ.get es' "type")
    (ht : ∀ s, tagOf (.str s) = some s)
    (h : ∀ tag, (∀ s, es.lookup "type" = some (.str s) → s = tag) →
      Property.ofTag text rec es tag = Property.ofTag text rec es' tag) :
    Property.ofJStep tagOf text rec (.obj es) = Property.ofJStep tagOf text rec (.obj es') := by
  simp only [Property.ofJStep, J.getTagged]
  rw [← hg]
  match hl : FieldJ.get es "type" with
  | none => rfl
  | some none => rfl
  | some (some t) =>
    have hl := FieldLocal.first hl
    simp only [Option.bind_some]
    match he : tagOf t with
    | none => rfl
    | some tag =>
      simp only [Option.map_some, Option.bind_some]
      refine h tag fun s hs => ?_
      rw [hl] at hs
      cases hs
      exact Option.some.inj ((ht s).symm.trans he)

/-- The same property is read, however deep it may be. -/
def SameProperty (j j' : J) : Prop :=
  (∀ n, Property.ofJ n j = Property.ofJ n j') ∧ ∀ n, Property.ofJson n j = Property.ofJson n j'

omit [FieldLocal] in
theorem same_of_step {j j' : J} (h : ∀ (tagOf : J → Option String) n,
      (∀ s, tagOf (.str s) = some s) →
      Property.ofJStep tagOf (FText.ofEntries (n + 1)) (Property.ofJ n) j =
        Property.ofJStep tagOf (FText.ofEntries (n + 1)) (Property.ofJ n) j') : SameProperty j j' := by
  constructor <;> intro n <;> cases n with
  | zero => rfl
  | succ n => exact h _ n fun _ => rfl

theorem same_of_tag {es es' : Fields} (hg : FieldJ.get es "type" = FieldJ.get es' "type")
    (h : ∀ n tag, (∀ s, es.lookup "type" = some (.str s) → s = tag) →
      Property.ofTag (FText.ofEntries (n + 1)) (Property.ofJ n) es tag =
        Property.ofTag (FText.ofEntries (n + 1)) (Property.ofJ n) es' tag) :
    SameProperty (.obj es) (.obj es') :=
  same_of_step fun _ n ht => step_all hg ht (h n)

/-- What is meant by additional entries not mattering. -/
def Same : ObjectOf → J → J → Prop
  | .file, j, j' => ∀ n, fileN n j = fileN n j'
  | .header, j, j' => GvasHeader.ofJ j = GvasHeader.ofJ j'
  | .property, j, j' => SameProperty j j'
  | .text, j, j' => ∃ es es', j = .obj es ∧ j' = .obj es' ∧
      ∀ n, FText.ofEntries n es = FText.ofEntries n es'
  | .struct v, j, j' => ∀ n, StructPropertyValue.ofVariant (Property.ofJ n) v j =
      StructPropertyValue.ofVariant (Property.ofJ n) v j'
  | .plain ws, j, j' => ∃ es es', j = .obj es ∧ j' = .obj es' ∧
      ∀ k ∈ ws, FieldJ.get es k = FieldJ.get es' k

/-! ## Plain structs -/

theorem same_engine {j j' : J}
    (h : Same (.plain ["major", "minor", "patch", "change_list", "branch"]) j j') :
    j.getEngineVersion = j'.getEngineVersion := by
  obtain ⟨es, es', rfl, rfl, h⟩ := h
  simp at h
  simp only [J.getEngineVersion, J.getFields, Option.bind_eq_bind,
    Option.bind_some, field, h]

theorem same_delegate {j j' : J} (h : Same (.plain ["object", "function_name"]) j j') :
    j.getDelegate = j'.getDelegate := by
  obtain ⟨es, es', rfl, rfl, h⟩ := h
  simp at h
  simp only [J.getDelegate, J.getFields, Option.bind_eq_bind,
    Option.bind_some, field, h]

theorem same_fieldPath {j j' : J} (h : Same (.plain ["path", "resolved_owner"]) j j') :
    j.getFieldPath = j'.getFieldPath := by
  obtain ⟨es, es', rfl, rfl, h⟩ := h
  simp at h
  simp only [J.getFieldPath, J.getFields, Option.bind_eq_bind,
    Option.bind_some, field, h]

theorem same_multicast {j j' : J} (h : Same (.plain ["delegates"]) j j') :
    j.getMulticast = j'.getMulticast := by
  obtain ⟨es, es', rfl, rfl, h⟩ := h
  simp at h
  simp only [J.getMulticast, J.getFields, Option.bind_eq_bind,
    Option.bind_some, field, h]

theorem same_options {j j' : J} (h : Same (.plain optionWords) j j') :
    j.getOpt J.getOptions = j'.getOpt J.getOptions := by
  obtain ⟨es, es', rfl, rfl, h⟩ := h
  simp [optionWords] at h
  simp only [J.getOpt, J.getOptions, J.getEntries, Option.bind_eq_bind, Option.bind_some, field,
    h]

theorem same_ticks {j j' : J} (h : Same (.plain ["ticks"]) j j') : j.getTicks = j'.getTicks := by
  obtain ⟨es, es', rfl, rfl, h⟩ := h
  simp at h
  simp only [J.getTicks, J.getFields, Option.bind_eq_bind,
    Option.bind_some, field, h]

theorem same_variant {v : String} (hv : v ∈ variantWords ∧ v ≠ "CustomStruct") {j j' : J}
    (h : Same (.plain (structWords v)) j j') : Same (.struct v) j j' := by
  obtain ⟨es, es', rfl, rfl, h⟩ := h
  obtain ⟨hv, hc⟩ := hv
  intro n
  simp only [variantWords, List.mem_cons, List.not_mem_nil, or_false] at hv
  rcases hv with rfl | rfl | rfl | rfl | rfl | rfl | rfl | rfl | rfl | rfl | rfl | rfl | rfl | rfl |
    rfl
  all_goals first
    | exact absurd rfl hc
    | (simp [structWords] at h
       simp only [StructPropertyValue.ofVariant, reduceIte, String.reduceEq, J.get2, J.get3, J.get4,
         J.getTicks, J.getFields, Option.bind_eq_bind,
    Option.bind_some, field, h]
       done)
    | rfl

/-! ## Places -/

omit [FieldJ] [FieldLocal] in
theorem not_textWord {k : String} (h : k ∉ ["culture_invariant_string",
    "namespace", "key", "source_string", "source_format", "arguments", "source_value",
    "format_options", "target_culture", "currency_code", "date_time", "date_style",
    "source_date_time", "time_style", "time_zone", "source_text", "transform", "table_id"])
    (tag : String) : k ∉ textWords tag := fun hk => h (textWords_sub tag k hk)

omit [FieldJ] [FieldLocal] in
theorem words_properties {tag : String} (h : "properties" ∈ propertyWords tag) :
    tag = "ArrayProperty" ∨ tag = "SetProperty" := by
  unfold propertyWords at h
  repeat' split at h
  all_goals first
    | (rename_i e; exact .inl e)
    | (rename_i e; exact .inr e)
    | (exfalso; revert h; decide)

omit [FieldJ] [FieldLocal] in
theorem words_structs {tag : String} (h : "structs" ∈ propertyWords tag) :
    tag = "ArrayProperty" := by
  unfold propertyWords at h
  repeat' split at h
  all_goals first
    | (rename_i e; exact e)
    | (exfalso; revert h; decide)

omit [FieldJ] [FieldLocal] in
theorem words_props {tag k : String} (hk : k ∈ ["enum_props", "name_props", "str_props"])
    (h : k ∈ propertyWords tag) : tag = "MapProperty" := by
  unfold propertyWords at h
  simp only [List.mem_cons, List.not_mem_nil, or_false] at hk
  repeat' split at h
  all_goals first
    | (rename_i e; exact e)
    | (rcases hk with rfl | rfl | rfl <;> (exfalso; revert h; decide))

omit [FieldJ] [FieldLocal] in
theorem words_variant {tag k : String} (hk : k ∈ variantWords)
    (h : k ∈ propertyWords tag) : tag = "StructProperty" := by
  have no : ∀ l : List String, (∀ v ∈ variantWords, v ∉ l) → k ∉ l := fun l hl => hl k hk
  unfold propertyWords at h
  repeat' split at h
  all_goals first
    | (rename_i e; exact e)
    | exact absurd h (no _ (by decide))

theorem at_item {j j' : J} (h : SameProperty j j') (a b : Fields) (l m : List J) :
    SameProperty (.obj (a ++ ("properties", .arr (l ++ j :: m)) :: b))
      (.obj (a ++ ("properties", .arr (l ++ j' :: m)) :: b)) := by
  refine same_of_tag (get_inside (by decide) ..) fun n tag _ => ?_
  refine tag_inside (k := "properties") a b _ (by decide) (by decide) (by decide) (not_textWord (by decide)) (by rfl)
    (fun tag ht => ?_) tag
  have hf := field_inside (k := "properties") (getArr_inside (h.1 n) l m) a b
  have hg := fun K (hK : K ≠ "properties") =>
    get_inside hK a b (.arr (l ++ j :: m)) (.arr (l ++ j' :: m))
  unfold field at hf
  rcases words_properties ht with rfl | rfl
  · simp only [Property.ofTag, reduceIte, ArrayProperty.ofEntries, field, defaultField, hf, hg,
      ne_eq, String.reduceEq, not_false_eq_true]
  · simp only [Property.ofTag, reduceIte, field, hf, hg, ne_eq, String.reduceEq,
      not_false_eq_true]

theorem at_structItem {v : String} {j j' : J} (h : Same (.struct v) j j') (a b : Fields)
    (l m : List J) : SameProperty (.obj (a ++ ("structs", .arr (l ++ .obj [(v, j)] :: m)) :: b))
      (.obj (a ++ ("structs", .arr (l ++ .obj [(v, j')] :: m)) :: b)) := by
  refine same_of_tag (get_inside (by decide) ..) fun n tag _ => ?_
  refine tag_inside (k := "structs") a b _ (by decide) (by decide) (by decide) (not_textWord (by decide)) (by rfl)
    (fun tag ht => ?_) tag
  have hf := field_inside (k := "structs") (d := J.getArr (StructPropertyValue.ofJ (Property.ofJ n)))
    (getArr_inside (d := StructPropertyValue.ofJ (Property.ofJ n)) (j := .obj [(v, j)])
      (j' := .obj [(v, j')]) (h n) l m) a b
  have hg := fun K (hK : K ≠ "structs") =>
    get_inside hK a b (.arr (l ++ .obj [(v, j)] :: m)) (.arr (l ++ .obj [(v, j')] :: m))
  unfold field at hf
  rw [words_structs ht]
  simp only [Property.ofTag, reduceIte, ArrayProperty.ofEntries, field, defaultField, hf, hg,
    ne_eq, String.reduceEq, not_false_eq_true]

theorem at_value {k : String} (hk : k ∈ ["enum_props", "name_props", "str_props"]) {j j' : J}
    (h : SameProperty j j') (a b c d : Fields) (n : String) :
    SameProperty (.obj (a ++ (k, .obj (c ++ (n, j) :: d)) :: b))
      (.obj (a ++ (k, .obj (c ++ (n, j') :: d)) :: b)) := by
  have hk' := hk
  simp only [List.mem_cons, List.not_mem_nil, or_false] at hk'
  refine same_of_tag (get_inside (by rcases hk' with rfl | rfl | rfl <;> decide) ..)
    fun n' tag _ => ?_
  refine tag_inside a b _ (by rcases hk' with rfl | rfl | rfl <;> decide)
    (by rcases hk' with rfl | rfl | rfl <;> decide)
    (by rcases hk' with rfl | rfl | rfl <;> decide)
    (not_textWord (by rcases hk' with rfl | rfl | rfl <;> decide))
    (by rcases hk' with rfl | rfl | rfl <;> rfl) (fun tag ht => ?_) tag
  have hf := field_inside (k := k) (getStrMap_inside (h.1 n') n c d) a b
  have hg := fun K (hK : K ≠ k) =>
    get_inside hK a b (.obj (c ++ (n, j) :: d)) (.obj (c ++ (n, j') :: d))
  unfold field at hf
  rw [words_props hk ht]
  rcases hk' with rfl | rfl | rfl <;>
  simp only [Property.ofTag, reduceIte, MapProperty.ofEntries, field, hf, hg,
    ne_eq, String.reduceEq, not_false_eq_true]

omit [FieldJ] [FieldLocal] in
theorem no_text : ∀ v ∈ variantWords, v ∉ ["culture_invariant_string",
    "namespace", "key", "source_string", "source_format", "arguments", "source_value",
    "format_options", "target_culture", "currency_code", "date_time", "date_style",
    "source_date_time", "time_style", "time_zone", "source_text", "transform", "table_id"] := by
  decide

theorem at_struct {v : String} (hv : v ∈ variantWords) {j j' : J} (h : Same (.struct v) j j')
    (a b : Fields) : SameProperty (.obj (a ++ (v, j) :: b)) (.obj (a ++ (v, j') :: b)) := by
  have hne : ∀ K ∈ ["flags", "history", "type", "guid", "type_name"], v ≠ K := by
    clear h; revert v; decide
  refine same_of_tag (get_inside (hne _ (by decide)).symm ..) fun n tag _ => ?_
  refine tag_inside a b _ (hne _ (by decide)) (hne _ (by decide)) (hne _ (by decide))
    (not_textWord (no_text v hv)) (h n) (fun tag ht => ?_) tag
  have hg := fun K (hK : v ≠ K) => get_inside hK.symm a b j j'
  rw [words_variant hv ht]
  simp only [Property.ofTag, reduceIte, String.reduceEq, field, defaultField, flat_inside (h n),
    hg "guid" (hne _ (by decide)), hg "type_name" (hne _ (by decide))]

omit [FieldJ] [FieldLocal] in
theorem lookup_skip {k K : String} (h : K ≠ k) (a b : Fields) (j : J) :
    (a ++ (k, j) :: b).lookup K = (a ++ b).lookup K := by
  rw [lookup_filter, lookup_filter (a ++ b), List.filter_append, List.filter_append,
    List.filter_cons_of_neg (by simpa using h.symm)]

/-- The value of a property of a known type. -/
theorem at_known {a b : Fields} {tag : String} (ht : (a ++ b).lookup "type" = some (.str tag))
    {j j' : J} (h : ∀ n, Property.ofTag (FText.ofEntries (n + 1)) (Property.ofJ n)
        (a ++ ("value", j) :: b) tag = Property.ofTag (FText.ofEntries (n + 1)) (Property.ofJ n)
        (a ++ ("value", j') :: b) tag) :
    SameProperty (.obj (a ++ ("value", j) :: b)) (.obj (a ++ ("value", j') :: b)) := by
  refine same_of_tag (get_inside (by decide) ..) fun n tag' h' => ?_
  rw [lookup_skip (by decide), ht] at h'
  rw [← h' tag rfl]
  exact h n

theorem at_pairs {a b : Fields} (ht : (a ++ b).lookup "type" = some (.str "MapProperty"))
    {i i' : J} (h : ∀ n, J.getPair (Property.ofJ n) i = J.getPair (Property.ofJ n) i')
    (l m : List J) : SameProperty (.obj (a ++ ("value", .arr (l ++ i :: m)) :: b))
      (.obj (a ++ ("value", .arr (l ++ i' :: m)) :: b)) := by
  refine at_known ht fun n => ?_
  have hf := field_inside (k := "value") (getArr_inside (h n) l m) a b
  have hg := fun K (hK : K ≠ "value") =>
    get_inside hK a b (.arr (l ++ i :: m)) (.arr (l ++ i' :: m))
  unfold field at hf
  simp only [Property.ofTag, reduceIte, MapProperty.ofEntries, field, hf, hg, ne_eq,
    String.reduceEq, not_false_eq_true]

theorem at_text {k : String} {j j' : J} {a b : Fields} (h1 : k ≠ "flags") (h2 : k ≠ "history")
    (h : ∀ n tag, FTextHistory.ofTag (fun j => j.getEntries.bind (FText.ofEntries n))
        (a ++ (k, j) :: b) tag =
      FTextHistory.ofTag (fun j => j.getEntries.bind (FText.ofEntries n)) (a ++ (k, j') :: b) tag) :
    Same .text (.obj (a ++ (k, j) :: b)) (.obj (a ++ (k, j') :: b)) :=
  ⟨_, _, rfl, rfl, fun n => text_near (get_inside h1.symm ..) (get_inside h2.symm ..) n
    fun m _ tag _ => h m tag⟩

theorem text_read {j j' : J} (h : Same .text j j') (n : Nat) :
    j.getEntries.bind (FText.ofEntries n) = j'.getEntries.bind (FText.ofEntries n) := by
  obtain ⟨es, es', rfl, rfl, h⟩ := h
  exact h n

theorem arg_read {j j' : J} (h : Same .text j j') (n : Nat) :
    FormatArgumentValue.ofJ (fun j => j.getEntries.bind (FText.ofEntries n)) (.obj [("Text", j)]) =
      FormatArgumentValue.ofJ (fun j => j.getEntries.bind (FText.ofEntries n))
        (.obj [("Text", j')]) := by
  simp only [FormatArgumentValue.ofJ, reduceIte, String.reduceEq, text_read h]

theorem same_of_more {o : ObjectOf} {j j' : J} (h : OneMore o j j') : Same o j j' := by
  induction h with
  | @file a b k x h =>
    intro n
    have hg := get_alike (alike_extra h a b x)
    simp at hg
    simp only [fileN, J.getFields, Option.bind_eq_bind,
    Option.bind_some, field, defaultField, hg]
  | @header a b k x tag ht h =>
    simp only [List.mem_cons, not_or] at h
    have hg := get_alike (alike_extra (ws := ["type"]) (by simpa using h.1) a b x) "type" (by simp)
    have hw := header_words (alike_extra h.2 a b x)
    show GvasHeader.ofJ _ = GvasHeader.ofJ _
    simp only [GvasHeader.ofJ, J.getTagged]
    rw [← hg]
    match hl : FieldJ.get (a ++ b) "type" with
    | none => rfl
    | some none => rfl
    | some (some t) =>
      have hl := FieldLocal.first hl
      rw [ht] at hl
      cases hl
      simp only [Option.bind_some, J.getStr, Option.map_some, hw]
  | @property a b k x tag ht hs h =>
    simp only [List.mem_cons, not_or] at h
    refine same_of_tag (get_alike (alike_extra (ws := ["type"]) (by simpa using h.1) a b x) "type"
      (by simp)) fun n tag' h' => ?_
    rw [← h' tag ht]
    exact property_words _ _ hs (alike_extra h.2 a b x)
  | @text a b k x tag ht h =>
    simp only [List.mem_cons, not_or] at h
    refine ⟨_, _, rfl, rfl, fun n => text_near
      (get_alike (alike_extra (ws := ["flags"]) (by simpa using h.1) a b x) "flags" (by simp))
      (get_alike (alike_extra (ws := ["history"]) (by simpa using h.2.1) a b x) "history" (by simp))
      n fun m _ tag' h' => ?_⟩
    rw [← h' tag ht]
    exact history_words _ (alike_extra h.2.2 a b x)
  | @plain a b k x ws h => exact ⟨_, _, rfl, rfl, get_alike (alike_extra h a b x)⟩
  | @inHeader a b j j' _ ih =>
    intro n
    have ih : GvasHeader.ofJ j = GvasHeader.ofJ j' := ih
    have hf := field_inside (k := "header") ih a b
    have hg := fun K (hK : K ≠ "header") => get_inside hK a b j j'
    unfold field at hf
    simp only [fileN, J.getFields, Option.bind_eq_bind,
    Option.bind_some, field, defaultField, hf, hg, ne_eq, String.reduceEq,
      not_false_eq_true]
  | @inFile a b c d n j j' _ ih =>
    intro N
    have hf := field_inside (k := "properties") (getStrMap_inside (ih.2 N) n c d) a b
    have hg := fun K (hK : K ≠ "properties") =>
      get_inside hK a b (.obj (c ++ (n, j) :: d)) (.obj (c ++ (n, j') :: d))
    unfold field at hf
    simp only [fileN, J.getFields, Option.bind_eq_bind,
    Option.bind_some, field, defaultField, hf, hg, ne_eq, String.reduceEq,
      not_false_eq_true]
  | @inEngine a b j j' _ ih =>
    show GvasHeader.ofJ _ = GvasHeader.ofJ _
    have hf := field_inside (k := "engine_version") (same_engine ih) a b
    have hg := fun K (hK : K ≠ "engine_version") => get_inside hK a b j j'
    have hw : ∀ tag, GvasHeader.ofTag (a ++ ("engine_version", j) :: b) tag =
        GvasHeader.ofTag (a ++ ("engine_version", j') :: b) tag := fun tag => by
      unfold field at hf
      simp only [GvasHeader.ofTag, field, hf, hg, ne_eq, String.reduceEq, not_false_eq_true]
    simp only [GvasHeader.ofJ, J.getTagged, hg "type" (by decide)]
    match FieldJ.get (a ++ ("engine_version", j') :: b) "type" with
    | none => rfl
    | some none => rfl
    | some (some t) =>
      match h : J.getStr t with
      | none => simp only [Option.bind_some, h, Option.map_none, Option.bind_none]
      | some s => simp only [Option.bind_some, h, Option.map_some, hw]
  | inItem _ ih => exact at_item ih ..
  | inValue hk _ ih => exact at_value hk ih ..
  | @inPairKey a b l m y j j' ht _ ih =>
    exact at_pairs ht (fun n => by simp only [J.getPair, ih.1 n]) l m
  | @inPairValue a b l m y j j' ht _ ih =>
    exact at_pairs ht (fun n => by simp only [J.getPair, ih.1 n]) l m
  | inStruct hv _ ih => exact at_struct hv ih ..
  | inStructItem _ ih => exact at_structItem ih ..
  | inVariant hv _ ih => exact same_variant hv ih
  | @inField c d l m n j j' _ ih =>
    intro N
    simp only [StructPropertyValue.ofVariant, reduceIte, String.reduceEq]
    rw [getStrMap_inside (d := J.getArr (Property.ofJ N)) (getArr_inside (ih.1 N) l m) n c d]
  | @inDelegate a b j j' ht _ ih =>
    refine at_known ht fun n => ?_
    simp only [Property.ofTag, reduceIte, String.reduceEq, field_inside (same_delegate ih) a b]
  | @inFieldPath a b j j' ht _ ih =>
    refine at_known ht fun n => ?_
    simp only [Property.ofTag, reduceIte, String.reduceEq, field_inside (same_fieldPath ih) a b]
  | @inMulticast a b j j' tag ht hm _ ih =>
    refine at_known ht fun n => ?_
    rcases hm with rfl | rfl <;>
    simp only [Property.ofTag, reduceIte, String.reduceEq, field_inside (same_multicast ih) a b]
  | @inDelegates a b c d l m j j' tag ht hm _ ih =>
    refine at_known ht fun n => ?_
    have e : J.getMulticast (.obj (c ++ ("delegates", .arr (l ++ j :: m)) :: d)) =
        J.getMulticast (.obj (c ++ ("delegates", .arr (l ++ j' :: m)) :: d)) := by
      unfold J.getMulticast
      simp only [J.getFields, Option.bind_eq_bind, Option.bind_some]
      exact field_inside (getArr_inside (same_delegate ih) l m) c d
    rcases hm with rfl | rfl <;>
    simp only [Property.ofTag, reduceIte, String.reduceEq, field_inside e a b]
  | @inText es es' ht ht' _ ih =>
    obtain ⟨_, _, e, e', h⟩ := ih
    cases e; cases e'
    refine same_of_tag (by rw [FieldLocal.near es, FieldLocal.near es', ht']) fun n tag h' => ?_
    rw [← h' _ ht]
    simp only [Property.ofTag, reduceIte, String.reduceEq, h]
  | @inSource a b k j j' hk _ ih =>
    refine at_text (by rcases hk with rfl | rfl <;> decide) (by rcases hk with rfl | rfl <;> decide)
      fun n tag => ?_
    have hf := field_inside (k := k) (d := fun j => j.getEntries.bind (FText.ofEntries n))
      (text_read ih n) a b
    have hg := fun K (hK : K ≠ k) => get_inside hK a b j j'
    unfold field at hf
    rcases hk with rfl | rfl <;>
    simp only [FTextHistory.ofTag, field, optField, hf, hg, ne_eq, String.reduceEq,
      not_false_eq_true]
  | @inNamed a b c d n j j' _ ih =>
    refine at_text (by decide) (by decide) fun N tag => ?_
    have h1 := field_inside (k := "arguments") (getStrMap_inside (arg_read ih N) n c d) a b
    have h2 := field_inside (k := "arguments")
      (d := J.getArr (FormatArgumentValue.ofJ fun j => j.getEntries.bind (FText.ofEntries N)))
      (j := .obj (c ++ (n, .obj [("Text", j)]) :: d)) (j' := .obj (c ++ (n, .obj [("Text", j')]) :: d))
      rfl a b
    have hg := fun K (hK : K ≠ "arguments") =>
      get_inside hK a b (.obj (c ++ (n, .obj [("Text", j)]) :: d))
        (.obj (c ++ (n, .obj [("Text", j')]) :: d))
    unfold field at h1 h2
    simp only [FTextHistory.ofTag, field, optField, h1, h2, hg, ne_eq, String.reduceEq,
      not_false_eq_true]
  | @inOrdered a b l m j j' _ ih =>
    refine at_text (by decide) (by decide) fun N tag => ?_
    have h1 := field_inside (k := "arguments") (getArr_inside (arg_read ih N) l m) a b
    have h2 := field_inside (k := "arguments")
      (d := J.getStrMap (FormatArgumentValue.ofJ fun j => j.getEntries.bind (FText.ofEntries N)))
      (j := .arr (l ++ .obj [("Text", j)] :: m)) (j' := .arr (l ++ .obj [("Text", j')] :: m))
      rfl a b
    have hg := fun K (hK : K ≠ "arguments") =>
      get_inside hK a b (.arr (l ++ .obj [("Text", j)] :: m)) (.arr (l ++ .obj [("Text", j')] :: m))
    unfold field at h1 h2
    simp only [FTextHistory.ofTag, field, optField, h1, h2, hg, ne_eq, String.reduceEq,
      not_false_eq_true]
  | @inNumber a b j j' _ ih =>
    refine at_text (by decide) (by decide) fun N tag => ?_
    have h1 := field_inside (k := "source_value") (arg_read ih N) a b
    have hg := fun K (hK : K ≠ "source_value") =>
      get_inside hK a b (.obj [("Text", j)]) (.obj [("Text", j')])
    unfold field at h1
    simp only [FTextHistory.ofTag, field, optField, h1, hg, ne_eq, String.reduceEq,
      not_false_eq_true]
  | @inOptions a b j j' _ ih =>
    refine at_text (by decide) (by decide) fun N tag => ?_
    have h1 := optField_inside (k := "format_options") (same_options ih) a b
    have hg := fun K (hK : K ≠ "format_options") α (d : J → Option α) =>
      show field _ K d = field (a ++ ("format_options", j') :: b) K d by unfold field; rw [get_inside hK a b j j']
    have hg' := fun K (hK : K ≠ "format_options") α (d : J → Option α) =>
      show optField _ K d = optField (a ++ ("format_options", j') :: b) K d by unfold optField; rw [get_inside hK a b j j']
    simp only [FTextHistory.ofTag, h1, hg, hg', ne_eq, String.reduceEq, not_false_eq_true]
  | @inDate a b k j j' hk _ ih =>
    refine at_text (by rcases hk with rfl | rfl <;> decide) (by rcases hk with rfl | rfl <;> decide)
      fun n tag => ?_
    have hf := field_inside (k := k) (same_ticks ih) a b
    have hg := fun K (hK : K ≠ k) => get_inside hK a b j j'
    unfold field at hf
    rcases hk with rfl | rfl <;>
    simp only [FTextHistory.ofTag, field, optField, hf, hg, ne_eq, String.reduceEq,
      not_false_eq_true]

theorem file_fuel [FieldIn] (n : Nat) (j : J) (h : j.depth ≤ n) : GvasFile.ofJson j = fileN n j := by
  unfold GvasFile.ofJson fileN
  match he : j.getFields ["deserialized_game_version", "header", "properties"] with
  | none => rfl
  | some es =>
    have hd : depthEntries es ≤ j.depth := by
      match j with
      | .obj l => cases he; simp only [J.depth]; omega
      | .arr l =>
        simp only [J.getFields] at he
        split at he
        · cases he
          simp only [J.depth]
          exact Nat.le_trans (Layout.depth_zip _ _) (by omega)
        · cases he
      | .null => cases he
      | .bool _ => cases he
      | .int _ => cases he
      | .float _ => cases he
      | .str _ => cases he
    have h3 : field es "properties" (J.getStrMap (Property.ofJson j.depth)) =
        field es "properties" (J.getStrMap (Property.ofJson n)) :=
      Layout.field_congr (n := j.depth) (Layout.agree_strMap fun i hi =>
        Layout.property_json_enough _ _ i hi (by omega)) hd
    simp only [Option.bind_eq_bind, Option.bind_some, h3]

theorem file_more [FieldIn] {j j' : J} (h : More .file j j') :
    GvasFile.ofJson j' = GvasFile.ofJson j := by
  induction h with
  | none => rfl
  | @one j j' _ h' ih =>
    have := same_of_more h' (max j.depth j'.depth)
    rw [← ih, file_fuel _ j (Nat.le_max_left ..), file_fuel _ j' (Nat.le_max_right ..), this]

theorem property_more [FieldIn] {j j' : J} (h : More .property j j') :
    Property.ofJson j'.depth j' = Property.ofJson j.depth j := by
  induction h with
  | none => rfl
  | @one j j' _ h' ih =>
    have := (same_of_more h').2 (max j.depth j'.depth)
    rw [← ih, Layout.property_json_enough _ (max j.depth j'.depth) j (Nat.le_refl _)
      (Nat.le_max_left ..), Layout.property_json_enough _ (max j.depth j'.depth) j' (Nat.le_refl _)
      (Nat.le_max_right ..), this]

end Gvas.Extra
