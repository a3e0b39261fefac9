import Verif.Model.JsonLoad
import Verif.Lemmas.JsonField

/-!
# Loading with and without panics agree
-/

namespace Gvas

/-- Apart from panics, the outcome is that of the decoder without them. -/
def Load.Agrees {α : Type} (l : Load α) (o : Option α) : Prop := l = .panic ∨ l = .lift o

namespace Load

theorem bind_eq {α β : Type} (l : Load α) (f : α → Load β) : (l >>= f) = Load.bind l f := rfl
theorem pure_eq {α : Type} (a : α) : (pure a : Load α) = .ok a := rfl

theorem agrees_pure {α : Type} (a : α) : Agrees (pure a) (some a) := .inr rfl
theorem agrees_ok {α : Type} (a : α) : Agrees (.ok a) (some a) := .inr rfl
theorem agrees_err {α : Type} : Agrees (.err : Load α) none := .inr rfl
theorem agrees_lift {α : Type} (o : Option α) : Agrees (.lift o) o := .inr rfl

theorem Agrees.bind {α β : Type} {l : Load α} {o : Option α} {f : α → Load β} {g : α → Option β}
    (h : Agrees l o) (hf : ∀ a, o = some a → Agrees (f a) (g a)) : Agrees (l >>= f) (o.bind g) := by
  rcases h with rfl | rfl
  · exact .inl rfl
  · cases o with
    | none => exact .inr rfl
    | some a => exact hf a rfl

theorem Agrees.map {α β : Type} {l : Load α} {o : Option α} {f : α → β}
    (h : Agrees l o) : Agrees (do return f (← l)) (o.map f) := by
  have := h.bind (f := fun a => (pure (f a) : Load β)) (g := fun a => some (f a))
    fun a _ => agrees_pure _
  rwa [Option.map_eq_bind]

theorem Agrees.orElse {α : Type} {l m : Load α} {o p : Option α} (h : Agrees l o)
    (h' : Agrees m p) : Agrees (l.orElse m) (o <|> p) := by
  rcases h with rfl | rfl
  · exact .inl rfl
  · cases o with
    | none => exact h'
    | some a => exact .inr rfl

theorem agrees_mapL {α β : Type} {d : α → Load β} {e : α → Option β} (l : List α)
    (h : ∀ a ∈ l, Agrees (d a) (e a)) : Agrees (mapL d l) (l.mapM e) := by
  induction l with
  | nil => exact .inr rfl
  | cons a l ih =>
    rw [List.mapM_cons]
    exact (h a (by simp)).bind fun b _ => (ih fun x hx => h x (by simp [hx])).bind fun r _ =>
      agrees_pure _

theorem agrees_arr {α : Type} {d : J → Load α} {e : J → Option α} (h : ∀ j, Agrees (d j) (e j))
    (j : J) : Agrees (j.getArrL d) (j.getArr e) := by
  cases j with
  | arr l => exact agrees_mapL l fun a _ => h a
  | _ => exact .inr rfl

theorem agrees_map {κ α : Type} {same : κ → κ → Bool} {dk : String → Load κ} {ek : String → Option κ}
    {d : J → Load α} {e : J → Option α} (hk : ∀ s, Agrees (dk s) (ek s))
    (h : ∀ j, Agrees (d j) (e j)) (j : J) : Agrees (j.getMapL same dk d) (j.getMap same ek e) := by
  cases j with
  | obj l =>
    refine (agrees_mapL l fun a _ => ?_).bind fun es _ => agrees_pure _
    exact (hk a.1).bind fun x _ => (h a.2).bind fun y _ => agrees_pure _
  | _ => exact .inr rfl

theorem agrees_strMap {α : Type} {d : J → Load α} {e : J → Option α} (h : ∀ j, Agrees (d j) (e j))
    (j : J) : Agrees (j.getStrMapL d) (j.getStrMap e) := agrees_map (fun s => agrees_ok s) h j

theorem agrees_pair {α : Type} {d : J → Load α} {e : J → Option α} (h : ∀ j, Agrees (d j) (e j))
    (j : J) : Agrees (j.getPairL d) (j.getPair e) := by
  cases j with
  | arr l =>
    match l with
    | [] => exact .inr rfl
    | [a] =>
      have := (h a).bind (f := fun _ => (.err : Load (α × α))) (g := fun _ => none)
        fun _ _ => agrees_err
      have e1 : ((e a).bind fun _ => (none : Option (α × α))) = none := by cases e a <;> rfl
      rw [e1] at this
      exact this
    | [a, b] => exact (h a).bind fun x _ => (h b).bind fun y _ => agrees_pure _
    | a :: b :: c :: l =>
      have := (h a).bind (f := fun x => d b >>= fun y => (.err : Load (α × α)))
        (g := fun _ => (e b).bind fun _ => none) fun x _ => (h b).bind fun y _ => agrees_err
      have e1 : ((e a).bind fun _ => (e b).bind fun _ => (none : Option (α × α))) = none := by
        cases e a <;> cases e b <;> rfl
      rw [e1] at this
      exact this
  | _ => exact .inr rfl

theorem agrees_guidStr (s : String) : Agrees (guidOfStrL s) (guidOfStr s) := by
  unfold guidOfStrL guidOfStr
  cases Guid.parse s.toList with
  | ok g => exact .inr rfl
  | bad f => exact .inl rfl

theorem agrees_guid (j : J) : Agrees j.getGuidL j.getGuid :=
  (agrees_lift _).bind fun s _ => agrees_guidStr s

theorem agrees_field {α : Type} {d : J → Load α} {e : J → Option α} (h : ∀ j, Agrees (d j) (e j))
    (es : List (String × J)) (k : String) : Agrees (fieldL es k d) (field es k e) :=
  (agrees_lift _).bind fun j _ => h j

theorem agrees_defaultField {α : Type} {d : J → Load α} {e : J → Option α}
    (h : ∀ j, Agrees (d j) (e j)) (es : List (String × J)) (k : String) (a : α) :
    Agrees (defaultFieldL es k a d) (defaultField es k a e) := by
  unfold defaultFieldL; rw [defaultField_eq]
  cases es.lookup k with
  | none => exact .inr rfl
  | some j => exact h j

/-! ## Visiting -/

/-- Apart from panics, a visitor errs only where the decoder fails. -/
def Errs {α : Type} (v : J → Load Unit) (e : J → Option α) : Prop := ∀ j, v j = .err → e j = none

theorem errs_plain {α : Type} (d : J → Option α) : Errs (plain d) d := by
  intro j h
  unfold plain at h
  cases hd : d j with
  | none => rfl
  | some a => rw [hd] at h; cases h

theorem errs_seen {α : Type} {d : J → Load α} {e : J → Option α} (h : ∀ j, Agrees (d j) (e j)) :
    Errs (seen d) e := by
  intro j hj
  unfold seen at hj
  rcases h j with h | h
  · rw [h] at hj; cases hj
  · rw [h] at hj
    cases he : e j with
    | none => rfl
    | some a => rw [he] at hj; cases hj

theorem lookup_filter_ne {β : Type} {known : List (String × β)} {k k' : String} {d : β}
    (h : (known.filter fun x => x.1 != k').lookup k = some d) :
    known.lookup k = some d ∧ k ≠ k' := by
  induction known with
  | nil => cases h
  | cons x l ih =>
    rw [List.filter_cons] at h
    split at h
    · rename_i hx
      rw [List.lookup_cons] at h ⊢
      split at h
      · rename_i hk
        have hk : k = x.1 := by simpa using hk
        subst hk
        exact ⟨by simpa using h, by simpa using hx⟩
      · rename_i hk
        exact ih h
    · rename_i hx
      have hx : x.1 = k' := by simpa using hx
      obtain ⟨h1, h2⟩ := ih h
      refine ⟨?_, h2⟩
      rw [List.lookup_cons]
      have : (k == x.1) = false := by simp [hx, h2]
      simp only [this, h1]

theorem visit_err {known : List (String × (J → Load Unit))} {es : List (String × J)}
    (h : visit known es = .err) :
    ∃ k d j, known.lookup k = some d ∧ es.lookup k = some j ∧ d j = .err := by
  induction es generalizing known with
  | nil => cases h
  | cons e es ih =>
    unfold visit at h
    split at h
    · rename_i d hd
      cases hv : d e.2 with
      | err => exact ⟨e.1, d, e.2, hd, by rw [List.lookup_cons]; simp, hv⟩
      | panic => rw [hv] at h; cases h
      | ok u =>
        rw [hv] at h
        obtain ⟨k, d', j, h1, h2, h3⟩ := ih h
        obtain ⟨h1, hne⟩ := lookup_filter_ne h1
        refine ⟨k, d', j, h1, ?_, h3⟩
        rw [List.lookup_cons]
        have : (k == e.1) = false := by simp [hne]
        simp only [this, h2]
    · rename_i hd
      obtain ⟨k, d', j, h1, h2, h3⟩ := ih h
      refine ⟨k, d', j, h1, ?_, h3⟩
      rw [List.lookup_cons]
      have : (k == e.1) = false := by
        simp only [beq_eq_false_iff_ne]
        rintro rfl
        rw [hd] at h1; cases h1
      simp only [this, h2]

theorem mem_of_lookup {β : Type} {l : List (String × β)} {k : String} {b : β}
    (h : l.lookup k = some b) : (k, b) ∈ l := by
  induction l with
  | nil => cases h
  | cons x l ih =>
    rw [List.lookup_cons] at h
    split at h
    · rename_i hk
      have hk : k = x.1 := by simpa using hk
      cases h
      exact List.mem_cons.2 (.inl (by rw [hk]))
    · exact List.mem_cons.2 (.inr (ih h))

/-- Visiting first changes nothing apart from panics, if the decoder needs every entry visited. -/
theorem agrees_visit {α : Type} {known : List (String × (J → Load Unit))} {es : List (String × J)}
    {m : Load α} {o : Option α} (hm : Agrees m o)
    (hk : ∀ x ∈ known, ∀ j, es.lookup x.1 = some j → x.2 j = .err → o = none) :
    Agrees (visit known es >>= fun _ => m) o := by
  cases hv : visit known es with
  | ok u => exact hm
  | panic => exact .inl rfl
  | err =>
    obtain ⟨k, d, j, h1, h2, h3⟩ := visit_err hv
    rw [hk (k, d) (mem_of_lookup h1) j h2 h3]
    exact .inr rfl

theorem agrees_visitFields {α : Type} {known : List (String × (J → Load Unit))} {j : J}
    {m : List (String × J) → Load α} {o : List (String × J) → Option α}
    (hm : ∀ es, Agrees (m es) (o es))
    (hk : ∀ es, ∀ x ∈ known, ∀ j, es.lookup x.1 = some j → x.2 j = .err → o es = none) :
    Agrees (j.visitFields known >>= m) ((j.getFields (known.map Prod.fst)).bind o) := by
  cases j with
  | obj l =>
    have := agrees_visit (es := l) (hm l) (hk l)
    cases hv : visit known l with
    | ok u => rw [hv] at this; simp only [J.visitFields, hv]; exact this
    | panic => simp only [J.visitFields, hv]; exact .inl rfl
    | err => rw [hv] at this; simp only [J.visitFields, hv]; exact this
  | arr l =>
    have := agrees_visit (es := (known.map Prod.fst).zip l) (hm _) (hk _)
    by_cases hl : l.length = (known.map Prod.fst).length
    · have e : (J.arr l).getFields (known.map Prod.fst) = some ((known.map Prod.fst).zip l) := by
        unfold J.getFields; exact if_pos hl
      simp only [J.visitFields, e]
      cases hv : visit known ((known.map Prod.fst).zip l) with
      | ok u => rw [hv] at this; exact this
      | panic => exact .inl rfl
      | err => rw [hv] at this; exact this
    · have e : (J.arr l).getFields (known.map Prod.fst) = none := by
        unfold J.getFields; exact if_neg hl
      simp only [J.visitFields, e]
      cases hv : visit known ((known.map Prod.fst).zip l) with
      | ok u => exact .inr rfl
      | panic => exact .inl rfl
      | err => exact .inr rfl
  | _ => exact .inr rfl

/-! ## The types of the crate -/

variable {rec : J → Load Property} {rec' : J → Option Property}

theorem agrees_variant (h : ∀ j, Agrees (rec j) (rec' j)) (k : String) (j : J) :
    Agrees (StructPropertyValue.ofVariantL rec k j) (StructPropertyValue.ofVariant rec' k j) := by
  unfold StructPropertyValue.ofVariantL
  by_cases h1 : k = "Guid"
  · subst h1
    exact (agrees_guid j).map
  · by_cases h2 : k = "CustomStruct"
    · subst h2
      exact (agrees_strMap (fun j => agrees_arr h j) j).map
    · rw [if_neg h1, if_neg h2]
      have : StructPropertyValue.ofVariant (fun _ => none) k j =
          StructPropertyValue.ofVariant rec' k j := by
        unfold StructPropertyValue.ofVariant
        simp only [if_neg h2]
      rw [this]
      exact agrees_lift _

theorem agrees_structJ (h : ∀ j, Agrees (rec j) (rec' j)) (j : J) :
    Agrees (StructPropertyValue.ofJL rec j) (StructPropertyValue.ofJ rec' j) := by
  match j with
  | .obj [(k, j)] => exact agrees_variant h k j
  | .obj [] | .obj (_ :: _ :: _) | .null | .bool _ | .int _ | .float _ | .str _ | .arr _ =>
    exact .inr rfl

theorem agrees_structFlat (h : ∀ j, Agrees (rec j) (rec' j)) (es : List (String × J)) :
    Agrees (StructPropertyValue.ofFlatL rec es) (StructPropertyValue.ofFlat rec' es) :=
  (agrees_lift _).bind fun _ _ => agrees_variant h _ _

theorem field_none {α : Type} {es : List (String × J)} {k : String} {d : J → Option α} {j : J}
    (h : es.lookup k = some j) (hd : d j = none) : field es k d = none := by
  rw [field_eq, h]; exact hd

theorem defaultField_none {α : Type} {es : List (String × J)} {k : String} {d : J → Option α} {j : J}
    {a : α} (h : es.lookup k = some j) (hd : d j = none) : defaultField es k a d = none := by
  rw [defaultField_eq, h]; exact hd

theorem bind_none {α β : Type} (o : Option α) : (o.bind fun _ => (none : Option β)) = none := by
  cases o <;> rfl

theorem agrees_structs (h : ∀ j, Agrees (rec j) (rec' j)) (es : List (String × J)) :
    Agrees (ArrayProperty.structsL rec es) (do
      return .structs (← field es "field_name" J.getStr) (← field es "type_name" J.getStr)
        (← defaultField es "guid" (Guid.fromU128 0) J.getGuid)
        (← field es "structs" (J.getArr (StructPropertyValue.ofJ rec')))) := by
  have hs : ∀ j, Agrees (J.getArrL (StructPropertyValue.ofJL rec) j)
    (J.getArr (StructPropertyValue.ofJ rec') j) := fun j => agrees_arr (agrees_structJ h) j
  refine agrees_visit ((agrees_lift _).bind fun a _ => (agrees_lift _).bind fun b _ =>
    (agrees_defaultField agrees_guid es _ _).bind fun c _ =>
    (agrees_field hs es _).bind fun d _ => agrees_pure _) ?_
  simp only [List.forall_mem_cons, List.not_mem_nil, false_implies, implies_true, and_true]
  refine ⟨fun j hj he => ?_, fun j hj he => ?_, fun j hj he => ?_, fun j hj he => ?_⟩
  · simp only [field_none hj (errs_plain J.getStr j he)]; rfl
  · simp only [field_none hj (errs_plain J.getStr j he)]; exact bind_none _
  · simp only [defaultField_none hj (errs_seen agrees_guid j he)]
    show Option.bind _ _ = none
    cases field es "field_name" J.getStr <;> cases field es "type_name" J.getStr <;> rfl
  · simp only [field_none hj (errs_seen hs j he)]
    show Option.bind _ _ = none
    cases field es "field_name" J.getStr <;> cases field es "type_name" J.getStr <;>
      cases defaultField es "guid" (Guid.fromU128 0) J.getGuid <;> rfl

theorem agrees_arrayProperties (h : ∀ j, Agrees (rec j) (rec' j)) (es : List (String × J)) :
    Agrees (ArrayProperty.propertiesL rec es) (do
      return .properties (← field es "property_type" J.getStr)
        (← field es "properties" (J.getArr rec'))) := by
  have hs : ∀ j, Agrees (J.getArrL rec j) (J.getArr rec' j) := fun j => agrees_arr h j
  refine agrees_visit ((agrees_lift _).bind fun a _ => (agrees_field hs es _).bind fun d _ =>
    agrees_pure _) ?_
  simp only [List.forall_mem_cons, List.not_mem_nil, false_implies, implies_true, and_true]
  refine ⟨fun j hj he => ?_, fun j hj he => ?_⟩
  · simp only [field_none hj (errs_plain J.getStr j he)]; rfl
  · simp only [field_none hj (errs_seen hs j he)]; exact bind_none _

theorem agrees_array (h : ∀ j, Agrees (rec j) (rec' j)) (es : List (String × J)) :
    Agrees (ArrayProperty.ofEntriesL rec es) (ArrayProperty.ofEntries rec' es) := by
  unfold ArrayProperty.ofEntriesL ArrayProperty.ofEntries
  exact (agrees_lift _).orElse <| (agrees_lift _).orElse <| (agrees_lift _).orElse <|
    (agrees_lift _).orElse <| (agrees_lift _).orElse <| (agrees_lift _).orElse <|
    (agrees_lift _).orElse <| (agrees_structs h es).orElse <| agrees_arrayProperties h es

theorem agrees_typed (h : ∀ j, Agrees (rec j) (rec' j)) (key : String)
    (f : String → List (String × Property) → MapProperty) (es : List (String × J)) :
    Agrees (MapProperty.typedL rec key f es) (do
      return f (← field es "value_type" J.getStr) (← field es key (J.getStrMap rec'))) := by
  have hs : ∀ j, Agrees (J.getStrMapL rec j) (J.getStrMap rec' j) := fun j => agrees_strMap h j
  refine agrees_visit ((agrees_lift _).bind fun a _ => (agrees_field hs es _).bind fun d _ =>
    agrees_pure _) ?_
  simp only [List.forall_mem_cons, List.not_mem_nil, false_implies, implies_true, and_true]
  refine ⟨fun j hj he => ?_, fun j hj he => ?_⟩
  · simp only [field_none hj (errs_plain J.getStr j he)]; rfl
  · simp only [field_none hj (errs_seen hs j he)]; exact bind_none _

theorem agrees_mapProperties (h : ∀ j, Agrees (rec j) (rec' j)) (es : List (String × J)) :
    Agrees (MapProperty.propertiesL rec es) (do
      return .properties (← field es "key_type" J.getStr) (← field es "value_type" J.getStr)
        (← field es "allocation_flags" J.getU32)
        (imExtend sameKey [] (← field es "value" (J.getArr (J.getPair rec'))))) := by
  have hs : ∀ j, Agrees (J.getArrL (J.getPairL rec) j) (J.getArr (J.getPair rec') j) :=
    fun j => agrees_arr (agrees_pair h) j
  refine agrees_visit ((agrees_lift _).bind fun a _ => (agrees_lift _).bind fun b _ =>
    (agrees_lift _).bind fun c _ => (agrees_field hs es _).bind fun d _ => agrees_pure _) ?_
  simp only [List.forall_mem_cons, List.not_mem_nil, false_implies, implies_true, and_true]
  refine ⟨fun j hj he => ?_, fun j hj he => ?_, fun j hj he => ?_, fun j hj he => ?_⟩
  · simp only [field_none hj (errs_plain J.getStr j he)]; rfl
  · simp only [field_none hj (errs_plain J.getStr j he)]; exact bind_none _
  · simp only [field_none hj (errs_plain J.getU32 j he)]
    show Option.bind _ _ = none
    cases field es "key_type" J.getStr <;> cases field es "value_type" J.getStr <;> rfl
  · simp only [field_none hj (errs_seen hs j he)]
    show Option.bind _ _ = none
    cases field es "key_type" J.getStr <;> cases field es "value_type" J.getStr <;>
      cases field es "allocation_flags" J.getU32 <;> rfl

theorem agrees_mapProperty (h : ∀ j, Agrees (rec j) (rec' j)) (es : List (String × J)) :
    Agrees (MapProperty.ofEntriesL rec es) (MapProperty.ofEntries rec' es) := by
  unfold MapProperty.ofEntriesL MapProperty.ofEntries
  exact (agrees_lift _).orElse <| (agrees_lift _).orElse <| (agrees_typed h _ _ es).orElse <|
    (agrees_lift _).orElse <| (agrees_lift _).orElse <| (agrees_typed h _ _ es).orElse <|
    (agrees_mapProperties h es).orElse <| (agrees_lift _).orElse <| (agrees_lift _).orElse <|
    (agrees_typed h _ _ es).orElse <| agrees_lift _

theorem agrees_set (h : ∀ j, Agrees (rec j) (rec' j)) (j : J) :
    Agrees (Property.setL rec j)
      ((j.getFields ["property_type", "allocation_flags", "properties"]).bind fun es => do
        return .set (← field es "property_type" J.getStr) (← field es "allocation_flags" J.getU32)
          (← field es "properties" (J.getArr rec'))) := by
  have hs : ∀ j, Agrees (J.getArrL rec j) (J.getArr rec' j) := fun j => agrees_arr h j
  refine agrees_visitFields (fun es => (agrees_lift _).bind fun a _ => (agrees_lift _).bind fun b _ =>
    (agrees_field hs es _).bind fun d _ => agrees_pure _) fun es => ?_
  simp only [List.forall_mem_cons, List.not_mem_nil, false_implies, implies_true, and_true]
  refine ⟨fun j hj he => ?_, fun j hj he => ?_, fun j hj he => ?_⟩
  · simp only [field_none hj (errs_plain J.getStr j he)]; rfl
  · simp only [field_none hj (errs_plain J.getU32 j he)]; exact bind_none _
  · simp only [field_none hj (errs_seen hs j he)]
    show Option.bind _ _ = none
    cases field es "property_type" J.getStr <;> cases field es "allocation_flags" J.getU32 <;> rfl

theorem agrees_struct (h : ∀ j, Agrees (rec j) (rec' j)) (es : List (String × J)) :
    Agrees (Property.structL rec es) (do
      return .struct (← defaultField es "guid" (Guid.fromU128 0) J.getGuid)
        (← field es "type_name" J.getStr) (← StructPropertyValue.ofFlat rec' es)) := by
  refine agrees_visit ((agrees_defaultField agrees_guid es _ _).bind fun a _ =>
    (agrees_lift _).bind fun b _ => (agrees_structFlat h es).bind fun d _ => agrees_pure _) ?_
  simp only [List.forall_mem_cons, List.not_mem_nil, false_implies, implies_true, and_true]
  refine ⟨fun j hj he => ?_, fun j hj he => ?_⟩
  · simp only [defaultField_none hj (errs_seen agrees_guid j he)]; rfl
  · simp only [field_none hj (errs_plain J.getStr j he)]; exact bind_none _

theorem getTagged_eq (key : String) (tagOf : J → Option String)
    (names : String → Option (List String)) (j : J) : j.getTagged key tagOf names =
      (j.splitTag key tagOf).bind fun p => (p.2.behind (names p.1)).map (p.1, ·) := by
  match j with
  | .obj es =>
    simp only [getTagged_obj, J.splitTag]
    cases es.lookup key with
    | none => rfl
    | some t => cases ht : tagOf t <;> simp [ht, J.behind]
  | .arr [] => rfl
  | .arr (t :: l) =>
    simp only [J.getTagged, J.splitTag]
    cases tagOf t with
    | none => rfl
    | some tag =>
      simp only [Option.bind_some, Option.map_some, J.behind]
      cases names tag <;> rfl
  | .null | .bool _ | .int _ | .float _ | .str _ => rfl

theorem ofTag_plain {text : List (String × J) → Option FText} {rec rec' : J → Option Property}
    {es : List (String × J)} {tag : String} (h1 : tag ≠ "ArrayProperty") (h2 : tag ≠ "MapProperty")
    (h3 : tag ≠ "SetProperty") (h4 : tag ≠ "StructProperty") (h5 : tag ≠ "StructPropertyValue") :
    Property.ofTag text rec es tag = Property.ofTag text rec' es tag := by
  unfold Property.ofTag
  simp only [if_neg h1, if_neg h2, if_neg h3, if_neg h4, if_neg h5]

theorem entries_eq (rest : J) (tag : String) (h : propertyFields tag = none) :
    rest.behind (propertyFields tag) = rest.getEntries := by
  cases rest <;> simp [J.behind, J.getEntries, h]

theorem agrees_tag (h : ∀ j, Agrees (rec j) (rec' j)) (text : List (String × J) → Option FText)
    (rest : J) (tag : String) : Agrees (Property.ofTagL text rec rest tag)
      ((rest.behind (propertyFields tag)).bind fun es => Property.ofTag text rec' es tag) := by
  unfold Property.ofTagL
  by_cases h1 : tag = "ArrayProperty"
  · subst h1
    rw [if_pos rfl, entries_eq _ _ (by decide)]
    exact (agrees_lift _).bind fun es _ => (agrees_array h es).bind fun a _ => agrees_pure _
  rw [if_neg h1]
  by_cases h2 : tag = "MapProperty"
  · subst h2
    rw [if_pos rfl, entries_eq _ _ (by decide)]
    exact (agrees_lift _).bind fun es _ => (agrees_mapProperty h es).bind fun a _ => agrees_pure _
  rw [if_neg h2]
  by_cases h3 : tag = "SetProperty"
  · subst h3
    rw [if_pos rfl]
    have e : rest.behind (propertyFields "SetProperty") =
        rest.getFields ["property_type", "allocation_flags", "properties"] := by
      cases rest <;> rfl
    rw [e]
    exact agrees_set h rest
  rw [if_neg h3]
  by_cases h4 : tag = "StructProperty"
  · subst h4
    rw [if_pos rfl, entries_eq _ _ (by decide)]
    exact (agrees_lift _).bind fun es _ => agrees_struct h es
  rw [if_neg h4]
  by_cases h5 : tag = "StructPropertyValue"
  · subst h5
    rw [if_pos rfl, entries_eq _ _ (by decide)]
    exact (agrees_lift _).bind fun es _ => (agrees_structJ h _).bind fun a _ => agrees_pure _
  rw [if_neg h5]
  refine (agrees_lift _).bind fun es _ => ?_
  rw [ofTag_plain (rec' := rec') h1 h2 h3 h4 h5]
  exact agrees_lift _

theorem agrees_step (h : ∀ j, Agrees (rec j) (rec' j)) (tagOf : J → Option String)
    (text : List (String × J) → Option FText) (j : J) :
    Agrees (Property.ofJStepL tagOf text rec j) (Property.ofJStep tagOf text rec' j) := by
  unfold Property.ofJStepL Property.ofJStep
  rw [getTagged_eq, Option.bind_assoc]
  refine (agrees_lift _).bind fun p _ => ?_
  have := agrees_tag h text p.2 p.1
  cases hb : p.2.behind (propertyFields p.1) <;> rw [hb] at this <;> exact this

theorem agrees_property (n : Nat) (j : J) : Agrees (Property.ofJL n j) (Property.ofJ n j) := by
  induction n generalizing j with
  | zero => exact .inr rfl
  | succ n ih => exact agrees_step ih _ _ j

theorem agrees_propertyJson (n : Nat) (j : J) :
    Agrees (Property.ofJsonL n j) (Property.ofJson n j) := by
  cases n with
  | zero => exact .inr rfl
  | succ n => exact agrees_step (agrees_property n) _ _ j

theorem agrees_customVersions (j : J) : Agrees j.getCustomVersionsL j.getCustomVersions :=
  agrees_map agrees_guidStr (fun _ => agrees_lift _) j

theorem agrees_headerTag (rest : J) (tag : String) : Agrees (GvasHeader.ofTagL rest tag)
    ((rest.behind (headerFields tag)).bind fun es => GvasHeader.ofTag es tag) := by
  unfold GvasHeader.ofTagL
  by_cases h1 : tag = "Version2"
  · subst h1
    rw [if_pos rfl]
    have e : rest.behind (headerFields "Version2") = rest.getFields ["package_file_version",
        "engine_version", "custom_version_format", "custom_versions", "save_game_class_name"] := by
      cases rest <;> rfl
    rw [e]
    refine agrees_visitFields (fun es => (agrees_lift _).bind fun _ _ => (agrees_lift _).bind
      fun _ _ => (agrees_lift _).bind fun _ _ => (agrees_field agrees_customVersions es _).bind
      fun _ _ => (agrees_lift _).bind fun _ _ => agrees_pure _) fun es => ?_
    simp only [List.forall_mem_cons, List.not_mem_nil, false_implies, implies_true, and_true]
    unfold GvasHeader.ofTag
    rw [if_pos rfl]
    refine ⟨fun j hj he => ?_, fun j hj he => ?_, fun j hj he => ?_, fun j hj he => ?_,
      fun j hj he => ?_⟩
    · simp only [field_none hj (errs_plain J.getU32 j he)]; rfl
    · simp only [field_none hj (errs_plain J.getEngineVersion j he)]; exact bind_none _
    · simp only [field_none hj (errs_plain J.getU32 j he)]
      show Option.bind _ _ = none
      cases field es "package_file_version" J.getU32 <;>
        cases field es "engine_version" J.getEngineVersion <;> rfl
    · simp only [field_none hj (errs_seen agrees_customVersions j he)]
      show Option.bind _ _ = none
      cases field es "package_file_version" J.getU32 <;>
        cases field es "engine_version" J.getEngineVersion <;>
        cases field es "custom_version_format" J.getU32 <;> rfl
    · simp only [field_none hj (errs_plain J.getStr j he)]
      show Option.bind _ _ = none
      cases field es "package_file_version" J.getU32 <;>
        cases field es "engine_version" J.getEngineVersion <;>
        cases field es "custom_version_format" J.getU32 <;>
        cases field es "custom_versions" J.getCustomVersions <;> rfl
  rw [if_neg h1]
  by_cases h2 : tag = "Version3"
  · subst h2
    rw [if_pos rfl]
    have e : rest.behind (headerFields "Version3") = rest.getFields ["package_file_version",
        "package_file_version_ue5", "engine_version", "custom_version_format", "custom_versions",
        "save_game_class_name"] := by
      cases rest <;> rfl
    rw [e]
    refine agrees_visitFields (fun es => (agrees_lift _).bind fun _ _ => (agrees_lift _).bind
      fun _ _ => (agrees_lift _).bind fun _ _ => (agrees_lift _).bind fun _ _ =>
      (agrees_field agrees_customVersions es _).bind
      fun _ _ => (agrees_lift _).bind fun _ _ => agrees_pure _) fun es => ?_
    simp only [List.forall_mem_cons, List.not_mem_nil, false_implies, implies_true, and_true]
    unfold GvasHeader.ofTag
    rw [if_neg (by decide), if_pos rfl]
    refine ⟨fun j hj he => ?_, fun j hj he => ?_, fun j hj he => ?_, fun j hj he => ?_,
      fun j hj he => ?_, fun j hj he => ?_⟩
    · simp only [field_none hj (errs_plain J.getU32 j he)]; rfl
    · simp only [field_none hj (errs_plain J.getU32 j he)]; exact bind_none _
    · simp only [field_none hj (errs_plain J.getEngineVersion j he)]
      show Option.bind _ _ = none
      cases field es "package_file_version" J.getU32 <;>
        cases field es "package_file_version_ue5" J.getU32 <;> rfl
    · simp only [field_none hj (errs_plain J.getU32 j he)]
      show Option.bind _ _ = none
      cases field es "package_file_version" J.getU32 <;>
        cases field es "package_file_version_ue5" J.getU32 <;>
        cases field es "engine_version" J.getEngineVersion <;> rfl
    · simp only [field_none hj (errs_seen agrees_customVersions j he)]
      show Option.bind _ _ = none
      cases field es "package_file_version" J.getU32 <;>
        cases field es "package_file_version_ue5" J.getU32 <;>
        cases field es "engine_version" J.getEngineVersion <;>
        cases field es "custom_version_format" J.getU32 <;> rfl
    · simp only [field_none hj (errs_plain J.getStr j he)]
      show Option.bind _ _ = none
      cases field es "package_file_version" J.getU32 <;>
        cases field es "package_file_version_ue5" J.getU32 <;>
        cases field es "engine_version" J.getEngineVersion <;>
        cases field es "custom_version_format" J.getU32 <;>
        cases field es "custom_versions" J.getCustomVersions <;> rfl
  rw [if_neg h2]
  have : ((rest.behind (headerFields tag)).bind fun es => GvasHeader.ofTag es tag) = none := by
    cases rest.behind (headerFields tag) with
    | none => rfl
    | some es => simp only [Option.bind_some, GvasHeader.ofTag, if_neg h1, if_neg h2]
  rw [this]
  exact .inr rfl

theorem agrees_header (j : J) : Agrees (GvasHeader.ofJL j) (GvasHeader.ofJ j) := by
  unfold GvasHeader.ofJL GvasHeader.ofJ
  rw [getTagged_eq, Option.bind_assoc]
  refine (agrees_lift _).bind fun p _ => ?_
  have := agrees_headerTag p.2 p.1
  cases hb : p.2.behind (headerFields p.1) <;> rw [hb] at this <;> exact this

theorem agrees_file (j : J) : Agrees (GvasFile.load j) (GvasFile.ofJson j) := by
  have hp : ∀ k, Agrees (J.getStrMapL (Property.ofJsonL j.depth) k)
    (J.getStrMap (Property.ofJson j.depth) k) := fun k => agrees_strMap (agrees_propertyJson _) k
  refine agrees_visitFields (fun es => (agrees_lift _).bind fun _ _ =>
    (agrees_field agrees_header es _).bind fun _ _ => (agrees_field hp es _).bind fun _ _ =>
    agrees_pure _) fun es => ?_
  simp only [List.forall_mem_cons, List.not_mem_nil, false_implies, implies_true, and_true]
  refine ⟨fun j hj he => ?_, fun j hj he => ?_, fun j hj he => ?_⟩
  · simp only [defaultField_none hj (errs_plain J.getGameVersion j he)]; rfl
  · simp only [field_none hj (errs_seen agrees_header j he)]; exact bind_none _
  · simp only [field_none hj (errs_seen hp j he)]
    show Option.bind _ _ = none
    cases defaultField es "deserialized_game_version" .default J.getGameVersion <;>
      cases field es "header" GvasHeader.ofJ <;> rfl

end Load

end Gvas
