import Verif.Lemmas.LayoutDepth
import Verif.Lemmas.JsonSkip
import Verif.Lemmas.JsonWrite

/-! # Lemmas: loading JSON in which no name is repeated -/

namespace Gvas.Once

open Spec Layout

variable {α β κ : Type}

/-- Fields as they are read from text. -/
abbrev U : FieldJ := ⟨uniqueField⟩

/-- Fields as they are read from a `Value`. -/
abbrev V : FieldJ := instFieldJ

theorem filter_none {es : Fields} {k : String} (h : k ∉ es.map Prod.fst) :
    es.filter (fun e => e.1 == k) = [] := by
  rw [List.filter_eq_nil_iff]
  intro e he hk
  rw [beq_iff_eq] at hk
  exact h (hk ▸ List.mem_map_of_mem he)

theorem uniqueField_eq {es : Fields} (h : (es.map Prod.fst).Nodup) (k : String) :
    uniqueField es k = some (es.lookup k) := by
  induction es with
  | nil => rfl
  | cons e es ih =>
    obtain ⟨a, j⟩ := e
    simp only [List.map_cons, List.nodup_cons] at h
    unfold uniqueField at *
    by_cases hk : a = k
    · subst hk
      rw [List.filter_cons_of_pos (by simp), filter_none h.1]
      simp
    · rw [List.filter_cons_of_neg (by simpa using hk), ih h.2, List.lookup_cons]
      have : (k == a) = false := by simpa using fun h => hk h.symm
      rw [this]

instance : @FieldIn U := by
  refine @FieldIn.mk U ?_
  intro es k j h
  have h : uniqueField es k = some (some j) := h
  unfold uniqueField at h
  split at h
  · cases h
  · rename_i e he
    cases h
    have : e ∈ es.filter fun e => e.1 == k := by rw [he]; simp
    rw [List.mem_filter, beq_iff_eq] at this
    obtain ⟨h1, rfl⟩ := this
    exact h1
  · cases h

/-- The readers agree on JSON in which no name is repeated. -/
def Agrees (d d' : J → Option α) : Prop := ∀ j, NamesOnce j → d j = d' j

theorem items_mem {l : List J} (h : ItemsOnce l) {j : J} (hj : j ∈ l) : NamesOnce j := by
  induction l with
  | nil => cases hj
  | cons x l ih =>
    rcases List.mem_cons.mp hj with rfl | hj
    · exact h.1
    · exact ih h.2 hj

theorem entries_mem {l : Fields} (h : EntriesOnce l) {e : String × J} (he : e ∈ l) :
    NamesOnce e.2 := by
  induction l with
  | nil => cases he
  | cons x l ih =>
    obtain ⟨k, j⟩ := x
    simp only [EntriesOnce] at h
    rcases List.mem_cons.mp he with rfl | he
    · exact h.1
    · exact ih h.2 he

theorem entries_of {l : Fields} (h : ∀ e ∈ l, NamesOnce e.2) : EntriesOnce l := by
  induction l with
  | nil => trivial
  | cons x l ih =>
    obtain ⟨k, j⟩ := x
    exact ⟨h (k, j) (by simp), ih fun e he => h e (by simp [he])⟩

section

variable {es : Fields} (h : NamesOnce (.obj es))

include h

theorem get_same (k : String) : U.get es k = V.get es k := uniqueField_eq h.1 k

theorem field_same (k : String) (d : J → Option α) : @field U α es k d = field es k d := by
  unfold field; rw [get_same h]

theorem optField_same (k : String) (d : J → Option α) :
    @optField U α es k d = optField es k d := by
  unfold optField; rw [get_same h]

theorem defaultField_same (k : String) (a : α) (d : J → Option α) :
    @defaultField U α es k a d = defaultField es k a d := by
  unfold defaultField; rw [get_same h]

theorem lookup_once {k : String} {j : J} (hl : es.lookup k = some j) : NamesOnce j :=
  entries_mem h.2 (mem_of_lookup hl)

theorem field_agree {k : String} {d d' : J → Option α} (hd : Agrees d d') :
    field es k d = field es k d' := by
  rw [field_eq, field_eq]
  cases hl : es.lookup k with
  | none => rfl
  | some j => exact hd j (lookup_once h hl)

theorem optField_agree {k : String} {d d' : J → Option α} (hd : Agrees d d') :
    optField es k d = optField es k d' := by
  rw [optField_eq, optField_eq]
  cases hl : es.lookup k with
  | none => rfl
  | some j =>
    have := hd j (lookup_once h hl)
    cases j <;> simp only [J.getOpt, this]

end

theorem zip_once {names : List String} (hn : names.Nodup) {l : List J} (hl : ItemsOnce l) :
    NamesOnce (.obj (names.zip l)) := by
  constructor
  · refine List.Nodup.sublist ?_ hn
    clear hn hl
    induction names generalizing l with
    | nil => simp
    | cons a names ih =>
      cases l with
      | nil => simp
      | cons j l => simpa using ih
  · exact entries_of fun e he => items_mem hl (List.of_mem_zip he).2

theorem getFields_once {names : List String} (hn : names.Nodup) {j : J} (h : NamesOnce j)
    {es : Fields} (he : j.getFields names = some es) : NamesOnce (.obj es) := by
  unfold J.getFields at he
  split at he
  · cases he; exact h
  · simp only [Option.ite_none_right_eq_some, Option.some.injEq] at he
    obtain ⟨-, rfl⟩ := he
    exact zip_once hn h
  · cases he

theorem bind_agree {o : Option Fields} {f g : Fields → Option α}
    (h : ∀ es, o = some es → f es = g es) : o.bind f = o.bind g := by
  cases o with
  | none => rfl
  | some es => exact h es rfl

theorem agrees_arr {d d' : J → Option α} (h : Agrees d d') :
    Agrees (J.getArr d) (J.getArr d') := by
  intro j hj
  cases j with
  | arr l => exact mapM_congr fun x hx => h x (items_mem hj hx)
  | _ => rfl

theorem agrees_strMap {d d' : J → Option α} (h : Agrees d d') :
    Agrees (J.getStrMap d) (J.getStrMap d') := by
  intro j hj
  cases j with
  | obj l =>
    unfold J.getStrMap J.getMap
    have : l.mapM (fun e => do return ((← some e.1 : String), ← d e.2)) =
        l.mapM (fun e => do return (← some e.1, ← d' e.2)) :=
      mapM_congr fun x hx => by rw [h x.2 (entries_mem hj.2 hx)]
    simp only [this]
  | _ => rfl

theorem agrees_pair {d d' : J → Option α} (h : Agrees d d') :
    Agrees (J.getPair d) (J.getPair d') := by
  intro j hj
  unfold J.getPair
  split
  · rw [h _ hj.1, h _ hj.2.1]
  · rfl

theorem agrees_arg {d d' : J → Option FText} (h : Agrees d d') :
    Agrees (FormatArgumentValue.ofJ d) (FormatArgumentValue.ofJ d') := by
  intro j hj
  unfold FormatArgumentValue.ofJ
  split
  · rw [h _ hj.2.1]
  · rfl

theorem agrees_options : Agrees (@J.getOptions U) J.getOptions := by
  intro j hj
  unfold J.getOptions
  cases j with
  | obj es => simp only [J.getEntries, Option.bind_eq_bind, Option.bind_some, field_same hj]
  | _ => rfl

theorem agrees_ticks : Agrees (@J.getTicks U) J.getTicks := by
  intro j hj
  unfold J.getTicks
  exact bind_agree fun es he => by
    simp only [field_same (getFields_once (by decide) hj he)]

theorem agrees_delegate : Agrees (@J.getDelegate U) J.getDelegate := by
  intro j hj
  unfold J.getDelegate
  exact bind_agree fun es he => by
    simp only [field_same (getFields_once (by decide) hj he)]

theorem agrees_multicast : Agrees (@J.getMulticast U) J.getMulticast := by
  intro j hj
  unfold J.getMulticast
  exact bind_agree fun es he => by
    have h := getFields_once (by decide) hj he
    simp only [field_same h, field_agree h (agrees_arr agrees_delegate)]

theorem agrees_fieldPath : Agrees (@J.getFieldPath U) J.getFieldPath := by
  intro j hj
  unfold J.getFieldPath
  exact bind_agree fun es he => by
    simp only [field_same (getFields_once (by decide) hj he)]

theorem agrees_get2 {d : J → Option α} {a b : String} (hn : [a, b].Nodup) (f : α → α → β) :
    Agrees (@J.get2 U _ _ d a b f) (J.get2 d a b f) := by
  intro j hj
  unfold J.get2
  exact bind_agree fun es he => by simp only [field_same (getFields_once hn hj he)]

theorem agrees_get3 {d : J → Option α} {a b c : String} (hn : [a, b, c].Nodup)
    (f : α → α → α → β) : Agrees (@J.get3 U _ _ d a b c f) (J.get3 d a b c f) := by
  intro j hj
  unfold J.get3
  exact bind_agree fun es he => by simp only [field_same (getFields_once hn hj he)]

theorem agrees_get4 {d : J → Option α} {a b c e : String} (hn : [a, b, c, e].Nodup)
    (f : α → α → α → α → β) : Agrees (@J.get4 U _ _ d a b c e f) (J.get4 d a b c e f) := by
  intro j hj
  unfold J.get4
  exact bind_agree fun es he => by simp only [field_same (getFields_once hn hj he)]

theorem history_agree {d d' : J → Option FText} (hd : Agrees d d') {es : Fields}
    (h : NamesOnce (.obj es)) :
    @FTextHistory.ofEntries U d es = FTextHistory.ofEntries d' es := by
  unfold FTextHistory.ofEntries
  rw [field_same h]
  refine congrArg _ (funext fun tag => ?_)
  simp only [FTextHistory.ofTag, field_same h, optField_same h, field_agree h hd,
    field_agree h (agrees_arg hd), field_agree h (agrees_arr (agrees_arg hd)),
    field_agree h (agrees_strMap (agrees_arg hd)), field_agree h agrees_ticks,
    optField_agree h agrees_options]

theorem text_agree : ∀ n es, NamesOnce (.obj es) →
    @FText.ofEntries U n es = FText.ofEntries n es
  | 0, _, _ => rfl
  | n + 1, es, h => by
    unfold FText.ofEntries
    have : Agrees (fun j => j.getEntries.bind (@FText.ofEntries U n))
        (fun j => j.getEntries.bind (FText.ofEntries n)) := by
      intro j hj
      cases j with
      | obj es' => exact text_agree n es' hj
      | _ => rfl
    simp only [defaultField_same h, history_agree this h]

theorem agrees_variant {d d' : J → Option Property} (hd : Agrees d d') (k : String) :
    Agrees (@StructPropertyValue.ofVariant U d k) (StructPropertyValue.ofVariant d' k) := by
  intro j hj
  unfold StructPropertyValue.ofVariant
  simp only [agrees_strMap (agrees_arr hd) j hj, agrees_ticks j hj,
    agrees_get2 (by decide : ["x", "y"].Nodup) _ j hj,
    agrees_get3 (by decide : ["x", "y", "z"].Nodup) _ j hj,
    agrees_get3 (by decide : ["pitch", "yaw", "roll"].Nodup) _ j hj,
    agrees_get4 (by decide : ["x", "y", "z", "w"].Nodup) _ j hj,
    agrees_get4 (by decide : ["r", "g", "b", "a"].Nodup) _ j hj]

theorem agrees_struct {d d' : J → Option Property} (hd : Agrees d d') :
    Agrees (@StructPropertyValue.ofJ U d) (StructPropertyValue.ofJ d') := by
  intro j hj
  unfold StructPropertyValue.ofJ
  split
  · exact agrees_variant hd _ _ hj.2.1
  · rfl

theorem filter_once {es : Fields} (h : NamesOnce (.obj es)) (p : String × J → Bool) :
    NamesOnce (.obj (es.filter p)) :=
  ⟨(List.filter_sublist.map _).nodup h.1,
    entries_of fun _ he => entries_mem h.2 ((List.mem_filter.mp he).1)⟩

theorem tag_agree {d d' : J → Option Property} (hd : Agrees d d') {es : Fields}
    (h : NamesOnce (.obj es)) (n : Nat) (tag : String) :
    @Property.ofTag U (@FText.ofEntries U n) d es tag =
      Property.ofTag (FText.ofEntries n) d' es tag := by
  have ha : @ArrayProperty.ofEntries U d es = ArrayProperty.ofEntries d' es := by
    simp only [ArrayProperty.ofEntries, field_same h, defaultField_same h,
      field_agree h (agrees_arr hd), field_agree h (agrees_arr (agrees_struct hd))]
  have hm : @MapProperty.ofEntries U d es = MapProperty.ofEntries d' es := by
    simp only [MapProperty.ofEntries, field_same h, field_agree h (agrees_strMap hd),
      field_agree h (agrees_arr (agrees_pair hd))]
  have hf : @StructPropertyValue.ofFlat U d es = StructPropertyValue.ofFlat d' es := by
    unfold StructPropertyValue.ofFlat
    cases hl : es.find? fun e => structVariants.contains e.1 with
    | none => rfl
    | some e => exact agrees_variant hd _ _ (entries_mem h.2 (List.mem_of_find?_eq_some hl))
  have hv := agrees_struct hd _ (filter_once h fun e => e.1 != "type")
  simp only [Property.ofTag, ha, hm, hf, hv, field_same h, optField_same h, defaultField_same h,
    field_agree h (agrees_arr hd), field_agree h agrees_delegate, field_agree h agrees_multicast,
    field_agree h agrees_fieldPath, text_agree n es h]

theorem tagged_agree {key : String} {tagOf : J → Option String}
    {names : String → Option (List String)} (hn : ∀ tag ns, names tag = some ns → ns.Nodup)
    {f g : String × Fields → Option α}
    (hfg : ∀ tag es, NamesOnce (.obj es) → f (tag, es) = g (tag, es)) {j : J} (hj : NamesOnce j) :
    (@J.getTagged U key tagOf names j).bind f = (j.getTagged key tagOf names).bind g := by
  unfold J.getTagged
  split
  · rename_i es
    rw [get_same hj]
    cases V.get es key with
    | none => rfl
    | some o =>
      cases o with
      | none => rfl
      | some t =>
        simp only [Option.bind_some]
        cases tagOf t with
        | none => rfl
        | some tag => exact hfg tag es hj
  · rename_i t l
    cases tagOf t with
    | none => rfl
    | some tag =>
      simp only [Option.bind_some]
      cases hns : names tag with
      | none => rfl
      | some ns =>
        simp only [Option.bind_some]
        cases he : (J.arr l).getFields ns with
        | none => rfl
        | some es => exact hfg tag es (getFields_once (hn tag ns hns) (j := .arr l) hj.2 he)
  · rfl

theorem propertyFields_once (tag : String) (ns : List String) (h : propertyFields tag = some ns) :
    ns.Nodup := by
  unfold propertyFields at h
  repeat' split at h
  all_goals first | cases h; done | (cases h; decide)

theorem headerFields_once (tag : String) (ns : List String) (h : headerFields tag = some ns) :
    ns.Nodup := by
  unfold headerFields at h
  split at h <;> cases h <;> decide

theorem agrees_step {d d' : J → Option Property} (hd : Agrees d d')
    (tagOf : J → Option String) (n : Nat) :
    Agrees (@Property.ofJStep U tagOf (@FText.ofEntries U n) d)
      (Property.ofJStep tagOf (FText.ofEntries n) d') := by
  intro j hj
  unfold Property.ofJStep
  exact tagged_agree propertyFields_once (fun tag es h => tag_agree hd h n tag) hj

theorem agrees_property : ∀ n, Agrees (@Property.ofJ U n) (Property.ofJ n)
  | 0 => fun _ _ => rfl
  | n + 1 => agrees_step (agrees_property n) _ _

theorem agrees_propertyJson : ∀ n, Agrees (@Property.ofJson U n) (Property.ofJson n)
  | 0 => fun _ _ => rfl
  | n + 1 => agrees_step (agrees_property n) _ _

theorem agrees_engine : Agrees (@J.getEngineVersion U) J.getEngineVersion := by
  intro j hj
  unfold J.getEngineVersion
  exact bind_agree fun es he => by
    simp only [field_same (getFields_once (by decide) hj he)]

theorem agrees_header : Agrees (@GvasHeader.ofJ U) GvasHeader.ofJ := by
  intro j hj
  unfold GvasHeader.ofJ
  refine tagged_agree headerFields_once (fun tag es h => ?_) hj
  simp only [GvasHeader.ofTag, field_same h, field_agree h agrees_engine]

/-- A file in which no name is repeated. -/
theorem ofRaw_eq {j : J} (hj : NamesOnce j) : GvasFile.ofRaw j = GvasFile.ofJson j := by
  unfold GvasFile.ofRaw GvasFile.ofJson
  refine bind_agree fun es he => ?_
  have h := getFields_once (by decide) hj he
  simp only [defaultField_same h, field_same h, field_agree h agrees_header,
    field_agree h (agrees_strMap (agrees_propertyJson _))]

/-! ## Entries that are no fields -/

theorem uniqueField_known (es : Fields) {k : String} (hk : k ∈ Text.fileFields) :
    uniqueField (Text.known es) k = uniqueField es k := by
  unfold uniqueField Text.known
  rw [List.filter_filter]
  have : (es.filter fun e => (e.1 == k) && decide (e.1 ∈ Text.fileFields)) =
      es.filter fun e => e.1 == k := by
    refine List.filter_congr fun e _ => ?_
    by_cases h : e.1 = k
    · simp [h, hk]
    · simp [h]
  rw [this]

theorem known_depth (es : Fields) : depthEntries (Text.known es) ≤ depthEntries es :=
  depth_filter _ es

/-- Entries of a file that are no fields do not matter. -/
theorem ofRaw_known (j : J) : GvasFile.ofRaw (Text.knownJ j) = GvasFile.ofRaw j := by
  cases j with
  | obj es =>
    unfold GvasFile.ofRaw GvasFile.ofJson Text.knownJ
    have h1 : ∀ {α : Type} {k : String} (d : J → Option α), k ∈ Text.fileFields →
        @field U α (Text.known es) k d = @field U α es k d := by
      intro α k d hk
      unfold field
      rw [show U.get (Text.known es) k = U.get es k from uniqueField_known es hk]
    have h2 : ∀ {α : Type} {k : String} (a : α) (d : J → Option α), k ∈ Text.fileFields →
        @defaultField U α (Text.known es) k a d = @defaultField U α es k a d := by
      intro α k a d hk
      unfold defaultField
      rw [show U.get (Text.known es) k = U.get es k from uniqueField_known es hk]
    have h3 : @field U _ (Text.known es) "properties"
          (J.getStrMap (@Property.ofJson U (J.obj (Text.known es)).depth)) =
        @field U _ (Text.known es) "properties"
          (J.getStrMap (@Property.ofJson U (J.obj es).depth)) := by
      refine @field_congr _ U _ (depthEntries (Text.known es)) _ _ _ _ ?_ (Nat.le_refl _)
      refine agree_strMap fun j hj => ?_
      have := known_depth es
      exact @property_json_enough U _ _ _ j (by simp only [J.depth]; omega)
        (by simp only [J.depth]; omega)
    simp only [J.getFields, Option.bind_eq_bind, Option.bind_some]
    rw [h3, h1 _ (by decide), h1 _ (by decide), h2 _ _ (by decide)]
  | _ => rfl

/-! ## Values without repeated names -/

mutual
theorem merge_once : ∀ j : J, NamesOnce j → j.merge = j
  | .arr l, h => by rw [J.merge, mergeList_once l h]
  | .obj l, h => by rw [J.merge, mergeEntries_once l h.2, imExtend_nodup h.1]
  | .null, _ => rfl
  | .bool _, _ => rfl
  | .int _, _ => rfl
  | .float _, _ => rfl
  | .str _, _ => rfl
theorem mergeList_once : ∀ l : List J, ItemsOnce l → mergeList l = l
  | [], _ => rfl
  | j :: l, h => by rw [mergeList, merge_once j h.1, mergeList_once l h.2]
theorem mergeEntries_once : ∀ l : List (String × J), EntriesOnce l → mergeEntries l = l
  | [], _ => rfl
  | (k, j) :: l, h => by rw [mergeEntries, merge_once j h.1, mergeEntries_once l h.2]
end

theorem ofRaw_scalar {j : J} (h : j.depth = 0) : GvasFile.ofRaw j = none := by
  cases j <;> first | rfl | simp [J.depth] at h

end Gvas.Once

namespace Gvas.Text

open Spec Spec.Rfc8259 Sd

mutual
theorem toJ_once (num : F32 → F64) : ∀ s : Ser, Fine s → NamesOnce (s.toJ num)
  | .null, _ | .bool _, _ | .int _, _ | .str _, _ => trivial
  | .f32 f, _ => by simp only [Ser.toJ]; split <;> trivial
  | .f64 f, _ => by simp only [Ser.toJ]; split <;> trivial
  | .arr l, h => list_once num l h
  | .obj l, h => ⟨by rw [serEntries_keys]; exact h.1, entries_once num l h.2⟩
theorem list_once (num : F32 → F64) : ∀ l : List Ser, FineList l → ItemsOnce (serList num l)
  | [], _ => trivial
  | a :: l, h => ⟨toJ_once num a h.1, list_once num l h.2⟩
theorem entries_once (num : F32 → F64) : ∀ l : List (String × Ser), FineEntries l →
    EntriesOnce (serEntries num l)
  | [], _ => trivial
  | (_, a) :: l, h => ⟨toJ_once num a h.1, entries_once num l h.2⟩
end

/-- A file from text that stands for a value. -/
theorem ofStr_document {s : String} {r : J} (h : Document s.toList r) :
    GvasFile.ofStr s = if (knownJ r).depth ≤ 127 then GvasFile.ofRaw r else none := by
  refine Option.ext fun f => ?_
  simp only [ofStr_iff, fileDocument_iff h]
  constructor
  · rintro ⟨j, ⟨rfl, hd, hr⟩, hf⟩
    rw [if_pos hd]
    rwa [Once.ofRaw_known] at hf
  · intro hf
    split at hf
    · rename_i hd
      refine ⟨knownJ r, ⟨rfl, hd, ?_⟩, by rwa [Once.ofRaw_known]⟩
      rcases Nat.eq_zero_or_pos r.depth with h0 | h0
      · rw [Once.ofRaw_scalar h0] at hf; cases hf
      · exact h0
    · cases hf

theorem ofText_document {s : String} {r : J} (h : Document s.toList r) :
    GvasFile.ofText s = if r.depth ≤ 127 then GvasFile.ofJson r.merge else none := by
  refine Option.ext fun f => ?_
  simp only [GvasFile.ofText, Option.bind_eq_some_iff, ofText_iff]
  constructor
  · rintro ⟨j, ⟨r', h1, hd, rfl⟩, hf⟩
    cases document_unique h h1
    rw [if_pos hd]; exact hf
  · intro hf
    split at hf
    · rename_i hd
      exact ⟨_, ⟨r, h, hd, rfl⟩, hf⟩
    · cases hf

theorem knownJ_eq (j : J) : knownJ j = fieldsOnly j := by
  cases j with
  | obj l =>
    simp only [knownJ, known, fieldsOnly]
    congr 1
    exact List.filter_congr fun e _ => by simp only [mem_fileFields]
  | _ => rfl

/-- The fields of a file are not nested deeper than the file. -/
theorem fieldsOnly_depth (j : J) : (fieldsOnly j).depth ≤ j.depth := by
  rw [← knownJ_eq]
  cases j with
  | obj l => simp only [knownJ, J.depth]; have := Once.known_depth l; omega
  | _ => exact Nat.le_refl _

end Gvas.Text
