import Verif.Lemmas.JsonProperty
import Verif.Props.JsonPretty

/-!
# C97: properties by themselves as JSON

`tests/serde_tests/serde_json_template.rs` 43-58 does this for one property of each kind.
-/

namespace Gvas

open Spec Spec.Rfc8259 Text Sd

/-! ## Which texts are accepted -/

/-- **C97**: a property is loaded from text if and only if the text is JSON (RFC 8259, with the numbers
that fit) nested at most 127 deep from which it can be read. -/
theorem C97_text_accepted (s : String) (p : Property) : Property.ofStr s = some p ↔
    ∃ r, Document s.toList r ∧ r.depth ≤ 127 ∧ Property.ofRaw r = some p := by
  unfold Property.ofStr
  simp only [Option.bind_eq_bind, Option.bind_eq_some_iff, Prod.exists]
  constructor
  · rintro ⟨v, r, h, h'⟩
    split at h'
    · rename_i he
      obtain ⟨w, hw, sw⟩ := skip_spec s.toList
      obtain ⟨t, ht, vt, dt⟩ := value_sound 127 h
      obtain ⟨u, hu, su⟩ := skip_spec r
      rw [List.isEmpty_iff] at he
      refine ⟨v, ⟨w, t, u, ?_, sw, vt, su⟩, dt, h'⟩
      rw [hw, ht, hu, he]; simp
    · cases h'
  · rintro ⟨v, ⟨w, t, u, e, sw, vt, su⟩, dt, hp⟩
    have hs : Stop u := by have := stop_space su stop_nil; simpa using this
    refine ⟨v, u, ?_, ?_⟩
    · rw [e, List.append_assoc, skip_value sw vt]
      exact value_complete 127 vt dt hs
    · rw [skip_all su]; simpa using hp

/-- **C97**: what is loaded from text that is JSON. -/
theorem C97_document (s : String) (r : J) (h : Document s.toList r) :
    Property.ofStr s = if r.depth ≤ 127 then Property.ofRaw r else none := by
  refine Option.ext fun p => ?_
  rw [C97_text_accepted]
  constructor
  · rintro ⟨r', h1, hd, hp⟩
    cases document_unique h h1
    rw [if_pos hd]; exact hp
  · intro hp
    split at hp
    · rename_i hd
      exact ⟨_, h, hd, hp⟩
    · cases hp

/-- **C97**: the same by way of a `Value`. -/
theorem C97_document_value (s : String) (r : J) (h : Document s.toList r) :
    Property.ofText s =
      if r.depth ≤ 127 then Property.ofJson r.merge.depth r.merge else none := by
  refine Option.ext fun p => ?_
  simp only [Property.ofText, Option.bind_eq_some_iff, ofText_iff]
  constructor
  · rintro ⟨j, ⟨r', h1, hd, rfl⟩, hp⟩
    cases document_unique h h1
    rw [if_pos hd]; exact hp
  · intro hp
    split at hp
    · rename_i hd
      exact ⟨_, ⟨r, h, hd, rfl⟩, hp⟩
    · cases hp

/-- **C97**: unlike a file (`C89_same`), a property from text in which no name is repeated is always
the same directly and by way of a `Value`. -/
theorem C97_same (s : String) (r : J) (hr : Document s.toList r) (hn : NamesOnce r) :
    Property.ofStr s = Property.ofText s := by
  rw [C97_document s r hr, C97_document_value s r hr, Once.merge_once r hn]
  rw [Property.ofRaw, Once.agrees_propertyJson _ r hn]

/-- **C97**: space outside of strings does not matter. -/
theorem C97_space (s s' : String) (j j' : J) (h : Document s.toList j)
    (h' : Document s'.toList j') (he : squeeze false s.toList = squeeze false s'.toList) :
    Property.ofStr s = Property.ofStr s' ∧ Property.ofText s = Property.ofText s' := by
  obtain rfl := C96_space_means_nothing _ _ j j' h h' he
  exact ⟨by rw [C97_document s j h, C97_document s' j h'],
    by rw [C97_document_value s j h, C97_document_value s' j h']⟩

/-! ## Saved properties -/

/-- **C97**: the value of a property is read as the property if and only if all floats in it are
finite; otherwise it is refused. -/
theorem C97_value_roundtrip (p : Property) (hm : MapsDistinct p) :
    Property.ofJson p.toJ.depth p.toJ = if allFinite p then some p else none :=
  Js.property_back_json _ p (Nat.le_refl _) hm

/-- The number a text of a finite `f32` stands for. -/
theorem numbers_chosen {t : FloatText} (ht : FloatsOf t) : ∃ num : F32 → F64,
    ∀ x, x.isFinite = true → ∃ d, Number (t.f32 x) d ∧ NumberIs d (.float (num x)) := by
  classical
  refine ⟨fun x => if h : x.isFinite = true then Classical.choose (float_text ht x h) else x.toF64,
    fun x hf => ?_⟩
  have := Classical.choose_spec (float_text ht x hf)
  simp only [dif_pos hf]
  exact this

/-- The texts of a property stand for its value. -/
theorem property_document {t : FloatText} (ht : FloatsOf t) (p : Property) (hm : MapsDistinct p)
    (num : F32 → F64) (hn : ∀ x : F32, x.isFinite = true →
      ∃ d, Number (t.f32 x) d ∧ NumberIs d (.float (num x))) :
    Document (p.toText t).toList (p.toS.toJ num) ∧
      Document (p.toPretty t).toList (p.toS.toJ num) := by
  have h1 := text_value t num (double_text ht) _ (property_fine p hm) (every_all hn _)
  have h2 := pretty_value t num (double_text ht) _ 0 (property_fine p hm) (every_all hn _)
  rw [Property.toText, Property.toPretty, String.toList_ofList, String.toList_ofList]
  exact ⟨value_document h1, value_document h2⟩

/-- **C97**: both texts of a property are loaded alike, directly and by way of a `Value`. -/
theorem C97_saved_alike (t : FloatText) (ht : FloatsOf t) (p : Property) (hm : MapsDistinct p) :
    Property.ofStr (p.toPretty t) = Property.ofStr (p.toText t) ∧
      Property.ofText (p.toText t) = Property.ofStr (p.toText t) ∧
      Property.ofText (p.toPretty t) = Property.ofStr (p.toText t) := by
  obtain ⟨num, hn⟩ := numbers_chosen ht
  obtain ⟨h1, h2⟩ := property_document ht p hm num hn
  have ho := toJ_once num _ (property_fine p hm)
  refine ⟨?_, (C97_same _ _ h1 ho).symm, ?_⟩
  · rw [C97_document _ _ h1, C97_document _ _ h2]
  · rw [← C97_same _ _ h2 ho, C97_document _ _ h1, C97_document _ _ h2]

/-- **C97**: a saved property is loaded as it was if and only if all floats in it are finite, it is
nested at most 127 deep, and rounding its `f32` numbers twice does no harm. -/
theorem C97_saved_iff (t : FloatText) (ht : FloatsOf t) (p : Property) (hm : MapsDistinct p) :
    Property.ofStr (p.toText t) = some p ↔
      allFinite p = true ∧ p.toJ.depth ≤ 127 ∧ EveryF32 (Kept t) p.toS := by
  obtain ⟨num, hn⟩ := numbers_chosen ht
  obtain ⟨h1, -⟩ := property_document ht p hm num hn
  have ho := toJ_once num _ (property_fine p hm)
  have hdep : (p.toS.toJ num).depth = p.toJ.depth := by
    rw [toJ_depth num F32.toF64]
    exact congrArg J.depth (property_toJ p)
  rw [C97_document _ _ h1, Property.ofRaw, Once.agrees_propertyJson _ _ ho, hdep]
  have key : ∀ hk : EveryF32 (Kept t) p.toS,
      Property.ofJson p.toJ.depth (p.toS.toJ num) = if allFinite p then some p else none := by
    classical
    intro hk
    let num' : F32 → F64 := fun x => if Kept t x then num x else x.toF64
    have e : p.toS.toJ num = p.toS.toJ num' :=
      toJ_congr _ (every_imp (fun x hx => (if_pos hx).symm) _ hk)
    letI inst : FloatJ := ⟨num'⟩
    haveI : Js.FloatBack := ⟨fun x hf => by
      by_cases hx : Kept t x
      · obtain ⟨d, h3, h4⟩ := hn x hf
        change (num' x).toF32 = x
        simp only [num', if_pos hx]
        cases h4 with
        | float _ h4 => exact hx hf d _ h3 h4
      · change (num' x).toF32 = x
        simp only [num', if_neg hx]
        exact toF32_toF64 x hf⟩
    have e' : p.toS.toJ num' = @Property.toJ inst p := property_toJ p
    rw [e, ← hdep, e, e']
    exact Js.property_back_json _ p (Nat.le_refl _) hm
  constructor
  · intro h
    split at h
    · rename_i hd
      letI inst : FloatJ := ⟨num⟩
      have e' : p.toS.toJ num = @Property.toJ inst p := property_toJ p
      have hk : EveryF32 (Kept t) p.toS := by
        have h3 : EveryF32 Kept.Back p.toS := by
          rw [e'] at h
          exact Kept.property_json_back _ p ((Layout.gets_property_json _ _ _).mp h)
        exact every_imp (fun x hx hf d y h5 h6 => by
          obtain ⟨d', h7, h8⟩ := hn x hf
          obtain rfl := number_unique h5 h7
          cases h8 with
          | float _ h8 => rw [near64_unique h6 h8]; exact hx.2) _ h3
      rw [key hk] at h
      split at h
      · exact ⟨by assumption, hd, hk⟩
      · cases h
    · cases h
  · rintro ⟨hf, hd, hk⟩
    rw [if_pos hd, key hk, if_pos hf]

/-- **C97**: a file whose JSON is nested at most 127 deep is loaded as it was if and only if each of
its properties would be by itself. -/
theorem C97_file_by_property (t : FloatText) (ht : FloatsOf t) (f : GvasFile) (hm : FileMaps f)
    (hd : f.toJson.depth ≤ 127) : GvasFile.ofStr (f.toText t) = some f ↔
      ∀ e ∈ f.properties, Property.ofStr (e.2.toText t) = some e.2 := by
  have hp : ∀ e ∈ f.properties, MapsDistinct e.2 := hm.2.2
  have hdp : ∀ e ∈ f.properties, e.2.toJ.depth ≤ 127 := by
    intro e he
    have h1 : (e.1, e.2.toJ) ∈ strPropsJ f.properties := by
      rw [Js.strPropsJ_eq]; exact List.mem_map_of_mem he
    have h2 := Layout.mem_depthEntries h1
    rw [GvasFile.toJson, J.depth, Js.depthEntries_append] at hd
    simp only [depthEntries, J.depth] at hd
    have h3 : e.2.toJ.depth ≤ depthEntries (strPropsJ f.properties) := h2
    omega
  have hfin : fileFinite f = true ↔ ∀ e ∈ f.properties, allFinite e.2 = true := by
    rw [fileFinite, List.all_eq_true]
  rw [C89_saved_iff t ht f hm, Kept.file_every]
  constructor
  · rintro ⟨h1, -, h3⟩ e he
    exact (C97_saved_iff t ht e.2 (hp e he)).mpr
      ⟨(hfin.mp h1) e he, hdp e he, h3 e he⟩
  · intro h
    have h' : ∀ e ∈ f.properties, allFinite e.2 = true ∧ e.2.toJ.depth ≤ 127 ∧
        EveryF32 (Kept t) e.2.toS := by
      intro e he
      rw [← C97_saved_iff t ht e.2 (hp e he)]
      exact h e he
    exact ⟨hfin.mpr fun e he => (h' e he).1, hd, fun e he => (h' e he).2.2⟩

/-! ## Repeated names -/

/-- **C97**: a property whose type is given twice is refused. -/
theorem C97_type_twice (s : String) (l : List (String × J)) (hs : Document s.toList (.obj l))
    (h : 1 < (l.map Prod.fst).count "type") : Property.ofStr s = none := by
  rw [C97_document s _ hs]
  have hu := uniqueField_twice h
  have : Property.ofRaw (.obj l) = none := by
    simp only [Property.ofRaw, J.depth, Property.ofJson, Property.ofJStep, J.getTagged, hu]
    rfl
  rw [this]
  split <;> rfl

/-- **C97**: a field that is repeated is refused directly and accepted by way of a `Value`. -/
theorem C97_repeated : ∃ s, Property.ofStr s = none ∧ (Property.ofText s).isSome :=
  ⟨"{\"type\":\"IntProperty\",\"value\":1,\"value\":2}",
    Option.isNone_iff_eq_none.mp (by decide +kernel), by decide +kernel⟩

example : Property.ofStr "{\"type\":\"IntProperty\",\"value\":1,\"type\":\"BoolProperty\"}" = none :=
  C97_type_twice _ [("type", .str "IntProperty"), ("value", .int 1), ("type", .str "BoolProperty")]
    (by
      obtain ⟨t, ht, vt, -⟩ := value_sound 127 (cs :=
        "{\"type\":\"IntProperty\",\"value\":1,\"type\":\"BoolProperty\"}".toList) (r := []) rfl
      rw [ht, List.append_nil]
      exact value_document vt) (by decide)

/-! ## Concrete cases -/

/-- The fields may come in any order, and there may be others, and a property may be an array. -/
example : (match Property.ofStr " { \"value\" : -7 , \"note\" : [ ] , \"type\" : \"IntProperty\" } ",
      Property.ofStr "[\"IntProperty\",-7]", Property.ofStr "\"IntProperty\"",
      Property.ofStr "{\"type\":0,\"value\":-7}" with
    | some (.int a), some (.int b), none, none => decide (a = -7 ∧ b = -7)
    | _, _, _, _ => false) = true := by decide +kernel

theorem nested_depth_le (n : Nat) : (nested n).toJ.depth ≤ 3 * n + 1 := by
  induction n with
  | zero => decide
  | succ n ih =>
    have h : depthEntries (guidE (Guid.fromU32 0 0 0 0)) = 0 := by decide +kernel
    simp only [nested, Property.toJ, StructPropertyValue.entry, fieldsJ, propsJ, J.depth,
      depthEntries, depthList, List.cons_append, List.append_assoc, Js.depthEntries_append,
      List.nil_append, h]
    omega

theorem nested_finite (n : Nat) : allFinite (nested n) = true := by
  induction n with
  | zero => rfl
  | succ n ih => simp [nested, allFinite, structFinite, fieldsFinite, propsFinite, ih]

/-- **C97**: the limit of the nesting is met by 42 structs in each other by themselves, but not in a
file. -/
theorem C97_alone_only (t : FloatText) (ht : FloatsOf t) :
    Property.ofStr ((nested 42).toText t) = some (nested 42) ∧
      GvasFile.ofStr ((structsIn 42).toText t) = none := by
  constructor
  · refine (C97_saved_iff t ht _ (nested_maps 42)).mpr ⟨nested_finite 42, nested_depth_le 42, ?_⟩
    suffices h : ∀ n, EveryF32 (Kept t) (nested n).toS from h 42
    intro n
    induction n with
    | zero => exact ⟨trivial, trivial, trivial⟩
    | succ n ih =>
      simp [nested, Property.toS, EveryF32, EveryF32Members, Kept.members_append]
      refine ⟨?_, ?_⟩
      · unfold guidES
        split <;> simp [EveryF32Members, EveryF32, Guid.toS]
      · simp [StructPropertyValue.entryS, fieldsS, propsS, EveryF32, EveryF32Members,
          EveryF32Items, ih]
  · rw [C89_saved t ht _ (structsIn_maps 42)]
    refine C88_deep_refused t ht _ (structsIn_maps 42) ?_
    have := nested_depth 42
    simp only [GvasFile.toJson, structsIn, strPropsJ, J.depth, depthEntries, List.nil_append]
    omega

/-- Properties of several kinds. -/
example : ∀ e ∈ mixedFile.properties, Property.ofStr (e.2.toText exactText) = some e.2 := by
  refine (C97_file_by_property exactText exactText_floats _ mixedFile_maps (by decide +kernel)).mp ?_
  rw [C89_saved exactText exactText_floats _ mixedFile_maps]
  exact C88_exact_digits mixedFile mixedFile_maps (by decide +kernel) (by decide +kernel)

/-- A float that is not finite is not loaded again. -/
example : Property.ofStr ((Property.float ⟨0x7F800000⟩).toText exactText) ≠
    some (.float ⟨0x7F800000⟩) := by
  rw [Ne, C97_saved_iff exactText exactText_floats _ (by simp [MapsDistinct])]
  exact fun h => absurd h.1 (by decide)

end Gvas
