import Verif.Lemmas.JsonDirect
import Verif.Props.JsonText

/-!
# C89: JSON text loaded directly

`serde_json::from_str::<GvasFile>` (`tests/serde_tests/serde_json_round_trip.rs` 11), compared with
loading by way of a `serde_json::Value` (C88).
-/

namespace Gvas

open Spec Spec.Rfc8259 Text Sd

/-! ## Which texts are accepted -/

/-- **C89**: a file is loaded from text if and only if the text is an array or an object with space
around it, the fields are JSON (RFC 8259, with the numbers that fit) nested at most 126 deep, all
other entries have the form of JSON, and the fields can be read. -/
theorem C89_text_accepted (s : String) (f : GvasFile) : GvasFile.ofStr s = some f ↔
    ∃ j, FileDocument s.toList j ∧ GvasFile.ofRaw j = some f := ofStr_iff s f

/-- **C89**: what is loaded from text that is JSON: the nesting is limited for the fields only. -/
theorem C89_document (s : String) (r : J) (h : Document s.toList r) :
    GvasFile.ofStr s = if (fieldsOnly r).depth ≤ 127 then GvasFile.ofRaw r else none := by
  rw [ofStr_document h, knownJ_eq]

/-- **C89**: entries of the outermost object that are no fields do not matter. -/
theorem C89_other_entries (j : J) : GvasFile.ofRaw (fieldsOnly j) = GvasFile.ofRaw j := by
  rw [← knownJ_eq, Once.ofRaw_known]

/-! ## Without repeated names -/

/-- **C89**: where no name is repeated a file is read as it is from a `Value`. -/
theorem C89_no_repeats (j : J) (h : NamesOnce j) : GvasFile.ofRaw j = GvasFile.ofJson j :=
  Once.ofRaw_eq h

/-- **C89**: text in which no name is repeated and that is loaded by way of a `Value` is loaded the
same directly. -/
theorem C89_as_by_value (s : String) (r : J) (hr : Document s.toList r) (hn : NamesOnce r)
    (f : GvasFile) (h : GvasFile.ofText s = some f) : GvasFile.ofStr s = some f := by
  rw [ofText_document hr] at h
  split at h
  · rename_i hd
    rw [C89_document s r hr, if_pos (Nat.le_trans (fieldsOnly_depth r) hd), Once.ofRaw_eq hn]
    rwa [Once.merge_once r hn] at h
  · cases h

/-- **C89**: it is the same altogether, unless an entry that is no field is nested too deep. -/
theorem C89_same (s : String) (r : J) (hr : Document s.toList r) (hn : NamesOnce r)
    (hd : r.depth ≤ 127 ∨ fieldsOnly r = r) : GvasFile.ofStr s = GvasFile.ofText s := by
  rw [ofText_document hr, C89_document s r hr, Once.ofRaw_eq hn, Once.merge_once r hn]
  rcases hd with hd | hd
  · rw [if_pos hd, if_pos (Nat.le_trans (fieldsOnly_depth r) hd)]
  · rw [hd]

/-! ## Saved files -/

open Classical in
/-- **C89**: the text of a saved file is loaded directly as it is by way of a `Value`. -/
theorem C89_saved (t : FloatText) (ht : FloatsOf t) (f : GvasFile) (hm : FileMaps f) :
    GvasFile.ofStr (f.toText t) = GvasFile.ofText (f.toText t) := by
  let num : F32 → F64 := fun x =>
    if h : x.isFinite = true then choose (float_text ht x h) else x.toF64
  have hnum : ∀ x, x.isFinite = true → ∃ d, Number (t.f32 x) d ∧ NumberIs d (.float (num x)) := by
    intro x hf
    have := choose_spec (float_text ht x hf)
    simp only [num, dif_pos hf]
    exact this
  have hdoc := file_document ht f hm num (every_all hnum _)
  refine C89_same _ _ hdoc (toJ_once num _ (file_fine f hm)) (.inr ?_)
  unfold GvasFile.toSerde
  cases f.gameVersion with
  | default => simp [Ser.toJ, serEntries, fieldsOnly]
  | palworld c => simp [Ser.toJ, serEntries, fieldsOnly]

/-- **C89**: a saved file is loaded as it was if and only if all floats in it are finite, it is
nested at most 127 deep, and rounding its `f32` numbers twice does no harm. -/
theorem C89_saved_iff (t : FloatText) (ht : FloatsOf t) (f : GvasFile) (hm : FileMaps f) :
    GvasFile.ofStr (f.toText t) = some f ↔
      fileFinite f = true ∧ f.toJson.depth ≤ 127 ∧ EveryF32 (Kept t) f.toSerde := by
  rw [C89_saved t ht f hm, C88_text_iff_partial t ht f hm]

/-- **C89**: the same for the contents of a save. -/
theorem C89_saves (t : FloatText) (ht : FloatsOf t) (debug : Bool)
    (hints : String → Option String) (input : Bytes) (h : GvasHeader)
    (ps : List (String × Property)) (hr : (readData debug hints input).1 = .ok (h, ps))
    (gv : DeserializedGameVersion) :
    GvasFile.ofStr (GvasFile.toText t ⟨gv, h, ps⟩) = some ⟨gv, h, ps⟩ ↔
      (∀ e ∈ ps, allFinite e.2 = true) ∧ (GvasFile.toJson ⟨gv, h, ps⟩).depth ≤ 127 ∧
        EveryF32 (Kept t) (GvasFile.toSerde ⟨gv, h, ps⟩) := by
  rw [C89_saved t ht _ (Js.fileOK_maps (accept_data hr gv).1), C88_saves_partial t ht debug hints
    input h ps hr gv]

example : GvasFile.ofStr (mixedFile.toText exactText) = some mixedFile := by
  rw [C89_saved exactText exactText_floats _ mixedFile_maps]
  exact C88_exact_digits mixedFile mixedFile_maps (by decide +kernel) (by decide +kernel)

/-! ## Repeated names -/

theorem uniqueField_twice {es : List (String × J)} {k : String}
    (h : 1 < (es.map Prod.fst).count k) : uniqueField es k = none := by
  have hc : (es.filter fun e => e.1 == k).length = (es.map Prod.fst).count k := by
    rw [List.count, List.countP_map, List.countP_eq_length_filter]; rfl
  unfold uniqueField
  split
  · rename_i e; rw [e] at hc; simp at hc; omega
  · rename_i e; rw [e] at hc; simp at hc; omega
  · rfl

/-- **C89**: a file with a field that is repeated is refused. -/
theorem C89_repeated_refused (s : String) (l : List (String × J))
    (hs : Document s.toList (.obj l)) (k : String)
    (hk : k = "deserialized_game_version" ∨ k = "header" ∨ k = "properties")
    (h : 1 < (l.map Prod.fst).count k) : GvasFile.ofStr s = none := by
  rw [C89_document s _ hs]
  have hu := uniqueField_twice h
  have : GvasFile.ofRaw (.obj l) = none := by
    unfold GvasFile.ofRaw GvasFile.ofJson
    simp only [J.getFields, Option.bind_eq_bind, Option.bind_some, field, defaultField]
    rcases hk with rfl | rfl | rfl
    · simp [hu]
    · simp [hu]
    · simp [hu]
  rw [this]
  split <;> rfl

/-- The text of a header. -/
def headerText : String := "\"header\":{\"type\":\"Version2\",\"package_file_version\":522," ++
  "\"engine_version\":{\"major\":4,\"minor\":27,\"patch\":2,\"change_list\":0,\"branch\":\"a\"}," ++
  "\"custom_version_format\":3,\"custom_versions\":{},\"save_game_class_name\":\"b\"}"

/-- **C89**: directly loading text refuses text that loading by way of a `Value` accepts. -/
theorem C89_repeated : ∃ s, GvasFile.ofStr s = none ∧ (GvasFile.ofText s).isSome :=
  ⟨"{" ++ headerText ++ ",\"properties\":{},\"properties\":{}}",
    Option.isNone_iff_eq_none.mp (by decide +kernel), by decide +kernel⟩

/-- An entry that is no field, and the rest of a file. -/
def noteText (v : String) : String := "{\"note\":" ++ v ++ "," ++ headerText ++ ",\"properties\":{}}"

/-- **C89**: it accepts text that is refused by way of a `Value`: with an entry that is no field and
nested too deep, a number out of range, or half a surrogate pair. -/
theorem C89_unknown : ∀ v ∈ [String.ofList (List.replicate 130 '[' ++ List.replicate 130 ']'),
      "1e999", "\"\\ud800\""],
    (GvasFile.ofStr (noteText v)).isSome ∧ GvasFile.ofText (noteText v) = none := by
  have : ([String.ofList (List.replicate 130 '[' ++ List.replicate 130 ']'), "1e999",
      "\"\\ud800\""].all fun v => (GvasFile.ofStr (noteText v)).isSome &&
        (GvasFile.ofText (noteText v)).isNone) = true := by decide +kernel
  intro v hv
  have := List.all_eq_true.mp this v hv
  simpa using this

/-- But not if the entry has not even the form of JSON. -/
example : (["01", "1e", "\"\\x\"", "[1,]", "{1:2}", "tru", "\"\\u12\""].all fun v =>
    (GvasFile.ofStr (noteText v)).isNone) = true := by decide +kernel

/-- A file with a struct for which there are two values. -/
def twoGuids : String := "{" ++ headerText ++ ",\"properties\":{\"s\":{\"type\":\"StructProperty\"," ++
  "\"type_name\":\"Guid\",\"Guid\":\"0\",\"Guid\":\"01000000-0000-0000-0000-000000000000\"}}}"

/-- The one GUID in a file. -/
def guidIn : Option GvasFile → Option Guid
  | some ⟨_, _, [(_, .struct _ _ (.guid g))]⟩ => some g
  | _ => none

/-- **C89**: of two values for a struct, text loaded directly takes the first, by way of a `Value`
the last. -/
theorem C89_first_or_last : guidIn (GvasFile.ofStr twoGuids) = some (Guid.fromU128 0) ∧
    guidIn (GvasFile.ofText twoGuids) = some (Guid.fromU128 1) := by decide +kernel

/-! ## Text as people write it -/

/-- Text with space, the fields in another order, and an entry that is no field. -/
def handText : String := " { \"properties\" : { \"x\" : {\"value\": true, \"type\": \"BoolProperty\"} },\n" ++
  "\"comment\": [1, {\"a\": null}],\t" ++ headerText ++ " } "

/-- The value it stands for. -/
def handValue : Option J := (Text.value 127 (Text.skip handText.toList)).map Prod.fst

mutual
/-- Whether no name is repeated. -/
def namesOnceB : J → Bool
  | .arr l => itemsOnceB l
  | .obj l => decide (l.map Prod.fst).Nodup && entriesOnceB l
  | _ => true
/-- In all elements. -/
def itemsOnceB : List J → Bool
  | [] => true
  | j :: l => namesOnceB j && itemsOnceB l
/-- In the values of all entries. -/
def entriesOnceB : List (String × J) → Bool
  | [] => true
  | (_, j) :: l => namesOnceB j && entriesOnceB l
end

mutual
theorem namesOnceB_iff : ∀ j : J, namesOnceB j = true → NamesOnce j
  | .arr l, h => itemsOnceB_iff l h
  | .obj l, h => by
    simp only [namesOnceB, Bool.and_eq_true, decide_eq_true_eq] at h
    exact ⟨h.1, entriesOnceB_iff l h.2⟩
  | .null, _ | .bool _, _ | .int _, _ | .float _, _ | .str _, _ => trivial
theorem itemsOnceB_iff : ∀ l : List J, itemsOnceB l = true → ItemsOnce l
  | [], _ => trivial
  | j :: l, h => by
    simp only [itemsOnceB, Bool.and_eq_true] at h
    exact ⟨namesOnceB_iff j h.1, itemsOnceB_iff l h.2⟩
theorem entriesOnceB_iff : ∀ l : List (String × J), entriesOnceB l = true → EntriesOnce l
  | [], _ => trivial
  | (_, j) :: l, h => by
    simp only [entriesOnceB, Bool.and_eq_true] at h
    exact ⟨namesOnceB_iff j h.1, entriesOnceB_iff l h.2⟩
end

theorem handText_value : ∃ r, Document handText.toList r ∧ r.depth ≤ 127 ∧ NamesOnce r := by
  have hk : (match handValue, J.ofText handText with
    | some r, some _ => namesOnceB r
    | _, _ => false) = true := by decide +kernel
  split at hk
  · rename_i r j h1 h2
    obtain ⟨r', h3, h4, _⟩ := (C88_text_accepted _ _).mp h2
    refine ⟨r', h3, h4, ?_⟩
    obtain ⟨⟨r0, u⟩, h5, rfl⟩ := Option.map_eq_some_iff.mp h1
    obtain ⟨w, v, x, e, sw, hv, sx⟩ := h3
    rw [e, List.append_assoc, skip_value sw hv,
      value_complete 127 hv h4 (by simpa using stop_space sx stop_nil)] at h5
    cases h5
    exact namesOnceB_iff _ hk
  · cases hk

/-- The text is loaded either way, with the same result. -/
example : GvasFile.ofStr handText = GvasFile.ofText handText ∧
    (GvasFile.ofStr handText).isSome := by
  obtain ⟨r, h1, h2, h3⟩ := handText_value
  exact ⟨C89_same _ r h1 h3 (.inl h2), by decide +kernel⟩

/-- It stands for the fields alone. -/
example : ∃ f, GvasFile.ofStr handText = some f ∧
    ∃ j, FileDocument handText.toList j ∧ GvasFile.ofRaw j = some f := by
  have h : (GvasFile.ofStr handText).isSome = true := by decide +kernel
  obtain ⟨f, hf⟩ := Option.isSome_iff_exists.mp h
  exact ⟨f, hf, (C89_text_accepted _ f).mp hf⟩

/-- Without the comment the file is the same. -/
example (l : List (String × J)) : GvasFile.ofRaw (.obj (("comment", .null) :: l)) =
    GvasFile.ofRaw (.obj l) := by
  rw [← C89_other_entries, ← C89_other_entries (.obj l)]
  simp [fieldsOnly]

end Gvas
