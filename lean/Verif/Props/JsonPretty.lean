import Verif.Lemmas.JsonPretty
import Verif.Props.JsonDirect

/-!
# C96: the layout of JSON text does not matter
-/

namespace Gvas

open Spec Spec.Rfc8259 Text Sd

/-- **C96**: text without the space outside of its strings stands for the same value. -/
theorem C96_squeezed (t : List Char) (j : J) (h : Document t j) : Document (squeeze false t) j :=
  value_document (squeeze_document h)

/-- **C96**: texts that differ only in the space outside of strings stand for the same value. -/
theorem C96_space_means_nothing (t t' : List Char) (j j' : J) (h : Document t j)
    (h' : Document t' j') (he : squeeze false t = squeeze false t') : j = j' :=
  document_unique (C96_squeezed t j h) (he ▸ C96_squeezed t' j' h')

/-- **C96**: they are loaded as the same file, by way of a `Value` and directly. -/
theorem C96_space_loaded_alike (s s' : String) (j j' : J) (h : Document s.toList j)
    (h' : Document s'.toList j') (he : squeeze false s.toList = squeeze false s'.toList) :
    GvasFile.ofText s = GvasFile.ofText s' ∧ GvasFile.ofStr s = GvasFile.ofStr s' := by
  obtain rfl := C96_space_means_nothing _ _ j j' h h' he
  exact ⟨by rw [ofText_document h, ofText_document h'],
    by rw [C89_document s j h, C89_document s' j h']⟩

/-- **C96**: text for people is the text of `to_string`, laid out: a new line behind each opening
bracket and each comma and in front of each closing one, with two spaces for each bracket around it,
and a space behind each colon, outside of strings; and it is this text with space. -/
theorem C96_pretty_layout (t : FloatText) (ht : FloatsOf t) (f : GvasFile) :
    (f.toPretty t).toList = spread 0 false (f.toText t).toList ∧
      squeeze false (f.toPretty t).toList = (f.toText t).toList := by
  have h1 := spread_text (numbers_of ht) f.toSerde 0 []
  have h2 := squeeze_pretty (numbers_of ht) f.toSerde 0 []
  simp only [List.append_nil, spread, squeeze] at h1 h2
  simp only [GvasFile.toPretty, GvasFile.toText, String.toList_ofList]
  exact ⟨h1.symm, h2⟩

open Classical in
/-- **C96**: text for people is loaded as the other text is, by way of a `Value` and directly. -/
theorem C96_pretty_loaded_alike (t : FloatText) (ht : FloatsOf t) (f : GvasFile) (hm : FileMaps f) :
    GvasFile.ofText (f.toPretty t) = GvasFile.ofText (f.toText t) ∧
      GvasFile.ofStr (f.toPretty t) = GvasFile.ofStr (f.toText t) := by
  let num : F32 → F64 := fun x =>
    if h : x.isFinite = true then choose (float_text ht x h) else x.toF64
  have hnum : ∀ x, x.isFinite = true → ∃ d, Number (t.f32 x) d ∧ NumberIs d (.float (num x)) := by
    intro x hf
    have := choose_spec (float_text ht x hf)
    simp only [num, dif_pos hf]
    exact this
  have h1 := file_document ht f hm num (every_all hnum _)
  have h2 := pretty_value t num (double_text ht) _ 0 (file_fine f hm) (every_all hnum _)
  have h3 : Document (f.toPretty t).toList (f.toSerde.toJ num) := by
    rw [GvasFile.toPretty, String.toList_ofList]
    exact value_document h2
  exact ⟨by rw [ofText_document h1, ofText_document h3],
    by rw [C89_document _ _ h1, C89_document _ _ h3]⟩

/-- **C96**: so a file saved as text for people is loaded as it was under the conditions of C88 and
C89. -/
theorem C96_pretty_iff (t : FloatText) (ht : FloatsOf t) (f : GvasFile) (hm : FileMaps f) :
    (GvasFile.ofText (f.toPretty t) = some f ↔
      fileFinite f = true ∧ f.toJson.depth ≤ 127 ∧ EveryF32 (Kept t) f.toSerde) ∧
    (GvasFile.ofStr (f.toPretty t) = some f ↔
      fileFinite f = true ∧ f.toJson.depth ≤ 127 ∧ EveryF32 (Kept t) f.toSerde) := by
  rw [(C96_pretty_loaded_alike t ht f hm).1, (C96_pretty_loaded_alike t ht f hm).2]
  exact ⟨C88_text_iff_partial t ht f hm, C89_saved_iff t ht f hm⟩

/-! ## Concrete cases -/

/-- The text that `tests/serde_tests/serde_json_template.rs` 440-446 expects. -/
example : Property.toPretty exactText (.array (.enums ["a", "b"])) = "{
  \"type\": \"ArrayProperty\",
  \"enums\": [
    \"a\",
    \"b\"
  ]
}" := by decide +kernel

/-- A file with properties of several kinds, saved for people. -/
example : GvasFile.ofStr (mixedFile.toPretty exactText) = some mixedFile ∧
    (mixedFile.toPretty exactText).toList.take 4 = "{\n  ".toList := by
  rw [(C96_pretty_loaded_alike exactText exactText_floats _ mixedFile_maps).2,
    C89_saved exactText exactText_floats _ mixedFile_maps]
  exact ⟨C88_exact_digits mixedFile mixedFile_maps (by decide +kernel) (by decide +kernel),
    by rw [GvasFile.toPretty, String.toList_ofList]; decide +kernel⟩

/-- Space inside of strings is kept, a quote in a string does not end it. -/
example : squeeze false "{ \"a \\\" b\" :\n[ ] }".toList = "{\"a \\\" b\":[]}".toList ∧
    spread 0 false "{\"a \\\"[ b\":[],\"c\":[1]}".toList =
      "{\n  \"a \\\"[ b\": [],\n  \"c\": [\n    1\n  ]\n}".toList := by
  decide +kernel

end Gvas
