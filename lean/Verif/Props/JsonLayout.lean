import Verif.Lemmas.LayoutDepth
import Verif.Spec.LayoutNames
import Verif.Props.Json

/-!
# C77: the layout of the JSON
-/

namespace Gvas

open Spec Layout

/-- **C77**: a file is read from JSON if and only if the JSON has the layout of this file. -/
theorem C77_accepted (j : J) (f : GvasFile) : GvasFile.ofJson j = some f ↔ FileJ j f :=
  file_iff j f

/-- **C77**: the JSON written for a file with finite floats has the layout of this file. -/
theorem C77_written (f : GvasFile) (hm : FileMaps f) (hf : fileFinite f = true) :
    FileJ f.toJson f := by
  rw [← C77_accepted, C53_json_roundtrip_partial f hm, if_pos hf]

/-- **C77**: the bound for the nesting in the layout is none: any bound that is at least the depth of
the JSON says the same. -/
theorem C77_any_nesting (n : Nat) (j : J) (p : Property) (h : j.depth ≤ n) :
    (PropertyJ n j p ↔ PropertyJ j.depth j p) ∧ (PropJ n j p ↔ PropJ j.depth j p) :=
  ⟨propertyJ_enough h, propJ_enough h⟩

/-- The names of the fields of an object. -/
def Layout.names : J → List String
  | .obj es => es.map Prod.fst
  | _ => []

private theorem names_optE (k : String) (s : Option String) :
    (optE k s).map Prod.fst = given k s := by cases s <;> rfl

private theorem names_optionsE (o : Option NumberFormattingOptions) :
    (optionsE o).map Prod.fst = given "format_options" o := by cases o <;> rfl

private theorem names_nonzeroE (k : String) (v : UInt32) :
    (nonzeroE k v).map Prod.fst = nonzero k v := by
  unfold nonzeroE nonzero
  by_cases h : v = 0
  · subst h; rfl
  · rw [if_neg h, if_neg]
    · rfl
    · intro h'
      exact h (UInt32.toNat_inj.mp (by simpa using h'))

private theorem names_guidE (g : Guid) : (guidE g).map Prod.fst = nonzeroGuid g := by
  unfold guidE nonzeroGuid
  by_cases h : g.isZero = true
  · rw [if_pos h, if_pos ((C09_is_zero g).mp h)]; rfl
  · rw [if_neg h, if_neg (fun e => h ((C09_is_zero g).mpr e))]; rfl

private theorem names_history (h : FTextHistory) :
    (FTextHistory.entries h).map Prod.fst = historyNames h := by
  cases h <;> simp [FTextHistory.entries, historyNames, names_optE, names_optionsE]

private theorem names_text (t : FText) : (FText.entries t).map Prod.fst = textNames t := by
  cases t
  simp [FText.entries, textNames, names_nonzeroE, names_history]

private theorem names_struct (v : StructPropertyValue) : v.entry.1 = variantName v := by
  cases v <;> simp [StructPropertyValue.entry, variantName]

/-- **C77**: the fields that are written: those of the kind of value, without the ones that are
absent or zero. -/
theorem C77_fields_written :
    (∀ p : Property, names p.toJ = propertyNames p) ∧
    (∀ t : FText, (FText.entries t).map Prod.fst = textNames t) ∧
    (∀ v : StructPropertyValue, v.entry.1 = variantName v) ∧
    (∀ h : GvasHeader, names h.toJ = headerNames h) ∧
    (∀ v : FEngineVersion, names v.toJ = ["major", "minor", "patch", "change_list", "branch"]) ∧
    (∀ o : NumberFormattingOptions, names o.toJ = ["always_include_sign", "use_grouping",
      "rounding", "minimum_integral_digits", "maximum_integral_digits",
      "minimum_fractional_digits", "maximum_fractional_digits"]) ∧
    (∀ f : GvasFile, names f.toJson =
      (if f.gameVersion = .default then [] else ["deserialized_game_version"]) ++
        ["header", "properties"]) := by
  refine ⟨fun p => ?_, names_text, names_struct, fun h => ?_, fun _ => rfl, fun _ => rfl,
    fun f => ?_⟩
  · cases p with
    | byte name v =>
      cases v <;> simp [Property.toJ, names, propertyNames, names_optE, BytePropertyValue.entry]
    | array v =>
      cases v <;> simp [Property.toJ, names, propertyNames, ArrayProperty.entries, arrayNames,
        names_guidE]
    | map v =>
      cases v <;> simp [Property.toJ, names, propertyNames, MapProperty.entries, mapNames]
    | _ =>
      simp [Property.toJ, names, propertyNames, names_optE, names_nonzeroE, names_guidE,
        names_struct, names_text]
  · cases h <;> rfl
  · unfold GvasFile.toJson
    cases f.gameVersion <;> simp [names]

/-! ## Concrete cases -/

example : FileJ nestedFile.toJson nestedFile :=
  C77_written nestedFile nestedFile_maps (by decide +kernel)

/-- Only the fields that mean something are written. -/
example : propertyNames (.struct (Guid.fromU128 0) "T" (.vectorF ⟨0⟩ ⟨0⟩ ⟨0⟩)) =
    ["type", "type_name", "VectorF"] := by decide +kernel
example : propertyNames (.text (.mk 3 (.base none (some "k") none))) =
    ["type", "flags", "history", "key"] := by decide +kernel

/-- JSON that fits two kinds of arrays is the first one. -/
example (j : J) (h : Layout.Arr IsBool j [true]) :
    ArrayJ (PropJ 0) [("type", .str "ArrayProperty"), ("ints", .arr [.int 1]), ("bools", j)]
      (.bools [true]) :=
  .inl ⟨_, rfl, j, rfl, h⟩

/-- JSON with a field of the wrong type is refused. -/
example : GvasFile.ofJson (.obj [("header", jsonHeader.toJ), ("properties", .obj [("a",
    .obj [("type", .str "IntProperty"), ("value", .str "1")])])]) = none := by rfl

/-- Arrays may stand for the file, the header and the properties; inside a property, the place of a
type in the list of types may stand for its name. -/
private def arrays : J := .arr [.obj [("Default", .null)],
  .arr [.str "Version2", .int 522, .arr [.int 4, .int 27, .int 2, .int 0, .str "b"], .int 3,
    .obj [], .str "C"],
  .obj [("a", .arr [.str "IntProperty", .int 7]),
    ("b", .arr [.str "SetProperty", .str "IntProperty", .int 0, .arr [.arr [.int 9, .int 8]]])]]

example : FileJ arrays ⟨.default, .version2 522 ⟨4, 27, 2, 0, "b"⟩ 3 [] "C",
    [("a", .int 7), ("b", .set "IntProperty" 0 [.int 8])]⟩ := by
  rw [← C77_accepted]; rfl

/-- The place of a type does not stand for its name in a property that is not inside another one. -/
example : GvasFile.ofJson (.obj [("header", jsonHeader.toJ), ("properties", .obj [("a",
    .obj [("type", .int 9), ("value", .int 1)])])]) = none := by rfl

/-- An array with too few or too many values stands for nothing. -/
example (p : Property) : ¬ PropertyJ 5 (.arr [.str "IntProperty"]) p ∧
    ¬ PropertyJ 5 (.arr [.str "IntProperty", .int 1, .int 1]) p := by
  rw [← gets_property_json, ← gets_property_json]
  exact ⟨nofun, nofun⟩

end Gvas
