import Verif.Lemmas.DebugTell
import Verif.Props.SameEntry
import Verif.Model.Debug
import Verif.Spec.Wf

/-!
# C104: the debug text of a value tells the value

`format!("{:?}", x)` and `format!("{:#?}", x)` of files and properties.  What core decides is a
parameter: which characters of a string are written `\u{..}`, and the texts of floats, of which it is
taken for granted that they have no brackets, blanks, quotes, commas, colons or line breaks in them
and tell all floats but NaNs apart (`Spec.TellFloats`).
-/

namespace Gvas

open Spec Dt

/-! ## The theorems -/

/-- C104: files have the same text just when they are the same up to the payloads of NaNs, in either
style. -/
theorem C104_file {t : Fmt} (ht : TellFloats t) (pretty : Bool) (f g : GvasFile) :
    f.debug t pretty = g.debug t pretty ↔ calmFile f = calmFile g := by
  rw [← file_tell ht, GvasFile.debug, GvasFile.debug, String.ofList_inj]
  exact ⟨fun h => show_inj t pretty 0 (ok_file ht f) (ok_file ht g) h, fun h => by rw [h]⟩

/-- C104: properties have the same text just when they are the same up to the payloads of NaNs. -/
theorem C104_property {t : Fmt} (ht : TellFloats t) (pretty : Bool) (p q : Property) :
    p.debug t pretty = q.debug t pretty ↔ calm p = calm q := by
  rw [← prop_tell ht, Property.debug, Property.debug, String.ofList_inj]
  exact ⟨fun h => show_inj t pretty 0 (ok_prop ht p) (ok_prop ht q) h, fun h => by rw [h]⟩

/-- C104: what can be told from one style can be told from the other. -/
theorem C104_styles {t : Fmt} (ht : TellFloats t) (f g : GvasFile) :
    f.debug t true = g.debug t true ↔ f.debug t false = g.debug t false := by
  rw [C104_file ht, C104_file ht]

/-! ## Files without odd NaNs, and equality -/

/-- C104: files without odd NaNs that have the same text are one file, so they are written alike. -/
theorem C104_no_nan {t : Fmt} (ht : TellFloats t) (pretty : Bool) (f g : GvasFile)
    (hf : calmFile f = f) (hg : calmFile g = g) (h : f.debug t pretty = g.debug t pretty) : f = g := by
  rw [C104_file ht, hf, hg] at h
  exact h

theorem norm32_calm (f : F32) : norm32 (calm32 f) = norm32 f := by
  unfold calm32
  split
  · next h =>
    rw [norm32, norm32, if_pos h, if_pos (by decide)]
  · rfl

theorem norm64_calm (f : F64) : norm64 (calm64 f) = norm64 f := by
  unfold calm64
  split
  · next h =>
    rw [norm64, norm64, if_pos h, if_pos (by decide)]
  · rfl

mutual
theorem normText_calm (x : FText) : normText (calmText x) = normText x := by
  match x with
  | .mk f h => simp [calmText, normText, normHistory_calm h]
theorem normHistory_calm (x : FTextHistory) : normHistory (calmHistory x) = normHistory x := by
  match x with
  | .namedFormat src args => simp [calmHistory, normHistory, normText_calm src, normNamedArgs_calm args]
  | .orderedFormat src args => simp [calmHistory, normHistory, normText_calm src, normArgs_calm args]
  | .argumentFormat src args =>
    simp [calmHistory, normHistory, normText_calm src, normNamedArgs_calm args]
  | .asNumber v o c => simp [calmHistory, normHistory, normArg_calm v]
  | .asPercent v o c => simp [calmHistory, normHistory, normArg_calm v]
  | .asCurrency a v o c => simp [calmHistory, normHistory, normArg_calm v]
  | .transform src tt => simp [calmHistory, normHistory, normText_calm src]
  | .empty => rfl
  | .none s => rfl
  | .base a b c => rfl
  | .asDate d st c => rfl
  | .asTime d st z c => rfl
  | .asDateTime d ds ts z c => rfl
  | .stringTableEntry a b => rfl
theorem normArg_calm (x : FormatArgumentValue) : normArg (calmArg x) = normArg x := by
  match x with
  | .text v => simp [calmArg, normArg, normText_calm v]
  | .float v => simp [calmArg, normArg, norm32_calm]
  | .double v => simp [calmArg, normArg, norm64_calm]
  | .int v => rfl
  | .uint v => rfl
  | .int64 v => rfl
  | .uint64 v => rfl
theorem normArgs_calm (l : List FormatArgumentValue) : normArgs (calmArgs l) = normArgs l := by
  match l with
  | [] => rfl
  | v :: l => simp [calmArgs, normArgs, normArg_calm v, normArgs_calm l]
theorem normNamedArgs_calm (l : List (String × FormatArgumentValue)) :
    normNamedArgs (calmNamedArgs l) = normNamedArgs l := by
  match l with
  | [] => rfl
  | (k, v) :: l => simp [calmNamedArgs, normNamedArgs, normArg_calm v, normNamedArgs_calm l]
end

mutual
theorem norm_calm (p : Property) : norm (calm p) = norm p := by
  cases p
  case array v => simp [calm, norm, normArray_calm v]
  case map v => simp [calm, norm, normMap_calm v]
  case set t fl ps => simp [calm, norm, normProps_calm ps]
  case struct g t v => simp [calm, norm, normStruct_calm v]
  case structValue v => simp [calm, norm, normStruct_calm v]
  case text v => simp [calm, norm, normText_calm v]
  case float v => simp [calm, norm, norm32_calm]
  case double v => simp [calm, norm, norm64_calm]
  all_goals rfl
theorem normArray_calm (a : ArrayProperty) : normArray (calmArray a) = normArray a := by
  cases a
  case floats v => simp [calmArray, normArray, norm32_calm]
  case structs f t g v => simp [calmArray, normArray, normStructs_calm v]
  case properties t v => simp [calmArray, normArray, normProps_calm v]
  all_goals rfl
theorem normMap_calm (m : MapProperty) : normMap (calmMap m) = normMap m := by
  cases m
  case enumProperty t v => simp [calmMap, normMap, normStrProps_calm v]
  case nameProperty t v => simp [calmMap, normMap, normStrProps_calm v]
  case strProperty t v => simp [calmMap, normMap, normStrProps_calm v]
  case properties kt vt fl v => simp [calmMap, normMap, normPairs_calm v]
  all_goals rfl
theorem normStruct_calm (v : StructPropertyValue) : normStruct (calmStruct v) = normStruct v := by
  cases v
  case customStruct fs => simp [calmStruct, normStruct, normFields_calm fs]
  all_goals simp [calmStruct, normStruct, norm32_calm, norm64_calm]
theorem normProps_calm (l : List Property) : normProps (calmProps l) = normProps l := by
  match l with
  | [] => rfl
  | p :: l => simp [calmProps, normProps, norm_calm p, normProps_calm l]
theorem normStructs_calm (l : List StructPropertyValue) :
    normStructs (calmStructs l) = normStructs l := by
  match l with
  | [] => rfl
  | p :: l => simp [calmStructs, normStructs, normStruct_calm p, normStructs_calm l]
theorem normStrProps_calm (l : List (String × Property)) :
    normStrProps (calmStrProps l) = normStrProps l := by
  match l with
  | [] => rfl
  | (k, p) :: l => simp [calmStrProps, normStrProps, norm_calm p, normStrProps_calm l]
theorem normPairs_calm (l : List (Property × Property)) : normPairs (calmPairs l) = normPairs l := by
  match l with
  | [] => rfl
  | (k, p) :: l => simp [calmPairs, normPairs, norm_calm k, norm_calm p, normPairs_calm l]
theorem normFields_calm (l : List (String × List Property)) :
    normFields (calmFields l) = normFields l := by
  match l with
  | [] => rfl
  | (k, ps) :: l => simp [calmFields, normFields, normProps_calm ps, normFields_calm l]
end

/-- C104: properties with the same text are one key of a map. -/
theorem C104_one_key {t : Fmt} (ht : TellFloats t) (pretty : Bool) (p q : Property)
    (h : p.debug t pretty = q.debug t pretty) : sameKey p q = true := by
  rw [C104_property ht] at h
  rw [sameKey_iff, ← norm_calm p, h, norm_calm]

/-! ## The texts written by hand -/

/-- C104: the text of a number is the name of its type around the text of C82. -/
theorem C104_number (t : Fmt) (p : Property) (s : String) (h : p.debugNumber = some s) :
    p.debug t false = typeName p ++ "(" ++ s ++ ")" := by
  apply String.toList_inj.mp
  cases p <;> simp only [Property.debugNumber, reduceCtorEq, Option.some.injEq] at h <;>
    subst h <;>
    simp [Property.debug, Property.dbg, Dbg.show, typedD, boolD, typeName, leadIn, leadOut, lastLine]

/-- C104: the text of a GUID is the one of C82, in either style and at any depth. -/
theorem C104_guid (t : Fmt) (pretty : Bool) (n : Nat) (g : Guid) :
    String.ofList (g.dbg.show t pretty n) = g.debug := by
  apply String.toList_inj.mp
  simp [Guid.dbg, Dbg.show, Guid.debug]

/-! ## Examples -/

/-- Texts of floats: the bits in hexadecimal, and `NaN`. -/
def bitTexts : Fmt where
  hidden _ := false
  wrapped := false
  debug32 f := if IsNaN32 f then ['N', 'a', 'N'] else Nat.toDigits 16 f.bits.toNat
  debug64 f := if IsNaN64 f then ['N', 'a', 'N'] else Nat.toDigits 16 f.bits.toNat
  display32 f := if IsNaN32 f then ['N', 'a', 'N'] else Nat.toDigits 16 f.bits.toNat
  display64 f := if IsNaN64 f then ['N', 'a', 'N'] else Nat.toDigits 16 f.bits.toNat

theorem plain_hex (n : Nat) : Plain (Nat.toDigits 16 n) ∧ 'N' ∉ Nat.toDigits 16 n := by
  refine ⟨⟨Nat.toDigits_ne_nil, fun c hc => ?_⟩, fun hc => ?_⟩
  · obtain ⟨d, hd, rfl⟩ := mem_toDigits (by omega) n hc
    have : ∀ d : Fin 16, Spec.isMark (Nat.digitChar d.val) = false := by decide
    exact this ⟨d, hd⟩
  · obtain ⟨d, hd, e⟩ := mem_toDigits (by omega) n hc
    have : ∀ d : Fin 16, 'N' ≠ Nat.digitChar d.val := by decide
    exact this ⟨d, hd⟩ e

theorem bit_texts {α : Type} (nan : α → Prop) [DecidablePred nan] (bits : α → Nat)
    (inj : ∀ a b, bits a = bits b → a = b) (c : α) (hc : nan c) (a b : α) :
    (if nan a then ['N', 'a', 'N'] else Nat.toDigits 16 (bits a)) =
      (if nan b then ['N', 'a', 'N'] else Nat.toDigits 16 (bits b)) ↔
    (if nan a then c else a) = (if nan b then c else b) := by
  have no : ∀ n, Nat.toDigits 16 n ≠ ['N', 'a', 'N'] := by
    intro n h
    exact (plain_hex n).2 (by rw [h]; simp)
  split <;> split
  · simp
  · next h1 h2 =>
    refine ⟨fun h => absurd h.symm (no _), fun h => ?_⟩
    rw [← h] at h2
    exact absurd hc h2
  · next h1 h2 =>
    refine ⟨fun h => absurd h (no _), fun h => ?_⟩
    rw [h] at h1
    exact absurd hc h1
  · exact ⟨fun h => inj _ _ (toDigits_inj (by omega) (by omega) _ _ h), fun h => by rw [h]⟩

theorem tell_bitTexts : TellFloats bitTexts := by
  have p32 : ∀ f : F32, Plain (if IsNaN32 f then ['N', 'a', 'N'] else Nat.toDigits 16 f.bits.toNat) := by
    intro f
    split
    · decide
    · exact (plain_hex _).1
  have p64 : ∀ f : F64, Plain (if IsNaN64 f then ['N', 'a', 'N'] else Nat.toDigits 16 f.bits.toNat) := by
    intro f
    split
    · decide
    · exact (plain_hex _).1
  have t32 := bit_texts IsNaN32 (fun f : F32 => f.bits.toNat)
    (fun a b h => by cases a; cases b; simpa [UInt32.toNat_inj] using h) ⟨0x7FC00000⟩ (by decide)
  have t64 := bit_texts IsNaN64 (fun f : F64 => f.bits.toNat)
    (fun a b h => by cases a; cases b; simpa [UInt64.toNat_inj] using h) ⟨0x7FF8000000000000⟩ (by decide)
  exact ⟨p32, p64, p32, p64, t32, t64, t32, t64⟩

/-- A property with a string that looks like text of its own. -/
def quoted : Property := .struct ⟨List.replicate 16 0, rfl⟩ "T" (.customStruct [("a", [.str (some "\", b: [1i32]")]), ("c\n", [])])

example : quoted.debug bitTexts false = "StructProperty(StructProperty { guid: Guid(0), " ++
    "type_name: \"T\", value: CustomStruct(HashableIndexMap({\"a\": [StrProperty(StrProperty { " ++
    "value: Some(\"\\\", b: [1i32]\") })], \"c\\n\": []})) })" := by decide +kernel

example : quoted.debug bitTexts true = "StructProperty(\n    StructProperty {\n        guid: Guid(0),\n" ++
    "        type_name: \"T\",\n        value: CustomStruct(\n            HashableIndexMap(\n" ++
    "                {\n                    \"a\": [\n                        StrProperty(\n" ++
    "                            StrProperty {\n                                value: Some(\n" ++
    "                                    \"\\\", b: [1i32]\",\n                                ),\n" ++
    "                            },\n                        ),\n                    ],\n" ++
    "                    \"c\\n\": [],\n                },\n            ),\n        ),\n    },\n)" := by
  decide +kernel

/-- A file with a table of versions. -/
def shownFile : GvasFile where
  gameVersion := .palworld .zlib
  header := .version2 522 ⟨4, 27, 2, 1, "b"⟩ 3 [(⟨List.replicate 16 0, rfl⟩, 7)] "C"
  properties := [("x", .int (-5)), ("f", .float ⟨0x3F800000⟩)]

example : shownFile.debug bitTexts false = "GvasFile { deserialized_game_version: Palworld(Zlib), " ++
    "header: Version2 { package_file_version: 522, engine_version: FEngineVersion { major: 4, " ++
    "minor: 27, patch: 2, change_list: 1, branch: \"b\" }, custom_version_format: 3, " ++
    "custom_versions: HashableIndexMap({Guid(0): 7}), save_game_class_name: \"C\" }, properties: " ++
    "HashableIndexMap({\"x\": IntProperty(-5i32), \"f\": FloatProperty(3f800000f32)}) }" := by
  decide +kernel

/-- The file has no odd NaNs in it; another number in its header is another text. -/
example : calmFile shownFile = shownFile ∧ ∀ h, h ≠ shownFile.header →
    ({ shownFile with header := h } : GvasFile).debug bitTexts true ≠ shownFile.debug bitTexts true := by
  refine ⟨?_, fun h hh => ?_⟩
  · simp [calmFile, shownFile, calmStrProps, calm, calm32, IsNaN32]
  · rw [Ne, C104_file tell_bitTexts]
    intro e
    exact hh (congrArg GvasFile.header e)

/-- Two properties that differ in a number deep in them have different texts. -/
example : (Property.array (.ints [1, 2])).debug bitTexts true ≠
    (Property.array (.ints [1, 3])).debug bitTexts true := by
  rw [Ne, C104_property tell_bitTexts]
  simp [calm, calmArray]

/-- Two NaNs have one text, though they are different bytes in a save. -/
example : (Property.float ⟨0x7FC00000⟩).debug bitTexts false =
    (Property.float ⟨0xFFC00001⟩).debug bitTexts false := by
  rw [C104_property tell_bitTexts]
  simp [calm, calm32, IsNaN32]

/-- Zeros have different texts, though they are equal. -/
example : (Property.float ⟨0⟩).debug bitTexts false ≠ (Property.float ⟨0x80000000⟩).debug bitTexts false := by
  rw [Ne, C104_property tell_bitTexts]
  simp [calm, calm32, IsNaN32]

/-- Floats in the name of their wrapper: the text of an array of floats by either version of
ordered-float. -/
example : (Property.array (.floats [⟨0x3F800000⟩])).debug { bitTexts with wrapped := true } false =
      "ArrayProperty(Floats { floats: [OrderedFloat(3f800000)] })" ∧
    (Property.array (.floats [⟨0x3F800000⟩])).debug bitTexts false =
      "ArrayProperty(Floats { floats: [3f800000] })" := by decide +kernel

end Gvas
