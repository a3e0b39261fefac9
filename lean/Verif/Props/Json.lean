import Verif.Lemmas.JsonKeys
import Verif.Lemmas.JsonMaps
import Verif.Lemmas.AcceptFile
import Verif.Spec.Sample

/-!
# C53, C56, C57, C58: conversion to JSON and back
-/

namespace Gvas

open Spec Js

/-- A header for the examples. -/
def jsonHeader : GvasHeader :=
  .version2 0x205 ⟨4, 27, 2, 0, "++UE4"⟩ 3 [(⟨List.replicate 16 7, rfl⟩, 3)] "Save"

/-- A file holding one 32 bit float. -/
def floatFile (f : F32) : GvasFile := ⟨.palworld .zlib, jsonHeader, [("a", .float f)]⟩

/-- A file with a struct in a map in an array and a text with arguments. -/
def nestedFile : GvasFile := ⟨.default, jsonHeader,
  [("m", .map (.properties "IntProperty" "StructProperty" 1
      [(.int 1, .structValue (.vectorF ⟨0x3F800000⟩ ⟨0⟩ ⟨0x80000000⟩)),
       (.int 2, .structValue (.customStruct [("x", [.array (.bytes [0xAB, 0x0C])])]))])),
   ("t", .text (.mk 0 (.namedFormat (.mk 1 (.base none (some "k") none))
      [("n", .double ⟨0x3FF0000000000000⟩)])))]⟩

theorem nestedFile_maps : FileMaps nestedFile := by
  refine ⟨by decide, by unfold KeysDistinct; decide, ?_⟩
  simp [nestedFile, MapsDistinct, MapMaps, EntriesMaps, StructMaps, FieldsMaps, PropsMaps,
    ArrayMaps, TextMaps, HistoryMaps, NamedArgsMaps, ArgMaps, KeysDistinct]
  decide +kernel

/-- **C53**, exact outcome: a file whose maps have distinct keys (in the Rust types all do) is read
back from its JSON if all its floats are finite, and is refused if one is not.  Missing of C53:
files with infinities or NaNs, for which it is false (`C53_nonfinite_lost`). -/
theorem C53_json_roundtrip_partial (f : GvasFile) (hm : FileMaps f) :
    GvasFile.ofJson f.toJson = if fileFinite f then some f else none :=
  file_back f hm

example : GvasFile.ofJson nestedFile.toJson = some nestedFile := by
  rw [C53_json_roundtrip_partial _ nestedFile_maps, if_pos (by decide +kernel)]

/-- **C53** for the files that come from saves: whatever was read from bytes goes through JSON
unchanged if and only if all its floats are finite. -/
theorem C53_saves_partial (debug : Bool) (hints : String → Option String) (input : Bytes)
    (h : GvasHeader) (ps : List (String × Property))
    (hr : (readData debug hints input).1 = .ok (h, ps)) (gv : DeserializedGameVersion) :
    GvasFile.ofJson (GvasFile.toJson ⟨gv, h, ps⟩) = some ⟨gv, h, ps⟩ ↔
      ∀ e ∈ ps, allFinite e.2 = true := by
  rw [C53_json_roundtrip_partial _ (fileOK_maps (accept_data hr gv).1)]
  have e : fileFinite ⟨gv, h, ps⟩ = true ↔ ∀ e ∈ ps, allFinite e.2 = true := by
    simp [fileFinite]
  rw [← e]
  split <;> simp [*]

example : failure (readData true noHints (saveBytes intBytes)).1 = none := by decide +kernel

/-- A property named `a` holding the 32 bit float infinity. -/
def infinityBytes : Bytes :=
  ascii "a" ++ ascii "FloatProperty" ++ [4, 0, 0, 0, 0, 0, 0, 0, 0] ++ [0, 0, 0x80, 0x7F]

/-- **C53** is false with infinities: a save holding one is accepted, its JSON is refused. -/
theorem C53_nonfinite_lost :
    ∃ input h ps, (readData true noHints input).1 = .ok (h, ps) ∧
      GvasFile.ofJson (GvasFile.toJson ⟨.default, h, ps⟩) = none := by
  have hk : (match (readData true noHints (saveBytes infinityBytes)).1 with
      | .ok (h, ps) => fileFinite ⟨.default, h, ps⟩
      | .bad _ => true) = false := by decide +kernel
  revert hk
  rcases hr : (readData true noHints (saveBytes infinityBytes)).1 with ⟨h, ps⟩ | f
  · intro hk
    refine ⟨_, h, ps, hr, ?_⟩
    rw [C53_json_roundtrip_partial _ (fileOK_maps (accept_data hr .default).1)]
    simp only at hk
    rw [hk]; rfl
  · intro hk; cases hk

/-- **C56**: files with finite floats and different contents have different JSON. -/
theorem C56_json_injective (f g : GvasFile) (hf : FileMaps f) (hg : FileMaps g)
    (ff : fileFinite f = true) (fg : fileFinite g = true) (h : f.toJson = g.toJson) : f = g := by
  have e1 := C53_json_roundtrip_partial f hf
  have e2 := C53_json_roundtrip_partial g hg
  rw [if_pos ff] at e1
  rw [if_pos fg, ← h, e1] at e2
  exact Option.some.inj e2

theorem floatFile_maps (f : F32) : FileMaps (floatFile f) := by
  refine ⟨by simp [floatFile, jsonHeader, GvasHeader.customVersions],
    by simp [KeysDistinct, floatFile], ?_⟩
  intro e he
  simp only [floatFile, List.mem_singleton] at he
  subst he
  simp only [MapsDistinct]

example : (floatFile ⟨0⟩).toJson ≠ (floatFile ⟨0x80000000⟩).toJson := fun h => by
  have := C56_json_injective _ _ (floatFile_maps _) (floatFile_maps _) (by decide) (by decide) h
  have h2 : (floatFile ⟨0⟩).properties = (floatFile ⟨0x80000000⟩).properties := by rw [this]
  simp [floatFile] at h2

/-- **C56** needs the finite floats: both infinities become `null`. -/
theorem C56_infinities_collide :
    (floatFile ⟨0x7F800000⟩).toJson = (floatFile ⟨0xFF800000⟩).toJson := by
  rfl

/-- **C57**: going through JSON does not change what is saved.  If a save of less than 2 GiB with
finite floats is read, turned into JSON, read back from it and written, the bytes are those
written without the detour, and reading them gives the same file again. -/
theorem C57_save_through_json (debug : Bool) (hints : String → Option String) (input : Bytes)
    (hin : input.length < 2 ^ 31) (h : GvasHeader) (ps : List (String × Property))
    (hr : (readData debug hints input).1 = .ok (h, ps)) (gv : DeserializedGameVersion)
    (hf : ∀ e ∈ ps, allFinite e.2 = true) :
    ∃ f d, GvasFile.ofJson (GvasFile.toJson ⟨gv, h, ps⟩) = some f ∧ f.encode = .ok d ∧
      GvasFile.encode ⟨gv, h, ps⟩ = .ok d ∧
      ∀ tail, (readData debug hints (d ++ tail)).1 = .ok (h, ps) := by
  obtain ⟨hok, d, hd, hl⟩ := accept_data hr gv
  exact ⟨_, d, (C53_saves_partial debug hints input h ps hr gv).2 hf, hd, hd,
    fun tail => fileOK_reads hok hd (by omega) tail⟩

example : (match (readData true noHints (saveBytes intBytes)).1 with
    | .ok (_, ps) => ps.all fun e => allFinite e.2
    | .bad _ => false) = true := by decide +kernel

/-- **C58**: whatever JSON is accepted, the resulting file has distinct keys in all its maps, and
writing it as JSON and reading that returns it exactly if its floats are finite.  Missing of C58:
files with floats that are not finite, for which it is false (`C58_overflow`). -/
theorem C58_json_stable_partial (j : J) (f : GvasFile) (h : GvasFile.ofJson j = some f) :
    FileMaps f ∧ (GvasFile.ofJson f.toJson = some f ↔ fileFinite f = true) := by
  have hm := file_good h
  refine ⟨hm, ?_⟩
  rw [C53_json_roundtrip_partial f hm]
  split <;> simp [*]

/-- JSON as a person might write it: another order of the entries, a redundant entry and integers
for floats. -/
def handJson : J :=
  .obj [("properties", .obj [("a", .obj [("value", .int 16777217), ("note", .null),
      ("type", .str "FloatProperty")])]), ("header", jsonHeader.toJ)]

example : (GvasFile.ofJson handJson).map (fun f => fileFinite f) = some true := by
  decide +kernel

/-- JSON with a float that is finite but beyond the 32 bit floats: 10^300. -/
def hugeJson : J :=
  .obj [("header", jsonHeader.toJ), ("properties", .obj [("a", .obj [("type", .str "FloatProperty"),
      ("value", .float ⟨0x7E37E43C8800759C⟩)])])]

/-- **C58** is false for floats beyond the range: the number is finite and the JSON is accepted,
but it is read as infinity, which cannot be written as JSON and read back. -/
theorem C58_overflow :
    finite64 ⟨0x7E37E43C8800759C⟩ = true ∧
      ∃ f, GvasFile.ofJson hugeJson = some f ∧ GvasFile.ofJson f.toJson = none := by
  refine ⟨by decide, ?_⟩
  have hk : (match GvasFile.ofJson hugeJson with
      | some f => fileFinite f
      | none => true) = false := by decide +kernel
  revert hk
  rcases hr : GvasFile.ofJson hugeJson with _ | f
  · intro hk; cases hk
  · intro hk
    refine ⟨f, rfl, ?_⟩
    rw [C53_json_roundtrip_partial f (file_good hr)]
    simp only at hk
    rw [hk]; rfl

end Gvas
