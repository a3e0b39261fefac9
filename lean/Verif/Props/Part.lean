import Verif.Lemmas.Part
import Verif.Props.Pointer

/-!
# C94: editing a value that is not a property where it is in the JSON
-/

namespace Gvas

open Spec

/-- **C94** for values that are not properties: the JSON of an element of a list, a value of a map, a
component of a struct, a part of a text, of a delegate or of a field path is in its own place in the
JSON of the property around it, at the end of the pointer to that property.  Replacing it there gives
the JSON of the property with the other value. -/
theorem C94_part_in_json (keys b h : Bool) (p q s t : Property) (e : List Step) (u v : J)
    (hd : Differ keys b p q h s t) (hp : PartAt p q e u v) (hpm : MapsDistinct p)
    (hm : MapsDistinct s) :
    ∃ w, follow w s.toJ = some p.toJ ∧ follow (w ++ e) s.toJ = some u ∧
      replace v (w ++ e) s.toJ = t.toJ := by
  obtain ⟨h1, h2⟩ := partAt_points hp hpm
  obtain ⟨w, h3, h4⟩ := differ_located (located_at h2) hd hm
  exact ⟨w, h3, points_append h3 h1, h4⟩

/-- **C94** for values that are not properties, where they are in the JSON: putting the JSON of
another such value there and loading the result gives the file with that value, and saving it changes
the bytes of that value only, and stored lengths in front of it if its size changes. -/
theorem C94_part_through_json (f : GvasFile) (b : Bool) (p q s t : Property) (k : String)
    (pre post : List (String × Property)) (e : List Step) (u v : J) (x y data : Bytes)
    (hm : FileMaps f) (hff : fileFinite f = true)
    (hf : f.properties = pre ++ (k, s) :: post) (hd : Differ false b p q true s t)
    (hp : PartAt p q e u v) (hx : Element f.header.customVersions p q x y)
    (hqf : allFinite q = true) (he : f.encode = .ok data) :
    ∃ w front front' back g, follow w f.toJson = some p.toJ ∧
      follow (w ++ e) f.toJson = some u ∧ GvasFile.ofJson (replace v (w ++ e) f.toJson) = some g ∧
      g.properties = pre ++ (k, t) :: post ∧
      data = front ++ x ++ back ∧ g.encode = .ok (front' ++ y ++ back) ∧
      front'.length = front.length ∧ (y.length = x.length → front' = front) ∧
      Grown x.length y.length front front' := by
  have hs := hm.2.2 (k, s) (by rw [hf]; simp)
  have hpm := differ_inner hd hs
  obtain ⟨h1, h2⟩ := partAt_points hp hpm
  obtain ⟨w, h3, h4⟩ := file_located hf hm.2.1 (differ_located (located_at h2) hd hs)
  obtain ⟨hm', hf'⟩ := edited_file hm hff hf hd (element_maps hx hpm) hqf
  obtain ⟨front, front', back, i2, i3, i4, i5⟩ :=
    C68_file_element_is_local f false b p q s t k pre post x y data hf hd hx he
  refine ⟨w, front, front', back, _, h3, points_append h3 h1, ?_, rfl, i2, i3, i4, i5⟩
  rw [h4, C53_json_roundtrip_partial _ hm', if_pos hf']

/-! ## Concrete cases -/

/-- The key of the text on the sign of `signFile`. -/
example (data : Bytes) (he : (signFile "k").encode = .ok data) :
    ∃ w front front' back g,
      follow (w ++ [.field "key"]) (signFile "k").toJson = some (.str "k") ∧
      GvasFile.ofJson (replace (.str "long") (w ++ [.field "key"]) (signFile "k").toJson) = some g ∧
      data = front ++ [2, 0, 0, 0, 0x6B, 0] ++ back ∧
      g.encode = .ok (front' ++ [5, 0, 0, 0, 0x6C, 0x6F, 0x6E, 0x67, 0] ++ back) ∧
      front'.length = front.length := by
  obtain ⟨w, front, front', back, g, -, h1, h2, -, h3, h4, h5, -⟩ :=
    C94_part_through_json (signFile "k") true _ _ (signTree "k") (signTree "long") "Sign" _ _ _ _ _
      _ _ data sign_maps (by decide +kernel) rfl (.struct _ _ _ _ _ _ _ .here)
      (.text (.history 0 (.baseKey "k" "long" (some "n") none)))
      (.text (.history 0 (.baseKey (some "n") (some "k") (some "long") none (by decide))))
      (by decide +kernel) he
  exact ⟨w, front, front', back, g, h1, h2, h3, h4, h5⟩

/-- A file with numbers in an array in a struct. -/
def scoresFile (n : Int32) : GvasFile :=
  ⟨.default, jsonHeader, [("Name", .str (some "x"))] ++ ("Best", .struct (Guid.fromU128 0) "Best"
    (structWith [] "Scores" [] (.array (.ints ([10, 20] ++ n :: [40]))) [] [])) :: []⟩

theorem scores_maps : FileMaps (scoresFile 30) := by
  refine ⟨by decide, by unfold KeysDistinct; decide, ?_⟩
  simp [scoresFile, structWith, MapsDistinct, ArrayMaps, StructMaps, FieldsMaps, PropsMaps,
    KeysDistinct]

/-- The pointer in the words of JSON. -/
example : follow [.field "properties", .field "Best", .field "CustomStruct", .field "Scores",
    .index 0, .field "ints", .index 2] (scoresFile 30).toJson = some (.int 30) := rfl

example (data : Bytes) (he : (scoresFile 30).encode = .ok data) :
    ∃ w front back g,
      follow (w ++ [.field "ints", .index 2]) (scoresFile 30).toJson = some (.int 30) ∧
      GvasFile.ofJson (replace (.int 99) (w ++ [.field "ints", .index 2]) (scoresFile 30).toJson) =
        some g ∧
      data = front ++ [30, 0, 0, 0] ++ back ∧ g.encode = .ok (front ++ [99, 0, 0, 0] ++ back) := by
  obtain ⟨w, front, front', back, g, -, h1, h2, -, h3, h4, -, h5, -⟩ :=
    C94_part_through_json (scoresFile 30) true _ _ _ _ "Best" _ _ _ _ _ _ _ data scores_maps
      (by decide +kernel) rfl (.struct _ _ _ _ _ _ _ .here) (.ints [10, 20] [40] 30 99)
      (.ints [10, 20] [40] 30 99) (by decide +kernel) he
  cases h5 rfl
  exact ⟨w, front, back, g, h1, h2, h3, h4⟩

/-- The height of a place in an array of structs, in a set. -/
example (o a b : F64) : ∃ w, follow (w ++ [.field "structs", .index 1, .field "VectorD", .field "z"])
      (Property.toJ (.set "ArrayProperty" 0 [.bool true, .array (.structs "P" "Vector" editorGuid
        [.vectorD o o o, .vectorD a a a])])) = some (doubleJ a) ∧
    replace (doubleJ b) (w ++ [.field "structs", .index 1, .field "VectorD", .field "z"])
      (Property.toJ (.set "ArrayProperty" 0 [.bool true, .array (.structs "P" "Vector" editorGuid
        [.vectorD o o o, .vectorD a a a])])) =
      Property.toJ (.set "ArrayProperty" 0 [.bool true, .array (.structs "P" "Vector" editorGuid
        [.vectorD o o o, .vectorD a a b])]) := by
  obtain ⟨w, -, h1, h2⟩ := C94_part_in_json false false true
    (.array (.structs "P" "Vector" editorGuid ([.vectorD o o o] ++ .vectorD a a a :: [])))
    (.array (.structs "P" "Vector" editorGuid ([.vectorD o o o] ++ .vectorD a a b :: [])))
    (.set "ArrayProperty" 0 ([.bool true] ++ .array (.structs "P" "Vector" editorGuid
        [.vectorD o o o, .vectorD a a a]) :: [])) _ _ _ _ (.set _ _ _ _ .here)
    (.structs "P" "Vector" editorGuid _ _ (.vectorDZ a a a b))
    (by simp [MapsDistinct, ArrayMaps, StructsMaps, StructMaps])
    (by simp [MapsDistinct, ArrayMaps, StructsMaps, StructMaps, PropsMaps])
  exact ⟨w, h1, h2⟩

end Gvas
