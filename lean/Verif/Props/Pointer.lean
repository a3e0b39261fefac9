import Verif.Lemmas.ElementMaps
import Verif.Lemmas.Pointer
import Verif.Props.Json
import Verif.Props.JsonDirect
import Verif.Props.Place

/-!
# C94: editing one place of the JSON changes one place of the save
-/

namespace Gvas

open Spec Rfc8259

/-- **C94**: a property in one place of a value, at any depth, is one part of its JSON: there is a
pointer to it, and replacing what it points to by the JSON of another property gives the JSON of the
value with that property in its place. -/
theorem C94_place_in_json (keys b h : Bool) (p q s t : Property) (hd : Differ keys b p q h s t)
    (hm : MapsDistinct s) :
    ∃ w, follow w s.toJ = some p.toJ ∧ replace q.toJ w s.toJ = t.toJ :=
  (differ_located (located_here _ _) hd hm).plain

/-- **C94**: the same for the text: it changes in one piece, which is the text of the property. -/
theorem C94_place_in_text (x : FloatText) (f : GvasFile) (keys b : Bool) (p q s t : Property)
    (k : String) (pre post : List (String × Property))
    (hf : f.properties = pre ++ (k, s) :: post) (hd : Differ keys b p q true s t) :
    ∃ front back : List Char,
      f.toText x = String.ofList (front ++ p.toS.text x ++ back) ∧
      { f with properties := pre ++ (k, t) :: post }.toText x =
        String.ofList (front ++ q.toS.text x ++ back) := by
  obtain ⟨front, back, h1, h2⟩ := file_piece (x := x) hf (differ_piece hd)
  exact ⟨front, back, by rw [GvasFile.toText, h1], by rw [GvasFile.toText, h2]⟩

/-- The file with another property in one place has distinct keys and finite floats too. -/
theorem edited_file {f : GvasFile} {b : Bool} {p q s t : Property} {k : String}
    {pre post : List (String × Property)} (hm : FileMaps f) (hff : fileFinite f = true)
    (hf : f.properties = pre ++ (k, s) :: post) (hd : Differ false b p q true s t)
    (hqm : MapsDistinct q) (hqf : allFinite q = true) :
    FileMaps { f with properties := pre ++ (k, t) :: post } ∧
      fileFinite { f with properties := pre ++ (k, t) :: post } = true := by
  obtain ⟨h1, h2, h3⟩ := hm
  rw [hf] at h2 h3
  have hs := h3 (k, s) (by simp)
  simp only [fileFinite, List.all_eq_true] at hff ⊢
  rw [hf] at hff
  have hsf := hff (k, s) (by simp)
  exact ⟨⟨h1, keys_kept h2, all_replaced h3 (differ_maps hd hs hqm)⟩,
    all_replaced hff (differ_finite hd hsf hqf)⟩

/-- **C94**: saving a file after an edit of its JSON.  If what a pointer points to in the JSON of a
file, the JSON of a property at any depth, is replaced by the JSON of another property, then the
result is loaded, and saving it changes the bytes of that property only, and stored lengths in front
of it if its size changes. -/
theorem C94_edit_through_json (f : GvasFile) (b : Bool) (p q s t : Property) (k : String)
    (pre post : List (String × Property)) (data : Bytes) (c : Out)
    (hm : FileMaps f) (hff : fileFinite f = true)
    (hf : f.properties = pre ++ (k, s) :: post) (hd : Differ false b p q true s t)
    (hqm : MapsDistinct q) (hqf : allFinite q = true) (he : f.encode = .ok data)
    (hq : Property.write f.header.customVersions b q = .ok c) :
    ∃ w front front' back a g, follow w f.toJson = some p.toJ ∧
      GvasFile.ofJson (replace q.toJ w f.toJson) = some g ∧
      g.properties = pre ++ (k, t) :: post ∧
      Property.write f.header.customVersions b p = .ok a ∧
      data = front ++ a.bytes ++ back ∧ g.encode = .ok (front' ++ c.bytes ++ back) ∧
      front'.length = front.length ∧ (c.bytes.length = a.bytes.length → front' = front) ∧
      Grown a.bytes.length c.bytes.length front front' := by
  obtain ⟨w, h1, h2⟩ := (file_located hf hm.2.1
    (differ_located (located_here _ _) hd (hm.2.2 (k, s) (by rw [hf]; simp)))).plain
  obtain ⟨hm', hf'⟩ := edited_file hm hff hf hd hqm hqf
  obtain ⟨front, front', back, a, i1, i2, i3, i4, i5⟩ :=
    C68_file_edit_is_local f false b p q s t k pre post data c hf hd he hq
  refine ⟨w, front, front', back, a, _, h1, ?_, rfl, i1, i2, i3, i4, i5⟩
  rw [h2, C53_json_roundtrip_partial _ hm', if_pos hf']

/-- **C94** by way of text: replacing the text of the property, where it is in the text of the file,
by the text of another property is the same edit, if the result can be loaded from text at all
(C88, C89). -/
theorem C94_edit_through_text (x : FloatText) (hx : FloatsOf x) (f : GvasFile) (b : Bool)
    (p q s t : Property) (k : String) (pre post : List (String × Property)) (data : Bytes) (c : Out)
    (hm : FileMaps f) (hff : fileFinite f = true)
    (hf : f.properties = pre ++ (k, s) :: post) (hd : Differ false b p q true s t)
    (hqm : MapsDistinct q) (hqf : allFinite q = true) (he : f.encode = .ok data)
    (hq : Property.write f.header.customVersions b q = .ok c)
    (hdepth : { f with properties := pre ++ (k, t) :: post }.toJson.depth ≤ 127)
    (hkept : EveryF32 (Kept x) { f with properties := pre ++ (k, t) :: post }.toSerde) :
    ∃ (left right : List Char) (front front' back : Bytes) (a : Out) (g : GvasFile),
      f.toText x = String.ofList (left ++ p.toS.text x ++ right) ∧
      GvasFile.ofStr (String.ofList (left ++ q.toS.text x ++ right)) = some g ∧
      g.properties = pre ++ (k, t) :: post ∧
      Property.write f.header.customVersions b p = .ok a ∧
      data = front ++ a.bytes ++ back ∧ g.encode = .ok (front' ++ c.bytes ++ back) ∧
      front'.length = front.length ∧ (c.bytes.length = a.bytes.length → front' = front) ∧
      Grown a.bytes.length c.bytes.length front front' := by
  obtain ⟨left, right, h1, h2⟩ := C94_place_in_text x f false b p q s t k pre post hf hd
  obtain ⟨hm', hf'⟩ := edited_file hm hff hf hd hqm hqf
  obtain ⟨front, front', back, a, i1, i2, i3, i4, i5⟩ :=
    C68_file_edit_is_local f false b p q s t k pre post data c hf hd he hq
  refine ⟨left, right, front, front', back, a, _, h1, ?_, rfl, i1, i2, i3, i4, i5⟩
  rw [← h2]
  exact (C89_saved_iff x hx _ hm').2 ⟨hf', hdepth, hkept⟩

/-- **C94** for single values: the JSON of a number, a switch or a string in a file, at any depth, is
pointed to by a pointer; putting another one there and loading the result gives the file with that
value, and saving it changes the bytes of that value only, and stored lengths in front of it if its
size changes. -/
theorem C94_value_through_json (f : GvasFile) (b : Bool) (p q s t : Property) (k : String)
    (pre post : List (String × Property)) (data : Bytes) (c : Out)
    (hm : FileMaps f) (hff : fileFinite f = true)
    (hf : f.properties = pre ++ (k, s) :: post) (hd : Differ false b p q true s t)
    (ha : Alike p q) (hqf : allFinite q = true) (he : f.encode = .ok data)
    (hq : Property.write f.header.customVersions b q = .ok c) :
    ∃ w n u v front front' back a g, valueField p = some (n, u) ∧ valueField q = some (n, v) ∧
      follow w f.toJson = some u ∧ GvasFile.ofJson (replace v w f.toJson) = some g ∧
      g.properties = pre ++ (k, t) :: post ∧
      Property.write f.header.customVersions b p = .ok a ∧
      data = front ++ a.bytes ++ back ∧ g.encode = .ok (front' ++ c.bytes ++ back) ∧
      front'.length = front.length ∧ (c.bytes.length = a.bytes.length → front' = front) ∧
      Grown a.bytes.length c.bytes.length front front' := by
  obtain ⟨n, u, v, e1, e2, e3⟩ := alike_located ha
  obtain ⟨w, h1, h2⟩ := (file_located hf hm.2.1
    (differ_located e3 hd (hm.2.2 (k, s) (by rw [hf]; simp)))).plain
  have hqm : MapsDistinct q := by cases ha <;> simp [MapsDistinct]
  obtain ⟨hm', hf'⟩ := edited_file hm hff hf hd hqm hqf
  obtain ⟨front, front', back, a, i1, i2, i3, i4, i5⟩ :=
    C68_file_edit_is_local f false b p q s t k pre post data c hf hd he hq
  refine ⟨w, n, u, v, front, front', back, a, _, e1, e2, h1, ?_, rfl, i1, i2, i3, i4, i5⟩
  rw [h2, C53_json_roundtrip_partial _ hm', if_pos hf']

/-- **C94** for values that are not properties (elements of arrays and maps of numbers, switches and
strings, structs of a fixed layout, parts of texts, delegates and field paths): putting the JSON of
the property with another such value where that of the property was and loading the result gives the
file with that value, and saving it changes the bytes of that value only, and stored lengths in front
of it if its size changes. -/
theorem C94_element_through_json (f : GvasFile) (b : Bool) (p q s t : Property) (k : String)
    (pre post : List (String × Property)) (x y data : Bytes)
    (hm : FileMaps f) (hff : fileFinite f = true)
    (hf : f.properties = pre ++ (k, s) :: post) (hd : Differ false b p q true s t)
    (hx : Element f.header.customVersions p q x y) (hqf : allFinite q = true)
    (he : f.encode = .ok data) :
    ∃ w front front' back g, follow w f.toJson = some p.toJ ∧
      GvasFile.ofJson (replace q.toJ w f.toJson) = some g ∧
      g.properties = pre ++ (k, t) :: post ∧
      data = front ++ x ++ back ∧ g.encode = .ok (front' ++ y ++ back) ∧
      front'.length = front.length ∧ (y.length = x.length → front' = front) ∧
      Grown x.length y.length front front' := by
  obtain ⟨w, h1, h2⟩ := (file_located hf hm.2.1
    (differ_located (located_here _ _) hd (hm.2.2 (k, s) (by rw [hf]; simp)))).plain
  have hqm := element_maps hx (differ_inner hd (hm.2.2 (k, s) (by rw [hf]; simp)))
  obtain ⟨hm', hf'⟩ := edited_file hm hff hf hd hqm hqf
  obtain ⟨front, front', back, i2, i3, i4, i5⟩ :=
    C68_file_element_is_local f false b p q s t k pre post x y data hf hd hx he
  refine ⟨w, front, front', back, _, h1, ?_, rfl, i2, i3, i4, i5⟩
  rw [h2, C53_json_roundtrip_partial _ hm', if_pos hf']

/-! ## Concrete cases -/

/-- A file with a number in a struct in a map in a struct. -/
def coinsTree (n : Int32) : Property :=
  .struct (Guid.fromU128 0) "Bag" (structWith [("Open", [.bool true])] "Slots" []
    (.map (.nameProperty "StructProperty" ([("a", .structValue (.customStruct []))] ++
      ("b", .structValue (structWith [] "Coins" [.int 1] (.int n) [] [])) :: []))) [] [])

/-- The same as a file. -/
def coinsFile (n : Int32) : GvasFile :=
  ⟨.default, jsonHeader, [("Name", .str (some "x"))] ++ ("Bag", coinsTree n) :: [("Z", .bool true)]⟩

/-- The pointer to the number, in the words of JSON. -/
def coinsPointer : List Step := [.field "properties", .field "Bag", .field "CustomStruct",
  .field "Slots", .index 0, .field "name_props", .field "b", .field "CustomStruct",
  .field "Coins", .index 1, .field "value"]

example : follow coinsPointer (coinsFile 3).toJson = some (.int 3) ∧
    replace (.int 99) coinsPointer (coinsFile 3).toJson = (coinsFile 99).toJson := ⟨rfl, rfl⟩

theorem coins_differ : Differ false true (.int 3) (.int 99) true (coinsTree 3) (coinsTree 99) :=
  .struct _ _ _ _ _ _ _ (.nameMap _ _ _ _ (.structValue _ _ _ _ _ .here))

theorem coins_maps : FileMaps (coinsFile 3) := by
  refine ⟨by decide, by unfold KeysDistinct; decide, ?_⟩
  simp [coinsFile, coinsTree, structWith, MapsDistinct, MapMaps, StructMaps, FieldsMaps,
    PropsMaps, ValuesMaps, KeysDistinct]

example (data : Bytes) (he : (coinsFile 3).encode = .ok data) :
    ∃ w front back a c g, follow w (coinsFile 3).toJson = some (.int 3) ∧
      GvasFile.ofJson (replace (.int 99) w (coinsFile 3).toJson) = some g ∧
      Property.write [] true (.int 3) = .ok a ∧ Property.write [] true (.int 99) = .ok c ∧
      data = front ++ a.bytes ++ back ∧ g.encode = .ok (front ++ c.bytes ++ back) := by
  obtain ⟨w, n, u, v, front, front', back, a, g, h1, h2, h3, h4, -, h5, h6, h7, -, h8, -⟩ :=
    C94_value_through_json (coinsFile 3) true (.int 3) (.int 99) _ _ "Bag" _ _ data _ coins_maps
      (by decide +kernel) rfl coins_differ (.int 3 99) rfl he rfl
  cases h1
  cases h2
  cases h5
  cases h8 rfl
  exact ⟨w, front, back, _, _, g, h3, h4, rfl, rfl, h6, h7⟩

/-- A whole property is replaced by one of another kind. -/
example (data : Bytes) (he : (coinsFile 3).encode = .ok data) :
    ∃ w front front' back a c g,
      follow w (coinsFile 3).toJson = some (Property.toJ (.int 3)) ∧
      GvasFile.ofJson (replace (Property.toJ (.str none)) w (coinsFile 3).toJson) = some g ∧
      Property.write [] true (.int 3) = .ok a ∧ Property.write [] true (.str none) = .ok c ∧
      data = front ++ a.bytes ++ back ∧ g.encode = .ok (front' ++ c.bytes ++ back) ∧
      front'.length = front.length := by
  obtain ⟨w, front, front', back, a, g, h3, h4, -, h5, h6, h7, h8, -⟩ :=
    C94_edit_through_json (coinsFile 3) true (.int 3) (.str none) _ _ "Bag" _ _ data _ coins_maps
      (by decide +kernel) rfl (.struct _ _ _ _ _ _ _ (.nameMap _ _ _ _ (.structValue _ _ _ _ _ .here)))
      (by simp [MapsDistinct]) rfl he rfl
  exact ⟨w, front, front', back, a, _, g, h3, h4, h5, rfl, h6, h7, h8⟩

theorem coins_floats {x : FloatText} : EveryF32 (Kept x) (coinsFile 99).toSerde := by
  have hg : guidES (Guid.fromU128 0) = [] := by decide +kernel
  simp [coinsFile, coinsTree, structWith, GvasFile.toSerde, jsonHeader, GvasHeader.toS,
    FEngineVersion.toS, customVersionsS, strPropsS, Property.toS, optES, hg, MapProperty.entriesS,
    StructPropertyValue.entryS, fieldsS, propsS, EveryF32, EveryF32Members, EveryF32Items]

/-- By way of text. -/
example (x : FloatText) (hx : FloatsOf x) (data : Bytes) (he : (coinsFile 3).encode = .ok data) :
    ∃ (left right : List Char) (front back : Bytes) (a c : Out) (g : GvasFile),
      (coinsFile 3).toText x =
        String.ofList (left ++ "{\"type\":\"IntProperty\",\"value\":3}".toList ++ right) ∧
      GvasFile.ofStr (String.ofList
        (left ++ "{\"type\":\"IntProperty\",\"value\":99}".toList ++ right)) = some g ∧
      Property.write [] true (.int 3) = .ok a ∧ Property.write [] true (.int 99) = .ok c ∧
      data = front ++ a.bytes ++ back ∧ g.encode = .ok (front ++ c.bytes ++ back) := by
  obtain ⟨left, right, front, front', back, a, g, h3, h4, -, h5, h6, h7, -, h8⟩ :=
    C94_edit_through_text x hx (coinsFile 3) true (.int 3) (.int 99) _ _ "Bag" _ _ data _ coins_maps
      (by decide +kernel) rfl coins_differ (by simp [MapsDistinct]) rfl he rfl
      (by decide +kernel) coins_floats
  cases h5
  cases h8.1 rfl
  exact ⟨left, right, front, back, _, _, g, h3, h4, rfl, rfl, h6, h7⟩

/-- A file with a text in a struct: the key of the text is changed. -/
def signTree (key : String) : Property :=
  .struct (Guid.fromU128 0) "Sign" (structWith [("Lit", [.bool true])] "Line" [.int 1]
    (.text (.mk 0 (.base (some "n") (some key) none))) [] [])

/-- The same as a file. -/
def signFile (key : String) : GvasFile :=
  ⟨.default, jsonHeader, [("Name", .str (some "x"))] ++ ("Sign", signTree key) :: []⟩

theorem sign_maps : FileMaps (signFile "k") := by
  refine ⟨by decide, by unfold KeysDistinct; decide, ?_⟩
  simp [signFile, signTree, structWith, MapsDistinct, StructMaps, FieldsMaps, PropsMaps,
    KeysDistinct, TextMaps, HistoryMaps]

example (data : Bytes) (he : (signFile "k").encode = .ok data) :
    ∃ w front front' back g,
      follow w (signFile "k").toJson =
        some (Property.toJ (.text (.mk 0 (.base (some "n") (some "k") none)))) ∧
      GvasFile.ofJson (replace (Property.toJ (.text (.mk 0 (.base (some "n") (some "long") none)))) w
        (signFile "k").toJson) = some g ∧
      data = front ++ [2, 0, 0, 0, 0x6B, 0] ++ back ∧
      g.encode = .ok (front' ++ [5, 0, 0, 0, 0x6C, 0x6F, 0x6E, 0x67, 0] ++ back) ∧
      front'.length = front.length := by
  obtain ⟨w, front, front', back, g, h1, h2, -, h3, h4, h5, -⟩ :=
    C94_element_through_json (signFile "k") true _ _ (signTree "k") (signTree "long") "Sign" _ _ _ _
      data sign_maps (by decide +kernel) rfl (.struct _ _ _ _ _ _ _ .here)
      (.text (.history 0 (.baseKey (some "n") (some "k") (some "long") none (by decide))))
      (by decide +kernel) he
  exact ⟨w, front, front', back, g, h1, h2, h3, h4, h5⟩

end Gvas
