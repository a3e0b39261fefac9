import Verif.Lemmas.Place
import Verif.Lemmas.Element
import Verif.Props.File

/-!
# C68: changing one value deep inside a save
-/

namespace Gvas

open Spec

/-- **C68**: if two properties differ in one place only, at any depth, then so do their encodings:
behind the place the bytes are the same, in front of it there are equally many, and these are the
same too if the encodings of what is in the place are equally long; otherwise only lengths stored
there differ, by as much as the encodings of what is in the place do. -/
theorem C68_edit_is_local (cv : List (Guid × UInt32)) (keys b h : Bool) (p q s t : Property)
    (o c : Out) (hd : Differ keys b p q h s t) (hs : Property.write cv h s = .ok o)
    (hq : Property.write cv b q = .ok c) :
    ∃ front front' back a o', Property.write cv b p = .ok a ∧ Property.write cv h t = .ok o' ∧
      o.bytes = front ++ a.bytes ++ back ∧ o'.bytes = front' ++ c.bytes ++ back ∧
      front'.length = front.length ∧ (c.bytes.length = a.bytes.length → front' = front) ∧
      Grown a.bytes.length c.bytes.length front front' := by
  obtain ⟨pre, a, post, h1, h2, h3⟩ := differ_replaced (cv := cv) hd o hs
  obtain ⟨pre', o', h4, h5, h6⟩ := h3 c hq
  exact ⟨pre, pre', post, a, o', h1, h4, h2, h5, h6.length_eq, h6.eq, h6⟩

/-- **C68**: the same for files: changing a property deep inside a file changes the bytes of that
property only, and stored lengths in front of it if its size changes. -/
theorem C68_file_edit_is_local (f : GvasFile) (keys b : Bool) (p q s t : Property) (k : String)
    (pre post : List (String × Property)) (data : Bytes) (c : Out)
    (hf : f.properties = pre ++ (k, s) :: post) (hd : Differ keys b p q true s t)
    (he : f.encode = .ok data) (hq : Property.write f.header.customVersions b q = .ok c) :
    ∃ front front' back a, Property.write f.header.customVersions b p = .ok a ∧
      data = front ++ a.bytes ++ back ∧
      { f with properties := pre ++ (k, t) :: post }.encode = .ok (front' ++ c.bytes ++ back) ∧
      front'.length = front.length ∧ (c.bytes.length = a.bytes.length → front' = front) ∧
      Grown a.bytes.length c.bytes.length front front' := by
  unfold GvasFile.encode at he
  obtain ⟨ps, hp, he⟩ := Res.bind_inv he
  cases he
  rw [hf] at hp
  obtain ⟨f1, m, f2, h1, h2, h3⟩ := fits_top f.header.customVersions k pre post s ps hp
  obtain ⟨g1, a, g2, e1, e2, e3⟩ := differ_replaced (cv := f.header.customVersions) hd m h1
  obtain ⟨g1', m', i1, i2, i3⟩ := e3 c hq
  obtain ⟨f1', ps', j1, j2, j3⟩ := h3 t m' i1
  have hg : Grown a.bytes.length c.bytes.length (f.header.write.bytes ++ f1 ++ g1)
      (f.header.write.bytes ++ f1' ++ g1') := by
    rw [e2, i2] at j3
    exact ((Grown.refl _ _ _).append (Grown.around i3 j3)).append i3
  refine ⟨f.header.write.bytes ++ f1 ++ g1, f.header.write.bytes ++ f1' ++ g1',
    g2 ++ f2 ++ (writeString "None").bytes ++ i32B 0, a, e1, ?_, ?_, hg.length_eq, hg.eq, hg⟩
  · rw [h2, e2]
    simp only [List.append_assoc]
  · unfold GvasFile.encode
    simp only [j1]
    show Res.ok _ = _
    rw [j2, i2]
    simp only [List.append_assoc]

/-- A file with a similar property in one place can be saved and loaded too. -/
theorem patched_ok {debug : Bool} {hints : String → Option String}
    {f : GvasFile} {b : Bool} {p q s t : Property} {k : String}
    {pre post : List (String × Property)} (hok : FileOK debug hints f)
    (hf : f.properties = pre ++ (k, s) :: post) (hd : Differ false b p q true s t)
    (ha : Similar (fileEnv debug hints f.header) p q) :
    FileOK debug hints { f with properties := pre ++ (k, t) :: post } := by
  refine ⟨hok.1, ?_, ?_⟩
  · have := hok.2.1
    rw [hf] at this
    simpa using this
  · intro e he
    simp only [List.mem_append, List.mem_cons] at he
    have hm := hok.2.2
    rw [hf] at hm
    rcases he with he | he | he
    · exact hm e (by simp [he])
    · subst he
      have := hm (k, s) (by simp)
      exact ⟨this.1, this.2.1, (differ_similar_of _ hd ha).head _ this.2.2⟩
    · exact hm e (by simp [he])

/-- What is left of C68 once the two files are known to be similar. -/
theorem patched_file (z : Codec) (debug : Bool) (hints : String → Option String)
    (f : GvasFile) (b : Bool) (p q s t : Property) (k : String)
    (pre post : List (String × Property)) (new : Bytes)
    (hv : f.gameVersion = .default) (hok : FileOK debug hints f)
    (hf : f.properties = pre ++ (k, s) :: post) (hd : Differ false b p q true s t)
    (ha : Similar (fileEnv debug hints f.header) p q)
    (h3 : { f with properties := pre ++ (k, t) :: post }.encode = .ok new)
    (h32 : new.length < 2 ^ 32) :
    GvasFile.read z debug .default hints 0 new =
      .ok { f with properties := pre ++ (k, t) :: post } := by
  have := fileOK_reads (patched_ok hok hf hd ha) h3 h32 []
  rw [List.append_nil] at this
  simp only [GvasFile.read, this, ← hv]
  rfl

/-- **C68**: so a number, switch or string anywhere in a save (except in map keys) can be changed by
overwriting its bytes: if the new encoding is as long as the old one, reading the patched bytes
returns the file with this one value changed. -/
theorem C68_patch_in_place (z : Codec) (debug : Bool) (hints : String → Option String)
    (f : GvasFile) (b : Bool) (p q s t : Property) (k : String)
    (pre post : List (String × Property)) (data : Bytes) (a c : Out)
    (hv : f.gameVersion = .default) (hok : FileOK debug hints f)
    (hf : f.properties = pre ++ (k, s) :: post) (hd : Differ false b p q true s t)
    (ha : Alike p q) (he : f.encode = .ok data) (h32 : data.length < 2 ^ 32)
    (hp : Property.write f.header.customVersions b p = .ok a)
    (hq : Property.write f.header.customVersions b q = .ok c)
    (hl : c.bytes.length = a.bytes.length) :
    ∃ front back, data = front ++ a.bytes ++ back ∧
      GvasFile.read z debug .default hints 0 (front ++ c.bytes ++ back) =
        .ok { f with properties := pre ++ (k, t) :: post } := by
  obtain ⟨front, front', back, a', h1, h2, h3, -, h4, -⟩ :=
    C68_file_edit_is_local f false b p q s t k pre post data c hf hd he hq
  rw [hp] at h1
  cases h1
  cases h4 hl
  refine ⟨front, back, h2, patched_file z debug hints f b p q s t k pre post _ hv hok hf hd
    (Alike.similar ha _) h3 ?_⟩
  rw [h2] at h32
  simp only [List.length_append, hl] at h32 ⊢
  exact h32

/-- **C68** for values that are not properties, that is the elements of arrays and maps of numbers,
switches and strings, the values of structs with a fixed layout, and the parts of texts, delegates
and field paths: changing one of them in a
property changes its bytes only, and stored lengths in front of it if its size changes. -/
theorem C68_element_is_local (cv : List (Guid × UInt32)) (h : Bool) (s t : Property) (x y : Bytes)
    (o : Out) (he : Element cv s t x y) (hs : Property.write cv h s = .ok o) :
    ∃ front front' back o', Property.write cv h t = .ok o' ∧
      o.bytes = front ++ x ++ back ∧ o'.bytes = front' ++ y ++ back ∧
      front'.length = front.length ∧ (y.length = x.length → front' = front) ∧
      Grown x.length y.length front front' := by
  obtain ⟨o', h1, front, front', back, h2, h3, h4⟩ := element_write he hs
  exact ⟨front, front', back, o', h1, h2, h3, h4.length_eq, h4.eq, h4⟩

/-- **C68** for such values in files, at any depth. -/
theorem C68_file_element_is_local (f : GvasFile) (keys b : Bool) (p q s t : Property) (k : String)
    (pre post : List (String × Property)) (x y data : Bytes)
    (hf : f.properties = pre ++ (k, s) :: post) (hd : Differ keys b p q true s t)
    (hx : Element f.header.customVersions p q x y) (he : f.encode = .ok data) :
    ∃ front front' back, data = front ++ x ++ back ∧
      { f with properties := pre ++ (k, t) :: post }.encode = .ok (front' ++ y ++ back) ∧
      front'.length = front.length ∧ (y.length = x.length → front' = front) ∧
      Grown x.length y.length front front' := by
  have hps : ∃ ps, writeTop f.header.customVersions f.properties = .ok ps := by
    unfold GvasFile.encode at he
    obtain ⟨ps, hp, -⟩ := Res.bind_inv he
    exact ⟨ps, hp⟩
  obtain ⟨ps, hps⟩ := hps
  rw [hf] at hps
  obtain ⟨-, m, -, hm, -, -⟩ := fits_top f.header.customVersions k pre post s ps hps
  obtain ⟨-, a, -, ha, -, -⟩ := differ_replaced (cv := f.header.customVersions) hd m hm
  obtain ⟨g, g', back, c, hc, hac, hcc, -, -, hg⟩ :=
    C68_element_is_local f.header.customVersions b p q x y a hx ha
  obtain ⟨front, front', back', a', h1, h2, h3, -, -, h4⟩ :=
    C68_file_edit_is_local f keys b p q s t k pre post data c hf hd he hc
  rw [ha] at h1
  cases h1
  rw [hac, hcc] at h4
  have hgg := (Grown.around hg h4).append hg
  refine ⟨front ++ g, front' ++ g', back ++ back', ?_, ?_, hgg.length_eq, hgg.eq, hgg⟩
  · rw [h2, hac]
    simp only [List.append_assoc]
  · rw [h3, hcc]
    simp only [List.append_assoc]

/-- **C68**: so they too can be changed by overwriting their bytes. -/
theorem C68_patch_element (z : Codec) (debug : Bool) (hints : String → Option String)
    (f : GvasFile) (b : Bool) (p q s t : Property) (k : String)
    (pre post : List (String × Property)) (x y data : Bytes)
    (hv : f.gameVersion = .default) (hok : FileOK debug hints f)
    (hf : f.properties = pre ++ (k, s) :: post) (hd : Differ false b p q true s t)
    (hx : Element f.header.customVersions p q x y) (he : f.encode = .ok data)
    (h32 : data.length < 2 ^ 32) (hl : y.length = x.length) :
    ∃ front back, data = front ++ x ++ back ∧
      GvasFile.read z debug .default hints 0 (front ++ y ++ back) =
        .ok { f with properties := pre ++ (k, t) :: post } := by
  obtain ⟨front, front', back, h2, h3, -, h4, -⟩ :=
    C68_file_element_is_local f false b p q s t k pre post x y data hf hd hx he
  cases h4 hl
  refine ⟨front, back, h2, patched_file z debug hints f b p q s t k pre post _ hv hok hf hd
    (element_similar hx _) h3 ?_⟩
  rw [h2] at h32
  simp only [List.length_append, hl] at h32 ⊢
  exact h32

/-- The count inside the first slot of the sample's inventory, and the same with another number. -/
def sampleTreeWith (n : Int32) : Property :=
  .struct editorGuid "Inventory" (structWith
    [("Title", [.text (nestedText (.int64 (-5)))]),
     ("Tag", [.name 0 (some "x"), .name 1 none, .name 2 (some "naïve")])]
    "Slots" [] (.map (.nameProperty "StructProperty" ([] ++
      ("a", .structValue (structWith [] "Count" [] (.int n) [] [])) ::
         [("b", .structValue (.customStruct []))]))) []
    [("Odd", [.map (.properties "FloatProperty" "ByteProperty" 0
        [(.float ⟨0⟩, .byte none (.byte 1)), (.float ⟨0x7FC00000⟩, .byte none (.byte 2))])]),
     ("Places", [.array (.structs "Places" "Quat" ue5ReleaseGuid
        [.quatD ⟨1⟩ ⟨2⟩ ⟨3⟩ ⟨4⟩, .quatD ⟨0⟩ ⟨0⟩ ⟨0⟩ ⟨0x7FF8000000000001⟩])]),
     ("Modes", [.array (.properties "ByteProperty"
        [.byte none (.namespaced "E::A"), .byte none (.namespaced "E::Long")])]),
     ("Spots", [.set "StructProperty" 0 [.structValue (.vectorD ⟨1⟩ ⟨2⟩ ⟨3⟩)]]),
     ("Raw", [.unknown "Int128Property" [1, 2, 3]])])

/-- Changing the count of the first slot from 3 to 99, four levels deep, in the sample file of
1278 bytes. -/
example (data : Bytes) (he : (sampleFile .default).encode = .ok data) (h : data.length < 2 ^ 32) :
    ∃ a c front back, Property.write newVersions true (.int 3) = .ok a ∧
      Property.write newVersions true (.int 99) = .ok c ∧ data = front ++ a.bytes ++ back ∧
      GvasFile.read toyCodec true .default sampleHints 0 (front ++ c.bytes ++ back) =
        .ok { sampleFile .default with properties := [("Inventory", sampleTreeWith 99),
          ("Über", .str (some "x")), ("Done", .bool true)] } := by
  have hd : Differ false true (.int 3) (.int 99) true (sampleTreeWith 3) (sampleTreeWith 99) :=
    .struct _ _ _ _ _ _ _ (.nameMap _ _ _ _ (.structValue _ _ _ _ _ .here))
  obtain ⟨front, back, h1, h2⟩ := C68_patch_in_place toyCodec true sampleHints
    (sampleFile .default) true (.int 3) (.int 99) (sampleTreeWith 3) (sampleTreeWith 99)
    "Inventory" [] [("Über", .str (some "x")), ("Done", .bool true)] data _ _ rfl
    (sampleFile_ok _) rfl hd (.int 3 99) he h rfl rfl rfl
  exact ⟨_, _, front, back, rfl, rfl, h1, h2⟩

/-- A string that grows: the place is in a set, and the length stored in front of it changes. -/
example (cv : List (Guid × UInt32)) : ∃ front front' back a c o o',
    Property.write cv false (.str (some "a")) = .ok a ∧
    Property.write cv false (.str (some "bcd")) = .ok c ∧
    Property.write cv true (.set "StrProperty" 0 ([] ++ .str (some "a") :: [.str none])) = .ok o ∧
    Property.write cv true (.set "StrProperty" 0 ([] ++ .str (some "bcd") :: [.str none])) = .ok o' ∧
    o.bytes = front ++ a.bytes ++ back ∧ o'.bytes = front' ++ c.bytes ++ back ∧
    front'.length = front.length := by
  obtain ⟨front, front', back, a, o', h1, h2, h3, h4, h5, -⟩ := C68_edit_is_local cv false false true
    (.str (some "a")) (.str (some "bcd")) _ _ _ _ (.set "StrProperty" 0 [] [.str none] .here) rfl rfl
  exact ⟨front, front', back, a, _, _, o', h1, rfl, rfl, h2, h3, h4, h5⟩

/-- The second place of the sample's list of places, a struct of a fixed layout, and the same list
with another one. -/
def samplePlacesWith (w : F64) : Property :=
  .struct editorGuid "Inventory" (structWith
    [("Title", [.text (nestedText (.int64 (-5)))]),
     ("Tag", [.name 0 (some "x"), .name 1 none, .name 2 (some "naïve")]),
     ("Slots", [.map (.nameProperty "StructProperty"
      [("a", .structValue (.customStruct [("Count", [.int 3])])), ("b", .structValue (.customStruct []))])]),
     ("Odd", [.map (.properties "FloatProperty" "ByteProperty" 0
        [(.float ⟨0⟩, .byte none (.byte 1)), (.float ⟨0x7FC00000⟩, .byte none (.byte 2))])])]
    "Places" [] (.array (.structs "Places" "Quat" ue5ReleaseGuid
        ([.quatD ⟨1⟩ ⟨2⟩ ⟨3⟩ ⟨4⟩] ++ .quatD ⟨0⟩ ⟨0⟩ ⟨0⟩ w :: []))) []
    [("Modes", [.array (.properties "ByteProperty"
        [.byte none (.namespaced "E::A"), .byte none (.namespaced "E::Long")])]),
     ("Spots", [.set "StructProperty" 0 [.structValue (.vectorD ⟨1⟩ ⟨2⟩ ⟨3⟩)]]),
     ("Raw", [.unknown "Int128Property" [1, 2, 3]])])

/-- Changing a component of a struct in an array in the sample file. -/
example (data : Bytes) (he : (sampleFile .default).encode = .ok data) (h : data.length < 2 ^ 32) :
    ∃ front back,
      data = front ++ (f64B ⟨0⟩ ++ f64B ⟨0⟩ ++ f64B ⟨0⟩ ++ f64B ⟨0x7FF8000000000001⟩) ++ back ∧
      GvasFile.read toyCodec true .default sampleHints 0
          (front ++ (f64B ⟨0⟩ ++ f64B ⟨0⟩ ++ f64B ⟨0⟩ ++ f64B ⟨7⟩) ++ back) =
        .ok { sampleFile .default with properties := [("Inventory", samplePlacesWith ⟨7⟩),
          ("Über", .str (some "x")), ("Done", .bool true)] } :=
  C68_patch_element toyCodec true sampleHints (sampleFile .default) true _ _
    (samplePlacesWith ⟨0x7FF8000000000001⟩) (samplePlacesWith ⟨7⟩) "Inventory" []
    [("Über", .str (some "x")), ("Done", .bool true)] _ _ data rfl (sampleFile_ok _) rfl
    (.struct _ _ _ _ _ _ _ .here) (.structs _ _ _ _ _ (.quatD _ _ _ _ _ _ _ _)) he h rfl

/-- An element of an array of strings that grows. -/
example (cv : List (Guid × UInt32)) : ∃ front front' back o o',
    Property.write cv true (.array (.strings ([none] ++ some "a" :: []))) = .ok o ∧
    Property.write cv true (.array (.strings ([none] ++ some "bcd" :: []))) = .ok o' ∧
    o.bytes = front ++ [2, 0, 0, 0, 0x61, 0] ++ back ∧
    o'.bytes = front' ++ [4, 0, 0, 0, 0x62, 0x63, 0x64, 0] ++ back ∧
    front'.length = front.length ∧ Grown 6 8 front front' := by
  obtain ⟨front, front', back, o', h1, h2, h3, h4, -, h5⟩ := C68_element_is_local cv true _ _ _ _ _
    (.strings [none] [] (some "a") (some "bcd") (by decide)) rfl
  exact ⟨front, front', back, _, o', rfl, h1, h2, h3, h4, h5⟩

/-- The title of the sample with another table key, four texts deep. -/
def titleWith (key : String) : FText :=
  .mk 2 (.namedFormat (.mk 8 (.base (some "ns") none (some "{a} of {b} ✓")))
    ([("a", .int64 (-5))] ++
     ("b", .text (.mk 0 (.orderedFormat (.mk 1 (.stringTableEntry "T" key))
        [.double ⟨0x3FF0000000000000⟩,
         .text (.mk 0 (.asCurrency (some "EUR") (.int64 (-5))
            (some ⟨true, false, .halfToEven, 1, 324, -1, 3⟩) none)),
         .text (.mk 4 (.transform (.mk 0 .empty) .toUpper))]))) :: []))

/-- The inventory of the sample with that title. -/
def sampleTitleWith (key : String) : Property :=
  .struct editorGuid "Inventory" (structWith [] "Title" [] (.text (titleWith key)) []
    [("Tag", [.name 0 (some "x"), .name 1 none, .name 2 (some "naïve")]),
     ("Slots", [.map (.nameProperty "StructProperty"
      [("a", .structValue (.customStruct [("Count", [.int 3])])), ("b", .structValue (.customStruct []))])]),
     ("Odd", [.map (.properties "FloatProperty" "ByteProperty" 0
        [(.float ⟨0⟩, .byte none (.byte 1)), (.float ⟨0x7FC00000⟩, .byte none (.byte 2))])]),
     ("Places", [.array (.structs "Places" "Quat" ue5ReleaseGuid
        [.quatD ⟨1⟩ ⟨2⟩ ⟨3⟩ ⟨4⟩, .quatD ⟨0⟩ ⟨0⟩ ⟨0⟩ ⟨0x7FF8000000000001⟩])]),
     ("Modes", [.array (.properties "ByteProperty"
        [.byte none (.namespaced "E::A"), .byte none (.namespaced "E::Long")])]),
     ("Spots", [.set "StructProperty" 0 [.structValue (.vectorD ⟨1⟩ ⟨2⟩ ⟨3⟩)]]),
     ("Raw", [.unknown "Int128Property" [1, 2, 3]])])

/-- Changing the key of a string table entry in the template of an argument of a text. -/
example (data : Bytes) (he : (sampleFile .default).encode = .ok data) (h : data.length < 2 ^ 32) :
    ∃ front back, data = front ++ [2, 0, 0, 0, 0x6B, 0] ++ back ∧
      GvasFile.read toyCodec true .default sampleHints 0 (front ++ [2, 0, 0, 0, 0x6D, 0] ++ back) =
        .ok { sampleFile .default with properties := [("Inventory", sampleTitleWith "m"),
          ("Über", .str (some "x")), ("Done", .bool true)] } :=
  C68_patch_element toyCodec true sampleHints (sampleFile .default) true _ _
    (sampleTitleWith "k") (sampleTitleWith "m") "Inventory" []
    [("Über", .str (some "x")), ("Done", .bool true)] _ _ data rfl (sampleFile_ok _) rfl
    (.struct _ _ _ _ _ _ _ .here)
    (.text (.history _ (.namedArgument _ _ _ _ (.text (.history _ (.orderedSource _
      (.history _ (.tableKey "T" "k" "m" (by decide))))))))) he h rfl

/-- The function of a delegate in a list, and a step of a field path that grows. -/
example (cv : List (Guid × UInt32)) : ∃ front front' back o o',
    Property.write cv true (.multicastSparseDelegate ([⟨"o", "f"⟩] ++ ⟨"o", "a"⟩ :: [])) = .ok o ∧
    Property.write cv true (.multicastSparseDelegate ([⟨"o", "f"⟩] ++ ⟨"o", "bcd"⟩ :: [])) = .ok o' ∧
    o.bytes = front ++ [2, 0, 0, 0, 0x61, 0] ++ back ∧
    o'.bytes = front' ++ [4, 0, 0, 0, 0x62, 0x63, 0x64, 0] ++ back ∧
    front'.length = front.length := by
  obtain ⟨front, front', back, o', h1, h2, h3, h4, -⟩ := C68_element_is_local cv true _ _ _ _ _
    (.sparseDelegate [⟨"o", "f"⟩] [] (.functionName "o" "a" "bcd" (by decide))) rfl
  exact ⟨front, front', back, _, o', rfl, h1, h2, h3, h4⟩

example (cv : List (Guid × UInt32)) : ∃ front front' back o o',
    Property.write cv true (.fieldPath ⟨["p"] ++ "a" :: ["q"], "owner"⟩) = .ok o ∧
    Property.write cv true (.fieldPath ⟨["p"] ++ "bcd" :: ["q"], "owner"⟩) = .ok o' ∧
    o.bytes = front ++ [2, 0, 0, 0, 0x61, 0] ++ back ∧
    o'.bytes = front' ++ [4, 0, 0, 0, 0x62, 0x63, 0x64, 0] ++ back ∧
    front'.length = front.length := by
  obtain ⟨front, front', back, o', h1, h2, h3, h4, -⟩ := C68_element_is_local cv true _ _ _ _ _
    (.fieldPathStep ["p"] ["q"] "a" "bcd" "owner" (by decide)) rfl
  exact ⟨front, front', back, _, o', rfl, h1, h2, h3, h4⟩

end Gvas
