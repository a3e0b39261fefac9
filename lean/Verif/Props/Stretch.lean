import Verif.Lemmas.Stretch
import Verif.Props.Pointer
import Verif.Spec.Sample

/-!
# C107: adding and removing elements deep inside a save
-/

namespace Gvas

open Spec

/-- **C107**: if two properties differ only in a stretch of their elements (be there more or fewer, or
none), then their encodings differ in the bytes of these elements, in the count of the elements and in
lengths stored in front, by as much as the sizes of the stretches do. -/
theorem C107_elements (cv : List (Guid × UInt32)) (h : Bool) (s t : Property) (n : Nat)
    (xs ys : List Bytes) (o : Out) (hs : Stretch cv s t n xs ys)
    (ho : Property.write cv h s = .ok o) :
    ∃ front front' mid mid' back o', Property.write cv h t = .ok o' ∧
      o.bytes = front ++ u32B (UInt32.ofNat (n + xs.length)) ++ mid ++ xs.flatten ++ back ∧
      o'.bytes = front' ++ u32B (UInt32.ofNat (n + ys.length)) ++ mid' ++ ys.flatten ++ back ∧
      Grown xs.flatten.length ys.flatten.length front front' ∧
      Grown xs.flatten.length ys.flatten.length mid mid' := by
  obtain ⟨o', h1, front, front', mid, mid', back, h2⟩ := stretch_write hs ho
  exact ⟨front, front', mid, mid', back, o', h1, h2⟩

/-- **C107** for the fields of a struct and the values of a field, which are not counted. -/
theorem C107_fields (cv : List (Guid × UInt32)) (h : Bool) (s t : Property)
    (xs ys : List Bytes) (o : Out) (hs : StructStretch cv s t xs ys)
    (ho : Property.write cv h s = .ok o) :
    ∃ front front' back o', Property.write cv h t = .ok o' ∧
      o.bytes = front ++ xs.flatten ++ back ∧ o'.bytes = front' ++ ys.flatten ++ back ∧
      Grown xs.flatten.length ys.flatten.length front front' := by
  obtain ⟨o', h1, front, front', back, h2⟩ := structStretch_write hs ho
  exact ⟨front, front', back, o', h1, h2⟩

/-- What is written for the property in the place. -/
theorem place_written {f : GvasFile} {keys b : Bool} {p q s t : Property} {k : String}
    {pre post : List (String × Property)} {data : Bytes}
    (hf : f.properties = pre ++ (k, s) :: post) (hd : Differ keys b p q true s t)
    (he : f.encode = .ok data) : ∃ a, Property.write f.header.customVersions b p = .ok a := by
  unfold GvasFile.encode at he
  obtain ⟨ps, hps, -⟩ := Res.bind_inv he
  rw [hf] at hps
  obtain ⟨-, m, -, hm, -, -⟩ := fits_top f.header.customVersions k pre post s ps hps
  obtain ⟨-, a, -, ha, -, -⟩ := differ_replaced (cv := f.header.customVersions) hd m hm
  exact ⟨a, ha⟩

/-- **C107** for files: adding, removing or replacing elements of a value at any depth of a file changes
the bytes of these elements, their count, and lengths stored in front of them, by as much as the sizes
differ. -/
theorem C107_file_elements (f : GvasFile) (keys b : Bool) (p q s t : Property) (k : String)
    (pre post : List (String × Property)) (n : Nat) (xs ys : List Bytes) (data : Bytes)
    (hf : f.properties = pre ++ (k, s) :: post) (hd : Differ keys b p q true s t)
    (hx : Stretch f.header.customVersions p q n xs ys) (he : f.encode = .ok data) :
    ∃ front front' mid mid' back,
      data = front ++ u32B (UInt32.ofNat (n + xs.length)) ++ mid ++ xs.flatten ++ back ∧
      { f with properties := pre ++ (k, t) :: post }.encode =
        .ok (front' ++ u32B (UInt32.ofNat (n + ys.length)) ++ mid' ++ ys.flatten ++ back) ∧
      Grown xs.flatten.length ys.flatten.length front front' ∧
      Grown xs.flatten.length ys.flatten.length mid mid' := by
  obtain ⟨a, ha⟩ := place_written hf hd he
  obtain ⟨g, g', mid, mid', back, c, hc, hac, hcc, hg, hm⟩ :=
    C107_elements f.header.customVersions b p q n xs ys a hx ha
  obtain ⟨front, front', back', a', h1, h2, h3, -, -, h4⟩ :=
    C68_file_edit_is_local f keys b p q s t k pre post data c hf hd he hc
  rw [ha] at h1
  cases h1
  refine ⟨front ++ g, front' ++ g', mid, mid', back ++ back', ?_, ?_, Grown.append ?_ hg, hm⟩
  · rw [h2, hac]
    simp only [List.append_assoc]
  · rw [h3, hcc]
    simp only [List.append_assoc]
  · refine Grown.more (g.length + 4 + mid.length + back.length) ?_
    have ea : a.bytes.length = g.length + 4 + mid.length + back.length + xs.flatten.length := by
      rw [hac]
      simp only [List.length_append, u32B_length]
      omega
    have ec : c.bytes.length = g.length + 4 + mid.length + back.length + ys.flatten.length := by
      rw [hcc]
      simp only [List.length_append, u32B_length, hg.length_eq, hm.length_eq]
      omega
    rwa [ea, ec] at h4

/-- **C107** for the fields of structs in files. -/
theorem C107_file_fields (f : GvasFile) (keys b : Bool) (p q s t : Property) (k : String)
    (pre post : List (String × Property)) (xs ys : List Bytes) (data : Bytes)
    (hf : f.properties = pre ++ (k, s) :: post) (hd : Differ keys b p q true s t)
    (hx : StructStretch f.header.customVersions p q xs ys) (he : f.encode = .ok data) :
    ∃ front front' back, data = front ++ xs.flatten ++ back ∧
      { f with properties := pre ++ (k, t) :: post }.encode = .ok (front' ++ ys.flatten ++ back) ∧
      Grown xs.flatten.length ys.flatten.length front front' := by
  obtain ⟨a, ha⟩ := place_written hf hd he
  obtain ⟨g, g', back, c, hc, hac, hcc, hg⟩ :=
    C107_fields f.header.customVersions b p q xs ys a hx ha
  obtain ⟨front, front', back', a', h1, h2, h3, -, -, h4⟩ :=
    C68_file_edit_is_local f keys b p q s t k pre post data c hf hd he hc
  rw [ha] at h1
  cases h1
  rw [hac, hcc] at h4
  refine ⟨front ++ g, front' ++ g', back ++ back', ?_, ?_, (Grown.around hg h4).append hg⟩
  · rw [h2, hac]
    simp only [List.append_assoc]
  · rw [h3, hcc]
    simp only [List.append_assoc]

/-- **C107** by way of JSON: putting the JSON of the property with other elements where that of the
property was and loading the result gives the file with these elements, and saving it changes their
bytes, their count and stored lengths only. -/
theorem C107_through_json (f : GvasFile) (b : Bool) (p q s t : Property) (k : String)
    (pre post : List (String × Property)) (n : Nat) (xs ys : List Bytes) (data : Bytes)
    (hm : FileMaps f) (hff : fileFinite f = true)
    (hf : f.properties = pre ++ (k, s) :: post) (hd : Differ false b p q true s t)
    (hx : Stretch f.header.customVersions p q n xs ys) (hqm : MapsDistinct q)
    (hqf : allFinite q = true) (he : f.encode = .ok data) :
    ∃ w front front' mid mid' back g, follow w f.toJson = some p.toJ ∧
      GvasFile.ofJson (replace q.toJ w f.toJson) = some g ∧
      g.properties = pre ++ (k, t) :: post ∧
      data = front ++ u32B (UInt32.ofNat (n + xs.length)) ++ mid ++ xs.flatten ++ back ∧
      g.encode =
        .ok (front' ++ u32B (UInt32.ofNat (n + ys.length)) ++ mid' ++ ys.flatten ++ back) ∧
      Grown xs.flatten.length ys.flatten.length front front' ∧
      Grown xs.flatten.length ys.flatten.length mid mid' := by
  obtain ⟨w, h1, h2⟩ := (file_located hf hm.2.1
    (differ_located (located_here _ _) hd (hm.2.2 (k, s) (by rw [hf]; simp)))).plain
  obtain ⟨hm', hf'⟩ := edited_file hm hff hf hd hqm hqf
  obtain ⟨front, front', mid, mid', back, i⟩ :=
    C107_file_elements f false b p q s t k pre post n xs ys data hf hd hx he
  refine ⟨w, front, front', mid, mid', back, _, h1, ?_, rfl, i⟩
  rw [h2, C53_json_roundtrip_partial _ hm', if_pos hf']

/-- **C107** by way of JSON for the fields of structs. -/
theorem C107_fields_through_json (f : GvasFile) (b : Bool) (p q s t : Property) (k : String)
    (pre post : List (String × Property)) (xs ys : List Bytes) (data : Bytes)
    (hm : FileMaps f) (hff : fileFinite f = true)
    (hf : f.properties = pre ++ (k, s) :: post) (hd : Differ false b p q true s t)
    (hx : StructStretch f.header.customVersions p q xs ys) (hqm : MapsDistinct q)
    (hqf : allFinite q = true) (he : f.encode = .ok data) :
    ∃ w front front' back g, follow w f.toJson = some p.toJ ∧
      GvasFile.ofJson (replace q.toJ w f.toJson) = some g ∧
      g.properties = pre ++ (k, t) :: post ∧
      data = front ++ xs.flatten ++ back ∧ g.encode = .ok (front' ++ ys.flatten ++ back) ∧
      Grown xs.flatten.length ys.flatten.length front front' := by
  obtain ⟨w, h1, h2⟩ := (file_located hf hm.2.1
    (differ_located (located_here _ _) hd (hm.2.2 (k, s) (by rw [hf]; simp)))).plain
  obtain ⟨hm', hf'⟩ := edited_file hm hff hf hd hqm hqf
  obtain ⟨front, front', back, i⟩ :=
    C107_file_fields f false b p q s t k pre post xs ys data hf hd hx he
  refine ⟨w, front, front', back, _, h1, ?_, rfl, i⟩
  rw [h2, C53_json_roundtrip_partial _ hm', if_pos hf']

/-- **C107**: elements of a list in a file, at any depth, can be removed, and in arrays and sets moved
and repeated, and entries of maps copied under new names; the file can then be saved and loaded. -/
theorem C107_relisted_representable (debug : Bool) (hints : String → Option String)
    (f : GvasFile) (b : Bool) (p q s t : Property) (k : String)
    (pre post : List (String × Property)) (hok : FileOK debug hints f)
    (hf : f.properties = pre ++ (k, s) :: post) (hd : Differ false b p q true s t)
    (ha : Relisted p q) : FileOK debug hints { f with properties := pre ++ (k, t) :: post } :=
  patched_ok hok hf hd (relisted_similar ha _)

/-- **C107**: such a file is saved without error, and what is saved is read back as it is (below
4 GiB). -/
theorem C107_relisted_reads_back (z : Codec) (debug : Bool) (hints : String → Option String)
    (f : GvasFile) (b : Bool) (p q s t : Property) (k : String)
    (pre post : List (String × Property)) (hv : f.gameVersion = .default)
    (hok : FileOK debug hints f) (hf : f.properties = pre ++ (k, s) :: post)
    (hd : Differ false b p q true s t) (ha : Relisted p q) :
    ∃ data, { f with properties := pre ++ (k, t) :: post }.encode = .ok data ∧
      (data.length < 2 ^ 32 → GvasFile.read z debug .default hints 0 data =
        .ok { f with properties := pre ++ (k, t) :: post }) := by
  obtain ⟨data, he⟩ := fileOK_encodes (patched_ok hok hf hd (relisted_similar ha _))
  exact ⟨data, he, fun h32 => patched_file z debug hints f b p q s t k pre post data hv hok hf hd
    (relisted_similar ha _) he h32⟩

/-- Two numbers taken out of an array, and one string put into a list that had none. -/
example (cv : List (Guid × UInt32)) : ∃ front front' mid mid' back o o',
    Property.write cv true (.array (.ints ([1] ++ [2, 3] ++ [4]))) = .ok o ∧
    Property.write cv true (.array (.ints ([1] ++ [] ++ [4]))) = .ok o' ∧
    o.bytes = front ++ [4, 0, 0, 0] ++ mid ++ [2, 0, 0, 0, 3, 0, 0, 0] ++ back ∧
    o'.bytes = front' ++ [2, 0, 0, 0] ++ mid' ++ [] ++ back ∧
    Grown 8 0 front front' ∧ Grown 8 0 mid mid' := by
  obtain ⟨front, front', mid, mid', back, o', h⟩ := C107_elements cv true _ _ _ _ _ _
    (.ints [1] [2, 3] [] [4]) rfl
  exact ⟨front, front', mid, mid', back, _, o', rfl, h⟩

example (cv : List (Guid × UInt32)) : ∃ front front' mid mid' back o o',
    Property.write cv false (.fieldPath ⟨[] ++ [] ++ [], "o"⟩) = .ok o ∧
    Property.write cv false (.fieldPath ⟨[] ++ ["a"] ++ [], "o"⟩) = .ok o' ∧
    o.bytes = front ++ [0, 0, 0, 0] ++ mid ++ [] ++ back ∧
    o'.bytes = front' ++ [1, 0, 0, 0] ++ mid' ++ [2, 0, 0, 0, 0x61, 0] ++ back ∧
    Grown 0 6 front front' ∧ Grown 0 6 mid mid' := by
  obtain ⟨front, front', mid, mid', back, o', h⟩ := C107_elements cv false _ _ _ _ _ _
    (.fieldPath [] [] ["a"] [] "o") rfl
  exact ⟨front, front', mid, mid', back, _, o', rfl, h⟩

/-- A number put between the arguments of a text inside a text. -/
example (cv : List (Guid × UInt32)) : ∃ front front' mid mid' back o o',
    Property.write cv true (.text (.mk 0 (.transform (.mk 1 (.orderedFormat (.mk 2 (.base none none none))
      ([.float ⟨7⟩] ++ [] ++ [.double ⟨8⟩]))) .toUpper))) = .ok o ∧
    Property.write cv true (.text (.mk 0 (.transform (.mk 1 (.orderedFormat (.mk 2 (.base none none none))
      ([.float ⟨7⟩] ++ [.float ⟨9⟩] ++ [.double ⟨8⟩]))) .toUpper))) = .ok o' ∧
    o.bytes = front ++ [2, 0, 0, 0] ++ mid ++ [] ++ back ∧
    o'.bytes = front' ++ [3, 0, 0, 0] ++ mid' ++ [2, 9, 0, 0, 0] ++ back ∧
    Grown 0 5 front front' ∧ Grown 0 5 mid mid' := by
  obtain ⟨front, front', mid, mid', back, o', h⟩ := C107_elements cv true _ _ _ _ _ _
    (.text (.history 0 (.transformSource .toUpper (.history 1 (.ordered (.mk 2 (.base none none none))
      [.float ⟨7⟩] [.double ⟨8⟩] (new := [.float ⟨9⟩]) .nil (.cons ⟨_, rfl, rfl⟩ .nil)))))) rfl
  exact ⟨front, front', mid, mid', back, _, o', rfl, h⟩

/-- A switch put into a struct. -/
example (cv : List (Guid × UInt32)) : ∃ front front' back o o',
    Property.write cv true (.struct editorGuid "S" (.customStruct ([] ++ [] ++ [("x", [.int 1])]))) = .ok o ∧
    Property.write cv true (.struct editorGuid "S"
      (.customStruct ([] ++ [("y", [.bool true])] ++ [("x", [.int 1])]))) = .ok o' ∧
    o.bytes = front ++ back ∧
    o'.bytes = front' ++ (ascii "y" ++ ascii "BoolProperty" ++ [0, 0, 0, 0, 0, 0, 0, 0, 1, 0]) ++ back ∧
    Grown 0 33 front front' := by
  have hb : Pairs (FieldValues cv) [("y", [.bool true])]
      [ascii "y" ++ ascii "BoolProperty" ++ [0, 0, 0, 0, 0, 0, 0, 0, 1, 0]] :=
    .cons ⟨_, .cons ⟨_, rfl, rfl⟩ .nil, by decide +kernel⟩ .nil
  obtain ⟨front, front', back, o', h1, h2, h3, h4⟩ := C107_fields cv true _ _ _ _ _
    (.struct editorGuid "S" (.fields [] [("x", [.int 1])] .nil hb)) rfl
  refine ⟨front, front', back, _, o', rfl, h1, by simpa using h2, by simpa using h3, h4⟩

/-- The inventory of the sample with other slots after the first one. -/
def sampleSlotsWith (slots : List (String × Property)) : Property :=
  .struct editorGuid "Inventory" (structWith
    [("Title", [.text (nestedText (.int64 (-5)))]),
     ("Tag", [.name 0 (some "x"), .name 1 none, .name 2 (some "naïve")])]
    "Slots" [] (.map (.nameProperty "StructProperty"
      ([("a", .structValue (.customStruct [("Count", [.int 3])]))] ++ slots ++ []))) []
    [("Odd", [.map (.properties "FloatProperty" "ByteProperty" 0
        [(.float ⟨0⟩, .byte none (.byte 1)), (.float ⟨0x7FC00000⟩, .byte none (.byte 2))])]),
     ("Places", [.array (.structs "Places" "Quat" ue5ReleaseGuid
        [.quatD ⟨1⟩ ⟨2⟩ ⟨3⟩ ⟨4⟩, .quatD ⟨0⟩ ⟨0⟩ ⟨0⟩ ⟨0x7FF8000000000001⟩])]),
     ("Modes", [.array (.properties "ByteProperty"
        [.byte none (.namespaced "E::A"), .byte none (.namespaced "E::Long")])]),
     ("Spots", [.set "StructProperty" 0 [.structValue (.vectorD ⟨1⟩ ⟨2⟩ ⟨3⟩)]]),
     ("Raw", [.unknown "Int128Property" [1, 2, 3]])])

/-- Two more slots, copies of the empty one, in the sample file: what changes in the save. -/
example (data : Bytes) (he : (sampleFile .default).encode = .ok data) :
    ∃ front front' mid mid' back,
      data = front ++ [2, 0, 0, 0] ++ mid ++ (ascii "b" ++ ascii "None") ++ back ∧
      { sampleFile .default with properties := [("Inventory", sampleSlotsWith
          [("b", .structValue (.customStruct [])), ("c", .structValue (.customStruct [])),
           ("d", .structValue (.customStruct []))]),
          ("Über", .str (some "x")), ("Done", .bool true)] }.encode =
        .ok (front' ++ [4, 0, 0, 0] ++ mid' ++ (ascii "b" ++ ascii "None" ++ ascii "c" ++ ascii "None" ++
          ascii "d" ++ ascii "None") ++ back) ∧
      Grown 15 45 front front' ∧ Grown 15 45 mid mid' := by
  have he' (k : String) (x : Bytes) (hx : x = (writeString k).bytes ++ ascii "None") :
      NamedEntry newVersions (k, .structValue (.customStruct [])) x :=
    ⟨_, ⟨_, rfl, rfl⟩, hx⟩
  exact C107_file_elements (sampleFile .default) false true _ _
    (sampleSlotsWith [("b", .structValue (.customStruct []))]) (sampleSlotsWith
      [("b", .structValue (.customStruct [])), ("c", .structValue (.customStruct [])),
       ("d", .structValue (.customStruct []))])
    "Inventory" [] [("Über", .str (some "x")), ("Done", .bool true)] 1
    [ascii "b" ++ ascii "None"] [ascii "b" ++ ascii "None", ascii "c" ++ ascii "None",
      ascii "d" ++ ascii "None"] data rfl
    (.struct _ _ _ _ _ _ _ .here)
    (.nameMap "StructProperty" [("a", .structValue (.customStruct [("Count", [.int 3])]))] []
      (.cons (he' _ _ (by decide +kernel)) .nil)
      (.cons (he' _ _ (by decide +kernel)) (.cons (he' _ _ (by decide +kernel))
        (.cons (he' _ _ (by decide +kernel)) .nil)))) he

/-- And it is read back. -/
example : ∃ data, { sampleFile .default with properties := [("Inventory", sampleSlotsWith
        [("b", .structValue (.customStruct [])), ("c", .structValue (.customStruct [])),
         ("d", .structValue (.customStruct []))]),
        ("Über", .str (some "x")), ("Done", .bool true)] }.encode = .ok data ∧
    (data.length < 2 ^ 32 → GvasFile.read toyCodec true .default sampleHints 0 data =
      .ok { sampleFile .default with properties := [("Inventory", sampleSlotsWith
        [("b", .structValue (.customStruct [])), ("c", .structValue (.customStruct [])),
         ("d", .structValue (.customStruct []))]),
        ("Über", .str (some "x")), ("Done", .bool true)] }) :=
  C107_relisted_reads_back toyCodec true sampleHints (sampleFile .default) true _ _
    (sampleSlotsWith [("b", .structValue (.customStruct []))]) _
    "Inventory" [] [("Über", .str (some "x")), ("Done", .bool true)] rfl (sampleFile_ok _) rfl
    (.struct _ _ _ _ _ _ _ .here)
    (.nameMap _ (by unfold KeysOK; decide +kernel) (by
      intro w hw
      simp only [List.append_nil, List.cons_append, List.nil_append, List.mem_cons,
        List.not_mem_nil, or_false] at hw
      rcases hw with rfl | rfl | rfl | rfl
      · exact ⟨"a", by simp⟩
      all_goals exact ⟨"b", by simp⟩))

/-- The inventory of the sample with another title. -/
def sampleTitled (t : FText) : Property :=
  .struct editorGuid "Inventory" (structWith [] "Title" [] (.text t) []
    [("Tag", [.name 0 (some "x"), .name 1 none, .name 2 (some "naïve")]),
     ("Slots", [.map (.nameProperty "StructProperty"
        [("a", .structValue (.customStruct [("Count", [.int 3])])), ("b", .structValue (.customStruct []))])]),
     ("Odd", [.map (.properties "FloatProperty" "ByteProperty" 0
        [(.float ⟨0⟩, .byte none (.byte 1)), (.float ⟨0x7FC00000⟩, .byte none (.byte 2))])]),
     ("Places", [.array (.structs "Places" "Quat" ue5ReleaseGuid
        [.quatD ⟨1⟩ ⟨2⟩ ⟨3⟩ ⟨4⟩, .quatD ⟨0⟩ ⟨0⟩ ⟨0⟩ ⟨0x7FF8000000000001⟩])]),
     ("Modes", [.array (.properties "ByteProperty"
        [.byte none (.namespaced "E::A"), .byte none (.namespaced "E::Long")])]),
     ("Spots", [.set "StructProperty" 0 [.structValue (.vectorD ⟨1⟩ ⟨2⟩ ⟨3⟩)]]),
     ("Raw", [.unknown "Int128Property" [1, 2, 3]])])

/-- The title of the sample file with the arguments of the text inside it in another order, one of them
twice and one left out. -/
example : FileOK true sampleHints { sampleFile .default with properties := [("Inventory",
    sampleTitled (.mk 2 (.namedFormat (.mk 8 (.base (some "ns") none (some "{a} of {b} ✓")))
      ([("a", .int64 (-5))] ++ ("b", .text (.mk 0 (.orderedFormat (.mk 1 (.stringTableEntry "T" "k"))
        [.text (.mk 4 (.transform (.mk 0 .empty) .toUpper)), .double ⟨0x3FF0000000000000⟩,
         .double ⟨0x3FF0000000000000⟩]))) :: [])))),
    ("Über", .str (some "x")), ("Done", .bool true)] } :=
  C107_relisted_representable true sampleHints (sampleFile .default) true _ _
    (sampleTitled (nestedText (.int64 (-5)))) _
    "Inventory" [] [("Über", .str (some "x")), ("Done", .bool true)] (sampleFile_ok _) rfl
    (.struct _ _ _ _ _ _ _ .here)
    (.text (.history _ (.namedArgument _ [("a", .int64 (-5))] [] "b"
      (.history _ (.ordered _ (by decide) (by simp))))))

/-- The bag of Props/Pointer with more slots. -/
def bagSlots (more : List (String × Property)) : Property :=
  .map (.nameProperty "StructProperty" ([("a", .structValue (.customStruct [])),
    ("b", .structValue (.customStruct [("Coins", [.int 1, .int 3])]))] ++ more ++ []))

/-- The bag with these slots. -/
def bagTree (more : List (String × Property)) : Property :=
  .struct (Guid.fromU128 0) "Bag" (structWith [("Open", [.bool true])] "Slots" [] (bagSlots more) [] [])

/-- Another slot put into the JSON of the file: what changes in the save. -/
example (data : Bytes) (he : (coinsFile 3).encode = .ok data) : ∃ w front front' mid mid' back g,
    follow w (coinsFile 3).toJson = some (bagSlots []).toJ ∧
    GvasFile.ofJson (replace (bagSlots [("c", .structValue (.customStruct []))]).toJ w
      (coinsFile 3).toJson) = some g ∧
    g.properties = [("Name", .str (some "x"))] ++ ("Bag", bagTree [("c", .structValue (.customStruct []))])
      :: [("Z", .bool true)] ∧
    data = front ++ [2, 0, 0, 0] ++ mid ++ [] ++ back ∧
    g.encode = .ok (front' ++ [3, 0, 0, 0] ++ mid' ++ (ascii "c" ++ ascii "None") ++ back) ∧
    Grown 0 15 front front' ∧ Grown 0 15 mid mid' :=
  C107_through_json (coinsFile 3) true (bagSlots []) (bagSlots [("c", .structValue (.customStruct []))])
    (bagTree []) (bagTree [("c", .structValue (.customStruct []))]) "Bag" _ _ 2 []
    [ascii "c" ++ ascii "None"] data coins_maps (by decide +kernel) rfl
    (.struct _ _ _ _ _ _ _ .here)
    (.nameMap _ _ _ .nil (.cons ⟨_, ⟨_, rfl, rfl⟩, by decide +kernel⟩ .nil))
    (by simp [bagSlots, MapsDistinct, MapMaps, StructMaps, FieldsMaps, PropsMaps, ValuesMaps,
      KeysDistinct]) (by decide +kernel) he

/-- The first coins taken out of a slot, in the JSON. -/
example (data : Bytes) (he : (coinsFile 3).encode = .ok data) : ∃ w front front' back g,
    follow w (coinsFile 3).toJson =
      some (Property.toJ (.structValue (.customStruct [("Coins", [.int 1, .int 3])]))) ∧
    GvasFile.ofJson (replace (Property.toJ (.structValue (.customStruct [("Coins", [.int 3])]))) w
      (coinsFile 3).toJson) = some g ∧
    data = front ++ (ascii "Coins" ++ (ascii "IntProperty" ++
      [4, 0, 0, 0, 0, 0, 0, 0, 0, 1, 0, 0, 0])) ++ back ∧
    g.encode = .ok (front' ++ [] ++ back) ∧ Grown 39 0 front front' := by
  obtain ⟨w, front, front', back, g, h1, h2, -, h3⟩ := C107_fields_through_json (coinsFile 3) false
    (.structValue (.customStruct ([] ++ ("Coins", [] ++ [.int 1] ++ [.int 3]) :: [])))
    (.structValue (.customStruct ([] ++ ("Coins", [] ++ [] ++ [.int 3]) :: []))) (coinsTree 3) _ "Bag"
    _ _ [ascii "Coins" ++ (ascii "IntProperty" ++ [4, 0, 0, 0, 0, 0, 0, 0, 0, 1, 0, 0, 0])] [] data
    coins_maps (by decide +kernel) rfl
    (.struct _ _ _ _ _ _ _ (.nameMap _ _ _ _ .here))
    (.structValue (.values [] [] "Coins" [] [.int 3]
      (.cons ⟨_, rfl, by decide +kernel⟩ .nil) .nil))
    (by simp [MapsDistinct, MapMaps, StructMaps, FieldsMaps, PropsMaps, ValuesMaps,
      KeysDistinct]) (by decide +kernel) he
  exact ⟨w, front, front', back, g, h1, h2, h3⟩

/-- The inventory of the sample with other fields in the first slot. -/
def sampleFirstSlot (fs : List (String × List Property)) : Property :=
  .struct editorGuid "Inventory" (structWith
    [("Title", [.text (nestedText (.int64 (-5)))]),
     ("Tag", [.name 0 (some "x"), .name 1 none, .name 2 (some "naïve")])]
    "Slots" [] (.map (.nameProperty "StructProperty" ([] ++
      ("a", .structValue (.customStruct ([] ++ fs ++ []))) ::
         [("b", .structValue (.customStruct []))]))) []
    [("Odd", [.map (.properties "FloatProperty" "ByteProperty" 0
        [(.float ⟨0⟩, .byte none (.byte 1)), (.float ⟨0x7FC00000⟩, .byte none (.byte 2))])]),
     ("Places", [.array (.structs "Places" "Quat" ue5ReleaseGuid
        [.quatD ⟨1⟩ ⟨2⟩ ⟨3⟩ ⟨4⟩, .quatD ⟨0⟩ ⟨0⟩ ⟨0⟩ ⟨0x7FF8000000000001⟩])]),
     ("Modes", [.array (.properties "ByteProperty"
        [.byte none (.namespaced "E::A"), .byte none (.namespaced "E::Long")])]),
     ("Spots", [.set "StructProperty" 0 [.structValue (.vectorD ⟨1⟩ ⟨2⟩ ⟨3⟩)]]),
     ("Raw", [.unknown "Int128Property" [1, 2, 3]])])

/-- The count taken out of the first slot of the sample, four levels deep. -/
example (data : Bytes) (he : (sampleFile .default).encode = .ok data) :
    ∃ front front' back,
      data = front ++ (ascii "Count" ++ (ascii "IntProperty" ++
        [4, 0, 0, 0, 0, 0, 0, 0, 0, 3, 0, 0, 0])) ++ back ∧
      { sampleFile .default with properties := [("Inventory", sampleFirstSlot []),
          ("Über", .str (some "x")), ("Done", .bool true)] }.encode = .ok (front' ++ [] ++ back) ∧
      Grown 39 0 front front' := by
  have hb : Pairs (FieldValues newVersions) [("Count", [.int 3])]
      [ascii "Count" ++ (ascii "IntProperty" ++ [4, 0, 0, 0, 0, 0, 0, 0, 0, 3, 0, 0, 0])] :=
    .cons ⟨_, .cons ⟨_, rfl, rfl⟩ .nil, by decide +kernel⟩ .nil
  exact C107_file_fields (sampleFile .default) false false
    (.structValue (.customStruct ([] ++ [("Count", [.int 3])] ++ [])))
    (.structValue (.customStruct ([] ++ [] ++ [])))
    (sampleFirstSlot [("Count", [.int 3])]) (sampleFirstSlot [])
    "Inventory" [] [("Über", .str (some "x")), ("Done", .bool true)]
    [ascii "Count" ++ (ascii "IntProperty" ++ [4, 0, 0, 0, 0, 0, 0, 0, 0, 3, 0, 0, 0])] [] data rfl
    (.struct _ _ _ _ _ _ _ (.nameMap _ _ _ _ .here))
    (.structValue (.fields [] [] (cv := newVersions) hb .nil)) he

end Gvas
