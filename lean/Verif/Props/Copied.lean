import Verif.Lemmas.Copy
import Verif.Props.Mixed
import Verif.Props.Place
import Verif.Props.Pointer

/-!
# C111: values can be copied from any place of a save to any place of another

A place is one of `Differ`: the fields of structs, the elements of arrays and sets and the values of
maps, at any depth; a value may also be taken out of the key of a map, but not put there.
-/

namespace Gvas

open Spec

/-- A file with something in it that can stand there can be represented. -/
theorem carried_ok {debug : Bool} {hints : String → Option String} {g : GvasFile}
    {s t : Property} {k : String} {pre post : List (String × Property)} (hg : FileOK debug hints g)
    (hp : g.properties = pre ++ (k, s) :: post)
    (hc : Carries (fileEnv debug hints g.header) true s t)
    (hn : ∀ n ∈ fileNeeds { g with properties := pre ++ (k, t) :: post }, Suits hints n) :
    FileOK debug hints { g with properties := pre ++ (k, t) :: post } := by
  have h3 := hg.2.2
  rw [hp] at h3
  refine ⟨hg.1, by have := hg.2.1; rw [hp] at this; simpa using this, fun x hx => ?_⟩
  simp only [List.mem_append, List.mem_cons] at hx
  rcases hx with hx | hx | hx
  · exact h3 x (by simp [hx])
  · subst hx
    have h4 := h3 (k, s) (by simp)
    refine ⟨h4.1, h4.2.1, hc.head rfl _ h4.2.2 fun n hm => hn n ?_⟩
    simp only [fileNeeds, List.flatMap_append, List.flatMap_cons, List.mem_append]
    exact .inr (.inl hm)
  · exact h3 x (by simp [hx])

/-- **C111**: a value can be copied from any place of a save to any place of another (or the same)
save whose custom versions give the same answers, whatever stands there: with a header (`b`) only the array index
has to be that of the value it replaces, in arrays, sets and maps the type.  Its bytes are copied;
besides, only lengths in front of it change.  The file is saved without error and read back as it is,
if the hints suit the structs it has now. -/
theorem C111_copied (z : Codec) (hz : Lawful z) (debug : Bool) (gv gv' : GameVersion)
    (hints hints' : String → Option String) (start start' : Nat) (input input' : Bytes)
    (f g : GvasFile) (hf : GvasFile.read z debug gv' hints' start' input' = .ok f)
    (hg : GvasFile.read z debug gv hints start input = .ok g)
    (hcv : SameAnswers f.header.customVersions g.header.customVersions)
    (keys b : Bool) (p q s t : Property) (k : String) (e : String × Property)
    (pre post : List (String × Property))
    (he : e ∈ f.properties) (hq : Differ keys b q q true e.2 e.2)
    (hp : g.properties = pre ++ (k, s) :: post) (hd : Differ false b p q true s t)
    (hi : b = true → storedIndex q = storedIndex p)
    (hs : b = false → typeName q = typeName p ∧ sizeClass q = sizeClass p)
    (hn : ∀ n ∈ fileNeeds { g with properties := pre ++ (k, t) :: post }, Suits hints n) :
    ∃ df dg data a old new c front front' back,
      f.encode = .ok df ∧ df = a ++ new ++ c ∧
      g.encode = .ok dg ∧ dg = front ++ old ++ back ∧
      { g with properties := pre ++ (k, t) :: post }.encode = .ok data ∧
      data = front' ++ new ++ back ∧ Grown old.length new.length front front' ∧
      (data.length < 2 ^ 32 → ∀ u : Sink, ∃ u',
        { g with properties := pre ++ (k, t) :: post }.write z u = (.ok (), u') ∧
        GvasFile.read z debug (containerOf g.gameVersion) hints u.pos (u'.data.drop u.pos) =
          .ok { g with properties := pre ++ (k, t) :: post }) := by
  have hfo := read_fileOK hf
  have hgo := read_fileOK hg
  have hst : Stands (fileEnv debug hints' g.header) b q :=
    place_stands hq ⟨fun _ => ⟨_, ((fileOK_moves hfo hgo.1 hcv).2.2 e he).2.2⟩, nofun⟩
  have hok := carried_ok hgo hp (differ_carries _ hd (stands_carries
    (env' := fileEnv debug hints' g.header) rfl rfl hst hi hs)) hn
  obtain ⟨df, h1⟩ := fileOK_encodes hfo
  obtain ⟨dg, h2⟩ := fileOK_encodes hgo
  obtain ⟨l, r, hlr⟩ := List.append_of_mem he
  obtain ⟨o, ho⟩ : ∃ o, Property.write f.header.customVersions b q = .ok o := by
    obtain ⟨ps, hps⟩ : ∃ ps, writeTop f.header.customVersions f.properties = .ok ps := by
      unfold GvasFile.encode at h1
      obtain ⟨ps, hp, -⟩ := Res.bind_inv h1
      exact ⟨ps, hp⟩
    rw [hlr] at hps
    obtain ⟨-, m, -, i1, -⟩ := fits_top f.header.customVersions e.1 l r e.2 ps hps
    obtain ⟨-, o, -, i2, -⟩ := differ_replaced (cv := f.header.customVersions) hq m i1
    exact ⟨o, i2⟩
  obtain ⟨a, a', c, o1, i1, i2, -⟩ := C68_file_edit_is_local f keys b q q e.2 e.2 e.1 l r df o
    hlr hq h1 ho
  rw [ho] at i1; cases i1
  obtain ⟨front, front', back, o2, j1, j2, j3, -, -, j4⟩ :=
    C68_file_edit_is_local g false b p q s t k pre post dg o hp hd h2 (C100_writing _ _ hcv ▸ ho)
  exact ⟨df, dg, _, a, _, _, c, front, front', back, h1, i2, h2, j2, j3, rfl, j4,
    fun h32 u => saved_reads hz hok j3 h32 u⟩

private theorem copied_needs {g : GvasFile} {keys b : Bool} {p q s t : Property} {k : String}
    {pre post : List (String × Property)} {debug : Bool} {hints : String → Option String}
    (hg : FileOK debug hints g) (hp : g.properties = pre ++ (k, s) :: post)
    (hd : Differ keys b p q true s t) (hq : needs [] q = []) :
    ∀ n ∈ fileNeeds { g with properties := pre ++ (k, t) :: post }, Suits hints n := by
  have h1 := (file_hints hg).mp hg
  intro n hn
  refine h1 n ?_
  simp only [fileNeeds, hp, List.flatMap_append, List.flatMap_cons, List.mem_append] at hn ⊢
  rcases hn with hn | hn | hn
  · exact .inl hn
  · exact .inr (.inl (differ_needs hd (fun st => needs_nowhere [] st q hq) _ n hn))
  · exact .inr (.inr hn)

/-- **C111**: a value without structs in sets and map entries can be copied without a look at the
hints. -/
theorem C111_no_hints (z : Codec) (hz : Lawful z) (debug : Bool) (gv gv' : GameVersion)
    (hints hints' : String → Option String) (start start' : Nat) (input input' : Bytes)
    (f g : GvasFile) (hf : GvasFile.read z debug gv' hints' start' input' = .ok f)
    (hg : GvasFile.read z debug gv hints start input = .ok g)
    (hcv : SameAnswers f.header.customVersions g.header.customVersions)
    (keys b : Bool) (p q s t : Property) (k : String) (e : String × Property)
    (pre post : List (String × Property))
    (he : e ∈ f.properties) (hq : Differ keys b q q true e.2 e.2)
    (hp : g.properties = pre ++ (k, s) :: post) (hd : Differ false b p q true s t)
    (hi : b = true → storedIndex q = storedIndex p)
    (hs : b = false → typeName q = typeName p ∧ sizeClass q = sizeClass p)
    (hn : needs [] q = []) :
    ∃ data, { g with properties := pre ++ (k, t) :: post }.encode = .ok data ∧
      (data.length < 2 ^ 32 → ∀ u : Sink, ∃ u',
        { g with properties := pre ++ (k, t) :: post }.write z u = (.ok (), u') ∧
        GvasFile.read z debug (containerOf g.gameVersion) hints u.pos (u'.data.drop u.pos) =
          .ok { g with properties := pre ++ (k, t) :: post }) := by
  obtain ⟨-, -, data, -, -, -, -, -, -, -, -, -, -, -, h1, -, -, h2⟩ := C111_copied z hz debug gv gv'
    hints hints' start start' input input' f g hf hg hcv keys b p q s t k e pre post he hq hp hd hi hs
    (copied_needs (read_fileOK hg) hp hd hn)
  exact ⟨data, h1, h2⟩

theorem stands_maps {env : Env} {b : Bool} {q : Property} (hq : Stands env b q) : MapsDistinct q := by
  cases b with
  | true => obtain ⟨st, h⟩ := hq.1 rfl; exact Js.head_maps _ _ _ h
  | false => obtain ⟨st, ty, h⟩ := hq.2 rfl; exact Js.bare_maps _ _ _ _ h

/-- What is kept by other versions can stand under them. -/
theorem stands_moved {env : Env} {cv : List (Guid × UInt32)} {b : Bool} {q : Property}
    (hq : Stands env b q) (hk : Keeps cv b q) : Stands { env with cv := cv } b q := by
  obtain ⟨ho, hi⟩ := hk
  obtain ⟨hw, ht⟩ := (C55_write_ok_iff _ _ _).mp ho
  have hm := stands_maps hq
  obtain ⟨T, hT, he⟩ : ∃ T : FText → FText, (∀ t, TextOK env.cv t → WidthsOK cv t → TextOK cv (T t)) ∧
      mapTexts T q = q := by
    rcases hi with hi | hi
    · exact ⟨id, fun t ht hw => ⟨hw, text_shape_new (invariantText_iff.mp hi) t ht.2⟩, mapTexts_id q⟩
    · exact ⟨stripText, fun t ht hw => ⟨stripText_widths t hw, stripText_shape t ht.2⟩, hi⟩
  rw [← he] at hm
  constructor
  · rintro rfl
    obtain ⟨st, h⟩ := hq.1 rfl
    have := head_moved hT st q h hw ht hm
    rw [he] at this
    exact ⟨st, this⟩
  · rintro rfl
    obtain ⟨st, ty, h⟩ := hq.2 rfl
    have := bare_moved hT st ty q h hw ht hm
    rw [he] at this
    exact ⟨st, ty, this⟩

/-- What stands under versions is kept by them. -/
theorem stands_keeps {env : Env} {b : Bool} {q : Property} (hq : Stands env b q) :
    Keeps env.cv b q := by
  constructor
  · cases b with
    | true => obtain ⟨st, h⟩ := hq.1 rfl; exact headOK_writes h
    | false => obtain ⟨st, ty, h⟩ := hq.2 rfl; exact bareOK_writes h
  · by_cases hi : Format.InvariantText env.cv
    · exact .inl hi
    · have hc : cultureInvariant env.cv = false := by simpa using mt invariantText_iff.mpr hi
      refine .inr ?_
      cases b with
      | true => obtain ⟨st, h⟩ := hq.1 rfl; exact head_steady (fun t ht => stripText_same hc t ht.2) _ q h
      | false =>
        obtain ⟨st, ty, h⟩ := hq.2 rfl
        exact bare_steady (fun t ht => stripText_same hc t ht.2) _ _ q h

/-- **C111** for saves with any custom versions: a value can be copied from any place of a save to any
place of another one, if the versions of that one keep it, i.e. it is written without error there and no
culture invariant string is lost. -/
theorem C111_any_versions (z : Codec) (hz : Lawful z) (debug : Bool) (gv gv' : GameVersion)
    (hints hints' : String → Option String) (start start' : Nat) (input input' : Bytes)
    (f g : GvasFile) (hf : GvasFile.read z debug gv' hints' start' input' = .ok f)
    (hg : GvasFile.read z debug gv hints start input = .ok g)
    (keys b : Bool) (p q s t : Property) (k : String) (e : String × Property)
    (pre post : List (String × Property))
    (he : e ∈ f.properties) (hq : Differ keys b q q true e.2 e.2)
    (hp : g.properties = pre ++ (k, s) :: post) (hd : Differ false b p q true s t)
    (hi : b = true → storedIndex q = storedIndex p)
    (hs : b = false → typeName q = typeName p ∧ sizeClass q = sizeClass p)
    (hn : ∀ n ∈ fileNeeds { g with properties := pre ++ (k, t) :: post }, Suits hints n)
    (hk : Keeps g.header.customVersions b q) :
    ∃ dg data old new front front' back,
      g.encode = .ok dg ∧ dg = front ++ old.bytes ++ back ∧
      Property.write g.header.customVersions b p = .ok old ∧
      Property.write g.header.customVersions b q = .ok new ∧
      { g with properties := pre ++ (k, t) :: post }.encode = .ok data ∧
      data = front' ++ new.bytes ++ back ∧
      Grown old.bytes.length new.bytes.length front front' ∧
      (data.length < 2 ^ 32 → ∀ u : Sink, ∃ u',
        { g with properties := pre ++ (k, t) :: post }.write z u = (.ok (), u') ∧
        GvasFile.read z debug (containerOf g.gameVersion) hints u.pos (u'.data.drop u.pos) =
          .ok { g with properties := pre ++ (k, t) :: post }) := by
  have hgo := read_fileOK hg
  have hst := stands_moved (place_stands (env := fileEnv debug hints' f.header) hq
    ⟨fun _ => ⟨_, ((read_fileOK hf).2.2 e he).2.2⟩, nofun⟩) hk
  have hok := carried_ok hgo hp (differ_carries _ hd (stands_carries
    (env' := fileEnv debug hints' g.header) rfl rfl hst hi hs)) hn
  obtain ⟨dg, h2⟩ := fileOK_encodes hgo
  obtain ⟨o, ho⟩ := hk.1
  obtain ⟨front, front', back, o2, j1, j2, j3, -, -, j4⟩ :=
    C68_file_edit_is_local g false b p q s t k pre post dg o hp hd h2 ho
  exact ⟨dg, _, o2, o, front, front', back, h2, j2, j1, ho, j3, rfl, j4, fun h32 u => saved_reads hz hok j3 h32 u⟩

private theorem differ_flip {keys b h : Bool} {p q s t : Property} (hd : Differ keys b p q h s t) :
    Differ keys b q p h t s := by
  induction hd with
  | here => exact .here
  | array _ _ _ _ ih => exact .array _ _ _ ih
  | set _ _ _ _ _ ih => exact .set _ _ _ _ ih
  | struct _ _ _ _ _ _ _ _ ih => exact .struct _ _ _ _ _ _ _ ih
  | structValue _ _ _ _ _ _ ih => exact .structValue _ _ _ _ _ ih
  | structs _ _ _ _ _ _ _ _ _ _ _ ih => exact .structs _ _ _ _ _ _ _ _ _ _ ih
  | enumMap _ _ _ _ _ ih => exact .enumMap _ _ _ _ ih
  | nameMap _ _ _ _ _ ih => exact .nameMap _ _ _ _ ih
  | strMap _ _ _ _ _ ih => exact .strMap _ _ _ _ ih
  | mapKey _ _ _ _ _ _ hk _ ih => exact .mapKey _ _ _ _ _ _ hk ih
  | mapValue _ _ _ _ _ _ _ ih => exact .mapValue _ _ _ _ _ _ ih

/-- **C111**: this is necessary.  If a file with the value in that place is read from anything, then its
versions keep the value. -/
theorem C111_versions_needed (z : Codec) (debug : Bool) (gv : GameVersion)
    (hints : String → Option String) (start : Nat) (input : Bytes) (g : GvasFile)
    (b : Bool) (p q s t : Property) (k : String) (pre post : List (String × Property))
    (hd : Differ false b p q true s t)
    (hr : GvasFile.read z debug gv hints start input =
      .ok { g with properties := pre ++ (k, t) :: post }) :
    Keeps g.header.customVersions b q :=
  stands_keeps (env := fileEnv debug hints g.header) (place_stands (differ_flip hd)
    ⟨fun _ => ⟨_, ((read_fileOK hr).2.2 (k, t) (by simp)).2.2⟩, nofun⟩)

/-- **C111**: versions that give the same answers keep all values. -/
theorem C111_same_answers_keep (z : Codec) (debug : Bool) (gv : GameVersion)
    (hints : String → Option String) (start : Nat) (input : Bytes) (f : GvasFile)
    (hf : GvasFile.read z debug gv hints start input = .ok f) (cv : List (Guid × UInt32))
    (hcv : SameAnswers f.header.customVersions cv) (keys b : Bool) (q : Property)
    (e : String × Property) (he : e ∈ f.properties) (hq : Differ keys b q q true e.2 e.2) :
    Keeps cv b q := by
  have h1 := stands_keeps (place_stands (env := fileEnv debug hints f.header) hq
    ⟨fun _ => ⟨_, ((read_fileOK hf).2.2 e he).2.2⟩, nofun⟩)
  exact ⟨C100_writing _ _ hcv ▸ h1.1, h1.2.imp_left hcv.1.mp⟩

/-- **C111** by way of JSON: the value has a place in the JSON of the first file; copying what stands
there to the place of the other value in the JSON of the second, and loading the result, gives the same
file (floats have to be finite, see C53). -/
theorem C111_through_json (z : Codec) (debug : Bool) (gv gv' : GameVersion)
    (hints hints' : String → Option String) (start start' : Nat) (input input' : Bytes)
    (f g : GvasFile) (hf : GvasFile.read z debug gv' hints' start' input' = .ok f)
    (hg : GvasFile.read z debug gv hints start input = .ok g)
    (keys b : Bool) (p q s t : Property) (k : String) (e : String × Property)
    (pre post : List (String × Property))
    (he : e ∈ f.properties) (hq : Differ keys b q q true e.2 e.2)
    (hp : g.properties = pre ++ (k, s) :: post) (hd : Differ false b p q true s t)
    (hgf : fileFinite g = true) (hqf : allFinite q = true) :
    ∃ w w' j, follow w f.toJson = some j ∧ follow w' g.toJson = some p.toJ ∧
      GvasFile.ofJson (replace j w' g.toJson) = some { g with properties := pre ++ (k, t) :: post } := by
  have hmf := Js.fileOK_maps (read_fileOK hf)
  have hmg := Js.fileOK_maps (read_fileOK hg)
  obtain ⟨l, r, hlr⟩ := List.append_of_mem he
  obtain ⟨w, h1, -⟩ := (file_located (k := e.1) (s := e.2) hlr hmf.2.1
    (differ_located (located_here _ _) hq (hmf.2.2 e he))).plain
  obtain ⟨w', h2, h3⟩ := (file_located hp hmg.2.1
    (differ_located (located_here _ _) hd (hmg.2.2 (k, s) (by rw [hp]; simp)))).plain
  have hst := place_stands (env := fileEnv debug hints' f.header) hq
    ⟨fun _ => ⟨_, ((read_fileOK hf).2.2 e he).2.2⟩, nofun⟩
  have hqm : MapsDistinct q := by
    cases b with
    | true => obtain ⟨st, h⟩ := hst.1 rfl; exact Js.head_maps _ _ _ h
    | false => obtain ⟨st, ty, h⟩ := hst.2 rfl; exact Js.bare_maps _ _ _ _ h
  obtain ⟨hm', hf'⟩ := edited_file hmg hgf hp hd hqm hqf
  exact ⟨w, w', _, h1, h2, by rw [h3, C53_json_roundtrip_partial _ hm', if_pos hf']⟩

/-- The inventory of the sample with other slots. -/
def sampleSlots (slots : List (String × Property)) : Property :=
  .struct editorGuid "Inventory" (structWith
    [("Title", [.text (nestedText (.int64 (-5)))]),
     ("Tag", [.name 0 (some "x"), .name 1 none, .name 2 (some "naïve")])]
    "Slots" [] (.map (.nameProperty "StructProperty" slots)) []
    [("Odd", [.map (.properties "FloatProperty" "ByteProperty" 0
        [(.float ⟨0⟩, .byte none (.byte 1)), (.float ⟨0x7FC00000⟩, .byte none (.byte 2))])]),
     ("Places", [.array (.structs "Places" "Quat" ue5ReleaseGuid
        [.quatD ⟨1⟩ ⟨2⟩ ⟨3⟩ ⟨4⟩, .quatD ⟨0⟩ ⟨0⟩ ⟨0⟩ ⟨0x7FF8000000000001⟩])]),
     ("Modes", [.array (.properties "ByteProperty"
        [.byte none (.namespaced "E::A"), .byte none (.namespaced "E::Long")])]),
     ("Spots", [.set "StructProperty" 0 [.structValue (.vectorD ⟨1⟩ ⟨2⟩ ⟨3⟩)]]),
     ("Raw", [.unknown "Int128Property" [1, 2, 3]])])

/-- A slot of the sample with something in the place of its count. -/
def sampleSlot (q : Property) : Property := .structValue (structWith [] "Count" [] q [] [])

/-- The float at the top of one save, put in place of a number four levels deep in another. -/
example (z : Codec) (hz : Lawful z) : ∃ data, { sampleFile .default with properties := [] ++
      ("Inventory", sampleSlots ([] ++ ("a", sampleSlot (.float ⟨5⟩)) ::
        [("b", .structValue (.customStruct []))])) ::
      [("Über", .str (some "x")), ("Done", .bool true)] }.encode = .ok data ∧
    (data.length < 2 ^ 32 → ∀ u : Sink, ∃ u', { sampleFile .default with properties := [] ++
      ("Inventory", sampleSlots ([] ++ ("a", sampleSlot (.float ⟨5⟩)) ::
        [("b", .structValue (.customStruct []))])) ::
      [("Über", .str (some "x")), ("Done", .bool true)] }.write z u = (.ok (), u') ∧
      GvasFile.read z true .default sampleHints u.pos (u'.data.drop u.pos) =
        .ok { sampleFile .default with properties := [] ++
          ("Inventory", sampleSlots ([] ++ ("a", sampleSlot (.float ⟨5⟩)) ::
            [("b", .structValue (.customStruct []))])) ::
          [("Über", .str (some "x")), ("Done", .bool true)] }) := by
  obtain ⟨i1, h1⟩ := sample_input z
  obtain ⟨i2, h2⟩ := other_input z
  exact C111_no_hints z hz true .default .default sampleHints sampleHints 0 0 i1 i2 otherSave
    (sampleFile .default) h2 h1 otherSave_answers false true (.int 3) (.float ⟨5⟩)
    (sampleSlots ([] ++ ("a", sampleSlot (.int 3)) :: [("b", .structValue (.customStruct []))])) _
    "Inventory" ("Health", .float ⟨5⟩) [] [("Über", .str (some "x")), ("Done", .bool true)]
    (by simp [otherSave, zeroFile]) .here rfl
    (.struct _ _ _ _ _ _ _ (.nameMap _ _ _ _ (.structValue _ _ _ _ _ .here)))
    (fun _ => rfl) nofun rfl

/-- The first slot of the sample, put in place of the second one: its bytes are copied. -/
example (z : Codec) (hz : Lawful z) : ∃ dg data a old new c front front' back,
    (sampleFile .default).encode = .ok dg ∧ dg = a ++ new ++ c ∧ dg = front ++ old ++ back ∧
    { sampleFile .default with properties := [] ++
      ("Inventory", sampleSlots ([("a", sampleSlot (.int 3))] ++ ("b", sampleSlot (.int 3)) :: [])) ::
      [("Über", .str (some "x")), ("Done", .bool true)] }.encode = .ok data ∧
    data = front' ++ new ++ back ∧ Grown old.length new.length front front' := by
  obtain ⟨i1, h1⟩ := sample_input z
  obtain ⟨df, dg, data, a, old, new, c, front, front', back, j1, j2, j3, j4, j5, j6, j7, -⟩ :=
    C111_copied z hz true .default .default sampleHints sampleHints 0 0 i1 i1 (sampleFile .default)
    (sampleFile .default) h1 h1 (sameAnswers_refl _) false false (.structValue (.customStruct [])) (sampleSlot (.int 3))
    (sampleSlots ([("a", sampleSlot (.int 3))] ++ ("b", .structValue (.customStruct [])) :: []))
    (sampleSlots ([("a", sampleSlot (.int 3))] ++ ("b", sampleSlot (.int 3)) :: []))
    "Inventory" ("Inventory", sampleSlots ([] ++ ("a", sampleSlot (.int 3)) ::
      [("b", .structValue (.customStruct []))])) []
    [("Über", .str (some "x")), ("Done", .bool true)] (List.mem_cons_self)
    (.struct _ _ _ _ _ _ _ (.nameMap _ _ _ _ .here)) rfl
    (.struct _ _ _ _ _ _ _ (.nameMap _ _ _ _ .here)) nofun (fun _ => ⟨rfl, rfl⟩) (by
      intro n hn
      refine (file_hints (sampleFile_ok .default)).mp (sampleFile_ok .default) n ?_
      revert n
      decide +kernel)
  rw [j1] at j3
  cases j3
  exact ⟨df, data, a, old, new, c, front, front', back, j1, j2, j4, j5, j6, j7⟩

/-- The count of the first slot of the sample, copied to the top of another save, in JSON. -/
example (z : Codec) : ∃ w w' j, follow w (sampleFile .default).toJson = some j ∧
    follow w' (zeroFile 5).toJson = some (Property.float ⟨5⟩).toJ ∧
    GvasFile.ofJson (replace j w' (zeroFile 5).toJson) =
      some { zeroFile 5 with properties := [("Health", .int 3)] } := by
  obtain ⟨i1, h1⟩ := sample_input z
  obtain ⟨i2, h2⟩ := zero_input z
  exact C111_through_json z true .default .default sampleHints sampleHints 0 0 i2 i1
    (sampleFile .default) (zeroFile 5) h1 h2 false true (.float ⟨5⟩) (.int 3) (.float ⟨5⟩) (.int 3)
    "Health" ("Inventory", sampleSlots ([] ++ ("a", sampleSlot (.int 3)) ::
      [("b", .structValue (.customStruct []))])) [] [] List.mem_cons_self
    (.struct _ _ _ _ _ _ _ (.nameMap _ _ _ _ (.structValue _ _ _ _ _ .here))) rfl .here
    (by decide +kernel) rfl

/-- A save without custom versions. -/
def oldSave : GvasFile :=
  { zeroFile 5 with header := .version2 517 ⟨4, 20, 0, 7, "++Old"⟩ 3 [] "/Script/Old.Save" }

theorem old_input (z : Codec) :
    ∃ input, GvasFile.read z true .default sampleHints 0 input = .ok oldSave := by
  refine some_input z rfl ⟨?_, by simp [oldSave, zeroFile], ?_⟩ (by decide +kernel)
  · simp only [oldSave, HeaderOK]
    refine ⟨by decide, by decide, by decide, ?_, ?_, by decide, ?_⟩ <;> decide +kernel
  · simp only [oldSave, zeroFile, List.forall_mem_cons]
    exact ⟨⟨by decide +kernel, by decide, by simp only [HeadOK]⟩, by simp⟩

/-- The float of a save without custom versions, in place of a number in one that has some. -/
example (z : Codec) (hz : Lawful z) : ∃ dg data old new front front' back,
    (sampleFile .default).encode = .ok dg ∧ dg = front ++ old.bytes ++ back ∧
    Property.write newVersions true (.int 3) = .ok old ∧
    Property.write newVersions true (.float ⟨5⟩) = .ok new ∧
    { sampleFile .default with properties := [] ++
      ("Inventory", sampleSlots ([] ++ ("a", sampleSlot (.float ⟨5⟩)) ::
        [("b", .structValue (.customStruct []))])) ::
      [("Über", .str (some "x")), ("Done", .bool true)] }.encode = .ok data ∧
    data = front' ++ new.bytes ++ back ∧ Grown old.bytes.length new.bytes.length front front' := by
  obtain ⟨i1, h1⟩ := sample_input z
  obtain ⟨i2, h2⟩ := old_input z
  obtain ⟨dg, data, old, new, front, front', back, j1, j2, j3, j4, j5, j6, j7, -⟩ :=
    C111_any_versions z hz true .default .default sampleHints sampleHints 0 0 i1 i2 oldSave
    (sampleFile .default) h2 h1 false true (.int 3) (.float ⟨5⟩)
    (sampleSlots ([] ++ ("a", sampleSlot (.int 3)) :: [("b", .structValue (.customStruct []))]))
    (sampleSlots ([] ++ ("a", sampleSlot (.float ⟨5⟩)) :: [("b", .structValue (.customStruct []))]))
    "Inventory" ("Health", .float ⟨5⟩) [] [("Über", .str (some "x")), ("Done", .bool true)]
    (by simp [oldSave, zeroFile]) .here rfl
    (.struct _ _ _ _ _ _ _ (.nameMap _ _ _ _ (.structValue _ _ _ _ _ .here)))
    (fun _ => rfl) nofun (by
      intro n hn
      refine (file_hints (sampleFile_ok .default)).mp (sampleFile_ok .default) n ?_
      revert n
      decide +kernel) ⟨⟨_, rfl⟩, .inr rfl⟩
  exact ⟨dg, data, old, new, front, front', back, j1, j2, j3, j4, j5, j6, j7⟩

/-- Wide coordinates are not kept by a save without custom versions, so no such save with them is ever
read. -/
example (z : Codec) (gv : GameVersion) (hints : String → Option String) (start : Nat) (input : Bytes) :
    GvasFile.read z true gv hints start input ≠ .ok { oldSave with
      properties := [] ++ ("Place", .struct editorGuid "Vector" (.vectorD ⟨0⟩ ⟨0⟩ ⟨0⟩)) :: [] } := by
  intro h
  obtain ⟨⟨o, ho⟩, -⟩ := C111_versions_needed z true gv hints start input oldSave true (.int 3) _ _ _
    "Place" [] [] .here h
  cases ho

end Gvas
