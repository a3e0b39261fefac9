import Verif.Lemmas.Merge
import Verif.Props.Copied

/-!
# C112: elements and fields from any save can be added anywhere
-/

namespace Gvas

open Spec

/-- What is merged in can be represented. -/
theorem merged_ok {z : Codec} {debug : Bool} {gv : GameVersion} {hints : String → Option String}
    {start : Nat} {input : Bytes} {g : GvasFile}
    (hg : GvasFile.read z debug gv hints start input = .ok g)
    {b : Bool} {p q s t : Property} {k : String} {pre post : List (String × Property)}
    (hp : g.properties = pre ++ (k, s) :: post) (hd : Differ false b p q true s t)
    (hm : Merged (Found z debug g.header.customVersions) p q)
    (hn : ∀ n ∈ fileNeeds { g with properties := pre ++ (k, t) :: post }, Suits hints n) :
    FileOK debug hints { g with properties := pre ++ (k, t) :: post } := by
  refine carried_ok (read_fileOK hg) hp (differ_carries _ hd (merged_carries (fun b x hx => ?_) hm)) hn
  obtain ⟨gv', hints', start', input', f, e, h1, h2, h3, h4⟩ := hx
  exact ⟨fileEnv debug hints' g.header, rfl, rfl, stands_moved (place_stands
    (env := fileEnv debug hints' f.header) h3
    ⟨fun _ => ⟨_, ((read_fileOK h1).2.2 e h2).2.2⟩, nofun⟩) h4⟩

/-- **C112**: elements of arrays and sets, entries of maps and fields of structs, at any depth of a
save, can be added, left out, moved and repeated.  The added ones can come from any place of any save,
as long as the custom versions keep them (C111) and they are of the type of the list.  The file is saved
without error and read back as it is, if the hints suit the structs it has now. -/
theorem C112_merged (z : Codec) (hz : Lawful z) (debug : Bool) (gv : GameVersion)
    (hints : String → Option String) (start : Nat) (input : Bytes) (g : GvasFile)
    (hg : GvasFile.read z debug gv hints start input = .ok g)
    (b : Bool) (p q s t : Property) (k : String) (pre post : List (String × Property))
    (hp : g.properties = pre ++ (k, s) :: post) (hd : Differ false b p q true s t)
    (hm : Merged (Found z debug g.header.customVersions) p q)
    (hn : ∀ n ∈ fileNeeds { g with properties := pre ++ (k, t) :: post }, Suits hints n) :
    ∃ data, { g with properties := pre ++ (k, t) :: post }.encode = .ok data ∧
      (data.length < 2 ^ 32 → ∀ u : Sink, ∃ u',
        { g with properties := pre ++ (k, t) :: post }.write z u = (.ok (), u') ∧
        GvasFile.read z debug (containerOf g.gameVersion) hints u.pos (u'.data.drop u.pos) =
          .ok { g with properties := pre ++ (k, t) :: post }) := by
  have hok := merged_ok hg hp hd hm hn
  obtain ⟨data, he⟩ := fileOK_encodes hok
  exact ⟨data, he, fun h32 u => saved_reads hz hok he h32 u⟩

/-- **C112** by way of JSON: the list has a place in the JSON of the file, and putting the JSON of the
other one there, and loading the result, gives the same file (floats have to be finite, see C53). -/
theorem C112_through_json (z : Codec) (debug : Bool) (gv : GameVersion)
    (hints : String → Option String) (start : Nat) (input : Bytes) (g : GvasFile)
    (hg : GvasFile.read z debug gv hints start input = .ok g)
    (b : Bool) (p q s t : Property) (k : String) (pre post : List (String × Property))
    (hp : g.properties = pre ++ (k, s) :: post) (hd : Differ false b p q true s t)
    (hm : Merged (Found z debug g.header.customVersions) p q)
    (hn : ∀ n ∈ fileNeeds { g with properties := pre ++ (k, t) :: post }, Suits hints n)
    (hgf : fileFinite g = true) (hqf : allFinite q = true) :
    ∃ w, follow w g.toJson = some p.toJ ∧
      GvasFile.ofJson (replace q.toJ w g.toJson) =
        some { g with properties := pre ++ (k, t) :: post } := by
  have hmg := Js.fileOK_maps (read_fileOK hg)
  have hm' := Js.fileOK_maps (merged_ok hg hp hd hm hn)
  obtain ⟨w, h1, h2⟩ := (file_located hp hmg.2.1
    (differ_located (located_here _ _) hd (hmg.2.2 (k, s) (by rw [hp]; simp)))).plain
  have hf' : fileFinite { g with properties := pre ++ (k, t) :: post } = true := by
    simp only [fileFinite, List.all_eq_true] at hgf ⊢
    rw [hp] at hgf
    intro x hx
    simp only [List.mem_append, List.mem_cons] at hx
    rcases hx with hx | rfl | hx
    · exact hgf x (by simp [hx])
    · exact differ_finite hd (hgf (k, s) (by simp)) hqf
    · exact hgf x (by simp [hx])
  exact ⟨w, h1, by rw [h2, C53_json_roundtrip_partial _ hm', if_pos hf']⟩

/-- A slot of the sample with a field more. -/
def sampleSlotMore (q : Property) : Property :=
  .structValue (.customStruct [("Health", [q]), ("Count", [.int 3])])

/-- The property of another save as a new field of the first slot of the sample. -/
example (z : Codec) (hz : Lawful z) : ∃ data, { sampleFile .default with properties := [] ++
      ("Inventory", sampleSlots ([] ++ ("a", sampleSlotMore (.float ⟨5⟩)) ::
        [("b", .structValue (.customStruct []))])) ::
      [("Über", .str (some "x")), ("Done", .bool true)] }.encode = .ok data ∧
    (data.length < 2 ^ 32 → ∀ u : Sink, ∃ u', { sampleFile .default with properties := [] ++
      ("Inventory", sampleSlots ([] ++ ("a", sampleSlotMore (.float ⟨5⟩)) ::
        [("b", .structValue (.customStruct []))])) ::
      [("Über", .str (some "x")), ("Done", .bool true)] }.write z u = (.ok (), u') ∧
      GvasFile.read z true .default sampleHints u.pos (u'.data.drop u.pos) =
        .ok { sampleFile .default with properties := [] ++
          ("Inventory", sampleSlots ([] ++ ("a", sampleSlotMore (.float ⟨5⟩)) ::
            [("b", .structValue (.customStruct []))])) ::
          [("Über", .str (some "x")), ("Done", .bool true)] }) := by
  obtain ⟨i1, h1⟩ := sample_input z
  obtain ⟨i2, h2⟩ := old_input z
  have hm : Merged (Found z true (sampleFile .default).header.customVersions)
      (sampleSlot (.int 3)) (sampleSlotMore (.float ⟨5⟩)) := by
    refine .bareFields ⟨by decide, fun e he => ?_⟩
    simp only [List.mem_cons, List.not_mem_nil, or_false] at he
    rcases he with rfl | rfl
    · refine .inr ⟨by unfold StrOK; decide +kernel, by decide, by simp, fun i x hx => ?_⟩
      cases i with
      | zero =>
        cases hx
        exact ⟨⟨_, _, _, _, oldSave, ("Health", .float ⟨5⟩), h2, by simp [oldSave, zeroFile], .here,
          ⟨_, rfl⟩, .inr rfl⟩, rfl⟩
      | succ i => simp at hx
    · exact .inl (by simp)
  exact C112_merged z hz true .default sampleHints 0 i1 (sampleFile .default) h1 false
    (sampleSlot (.int 3)) (sampleSlotMore (.float ⟨5⟩))
    (sampleSlots ([] ++ ("a", sampleSlot (.int 3)) :: [("b", .structValue (.customStruct []))]))
    (sampleSlots ([] ++ ("a", sampleSlotMore (.float ⟨5⟩)) ::
      [("b", .structValue (.customStruct []))]))
    "Inventory" [] [("Über", .str (some "x")), ("Done", .bool true)] rfl
    (.struct _ _ _ _ _ _ _ (.nameMap _ _ _ _ .here)) hm (by
      intro n hn
      refine (file_hints (sampleFile_ok .default)).mp (sampleFile_ok .default) n ?_
      revert n
      decide +kernel)

/-- A slot of the sample under a new name, between the two it has. -/
example (z : Codec) (hz : Lawful z) : ∃ data, { sampleFile .default with properties := [] ++
      ("Inventory", sampleSlots [("a", sampleSlot (.int 3)), ("c", sampleSlot (.int 3)),
        ("b", .structValue (.customStruct []))]) ::
      [("Über", .str (some "x")), ("Done", .bool true)] }.encode = .ok data := by
  obtain ⟨i1, h1⟩ := sample_input z
  have hm : Merged (Found z true (sampleFile .default).header.customVersions)
      (.map (.nameProperty "StructProperty" [("a", sampleSlot (.int 3)),
        ("b", .structValue (.customStruct []))]))
      (.map (.nameProperty "StructProperty" [("a", sampleSlot (.int 3)), ("c", sampleSlot (.int 3)),
        ("b", .structValue (.customStruct []))])) := by
    refine .nameMap _ (by unfold KeysOK StrOK; decide +kernel) fun w hw => ?_
    simp only [List.mem_cons, List.not_mem_nil, or_false] at hw
    rcases hw with rfl | rfl | rfl
    · exact .inl ⟨"a", by simp⟩
    · refine .inr ⟨by simp [SizeFree, sampleSlot], ?_, rfl⟩
      exact ⟨_, _, _, _, sampleFile .default, ("Inventory", sampleSlots ([] ++
        ("a", sampleSlot (.int 3)) :: [("b", .structValue (.customStruct []))])), h1,
        List.mem_cons_self, .struct _ _ _ _ _ _ _ (.nameMap _ _ _ _ .here), ⟨_, rfl⟩, .inr rfl⟩
    · exact .inl ⟨"b", by simp⟩
  obtain ⟨data, he, -⟩ := C112_merged z hz true .default sampleHints 0 i1 (sampleFile .default) h1 true
    _ _ (sampleSlots [("a", sampleSlot (.int 3)), ("b", .structValue (.customStruct []))])
    (sampleSlots [("a", sampleSlot (.int 3)), ("c", sampleSlot (.int 3)),
      ("b", .structValue (.customStruct []))])
    "Inventory" [] [("Über", .str (some "x")), ("Done", .bool true)] rfl
    (.struct _ _ _ _ _ _ _ .here) hm (by
      intro n hn
      refine (file_hints (sampleFile_ok .default)).mp (sampleFile_ok .default) n ?_
      revert n
      decide +kernel)
  exact ⟨data, he⟩

/-- A save with one struct. -/
def heroFile (fs : List (String × List Property)) : GvasFile :=
  { sampleFile .default with properties := [] ++ ("Hero", .struct editorGuid "S" (.customStruct fs)) :: [] }

private theorem heroFile_ok : FileOK true sampleHints (heroFile [("Level", [.int 7])]) := by
  refine ⟨(sampleFile_ok .default).1, by simp [heroFile], ?_⟩
  simp only [heroFile, List.nil_append, List.forall_mem_cons]
  refine ⟨⟨by unfold StrOK; decide +kernel, by decide, ?_⟩, by simp⟩
  simp only [HeadOK, StructOK, FieldsOK, ValsOK]
  simp [storedIndex, builtinStructs]
  decide +kernel

/-- The property of another save put into the struct by way of JSON. -/
example (z : Codec) : ∃ w,
    follow w (heroFile [("Level", [.int 7])]).toJson =
      some (Property.struct editorGuid "S" (.customStruct [("Level", [.int 7])])).toJ ∧
    GvasFile.ofJson (replace (Property.struct editorGuid "S" (.customStruct
      [("Level", [.int 7]), ("Health", [.float ⟨5⟩])])).toJ w (heroFile [("Level", [.int 7])]).toJson) =
      some (heroFile [("Level", [.int 7]), ("Health", [.float ⟨5⟩])]) := by
  obtain ⟨i1, h1⟩ := some_input z rfl heroFile_ok (by decide +kernel)
  obtain ⟨i2, h2⟩ := old_input z
  refine C112_through_json z true .default sampleHints 0 i1 (heroFile [("Level", [.int 7])]) h1 true
    _ _ _ _ "Hero" [] [] rfl .here (.fields _ _ ⟨by decide, fun e he => ?_⟩) ?_ (by decide +kernel)
    (by decide +kernel)
  · simp only [List.mem_cons, List.not_mem_nil, or_false] at he
    rcases he with rfl | rfl
    · exact .inl (by simp)
    · refine .inr ⟨by unfold StrOK; decide +kernel, by decide, by simp, fun i x hx => ?_⟩
      cases i with
      | zero =>
        cases hx
        exact ⟨⟨_, _, _, _, oldSave, ("Health", .float ⟨5⟩), h2, by simp [oldSave, zeroFile], .here,
          ⟨_, rfl⟩, .inr rfl⟩, rfl⟩
      | succ i => simp at hx
  · intro n hn
    simp [fileNeeds, needs, structNeeds, fieldsNeeds, elemsNeeds] at hn

end Gvas
