import Verif.Props.Converted
import Verif.Props.Edit
import Verif.Props.Equality
import Verif.Props.EqualSaves
import Verif.Props.Moved

/-!
# C110: saves can be taken apart and put together
-/

namespace Gvas

open Spec

/-- What can be represented can be saved in its container, and is read back from there. -/
theorem saved_reads {z : Codec} (hz : Lawful z) {debug : Bool} {hints : String → Option String}
    {f : GvasFile} (hok : FileOK debug hints f) {data : Bytes} (he : f.encode = .ok data)
    (h32 : data.length < 2 ^ 32) (s : Sink) :
    ∃ s', f.write z s = (.ok (), s') ∧
      GvasFile.read z debug (containerOf f.gameVersion) hints s.pos (s'.data.drop s.pos) = .ok f := by
  cases hg : f.gameVersion with
  | default =>
    obtain ⟨d, h1, h2⟩ := C17_files_roundtrip z debug hints f hg hok
    rw [he] at h1; cases h1
    exact h2 h32 s
  | palworld c =>
    obtain ⟨d, h1, h2⟩ := C18_palworld_roundtrip z hz debug hints f c hg hok
    rw [he] at h1; cases h1
    exact h2 h32 s

theorem read_fileOK {z : Codec} {debug : Bool} {gv : GameVersion}
    {hints : String → Option String} {start : Nat} {input : Bytes} {f : GvasFile}
    (h : GvasFile.read z debug gv hints start input = .ok f) : FileOK debug hints f := by
  obtain ⟨inner, hr⟩ := contents_accepted h
  exact (accept_data hr f.gameVersion).1

/-- **C110**: properties from any number of saves, whose custom versions give the same answers, in any
order and with different names, can be put together behind the header of one of them.  The contents are the
header, the bytes every property had where it came from, and the end mark; they are saved without
error and read back as they were put together. -/
theorem C110_put_together (z : Codec) (hz : Lawful z) (debug : Bool) (gv : GameVersion)
    (hints : String → Option String) (start : Nat) (input : Bytes) (f : GvasFile)
    (h : GvasFile.read z debug gv hints start input = .ok f) (ps : List (String × Property))
    (hd : (ps.map Prod.fst).Nodup)
    (hps : ∀ e ∈ ps, ∃ gv' start' input' g,
      GvasFile.read z debug gv' hints start' input' = .ok g ∧
      SameAnswers g.header.customVersions f.header.customVersions ∧ e ∈ g.properties) :
    ∃ segs data, { f with properties := ps }.encode = .ok data ∧
      Pairs (Stored f.header.customVersions) ps segs ∧
      data = f.header.write.bytes ++ segs.flatten ++ [5, 0, 0, 0, 0x4E, 0x6F, 0x6E, 0x65, 0] ++
        [0, 0, 0, 0] ∧
      (data.length < 2 ^ 32 → ∀ s : Sink, ∃ s', { f with properties := ps }.write z s = (.ok (), s') ∧
        GvasFile.read z debug (containerOf f.gameVersion) hints s.pos (s'.data.drop s.pos) =
          .ok { f with properties := ps }) := by
  have hok : FileOK debug hints { f with properties := ps } := by
    refine ⟨(read_fileOK h).1, hd, fun e he => ?_⟩
    obtain ⟨gv', start', input', g, hg, hcv, hm⟩ := hps e he
    exact (fileOK_moves (read_fileOK hg) (read_fileOK h).1 hcv).2.2 e hm
  obtain ⟨data, he⟩ := fileOK_encodes hok
  obtain ⟨segs, h1, h2⟩ := (C59_save_is_concatenation _ data).mp he
  exact ⟨segs, data, he, h1, h2, fun h32 s => saved_reads hz hok he h32 s⟩

private theorem stored_in {cv : List (Guid × UInt32)} {l : List (String × Property)}
    {segs : List Bytes} (h : Pairs (Stored cv) l segs) {e : String × Property} (he : e ∈ l) :
    ∃ a seg b, segs = a ++ seg :: b ∧ Stored cv e seg := by
  induction h with
  | nil => cases he
  | cons h1 _ ih =>
    rcases List.mem_cons.mp he with rfl | he
    · exact ⟨[], _, _, rfl, h1⟩
    · obtain ⟨a, seg, b, rfl, h2⟩ := ih he
      exact ⟨_ :: a, seg, b, rfl, h2⟩

/-- **C110**: a property takes the same bytes in all files that have it and whose custom versions give
the same answers, whatever else is in them and whatever container they are in. -/
theorem C110_same_bytes (f g : GvasFile) (df dg : Bytes) (hf : f.encode = .ok df)
    (hg : g.encode = .ok dg) (hcv : SameAnswers g.header.customVersions f.header.customVersions)
    (e : String × Property) (h1 : e ∈ f.properties) (h2 : e ∈ g.properties) :
    ∃ a seg b a' b', df = a ++ seg ++ b ∧ dg = a' ++ seg ++ b' ∧
      Stored f.header.customVersions e seg := by
  obtain ⟨sf, e1, rfl⟩ := (C59_save_is_concatenation f df).mp hf
  obtain ⟨sg, e2, rfl⟩ := (C59_save_is_concatenation g dg).mp hg
  obtain ⟨a, seg, b, rfl, hs⟩ := stored_in e1 h1
  obtain ⟨a', seg', b', rfl, hs'⟩ := stored_in e2 h2
  obtain ⟨o, ho, rfl⟩ := hs
  obtain ⟨o', ho', rfl⟩ := hs'
  rw [C100_writing _ _ hcv, ho] at ho'
  cases ho'
  refine ⟨f.header.write.bytes ++ a.flatten, _, b.flatten ++ [5, 0, 0, 0, 0x4E, 0x6F, 0x6E, 0x65, 0] ++
    [0, 0, 0, 0], g.header.write.bytes ++ a'.flatten, b'.flatten ++
      [5, 0, 0, 0, 0x4E, 0x6F, 0x6E, 0x65, 0] ++ [0, 0, 0, 0], ?_, ?_, o, ho, rfl⟩ <;>
  simp only [List.flatten_append, List.flatten_cons, List.append_assoc]

/-- **C110**: the properties of a save can be put in any order: the file is equal to the one read,
is saved in as many bytes, and is read back in this order. -/
theorem C110_any_order (z : Codec) (hz : Lawful z) (debug : Bool) (gv : GameVersion)
    (hints : String → Option String) (start : Nat) (input : Bytes) (f : GvasFile)
    (h : GvasFile.read z debug gv hints start input = .ok f) (ps : List (String × Property))
    (hp : ps.Perm f.properties) :
    f.eqv { f with properties := ps } = true ∧
    ∃ df data, f.encode = .ok df ∧ { f with properties := ps }.encode = .ok data ∧
      data.length = df.length ∧
      (data.length < 2 ^ 32 → ∀ s : Sink, ∃ s', { f with properties := ps }.write z s = (.ok (), s') ∧
        GvasFile.read z debug (containerOf f.gameVersion) hints s.pos (s'.data.drop s.pos) =
          .ok { f with properties := ps }) := by
  have hf := read_fileOK h
  obtain ⟨h1, h2, h3⟩ := id hf
  have hok : FileOK debug hints { f with properties := ps } :=
    ⟨h1, (hp.map Prod.fst).nodup_iff.mpr h2, fun e he => h3 e (hp.mem_iff.mp he)⟩
  have hm := Js.fileOK_maps hf
  have hm' := Js.fileOK_maps hok
  have he : f.eqv { f with properties := ps } = true :=
    (C64_files _ _ hm hm').mpr ⟨rfl, rfl, .refl _, _, hp.symm, pairs_self _ fun e he =>
      ⟨rfl, (C64_equivalence _ e.2 e.2 (hm.2.2 e he) (hm.2.2 e he)).1⟩⟩
  obtain ⟨df, hdf⟩ := fileOK_encodes hf
  obtain ⟨data, hd, hl⟩ := C80_files _ _ hm hm' he df hdf
  exact ⟨he, df, data, hdf, hd, hl, fun h32 s => saved_reads hz hok hd h32 s⟩

/-- A representable file is read from some input. -/
theorem some_input (z : Codec) {debug : Bool} {hints : String → Option String} {f : GvasFile}
    (hg : f.gameVersion = .default) (hok : FileOK debug hints f)
    (hl : (match f.encode with | .ok d => d.length | .bad _ => 0) < 2 ^ 32) :
    ∃ input, GvasFile.read z debug .default hints 0 input = .ok f := by
  obtain ⟨d, h1, h2⟩ := C17_files_roundtrip z debug hints f hg hok
  rw [h1] at hl
  obtain ⟨s', -, h3⟩ := h2 hl ⟨[], 0⟩
  exact ⟨_, h3⟩

theorem sample_input (z : Codec) :
    ∃ input, GvasFile.read z true .default sampleHints 0 input = .ok (sampleFile .default) :=
  some_input z rfl (sampleFile_ok _) (by decide +kernel)

theorem zero_input (z : Codec) :
    ∃ input, GvasFile.read z true .default sampleHints 0 input = .ok (zeroFile 5) :=
  some_input z rfl (zeroFile_ok 5) (by decide +kernel)

/-- A save of another game and engine, with other custom versions that give the same answers. -/
def otherSave : GvasFile :=
  { zeroFile 5 with
    header := .version2 517 ⟨4, 27, 2, 7, "++Other"⟩ 3
      [(editorGuid, 40), (Guid.fromU32 1 2 3 4, 7), (ue5ReleaseGuid, 28)] "/Script/Other.Save" }

theorem otherSave_answers :
    SameAnswers otherSave.header.customVersions (sampleFile .default).header.customVersions :=
  sameAnswers_iff.mpr (by decide +kernel)

theorem other_input (z : Codec) :
    ∃ input, GvasFile.read z true .default sampleHints 0 input = .ok otherSave := by
  refine some_input z rfl (fileOK_moves (h' := otherSave.header) (zeroFile_ok 5) ?_
    (sameAnswers_symm otherSave_answers)) (by decide +kernel)
  simp only [otherSave, HeaderOK]
  refine ⟨by decide, by decide, by decide, ?_, ?_, by decide, ?_⟩ <;> decide +kernel

/-- The last property of the sample, the one of another save, and the first one of the sample. -/
example (z : Codec) (hz : Lawful z) (s : Sink) : ∃ s',
    { sampleFile .default with
      properties := [("Done", .bool true), ("Health", .float ⟨5⟩), ("Inventory", sampleTree)] }.write
        z s = (.ok (), s') ∧
    GvasFile.read z true .default sampleHints s.pos (s'.data.drop s.pos) =
      .ok { sampleFile .default with
        properties := [("Done", .bool true), ("Health", .float ⟨5⟩), ("Inventory", sampleTree)] } := by
  obtain ⟨i1, h1⟩ := sample_input z
  obtain ⟨i2, h2⟩ := other_input z
  obtain ⟨segs, data, he, -, -, h⟩ := C110_put_together z hz true .default sampleHints 0 i1 _ h1
    [("Done", .bool true), ("Health", .float ⟨5⟩), ("Inventory", sampleTree)] (by decide +kernel) (by
      simp only [List.forall_mem_cons]
      exact ⟨⟨_, _, _, _, h1, sameAnswers_refl _, by simp [sampleFile]⟩,
        ⟨_, _, _, _, h2, otherSave_answers, by simp [otherSave, zeroFile]⟩,
        ⟨_, _, _, _, h1, sameAnswers_refl _, by simp [sampleFile]⟩, by simp⟩)
  have hl : (match { sampleFile .default with properties :=
      [("Done", .bool true), ("Health", .float ⟨5⟩), ("Inventory", sampleTree)] }.encode with
      | .ok d => d.length | .bad _ => 0) < 2 ^ 32 := by decide +kernel
  rw [he] at hl
  exact h hl s

/-- A save with another property in front of the one of `zeroFile`. -/
example : ∃ df dg, (zeroFile 5).encode = .ok df ∧ { otherSave with
      properties := [("Done", .bool true), ("Health", .float ⟨5⟩)] }.encode = .ok dg ∧
    ∃ a seg b a' b', df = a ++ seg ++ b ∧ dg = a' ++ seg ++ b' ∧ seg.length = 42 := by
  obtain ⟨df, hf⟩ := fileOK_encodes (zeroFile_ok 5)
  obtain ⟨dg, hg⟩ : ∃ dg, { otherSave with
      properties := [("Done", .bool true), ("Health", .float ⟨5⟩)] }.encode = .ok dg := ⟨_, rfl⟩
  obtain ⟨a, seg, b, a', b', h1, h2, o, ho, rfl⟩ := C110_same_bytes _ _ df dg hf hg
    otherSave_answers
    ("Health", .float ⟨5⟩) (by simp [zeroFile]) (by simp)
  refine ⟨df, dg, hf, hg, a, _, b, a', b', h1, h2, ?_⟩
  cases ho
  decide +kernel

/-- The sample in the opposite order. -/
example (z : Codec) (hz : Lawful z) :
    (sampleFile .default).eqv reversedSample = true ∧
    ∃ df data, (sampleFile .default).encode = .ok df ∧ reversedSample.encode = .ok data ∧
      data.length = df.length := by
  obtain ⟨i1, h1⟩ := sample_input z
  obtain ⟨h2, df, data, h3, h4, h5, -⟩ := C110_any_order z hz true .default sampleHints 0 i1 _ h1 _
    (List.reverse_perm _)
  exact ⟨h2, df, data, h3, h4, h5⟩

end Gvas
