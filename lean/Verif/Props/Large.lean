import Verif.Props.Huge

/-!
# C17, C19, C20, C21, C52: saves of 4 GiB and more, if no single property takes as much

In the default container only the lengths of the properties are stored, not that of the whole save.
-/

namespace Gvas

open Spec

private theorem drop_over (old : Bytes) (pos : Nat) (data : Bytes) :
    (overwritten old pos data).drop pos = data ++ old.drop (pos + data.length) := by
  unfold overwritten
  have hl : (old.take pos ++ List.replicate (pos - old.length) 0).length = pos := by
    simp; omega
  rw [List.append_assoc, List.drop_append, List.drop_of_length_le (by omega), hl, Nat.sub_self,
    List.drop_zero, List.nil_append]

/-- **C17** without a limit for the whole file: a representable file in the default container is
written and read back if each of its properties takes less than 4 GiB. -/
theorem C17_large_files (z : Codec) (debug : Bool) (hints : String → Option String)
    (f : GvasFile) (hg : f.gameVersion = .default) (h : FileOK debug hints f) (hf : EachFits f)
    (s : Sink) : ∃ s', f.write z s = (.ok (), s') ∧
      GvasFile.read z debug .default hints s.pos (s'.data.drop s.pos) = .ok f := by
  obtain ⟨data, he⟩ := fileOK_encodes h
  refine ⟨s.write data, ?_, ?_⟩
  · simp only [GvasFile.write, he, hg]
  · have e : (s.write data).data.drop s.pos = data ++ s.data.drop (s.pos + data.length) :=
      drop_over _ _ _
    rw [e]
    simp only [GvasFile.read]
    rw [fileOK_reads_each h he hf]
    show Res.ok _ = _
    rw [← hg]

/-- **C19** in the default container: whatever reading returns can be written, and reading the
output returns it again, if none of its properties takes 4 GiB or more.  Missing from the full
claim: properties of 4 GiB or more, for which it is false (`C19_huge_not_reread`). -/
theorem C19_large_reread_partial (z : Codec) (debug : Bool) (hints : String → Option String)
    (start : Nat) (input : Bytes) (f : GvasFile)
    (h : GvasFile.read z debug .default hints start input = .ok f) (hf : EachFits f) (s : Sink) :
    ∃ s', f.write z s = (.ok (), s') ∧
      GvasFile.read z debug .default hints s.pos (s'.data.drop s.pos) = .ok f := by
  simp only [GvasFile.read] at h
  obtain ⟨⟨hd, ps⟩, h1, h2⟩ := Res.bind_inv h
  cases h2
  exact C17_large_files z debug hints _ rfl (accept_data h1 _).1 hf s

/-- **C20** without a limit for the whole file: representable files with the same contents are
equal. -/
theorem C20_large_contents_injective (debug : Bool) (hints : String → Option String)
    (f g : GvasFile) (data : Bytes) (hf : FileOK debug hints f) (hg : FileOK debug hints g)
    (ef : EachFits f) (eg : EachFits g) (h1 : f.encode = .ok data) (h2 : g.encode = .ok data) :
    f.header = g.header ∧ f.properties = g.properties := by
  have e1 := fileOK_reads_each hf h1 ef []
  have e2 := fileOK_reads_each hg h2 eg []
  rw [e1] at e2
  simp only [Res.ok.injEq, Prod.mk.injEq] at e2
  exact e2

/-- **C21** in the default container without a limit for the whole file: what is read back is
written to the same bytes again. -/
theorem C21_large_reproduced (z : Codec) (debug : Bool) (hints : String → Option String)
    (f : GvasFile) (hg : f.gameVersion = .default) (h : FileOK debug hints f) (hf : EachFits f)
    (s : Sink) : ∃ s' f', f.write z s = (.ok (), s') ∧
      GvasFile.read z debug .default hints s.pos (s'.data.drop s.pos) = .ok f' ∧
      ∀ s2 : Sink, f'.write z s2 = f.write z s2 := by
  obtain ⟨s', h1, h2⟩ := C17_large_files z debug hints f hg h hf s
  exact ⟨s', f, h1, h2, fun _ => rfl⟩

/-- **C52**, exact condition for files none of whose properties takes 4 GiB or more: what was
written is read back if and only if the file is representable. -/
theorem C52_large_file_readable_iff_partial (debug : Bool) (hints : String → Option String)
    (f : GvasFile) (data : Bytes) (he : f.encode = .ok data) (hf : EachFits f) :
    (readData debug hints data).1 = .ok (f.header, f.properties) ↔ FileOK debug hints f := by
  constructor
  · intro h
    exact (accept_data h f.gameVersion).1
  · intro h
    have := fileOK_reads_each h he hf []
    rwa [List.append_nil] at this

/-! ## A concrete case: two properties of 2 GiB each -/

/-- A file with two arrays of `N` strings. -/
def largeFile (N : Nat) : GvasFile :=
  { gameVersion := .default
    header := hugeHeader
    properties := [("A", .array (.strings (List.replicate N (some "é")))),
      ("B", .array (.strings (List.replicate N (some "é"))))] }

theorem largeFile_ok (debug : Bool) (hints : String → Option String) (N : Nat) (hN : N < 2 ^ 32) :
    FileOK debug hints (largeFile N) := by
  have hp : ∀ env st, HeadOK env st (.array (.strings (List.replicate N (some "é")))) := by
    intro env st
    simp only [HeadOK, ArrayOK, List.length_replicate]
    refine ⟨hN, fun s hs => ?_⟩
    rw [(List.mem_replicate.mp hs).2]
    decide +kernel
  refine ⟨hugeHeader_ok, by simp [largeFile], ?_⟩
  intro e he
  simp only [largeFile, List.mem_cons, List.not_mem_nil, or_false] at he
  rcases he with rfl | rfl
  · exact ⟨by simp only; decide +kernel, by simp, hp _ _⟩
  · exact ⟨by simp only; decide +kernel, by simp, hp _ _⟩

/-- What one of the two takes. -/
theorem largeProperty_length (cv : List (Guid × UInt32)) (N : Nat) :
    ∃ o, Property.write cv true (.array (.strings (List.replicate N (some "é")))) = .ok o ∧
      o.bytes.length = 47 + N * 8 := by
  have h8 : (writeFString (some "é")).bytes.length = 8 := by decide +kernel
  have hbody : (concatOut writeFString (List.replicate N (some "é"))).bytes.length = N * 8 := by
    rw [concatOut_bytes]
    simp [List.flatMap_replicate, h8]
  have h1 : (writeString "ArrayProperty").bytes.length = 18 := by decide +kernel
  have h2 : (writeString "StrProperty").bytes.length = 16 := by decide +kernel
  refine ⟨headed true "ArrayProperty" (writeString "StrProperty")
    (u32O (UInt32.ofNat N) ++ concatOut writeFString (List.replicate N (some "é"))), ?_, ?_⟩
  · simp only [Property.write, ArrayProperty.writeBody, List.length_replicate]
    rfl
  · simp only [headed, withHeader, Out.app_bytes, u32O_bytes, if_true, List.length_append, hbody,
      h1, h2, u32B_length]
    simp; omega

/-- With 2^28 strings in each array the file takes more than 4 GiB, and the hypotheses of the
theorems above hold of it. -/
theorem C17_large_example (z : Codec) (debug : Bool) (hints : String → Option String) :
    FileOK debug hints (largeFile (2 ^ 28)) ∧ EachFits (largeFile (2 ^ 28)) ∧
    (∃ data, (largeFile (2 ^ 28)).encode = .ok data ∧ 2 ^ 32 < data.length) ∧
    ∃ s', (largeFile (2 ^ 28)).write z ⟨[], 0⟩ = (.ok (), s') ∧
      GvasFile.read z debug .default hints 0 s'.data = .ok (largeFile (2 ^ 28)) := by
  obtain ⟨N, hN⟩ : ∃ N : Nat, N = 2 ^ 28 := ⟨_, rfl⟩
  rw [← hN]
  have hok := largeFile_ok debug hints N (by omega)
  obtain ⟨o, ho, hl⟩ := largeProperty_length hugeHeader.customVersions N
  have hf : EachFits (largeFile N) := by
    intro e he o' ho'
    simp only [largeFile, List.mem_cons, List.not_mem_nil, or_false] at he ho'
    rcases he with rfl | rfl <;>
    · rw [ho] at ho'; cases ho'; omega
  refine ⟨hok, hf, ?_, ?_⟩
  · refine ⟨_, by
      simp only [GvasFile.encode, largeFile, writeTop, ho]; rfl, ?_⟩
    simp only [List.length_append, Out.app_bytes, hl]
    omega
  · exact C17_large_files z debug hints _ rfl hok hf ⟨[], 0⟩

/-- **C22** without a limit for the whole file: whatever was accepted is written, and what was
written is accepted and written to the same bytes again, if no property takes 4 GiB or more.
Missing from the full claim: that the first save already has the bytes of the input, which is
false (`C22_not_every_input`). -/
theorem C22_large_second_save_partial (debug : Bool) (hints : String → Option String)
    (input : Bytes) (h : GvasHeader) (ps : List (String × Property))
    (hr : (readData debug hints input).1 = .ok (h, ps)) (gv : DeserializedGameVersion)
    (hf : EachFits ⟨gv, h, ps⟩) :
    ∃ d, GvasFile.encode ⟨gv, h, ps⟩ = .ok d ∧
      ∀ tail, ∃ h' ps', (readData debug hints (d ++ tail)).1 = .ok (h', ps') ∧
        GvasFile.encode ⟨gv, h', ps'⟩ = .ok d := by
  obtain ⟨hok, d, hd, hl⟩ := accept_data hr gv
  exact ⟨d, hd, fun tail => ⟨h, ps, fileOK_reads_each hok hd hf tail, hd⟩⟩

/-- The file of more than 4 GiB: what it is written as meets the hypotheses. -/
example : ∃ input, (readData true noHints input).1 =
      .ok ((largeFile (2 ^ 28)).header, (largeFile (2 ^ 28)).properties) ∧
    2 ^ 32 < input.length ∧ EachFits (largeFile (2 ^ 28)) := by
  obtain ⟨hok, hf, ⟨data, he, hl⟩, _⟩ := C17_large_example prefixCodec true noHints
  have := fileOK_reads_each hok he hf []
  rw [List.append_nil] at this
  exact ⟨data, this, hl, hf⟩

end Gvas
