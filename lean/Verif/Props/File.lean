import Verif.Lemmas.File
import Verif.Props.RoundTrip
import Verif.Props.Container

/-!
# C17, C18, C20, C21: files are read back from what was written
-/

namespace Gvas

open Spec

theorem drop_overwritten (old : Bytes) (pos : Nat) (bs : Bytes) :
    (overwritten old pos bs).drop pos = bs ++ old.drop (pos + bs.length) := by
  unfold overwritten
  have hl : (old.take pos ++ List.replicate (pos - old.length) 0).length = pos := by
    simp; omega
  rw [List.append_assoc, List.drop_append, List.drop_of_length_le (by omega), hl, Nat.sub_self,
    List.drop_zero, List.nil_append]

private theorem u32B_injective {a b : UInt32} (h : u32B a = u32B b) : a = b := by
  have := congrArg leNat h
  rw [u32B, u32B, leNat_leBytes, leNat_leBytes, Nat.mod_eq_of_lt a.toNat_lt,
    Nat.mod_eq_of_lt b.toNat_lt] at this
  exact UInt32.toNat_inj.mp this

/-- **C17**: every representable file in the default container is written, and reading from where
the writing began returns it, whatever the output held before (as long as the file takes less than
4 GiB). -/
theorem C17_files_roundtrip (z : Codec) (debug : Bool) (hints : String → Option String)
    (f : GvasFile) (hg : f.gameVersion = .default) (h : FileOK debug hints f) :
    ∃ data, f.encode = .ok data ∧ (data.length < 2 ^ 32 → ∀ s : Sink, ∃ s',
      f.write z s = (.ok (), s') ∧
      GvasFile.read z debug .default hints s.pos (s'.data.drop s.pos) = .ok f) := by
  obtain ⟨data, he⟩ := fileOK_encodes h
  refine ⟨data, he, fun h32 s => ⟨s.write data, ?_, ?_⟩⟩
  · simp only [GvasFile.write, he, hg]
  · have e : (s.write data).data.drop s.pos = data ++ s.data.drop (s.pos + data.length) :=
      drop_overwritten _ _ _
    rw [e]
    simp only [GvasFile.read]
    rw [fileOK_reads h he h32]
    show Res.ok _ = _
    rw [← hg]

/-- **C18**: the same for Palworld containers, uncompressed or compressed once or twice, if zlib
decompression inverts compression. -/
theorem C18_palworld_roundtrip (z : Codec) (hz : Lawful z) (debug : Bool)
    (hints : String → Option String) (f : GvasFile) (c : PalworldCompressionType)
    (hg : f.gameVersion = .palworld c) (h : FileOK debug hints f) :
    ∃ data, f.encode = .ok data ∧ (data.length < 2 ^ 32 → ∀ s : Sink, ∃ s',
      f.write z s = (.ok (), s') ∧
      GvasFile.read z debug .palworld hints s.pos (s'.data.drop s.pos) = .ok f) := by
  obtain ⟨data, he⟩ := fileOK_encodes h
  refine ⟨data, he, fun h32 s => ?_⟩
  obtain ⟨s', hs'⟩ : ∃ s', f.write z s = (.ok (), s') := ⟨_, by simp only [GvasFile.write, he, hg]; rfl⟩
  refine ⟨s', hs', ?_⟩
  obtain ⟨d, hd, e, -⟩ := C42_palworld_frame z f c s s' hg hs'
  rw [he] at hd; cases hd
  rw [e, drop_overwritten]
  have hf := readFrame_frame (UInt32.ofNat data.length) (UInt32.ofNat (3 + 1 + (pack z c data).length)) c
    (pack z c data ++ s.data.drop (s.pos + (frame (UInt32.ofNat data.length)
      (UInt32.ofNat (3 + 1 + (pack z c data).length)) c (pack z c data)).length)) s.pos []
  simp only [GvasFile.read]
  simp only [frame, List.append_assoc] at hf ⊢
  rw [hf]
  have hu : ∀ rest, unpack z (UInt32.ofNat data.length) c (pack z c data ++ rest) = .ok data := by
    intro rest
    have hn : (UInt32.ofNat data.length).toNat = data.length := u32_ofNat_toNat h32
    cases c
    · simp [unpack, pack, hn]
    · simp [unpack, pack, hn, hz.once, inflateExact]
    · simp [unpack, pack, hz.twice]
  simp only [hu]
  have := fileOK_reads h he h32 []
  rw [List.append_nil] at this
  show ((readData debug hints data).1 >>= fun x => _) = _
  rw [this]
  show Res.ok _ = _
  rw [← hg]

/-- **C21**: reading a file back after writing it and writing it again produces the same output. -/
theorem C21_own_output_reproduced (z : Codec) (hz : Lawful z) (debug : Bool)
    (hints : String → Option String) (f : GvasFile) (gv : GameVersion)
    (hg : gv = match f.gameVersion with | .default => .default | .palworld _ => .palworld)
    (h : FileOK debug hints f) :
    ∃ data, f.encode = .ok data ∧ (data.length < 2 ^ 32 → ∀ s : Sink, ∃ s' f',
      f.write z s = (.ok (), s') ∧
      GvasFile.read z debug gv hints s.pos (s'.data.drop s.pos) = .ok f' ∧
      f'.encode = .ok data ∧ ∀ s2 : Sink, f'.write z s2 = f.write z s2) := by
  cases hv : f.gameVersion with
  | default =>
    rw [hv] at hg; subst hg
    obtain ⟨data, h1, h2⟩ := C17_files_roundtrip z debug hints f hv h
    refine ⟨data, h1, fun h32 s => ?_⟩
    obtain ⟨s', h3, h4⟩ := h2 h32 s
    exact ⟨s', f, h3, h4, h1, fun _ => rfl⟩
  | palworld c =>
    rw [hv] at hg; subst hg
    obtain ⟨data, h1, h2⟩ := C18_palworld_roundtrip z hz debug hints f c hv h
    refine ⟨data, h1, fun h32 s => ?_⟩
    obtain ⟨s', h3, h4⟩ := h2 h32 s
    exact ⟨s', f, h3, h4, h1, fun _ => rfl⟩

/-! ## C20 -/

/-- **C20**: representable properties of the same bytes are equal. -/
theorem C20_properties_injective (env : Env) (st : List String) (p q : Property) (a b : Out)
    (hp : HeadOK env st p) (hq : HeadOK env st q) (ha : Property.write env.cv true p = .ok a)
    (hb : Property.write env.cv true q = .ok b) (h32 : a.bytes.length < 2 ^ 32)
    (h : a.bytes = b.bytes) : p = q := by
  obtain ⟨a', h1, h2⟩ := C15_properties_roundtrip env st p hp
  obtain ⟨b', h3, h4⟩ := C15_properties_roundtrip env st q hq
  rw [ha] at h1; cases h1
  rw [hb] at h3; cases h3
  have e1 := h2 h32 (a.bytes.length + 1) (by omega) [] 0
  have e2 := h4 (h ▸ h32) (a.bytes.length + 1) (by rw [← h]; omega) [] 0
  rw [← h, e1] at e2
  simp only [Prod.mk.injEq, Res.ok.injEq] at e2
  exact e2.1

/-- **C20**: representable files with the same contents are equal. -/
theorem C20_contents_injective (debug : Bool) (hints : String → Option String) (f g : GvasFile)
    (data : Bytes) (hf : FileOK debug hints f) (hg : FileOK debug hints g)
    (h32 : data.length < 2 ^ 32) (h1 : f.encode = .ok data) (h2 : g.encode = .ok data) :
    f.header = g.header ∧ f.properties = g.properties := by
  have e1 := fileOK_reads hf h1 h32 []
  have e2 := fileOK_reads hg h2 h32 []
  rw [e1] at e2
  simp only [Res.ok.injEq, Prod.mk.injEq] at e2
  exact e2

private theorem pack_injective {z : Codec} (hz : Lawful z) {c : PalworldCompressionType}
    {x y : Bytes} (h : pack z c x = pack z c y) : x = y := by
  cases c
  · exact h
  · have h1 := hz.once 6 x []
    have h2 := hz.once 6 y []
    simp only [pack] at h
    rw [h, h2] at h1
    simpa using h1.symm
  · have h1 := hz.twice 6 6 x []
    have h2 := hz.twice 6 6 y []
    simp only [pack] at h
    rw [h, h2] at h1
    simpa using h1.symm

private theorem overwritten_injective {old : Bytes} {pos : Nat} {a b : Bytes}
    (hl : a.length = b.length) (h : overwritten old pos a = overwritten old pos b) : a = b := by
  have h' := congrArg (List.drop pos) h
  rw [drop_overwritten, drop_overwritten] at h'
  exact (List.append_inj h' hl).1

private theorem encode_magic {f : GvasFile} {data : Bytes} (h : f.encode = .ok data) :
    ∃ v : UInt32, (v = 2 ∨ v = 3) ∧ ∃ rest, data = [0x47, 0x56, 0x41, 0x53] ++ u32B v ++ rest := by
  unfold GvasFile.encode at h
  obtain ⟨out, ho, h⟩ := Res.bind_inv h
  cases h
  have hm : u32B fileTypeGvas = [0x47, 0x56, 0x41, 0x53] := by decide
  cases hh : f.header with
  | version2 pkg ev format cvs name =>
    refine ⟨2, .inl rfl, ?_⟩
    simp only [GvasHeader.write, Out.app_bytes, u32O_bytes, List.append_assoc, hm]
    exact ⟨_, rfl⟩
  | version3 pkg ue5 ev format cvs name =>
    refine ⟨3, .inr rfl, ?_⟩
    simp only [GvasHeader.write, Out.app_bytes, u32O_bytes, List.append_assoc, hm]
    exact ⟨_, rfl⟩

/-- **C20**: representable files that leave the same output behind are equal, containers
included (as long as contents and compressed payload take less than 4 GiB). -/
theorem C20_files_injective (z : Codec) (hz : Lawful z) (debug : Bool)
    (hints : String → Option String) (f g : GvasFile) (hf : FileOK debug hints f)
    (hg : FileOK debug hints g) (s s' : Sink) (h1 : f.write z s = (.ok (), s'))
    (h2 : g.write z s = (.ok (), s'))
    (hsize : s'.pos < s.pos + 2 ^ 32) (hf32 : ∀ d, f.encode = .ok d → d.length < 2 ^ 32) : f = g := by
  have mixed : ∀ (f g : GvasFile) (c : PalworldCompressionType), f.gameVersion = .default →
      g.gameVersion = .palworld c → f.write z s = (.ok (), s') → g.write z s = (.ok (), s') →
      False := by
    intro f g c hvf hvg h1 h2
    obtain ⟨d, e1, e2, e3⟩ := C42_default_frame z f s s' hvf h1
    obtain ⟨d', e4, e5, e6⟩ := C42_palworld_frame z g c s s' hvg h2
    obtain ⟨v, hv, rest, e7⟩ := encode_magic e1
    rw [e2] at e5
    have hd := overwritten_injective (by simp; omega) e5
    rw [e7] at hd
    simp only [List.append_assoc] at hd
    have hd := (List.append_inj hd (by simp)).2
    have hd := (List.append_inj hd (by simp)).1
    have hd := u32B_injective hd
    have := congrArg UInt32.toNat hd
    rw [u32_ofNat_toNat (by omega)] at this
    rcases hv with rfl | rfl
    · simp at this; omega
    · simp at this; omega
  cases hvf : f.gameVersion with
  | default =>
    cases hvg : g.gameVersion with
    | default =>
      obtain ⟨d, e1, e2, e3⟩ := C42_default_frame z f s s' hvf h1
      obtain ⟨d', e4, e5, e6⟩ := C42_default_frame z g s s' hvg h2
      rw [e2] at e5
      have hd := overwritten_injective (by omega) e5
      subst hd
      have := C20_contents_injective debug hints f g d hf hg (hf32 d e1) e1 e4
      cases f; cases g; simp_all
    | palworld c => exact (mixed f g c hvf hvg h1 h2).elim
  | palworld c =>
    cases hvg : g.gameVersion with
    | default => exact (mixed g f c hvg hvf h2 h1).elim
    | palworld c' =>
      obtain ⟨d, e1, e2, e3⟩ := C42_palworld_frame z f c s s' hvf h1
      obtain ⟨d', e4, e5, e6⟩ := C42_palworld_frame z g c' s s' hvg h2
      rw [e2] at e5
      have hd := overwritten_injective (by simp; omega) e5
      simp only [List.append_assoc] at hd
      have hd := (List.append_inj hd (by simp)).2
      have hd := (List.append_inj hd (by simp)).2
      have hd := (List.append_inj hd (by simp)).2
      have hd := List.append_inj hd (by simp)
      have hc : c = c' := by
        have := hd.1
        revert this
        cases c <;> cases c' <;> decide
      subst hc
      have hd := pack_injective hz hd.2
      subst hd
      have := C20_contents_injective debug hints f g d hf hg (hf32 d e1) e1 e4
      cases f; cases g; simp_all

/-! ## The hypotheses can be met -/

/-- A save with the sample tree of `Verif.Props.RoundTrip` and two more properties. -/
def sampleFile (gv : DeserializedGameVersion) : GvasFile :=
  { gameVersion := gv
    header := .version3 522 1008 ⟨5, 1, 1, 0, "++UE5+Rel–5.1"⟩ 3 newVersions "/Script/Game.Save"
    properties := [("Inventory", sampleTree), ("Über", .str (some "x")), ("Done", .bool true)] }

theorem sampleFile_ok (gv : DeserializedGameVersion) : FileOK true sampleHints (sampleFile gv) := by
  refine ⟨?_, by simp only [sampleFile]; decide +kernel, ?_⟩
  · simp only [sampleFile, HeaderOK]
    refine ⟨by decide, by decide, by decide, by decide, by decide, ?_, ?_, by decide, ?_⟩
    · decide +kernel
    · decide +kernel
    · decide +kernel
  · simp only [sampleFile, List.forall_mem_cons]
    refine ⟨⟨by decide +kernel, by decide, sampleTree_ok⟩, ⟨by decide +kernel, by decide, ?_⟩,
      ⟨by decide +kernel, by decide, ?_⟩, by simp⟩
    · simp only [HeadOK]; decide +kernel
    · simp only [HeadOK]

/-- The sample has 1278 bytes of contents. -/
example : (match (sampleFile .default).encode with | .ok d => d.length | .bad _ => 0) = 1278 := by
  decide +kernel

/-- A simple code with an end mark: every byte is preceded by a one, and a zero follows. -/
def toyDeflate (x : Bytes) : Bytes := x.flatMap (fun b => [1, b]) ++ [0]

/-- Decode up to the end mark. -/
def toyInflate : Bytes → Bytes × Bool
  | 1 :: b :: l => (b :: (toyInflate l).1, (toyInflate l).2)
  | 0 :: _ => ([], true)
  | _ => ([], false)

theorem toyInflate_deflate (x rest : Bytes) : toyInflate (toyDeflate x ++ rest) = (x, true) := by
  induction x with
  | nil => rfl
  | cons b x ih =>
    have e : toyDeflate (b :: x) ++ rest = 1 :: b :: (toyDeflate x ++ rest) := by simp [toyDeflate]
    rw [e, toyInflate, ih]

/-- The assumptions about zlib are consistent. -/
def toyCodec : Codec :=
  { inflate := toyInflate
    inflate2 := fun x => some (toyInflate (toyInflate x).1).1
    deflate := fun _ => toyDeflate }

theorem toyCodec_lawful : Lawful toyCodec := by
  refine ⟨fun _ x rest => toyInflate_deflate x rest, fun _ _ x rest => ?_⟩
  have := toyInflate_deflate x []
  rw [List.append_nil] at this
  simp only [toyCodec, toyInflate_deflate, this]

end Gvas
