import Verif.Props.Accept
import Verif.Props.Framed

/-!
# C108: saving in another container

`deserialized_game_version` is a public field of `GvasFile` (`src/lib.rs` 332-343), so a program
that has loaded a save can set it and save the file in another container.
-/

namespace Gvas

open Spec

/-- The container a file is saved in, as the reader is told about it. -/
def Spec.containerOf : DeserializedGameVersion → GameVersion
  | .default => .default
  | .palworld _ => .palworld

/-- The file with another container. -/
def Spec.savedIn (g : DeserializedGameVersion) (f : GvasFile) : GvasFile :=
  ⟨g, f.header, f.properties⟩

/-- Bytes as they are, compressed, or compressed twice, at level 6. -/
def Spec.packed (z : Codec) : PalworldCompressionType → Bytes → Bytes
  | .none, data => data
  | .zlib, data => z.deflate 6 data
  | .zlibTwice, data => z.deflate 6 (z.deflate 6 data)

theorem contents_accepted {z : Codec} {debug : Bool} {gv : GameVersion}
    {hints : String → Option String} {start : Nat} {input : Bytes} {f : GvasFile}
    (h : GvasFile.read z debug gv hints start input = .ok f) :
    ∃ data, (readData debug hints data).1 = .ok (f.header, f.properties) := by
  cases gv with
  | default =>
    simp only [GvasFile.read] at h
    obtain ⟨⟨hd, ps⟩, h1, h2⟩ := Res.bind_inv h
    cases h2
    exact ⟨_, h1⟩
  | palworld =>
    simp only [GvasFile.read] at h
    split at h
    · obtain ⟨data, h1, h2⟩ := Res.bind_inv h
      obtain ⟨⟨hd, ps⟩, h3, h4⟩ := Res.bind_inv h2
      cases h4
      exact ⟨_, h3⟩
    · cases h

/-- **C108**: what was read from one container can be saved in every container, and is read back
from there with the same header and properties; the contents written are the same for all. -/
theorem C108_converted (z : Codec) (hz : Lawful z) (debug : Bool) (gv : GameVersion)
    (hints : String → Option String) (start : Nat) (input : Bytes) (f : GvasFile)
    (h : GvasFile.read z debug gv hints start input = .ok f) :
    ∃ data, ∀ g : DeserializedGameVersion, (savedIn g f).encode = .ok data ∧
      ∀ s : Sink, ∃ s', (savedIn g f).write z s = (.ok (), s') ∧
        (data.length < 2 ^ 32 →
          GvasFile.read z debug (containerOf g) hints s.pos (s'.data.drop s.pos) =
            .ok (savedIn g f)) := by
  obtain ⟨inner, hr⟩ := contents_accepted h
  obtain ⟨_, data, hd, _⟩ := accept_data hr .default
  refine ⟨data, fun g => ⟨hd, fun s => ?_⟩⟩
  have hok : FileOK debug hints (savedIn g f) := (accept_data hr g).1
  have he : (savedIn g f).encode = .ok data := hd
  cases g with
  | default =>
    obtain ⟨s1, hs1⟩ : ∃ s1, (savedIn .default f).write z s = (.ok (), s1) :=
      ⟨_, by simp only [GvasFile.write, he]; rfl⟩
    refine ⟨s1, hs1, fun h32 => ?_⟩
    obtain ⟨d, h1, h2⟩ := C17_files_roundtrip z debug hints _ rfl hok
    rw [he] at h1; cases h1
    obtain ⟨s', h3, h4⟩ := h2 h32 s
    rw [hs1] at h3; cases h3
    exact h4
  | palworld c =>
    obtain ⟨s1, hs1⟩ : ∃ s1, (savedIn (.palworld c) f).write z s = (.ok (), s1) :=
      ⟨_, by simp only [GvasFile.write, he]; rfl⟩
    refine ⟨s1, hs1, fun h32 => ?_⟩
    obtain ⟨d, h1, h2⟩ := C18_palworld_roundtrip z hz debug hints _ c rfl hok
    rw [he] at h1; cases h1
    obtain ⟨s', h3, h4⟩ := h2 h32 s
    rw [hs1] at h3; cases h3
    exact h4

/-- **C108**: to another container and back again: the file is saved there, loaded, and saved in
its own container with the bytes it would have been saved with at once. -/
theorem C108_there_and_back (z : Codec) (hz : Lawful z) (debug : Bool) (gv : GameVersion)
    (hints : String → Option String) (start : Nat) (input : Bytes) (f : GvasFile)
    (h : GvasFile.read z debug gv hints start input = .ok f) (data : Bytes)
    (hd : f.encode = .ok data) (h32 : data.length < 2 ^ 32) (g : DeserializedGameVersion)
    (s : Sink) : ∃ s' f', (savedIn g f).write z s = (.ok (), s') ∧
      GvasFile.read z debug (containerOf g) hints s.pos (s'.data.drop s.pos) = .ok f' ∧
      savedIn f.gameVersion f' = f ∧ ∀ t, (savedIn f.gameVersion f').write z t = f.write z t := by
  obtain ⟨d, hall⟩ := C108_converted z hz debug gv hints start input f h
  have e : d = data := by
    have := (hall f.gameVersion).1
    have hd' : (savedIn f.gameVersion f).encode = .ok data := hd
    rw [hd'] at this; cases this; rfl
  subst e
  obtain ⟨s', h1, h2⟩ := (hall g).2 s
  exact ⟨s', _, h1, h2 h32, rfl, fun _ => rfl⟩

/-- **C108**: for every file, readable or not, the containers differ in nothing but frame and
compression: what the ordinary save consists of is what the payload of the other ones unpacks to.
Without compression it is there as it is. -/
theorem C108_same_contents (z : Codec) (f : GvasFile) (c : PalworldCompressionType) (s' t' : Sink)
    (h : (savedIn .default f).write z ⟨[], 0⟩ = (.ok (), s'))
    (h' : (savedIn (.palworld c) f).write z ⟨[], 0⟩ = (.ok (), t')) :
    t'.data = (u32B (UInt32.ofNat s'.data.length) ++
      u32B (UInt32.ofNat (4 + (t'.data.length - 12))) ++ [0x50, 0x6C, 0x5A, compressionByte c]) ++
        t'.data.drop 12 ∧
    t'.data.drop 12 = packed z c s'.data := by
  obtain ⟨d, h1, h2, -⟩ := C42_default_frame z _ _ s' rfl h
  obtain ⟨d', h3, h4, -⟩ := C42_palworld_frame z _ c _ t' rfl h'
  have : d' = d := by
    have e : (savedIn (.palworld c) f).encode = .ok d := h1
    rw [e] at h3; cases h3; rfl
  subst this
  simp only [overwritten, List.take_nil, List.length_nil, Nat.sub_self, List.replicate_zero,
    List.drop_nil, List.append_nil, List.nil_append] at h2 h4
  subst h2
  have hl : t'.data.length = 12 + (pack z c s'.data).length := by
    rw [h4]; simp [u32B, leBytes]; omega
  have hdrop : t'.data.drop 12 = pack z c s'.data := by
    rw [h4]; rfl
  rw [hl, hdrop]
  refine ⟨?_, by cases c <;> rfl⟩
  rw [h4]
  simp [Nat.add_comm]

/-- A save not written by this library (its string is UTF-8) goes into the Palworld container,
compressed twice, and comes back as it was. -/
example (z : Codec) (hz : Lawful z) : ∃ f s' f',
    GvasFile.read z true .default noHints 0 foreignInput = .ok f ∧
    (savedIn (.palworld .zlibTwice) f).write z ⟨[], 0⟩ = (.ok (), s') ∧
    GvasFile.read z true .palworld noHints 0 s'.data = .ok f' ∧ savedIn .default f' = f := by
  have hr : failure (readData true noHints foreignInput).1 = none := by decide +kernel
  cases h : (readData true noHints foreignInput).1 with
  | bad e => rw [h] at hr; cases hr
  | ok a =>
    obtain ⟨hd, ps⟩ := a
    have h0 : GvasFile.read z true .default noHints 0 foreignInput = .ok ⟨.default, hd, ps⟩ := by
      simp only [GvasFile.read, h]; rfl
    obtain ⟨d, h1, h2⟩ := C19_at_most_doubles _ _ _ _ _ h .default
    have hl : foreignInput.length = 93 := by decide +kernel
    obtain ⟨s', f', h3, h4, h5, -⟩ := C108_there_and_back z hz true .default noHints 0 foreignInput _
      h0 d h1 (by omega) (.palworld .zlibTwice) ⟨[], 0⟩
    exact ⟨_, s', f', h0, h3, h4, h5⟩

/-- Both saves of this file exist, so that the hypotheses of the last theorem are met. -/
example (z : Codec) (c : PalworldCompressionType) : ∃ s' t' : Sink,
    (savedIn .default ⟨.default, .version2 0x205 ⟨4, 27, 2, 0, "++UE4"⟩ 3 [] "S",
      [("A", .int 7)]⟩).write z ⟨[], 0⟩ = (.ok (), s') ∧
    (savedIn (.palworld c) ⟨.default, .version2 0x205 ⟨4, 27, 2, 0, "++UE4"⟩ 3 [] "S",
      [("A", .int 7)]⟩).write z ⟨[], 0⟩ = (.ok (), t') :=
  ⟨_, _, rfl, rfl⟩

end Gvas
