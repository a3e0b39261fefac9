import Verif.Props.Written
import Verif.Props.Errors

/-! # C22 for Palworld files -/

namespace Gvas

open Spec Format

theorem unpack_pack {z : Codec} (hz : Lawful z) (c : PalworldCompressionType) {d : Bytes}
    (h32 : d.length < 2 ^ 32) (rest : Bytes) :
    unpack z (UInt32.ofNat d.length) c (pack z c d ++ rest) = .ok d := by
  have hn : (UInt32.ofNat d.length).toNat = d.length := u32_ofNat_toNat h32
  cases c
  · simp [unpack, pack, hn]
  · simp [unpack, pack, hn, hz.once, inflateExact]
  · simp [unpack, pack, hz.twice]

/-- **C22** for Palworld files, exact condition: a file is read and reproduced byte for byte by
writing what was read to an empty output if and only if it is the frame the library would write
around contents that are a save in the one form of their own values.  With any other payload - from
another encoder or at another level, though it stands for the same contents - the bytes change.
Missing from the full claim: those files, which are not reproduced. -/
theorem C22_palworld_partial (z : Codec) (hz : Lawful z) (debug : Bool)
    (hints : String → Option String) (input d : Bytes) (c : PalworldCompressionType)
    (h32 : d.length < 2 ^ 32) :
    (∃ h ps s, GvasFile.read z debug .palworld hints 0 input = .ok ⟨.palworld c, h, ps⟩ ∧
      GvasFile.encode ⟨.palworld c, h, ps⟩ = .ok d ∧
      GvasFile.write z ⟨.palworld c, h, ps⟩ ⟨[], 0⟩ = (.ok (), s) ∧ s.data = input) ↔
    input = frame (UInt32.ofNat d.length) (UInt32.ofNat (4 + (pack z c d).length)) c (pack z c d) ∧
      ∃ h ps, Save debug hints d h ps ∧ Own.Contents d h ps := by
  rw [← C22_canonical_partial debug hints d (.palworld c)]
  have hread : ∀ h ps, GvasFile.read z debug .palworld hints 0
        (frame (UInt32.ofNat d.length) (UInt32.ofNat (4 + (pack z c d).length)) c (pack z c d)) =
          .ok ⟨.palworld c, h, ps⟩ ↔ (readData debug hints d).1 = .ok (h, ps) := by
    intro h ps
    have hu := unpack_pack hz c h32 []
    rw [List.append_nil] at hu
    simp only [GvasFile.read, readFrame_frame, hu]
    change ((readData debug hints d).1 >>= fun x => _) = _ ↔ _
    cases hr : (readData debug hints d).1 with
    | bad e => exact ⟨fun hx => (by cases hx), fun hx => (by cases hx)⟩
    | ok x =>
      obtain ⟨h', ps'⟩ := x
      exact ⟨fun hx => (by cases hx; rfl), fun hx => (by cases hx; rfl)⟩
  have hwrite : ∀ h ps s, GvasFile.encode ⟨.palworld c, h, ps⟩ = .ok d →
      GvasFile.write z ⟨.palworld c, h, ps⟩ ⟨[], 0⟩ = (.ok (), s) →
      s.data = frame (UInt32.ofNat d.length) (UInt32.ofNat (4 + (pack z c d).length)) c
        (pack z c d) := by
    intro h ps s he hw
    obtain ⟨d', hd', e, _⟩ := C42_palworld_frame z _ c ⟨[], 0⟩ s rfl hw
    rw [he] at hd'
    cases hd'
    rw [e]
    simp [overwritten, frame]
  constructor
  · rintro ⟨h, ps, s, hr, he, hw, rfl⟩
    have hi := hwrite h ps s he hw
    rw [hi] at hr
    exact ⟨hi, h, ps, (hread h ps).mp hr, he⟩
  · rintro ⟨rfl, h, ps, hr, he⟩
    have hw : ∃ s, GvasFile.write z ⟨.palworld c, h, ps⟩ ⟨[], 0⟩ = (.ok (), s) :=
      ⟨_, by simp only [GvasFile.write, he]; rfl⟩
    obtain ⟨s, hs⟩ := hw
    exact ⟨h, ps, s, (hread h ps).mpr hr, he, hs, hwrite h ps s he hs⟩

/-- The payload of a frame around the sample save: with this codec the frame is reproduced, and it is
read but not reproduced with a byte behind it. -/
example (d : Bytes) (hd : (sampleFile (.palworld .zlib)).encode = .ok d) (h32 : d.length < 2 ^ 32) :
    let input := frame (UInt32.ofNat d.length)
      (UInt32.ofNat (4 + (pack toyCodec .zlib d).length)) .zlib (pack toyCodec .zlib d)
    (∃ s, GvasFile.read toyCodec true .palworld sampleHints 0 input =
        .ok (sampleFile (.palworld .zlib)) ∧
      GvasFile.write toyCodec (sampleFile (.palworld .zlib)) ⟨[], 0⟩ = (.ok (), s) ∧
      s.data = input) ∧
    ¬ ∃ h ps s, GvasFile.read toyCodec true .palworld sampleHints 0 (input ++ [7]) =
        .ok ⟨.palworld .zlib, h, ps⟩ ∧ GvasFile.encode ⟨.palworld .zlib, h, ps⟩ = .ok d ∧
      GvasFile.write toyCodec ⟨.palworld .zlib, h, ps⟩ ⟨[], 0⟩ = (.ok (), s) ∧
      s.data = input ++ [7] := by
  intro input
  have hr := fileOK_reads (sampleFile_ok (.palworld .zlib)) hd h32 []
  rw [List.append_nil] at hr
  constructor
  · obtain ⟨h, ps, s, h1, h2, h3, h4⟩ :=
      (C22_palworld_partial toyCodec toyCodec_lawful true sampleHints input d .zlib h32).mpr
        ⟨rfl, (C22_canonical_partial true sampleHints d (.palworld .zlib)).mp ⟨_, _, hr, hd⟩⟩
    have hx : GvasFile.read toyCodec true .palworld sampleHints 0 input =
        .ok (sampleFile (.palworld .zlib)) := by
      have hu := unpack_pack toyCodec_lawful .zlib h32 []
      rw [List.append_nil] at hu
      simp only [GvasFile.read, input, readFrame_frame, hu]
      change ((readData true sampleHints d).1 >>= fun x => _) = _
      rw [hr]
      rfl
    rw [h1] at hx
    exact ⟨s, by rw [h1]; exact hx, by rw [← Res.ok.inj hx]; exact h3, h4⟩
  · intro hx
    have := ((C22_palworld_partial toyCodec toyCodec_lawful true sampleHints _ d .zlib h32).mp hx).1
    have hl := congrArg List.length this
    simp [input] at hl

end Gvas
