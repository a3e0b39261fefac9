import Verif.Props.Lookahead
import Verif.Lemmas.Shift

/-!
# C105: where in a stream a property, a header or a save lies does not matter
-/

namespace Gvas

open Spec

/-- **C105** for properties.  The same bytes further along a stream give the same value, or the same
error with its position moved by the distance; the reader ends that much further along. -/
theorem C105_property (env : Env) (n : Nat) (ty : String) (hdr : Bool) (o : Option UInt32)
    (rest : Bytes) (pos : Nat) (stack : List String) (k : Nat) :
    Property.read env n ty hdr o ⟨rest, pos + k, stack⟩ =
      moveOut k (Property.read env n ty hdr o ⟨rest, pos, stack⟩) :=
  ((Shifted.intro (w := k)).property (K := 0) env.cv n ty hdr o ⟨rest, pos, stack⟩ (Nat.zero_le _)).1

/-- A boolean that is neither 0 nor 1: the complaint moves with the property. -/
example (pos : Nat) : (Property.read ⟨true, noHints, []⟩ 1 "BoolProperty" true none
    ⟨[0, 0, 0, 0, 0, 0, 0, 0, 2, 0], pos, ["Done"]⟩).1 = .err (.invalidBoolean 2 (9 + pos)) := by
  have h : (Property.read ⟨true, noHints, []⟩ 1 "BoolProperty" true none
      ⟨[0, 0, 0, 0, 0, 0, 0, 0, 2, 0], 0, ["Done"]⟩).1 = .err (.invalidBoolean 2 9) :=
    eq_bad (by decide +kernel)
  have := C105_property ⟨true, noHints, []⟩ 1 "BoolProperty" true none
    [0, 0, 0, 0, 0, 0, 0, 0, 2, 0] 0 ["Done"] pos
  rw [Nat.zero_add] at this
  rw [this, moveOut, h]
  rfl

/-- **C105** for headers. -/
theorem C105_header (rest : Bytes) (pos : Nat) (stack : List String) (k : Nat) :
    GvasHeader.read ⟨rest, pos + k, stack⟩ = moveOut k (GvasHeader.read ⟨rest, pos, stack⟩) :=
  ((Shifted.intro (w := k)).gvasHeader (K := 0) ⟨rest, pos, stack⟩ (Nat.zero_le _)).1

/-- A header whose engine branch is the empty string of length 0, at byte 22 of the header. -/
example (pos : Nat) : (GvasHeader.read ⟨[0x47, 0x56, 0x41, 0x53, 2, 0, 0, 0, 8, 2, 0, 0, 4, 0, 27, 0, 2, 0,
    0, 0, 0, 0, 0, 0, 0, 0], pos, []⟩).1 = .err (.invalidString 0 (22 + pos)) := by
  have h : (GvasHeader.read ⟨[0x47, 0x56, 0x41, 0x53, 2, 0, 0, 0, 8, 2, 0, 0, 4, 0, 27, 0, 2, 0,
      0, 0, 0, 0, 0, 0, 0, 0], 0, []⟩).1 = .err (.invalidString 0 22) := eq_bad (by decide +kernel)
  have := C105_header [0x47, 0x56, 0x41, 0x53, 2, 0, 0, 0, 8, 2, 0, 0, 4, 0, 27, 0, 2, 0,
      0, 0, 0, 0, 0, 0, 0, 0] 0 [] pos
  rw [Nat.zero_add] at this
  rw [this, moveOut, h]
  rfl

/-- **C105** for header and properties of a save. -/
theorem C105_contents (debug : Bool) (hints : String → Option String) (n : Nat) (rest : Bytes)
    (pos : Nat) (stack : List String) (k : Nat) :
    readContents debug hints n ⟨rest, pos + k, stack⟩ =
      moveOut k (readContents debug hints n ⟨rest, pos, stack⟩) :=
  ((Shifted.intro (w := k)).contents (K := 0) n ⟨rest, pos, stack⟩ (Nat.zero_le _)).1

/-- A save with one integer, further along a stream, is read with the same outcome and the reader ends
that much further along. -/
example (k : Nat) : failure (readContents true noHints 500 ⟨saveBytes intBytes, k, []⟩).1 = none ∧
    (readContents true noHints 500 ⟨saveBytes intBytes, k, []⟩).2.pos =
      (readContents true noHints 500 ⟨saveBytes intBytes, 0, []⟩).2.pos + k := by
  have h : failure (readContents true noHints 500 ⟨saveBytes intBytes, 0, []⟩).1 = none := by
    decide +kernel
  have e := C105_contents true noHints 500 (saveBytes intBytes) 0 [] k
  rw [Nat.zero_add] at e
  rw [e]
  refine ⟨?_, rfl⟩
  simp only [moveOut]
  cases hr : (readContents true noHints 500 ⟨saveBytes intBytes, 0, []⟩).1 with
  | ok a => rfl
  | bad b => rw [hr] at h; cases h

/-- **C105**, a property in the middle of a stream.  Bytes that are a property by themselves are that
property at every position, whatever follows them; the reader ends right behind them. -/
theorem C105_embedded (env : Env) (n : Nat) (ty : String) (hdr : Bool) (o : Option UInt32)
    (bs : Bytes) (stack : List String) (p : Property) (s : RS)
    (h : Property.read env n ty hdr o ⟨bs, 0, stack⟩ = (.ok p, s)) (hs : s.rest = [])
    (pos : Nat) (more : Bytes) :
    Property.read env n ty hdr o ⟨bs ++ more, pos, stack⟩ =
      (.ok p, ⟨more, pos + bs.length, s.stack⟩) := by
  obtain ⟨pre, h1, h2, -⟩ := ((needs_closed env.debug env.hints).property (K := 0) env.cv
    (Nat.le_refl n) trivial ty hdr o ⟨bs, 0, stack⟩ (Nat.zero_le _)).consumes
  have e : Property.read ⟨env.debug, env.hints, env.cv⟩ n ty hdr o ⟨bs, 0, stack⟩ = (.ok p, s) := h
  rw [e] at h1 h2
  simp only [hs, List.append_nil] at h1 h2
  subst h1
  have h3 := C85_property env n ty hdr o ⟨bs, 0, stack⟩ s (.ok p) h (by simp) more
  rw [h2] at h3
  simp only [Nat.zero_add, Nat.sub_zero, List.take_length] at h3
  have h4 := C105_property env n ty hdr o (bs ++ more) 0 stack pos
  rw [Nat.zero_add, h3] at h4
  rw [h4]
  simp [moveOut, moveRes, moveState, h2, Nat.add_comm]

/-- An integer in the middle of a stream. -/
example (pos : Nat) (more : Bytes) : Property.read ⟨true, noHints, []⟩ 1 "IntProperty" true none
    ⟨[4, 0, 0, 0, 0, 0, 0, 0, 0, 7, 0, 0, 0] ++ more, pos, ["Score"]⟩ =
      (.ok (.int 7), ⟨more, pos + 13, ["Score"]⟩) := by
  have h : Property.read ⟨true, noHints, []⟩ 1 "IntProperty" true none
      ⟨[4, 0, 0, 0, 0, 0, 0, 0, 0, 7, 0, 0, 0], 0, ["Score"]⟩ = (.ok (.int 7), ⟨[], 13, ["Score"]⟩) := by
    rfl
  exact C105_embedded ⟨true, noHints, []⟩ 1 "IntProperty" true none _ ["Score"] _ _ h rfl pos more

/-- **C105** for saves.  The position of the stream is of no consequence, not even for the positions in
errors, which count from the beginning of the (decompressed) save; with one exception: the error about
an unknown compression type of a Palworld save has the position in the stream. -/
theorem C105_file (z : Codec) (debug : Bool) (gv : GameVersion) (hints : String → Option String)
    (start start' : Nat) (input : Bytes) :
    GvasFile.read z debug gv hints start' input =
      if h : gv = .palworld ∧ 12 ≤ input.length ∧ (input.drop 8).take 3 = [0x50, 0x6C, 0x5A] ∧
          (input.drop 11).take 1 ∉ [[0x30], [0x31], [0x32]] then
        .err (.invalidEnumValue "gvas::game_version::PalworldCompressionType"
          (input[11]'(by omega)).toInt8 (start' + 12))
      else GvasFile.read z debug gv hints start input := by
  cases gv with
  | default => simp [GvasFile.read]
  | palworld =>
    by_cases h8 : input.length < 11
    · rw [dif_neg (by omega)]
      have hf (st : Nat) : (readFrame ⟨input, st, []⟩).1 = .err .eof := by
        rcases input with _ | ⟨a0, _ | ⟨a1, _ | ⟨a2, _ | ⟨a3, _ | ⟨a4, _ | ⟨a5, _ | ⟨a6, _ | ⟨a7, _ |
          ⟨a8, _ | ⟨a9, _ | ⟨a10, input⟩⟩⟩⟩⟩⟩⟩⟩⟩⟩⟩
        all_goals first | rfl | (simp at h8; omega)
      have hr (st : Nat) : GvasFile.read z debug .palworld hints st input = .err .eof := by
        unfold GvasFile.read
        simp only []
        split
        · rename_i e
          have := hf st
          rw [e] at this
          cases this
        · rename_i e
          have := hf st
          rw [e] at this
          simpa using this
      rw [hr, hr]
    · obtain ⟨a0, a1, a2, a3, a4, a5, a6, a7, a8, a9, a10, tl, rfl⟩ : ∃ a0 a1 a2 a3 a4 a5 a6 a7 a8 a9 a10 tl,
          input = a0 :: a1 :: a2 :: a3 :: a4 :: a5 :: a6 :: a7 :: a8 :: a9 :: a10 :: tl := by
        rcases input with _ | ⟨a0, _ | ⟨a1, _ | ⟨a2, _ | ⟨a3, _ | ⟨a4, _ | ⟨a5, _ | ⟨a6, _ | ⟨a7, _ |
          ⟨a8, _ | ⟨a9, _ | ⟨a10, input⟩⟩⟩⟩⟩⟩⟩⟩⟩⟩⟩
        all_goals first | (simp at h8; done) | exact ⟨_, _, _, _, _, _, _, _, _, _, _, _, rfl⟩
      have hf (st : Nat) : readFrame ⟨a0 :: a1 :: a2 :: a3 :: a4 :: a5 :: a6 :: a7 :: a8 :: a9 :: a10 :: tl,
          st, []⟩ = (do
            headerCheck ([a8, a9, a10] = plzMagic)
              ("Invalid PlZ magic " ++ toString ([a8, a9, a10].map UInt8.toNat))
            let c ← readEnum "gvas::game_version::PalworldCompressionType" PalworldCompressionType.ofI8
            return (UInt32.ofNat (leNat [a0, a1, a2, a3]), c) : R _) ⟨tl, st + 11, []⟩ := rfl
      unfold GvasFile.read
      simp only [hf]
      by_cases hm : [a8, a9, a10] = plzMagic
      · have hg (m : R (UInt32 × PalworldCompressionType)) (msg : String) (s : RS) :
            (do headerCheck ([a8, a9, a10] = plzMagic) msg; m) s = m s := by
          simp only [headerCheck, R.ensure, if_pos hm]
          rfl
        simp only [hg]
        rcases tl with _ | ⟨a11, tl⟩
        · rfl
        · have hc (st : Nat) : (do
              let c ← readEnum "gvas::game_version::PalworldCompressionType" PalworldCompressionType.ofI8
              return (UInt32.ofNat (leNat [a0, a1, a2, a3]), c) : R _) ⟨a11 :: tl, st + 11, []⟩ =
              match PalworldCompressionType.ofI8 a11.toInt8 with
              | some c => (.ok (UInt32.ofNat (leNat [a0, a1, a2, a3]), c), ⟨tl, st + 12, []⟩)
              | none => (.err (.invalidEnumValue "gvas::game_version::PalworldCompressionType" a11.toInt8
                  (st + 12)), ⟨tl, st + 12, []⟩) := by
            have h8 : readI8 ⟨a11 :: tl, st + 11, []⟩ = (.ok a11.toInt8, ⟨tl, st + 12, []⟩) := by
              have : UInt8.ofNat (leNat [a11]) = a11 := by simp [leNat]
              show ((Res.ok (UInt8.ofNat (leNat [a11])).toInt8 : Res Int8), _) = _
              rw [this]
              rfl
            show R.bind (R.bind readI8 _) _ _ = _
            simp only [R.bind, h8]
            cases PalworldCompressionType.ofI8 a11.toInt8 <;> rfl
          simp only [hc]
          have ht : (PalworldCompressionType.ofI8 a11.toInt8 = none) ↔
              [a11] ∉ ([[0x30], [0x31], [0x32]] : List Bytes) := by
            have e (c : UInt8) : a11.toInt8 = c.toInt8 ↔ a11 = c :=
              ⟨fun h => by simpa using congrArg Int8.toUInt8 h, fun h => by rw [h]⟩
            unfold PalworldCompressionType.ofI8
            rw [show (0x30 : Int8) = (0x30 : UInt8).toInt8 from rfl,
              show (0x31 : Int8) = (0x31 : UInt8).toInt8 from rfl,
              show (0x32 : Int8) = (0x32 : UInt8).toInt8 from rfl]
            simp only [e]
            repeat' split
            all_goals simp_all
          by_cases hn : PalworldCompressionType.ofI8 a11.toInt8 = none
          · rw [dif_pos ⟨trivial, by simp, hm, ht.1 hn⟩]
            simp only [hn]
            rfl
          · rw [dif_neg fun h => hn (ht.2 h.2.2.2)]
            cases he : PalworldCompressionType.ofI8 a11.toInt8 with
            | none => exact absurd he hn
            | some c => rfl
      · have hg (m : R (UInt32 × PalworldCompressionType)) (msg : String) (s : RS) :
            (do headerCheck ([a8, a9, a10] = plzMagic) msg; m) s = (.err (.invalidHeader msg), s) := by
          simp only [headerCheck, R.ensure, if_neg hm]
          rfl
        simp only [hg]
        rw [dif_neg fun h => hm h.2.2.1]

/-- A frame with compression type `0x33` at byte 100 of a stream. -/
example (z : Codec) (tl : Bytes) : GvasFile.read z false .palworld noHints 100
    ([9, 0, 0, 0, 9, 0, 0, 0, 0x50, 0x6C, 0x5A, 0x33] ++ tl) =
      .err (.invalidEnumValue "gvas::game_version::PalworldCompressionType" 0x33 112) := by
  rw [C105_file z false .palworld noHints 0 100]
  rw [dif_pos ⟨rfl, by simp, rfl, by simp⟩]
  rfl

/-- An uncompressed frame whose contents are not a save: the position of the stream does not show. -/
example (z : Codec) (start : Nat) : GvasFile.read z false .palworld noHints start
    [4, 0, 0, 0, 4, 0, 0, 0, 0x50, 0x6C, 0x5A, 0x30, 1, 2, 3, 4] =
      GvasFile.read z false .palworld noHints 0
        [4, 0, 0, 0, 4, 0, 0, 0, 0x50, 0x6C, 0x5A, 0x30, 1, 2, 3, 4] := by
  rw [C105_file z false .palworld noHints 0 start, dif_neg (by decide)]

end Gvas
