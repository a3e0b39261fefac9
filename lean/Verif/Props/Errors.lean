import Verif.Lemmas.ErrorsFile
import Verif.Props.Container
import Verif.Spec.Sample

/-!
# C83: what an error says is true of the input
-/

namespace Gvas

open Spec Unicode

/-- **C83**: an error describes the bytes that were read: the values it reports stand at the
positions it reports, and they are not what the format asks for there. -/
theorem C83_errors_describe (debug : Bool) (hints : String → Option String) (data : Bytes) (e : Err)
    (h : (readData debug hints data).1 = .err e) : Describes hints data e :=
  ((tells_contents (debug := debug) (hints := hints) (data.length + 1)).err h).1

/-- Inputs with an error of every kind that reading can report. -/
def Spec.faultySamples : List (Bytes × Err) := [
  ([1, 2, 3, 4], .invalidHeader "File type 67305985 not recognized"),
  ([0x47, 0x56, 0x41, 0x53, 4, 0, 0, 0], .invalidHeader "GVAS version 4 not supported"),
  ([0x47, 0x56, 0x41, 0x53, 2, 0, 0, 0, 4, 2, 0, 0],
    .invalidHeader "Package file version 516 not supported"),
  ([0x47, 0x56, 0x41, 0x53, 3, 0, 0, 0, 5, 2, 0, 0, 0xF2, 3, 0, 0],
    .invalidHeader "UE5 Package file version 1010 is not supported"),
  ([0x47, 0x56, 0x41, 0x53, 2, 0, 0, 0, 5, 2, 0, 0, 4, 0, 27, 0, 2, 0, 0, 0, 0, 0] ++
    ascii "++UE4" ++ [2, 0, 0, 0], .invalidHeader "Custom version format 2 not supported"),
  (saveBytes (ascii "a" ++ ascii "IntProperty" ++ [5, 0, 0, 0, 0, 0, 0, 0, 0, 7, 0, 0, 0]),
    .invalidValueSize 4 5 79),
  (saveBytes (ascii "a" ++ ascii "StrProperty" ++ [5, 0, 0, 0, 0, 0, 0, 0, 0] ++ ascii "b"),
    .invalidValueSize 5 6 80),
  (saveBytes (ascii "a" ++ [0, 0, 0, 0]), .invalidString 0 55),
  (saveBytes [1, 0, 2, 0], .invalidString 131073 49),
  (saveBytes [2, 0, 0, 0, 65, 66], .invalidStringTerminator 66 55),
  (saveBytes [254, 255, 255, 255, 65, 0, 66, 67], .invalidStringTerminator 17218 57),
  (saveBytes [2, 0, 0, 0, 0xC3, 0], .fromUtf8 49),
  (saveBytes [254, 255, 255, 255, 0, 0xD8, 0, 0], .fromUtf16 49),
  (saveBytes (ascii "a" ++ ascii "BoolProperty" ++ [0, 0, 0, 0, 0, 0, 0, 0, 2]),
    .invalidBoolean 2 81),
  (saveBytes structMapBytes,
    .missingHint "StructProperty" "a.MapProperty.Value.StructProperty" 127),
  (saveBytes (ascii "a" ++ ascii "MapProperty" ++ [0, 0, 0, 0, 0, 0, 0, 0] ++ ascii "FooProperty" ++
    ascii "IntProperty" ++ [0, 0, 0, 0, 0, 1, 0, 0, 0]), .invalidProperty "FooProperty" 120),
  (saveBytes (ascii "a" ++ ascii "ArrayProperty" ++ [0, 0, 0, 0, 0, 0, 0, 0] ++
    ascii "SetProperty" ++ [0, 1, 0, 0, 0]),
    .invalidProperty "SetProperty is not supported in arrays" 102),
  (saveBytes (ascii "a" ++ ascii "ArrayProperty" ++ [0, 0, 0, 0, 0, 0, 0, 0] ++
    ascii "StructProperty" ++ [0, 1, 0, 0, 0] ++ ascii "a" ++ ascii "StructProperty" ++
    [9, 0, 0, 0, 0, 0, 0, 0] ++ ascii "DateTime" ++ List.replicate 17 0 ++
    [0, 0, 0, 0, 0, 0, 0, 0]), .invalidProperty "8 != 9" 176),
  (saveBytes (ascii "a" ++ ascii "TextProperty" ++
    [5, 0, 0, 0, 0, 0, 0, 0, 0, 0, 0, 0, 0, 14]),
    .invalidEnumValue "gvas::properties::text_property::TextHistoryType" 14 86),
  (saveBytes (ascii "a" ++ ascii "StrProperty" ++ [5, 0, 0, 0, 1, 0, 0, 0, 0] ++ ascii "b"),
    .invalidArrayIndex 1 75),
  (saveBytes (ascii "a" ++ ascii "StrProperty" ++ [5, 0, 0, 0, 0, 0, 0, 0, 3] ++ ascii "b"),
    .invalidTerminator 3 79),
  (headerBytes [] ++ ascii "a" ++ ascii "StrProperty", .eof)]

theorem faultySamples_fail :
    ∀ x ∈ faultySamples, failure (readData true noHints x.1).1 = some (.err x.2) := by
  decide +kernel

/-- All of them are described. -/
example : ∀ x ∈ faultySamples, Describes noHints x.1 x.2 := fun x hx =>
  C83_errors_describe true noHints x.1 x.2 (eq_bad (faultySamples_fail x hx))

/-- `Describes` is not true of any error: the boolean is not 3, and not at another place. -/
example : ¬ Describes noHints [0, 0, 2, 0] (.invalidBoolean 3 3) ∧
    ¬ Describes noHints [0, 0, 2, 0] (.invalidBoolean 2 4) := by
  have num {d : Bytes} {p w n : Nat} (h : NumAt d p w n) : (d.drop p).take w = leBytes w n := by
    obtain ⟨b, hb, pre, post, rfl, rfl⟩ := h
    rw [← littleEndian_unique hb]
    simp [hb.1]
  constructor
  · rintro ⟨-, q, ⟨h, hn⟩ | ⟨h, -⟩⟩
    · obtain rfl : q = 2 := by omega
      exact absurd (num hn) (by decide)
    · omega
  · rintro ⟨-, q, ⟨h, hn⟩ | ⟨h, hn⟩⟩
    · obtain rfl : q = 3 := by omega
      exact absurd (num hn) (by decide)
    · obtain rfl : q = 0 := by omega
      exact absurd (num hn) (by decide)

/-- **C83**: the input is reported to end early only when everything was consumed. -/
theorem C83_eof_at_end (debug : Bool) (hints : String → Option String) (data : Bytes)
    (h : (readData debug hints data).1 = .err .eof) :
    (readData debug hints data).2.rest = [] ∧ (readData debug hints data).2.pos = data.length :=
  ((tells_contents (debug := debug) (hints := hints) (data.length + 1)).err h).2 rfl

/-- An input that ends behind the type of a property. -/
example : (readData true noHints (headerBytes [] ++ ascii "a" ++ ascii "StrProperty")).2.pos = 71 :=
  (C83_eof_at_end _ _ _ (eq_bad (by decide +kernel))).2

/-- **C83** for files without container. -/
theorem C83_file (z : Codec) (debug : Bool) (hints : String → Option String) (start : Nat)
    (input : Bytes) (e : Err) (h : GvasFile.read z debug .default hints start input = .err e) :
    Describes hints input e := by
  refine C83_errors_describe debug hints input e ?_
  unfold GvasFile.read at h
  match hr : (readData debug hints input).1 with
  | .ok a => simp only [hr] at h; cases h
  | .bad f => simp only [hr] at h; cases h; rfl

example (z : Codec) : ∀ x ∈ faultySamples, Describes noHints x.1 x.2 := fun x hx =>
  C83_file z true noHints 5 x.1 x.2 (by
    have := eq_bad (faultySamples_fail x hx)
    simp only [GvasFile.read, this]
    rfl)

/-- The frame of a Palworld save, read byte by byte. -/
theorem readFrame_run (start : Nat) (input : Bytes) (st : List String) :
    (readFrame ⟨input, start, st⟩).1 =
      if input.length < 11 then .err .eof
      else if (input.drop 8).take 3 ≠ plzMagic then .err (.invalidHeader
        ("Invalid PlZ magic " ++ toString (((input.drop 8).take 3).map UInt8.toNat)))
      else match input.drop 11 with
        | [] => .err .eof
        | k :: _ => match PalworldCompressionType.ofI8 k.toInt8 with
          | some c => .ok (UInt32.ofNat (leNat (input.take 4)), c)
          | none => .err (.invalidEnumValue "gvas::game_version::PalworldCompressionType" k.toInt8
              (start + 12)) := by
  match input with
  | [] | [_] | [_, _] | [_, _, _] | [_, _, _, _] | [_, _, _, _, _] | [_, _, _, _, _, _]
  | [_, _, _, _, _, _, _] | [_, _, _, _, _, _, _, _] | [_, _, _, _, _, _, _, _, _]
  | [_, _, _, _, _, _, _, _, _, _] =>
    simp [readFrame, readU32, R.take, R.bind_def, R.pure_def]
  | a0 :: a1 :: a2 :: a3 :: a4 :: a5 :: a6 :: a7 :: a8 :: a9 :: a10 :: l =>
    by_cases hm : [a8, a9, a10] = plzMagic
    · simp only [plzMagic, List.cons.injEq, and_true] at hm
      obtain ⟨rfl, rfl, rfl⟩ := hm
      cases l with
      | nil => rfl
      | cons k l =>
        have hk : readEnum "gvas::game_version::PalworldCompressionType" PalworldCompressionType.ofI8
            ⟨k :: l, start + 4 + 4 + 3, st⟩ = match PalworldCompressionType.ofI8 k.toInt8 with
              | some c => (.ok c, ⟨l, start + 12, st⟩)
              | none => (.bad (.err (.invalidEnumValue
                  "gvas::game_version::PalworldCompressionType" k.toInt8 (start + 12))),
                  ⟨l, start + 12, st⟩) := by
          have h8 : readI8 ⟨k :: l, start + 4 + 4 + 3, st⟩ = (.ok k.toInt8, ⟨l, start + 12, st⟩) := by
            simp [readI8, readU8, R.take, R.bind_def, R.pure_def, leNat]
          unfold readEnum
          rw [R.bind_ok h8]
          cases PalworldCompressionType.ofI8 k.toInt8 <;> rfl
        have hf : readFrame ⟨a0 :: a1 :: a2 :: a3 :: a4 :: a5 :: a6 :: a7 :: 0x50 :: 0x6C :: 0x5A ::
            k :: l, start, st⟩ = (readEnum "gvas::game_version::PalworldCompressionType"
              PalworldCompressionType.ofI8 >>= fun c => (pure (UInt32.ofNat (leNat [a0, a1, a2, a3]), c) :
                R (UInt32 × PalworldCompressionType))) ⟨k :: l, start + 4 + 4 + 3, st⟩ := rfl
        rw [hf, R.bind_def, hk]
        cases hc : PalworldCompressionType.ofI8 k.toInt8 <;> simp [hc, plzMagic, R.pure_def]
    · simp [readFrame, readU32, R.take, R.bind_def, R.pure_def, headerCheck, R.ensure, hm, R.fail]

/-- **C83** for the frame of a Palworld save: it is refused exactly for the reasons of `FrameFault`. -/
theorem C83_frame (start : Nat) (input : Bytes) (st : List String) (e : Err) :
    (readFrame ⟨input, start, st⟩).1 = .err e ↔ FrameFault start input e := by
  rw [readFrame_run]
  have split8 (h : 11 ≤ input.length) : input = input.take 8 ++ ((input.drop 8).take 3 ++
      input.drop 11) := by
    rw [show input.drop 11 = (input.drop 8).drop 3 by rw [List.drop_drop], List.take_append_drop,
      List.take_append_drop]
  have at8 {m : Bytes} (h : At input 8 m) : (input.drop 8).take m.length = m := by
    obtain ⟨pre, post, rfl, h⟩ := h
    rw [← h]; simp
  have at8_le {m : Bytes} (h : At input 8 m) : 8 + m.length ≤ input.length := by
    obtain ⟨pre, post, rfl, h⟩ := h
    simp; omega
  constructor
  · intro h
    split at h
    · cases h; exact .short ‹_›
    rename_i hl
    split at h
    · cases h
      refine .magic _ (by simp; omega) ?_ ‹_›
      exact ⟨input.take 8, input.drop 11, split8 (by omega), by simp; omega⟩
    rename_i hm
    simp only [ne_eq, not_not] at hm
    split at h
    · rename_i hd
      cases h
      refine .kindless ?_ ?_
      · have := congrArg List.length hd
        simp at this
        omega
      · exact ⟨input.take 8, [], by
          conv_lhs => rw [split8 (by omega), hm, hd]
          rfl, by simp; omega⟩
    · rename_i k l hd
      split at h
      · cases h
      · rename_i hk
        cases h
        refine .kind k.toInt8 ?_ ?_
        · refine ⟨input.take 8, l, ?_, by simp; omega⟩
          conv_lhs => rw [split8 (by omega), hm, hd]
          simp [plzMagic]
        · revert hk
          generalize k.toInt8 = v
          intro hk hv
          have e : v = Int8.ofInt v.toInt := by simp
          generalize v.toInt = n at *
          subst e
          simp only [List.mem_cons, List.not_mem_nil, or_false] at hv
          rcases hv with rfl | rfl | rfl <;> revert hk <;> decide
  · intro h
    cases h with
    | short h => rw [if_pos h]
    | kindless hl ha =>
      have h3 := at8 ha
      rw [if_neg (by omega), if_neg (by simpa [plzMagic] using h3), List.drop_eq_nil_of_le (by omega)]
    | magic m hl ha hm =>
      have h3 := at8 ha
      have := at8_le ha
      rw [hl] at h3
      rw [if_neg (by omega), if_pos (by rw [h3]; exact hm), h3]
    | kind v ha hv =>
      have h4 := at8_le ha
      obtain ⟨pre, post, rfl, hp⟩ := ha
      match pre, hp with
      | [b0, b1, b2, b3, b4, b5, b6, b7], _ =>
        have hk : PalworldCompressionType.ofI8 v = none := by
          unfold PalworldCompressionType.ofI8
          rw [if_neg, if_neg, if_neg] <;> (rintro rfl; revert hv; decide)
        simp [plzMagic, hk]

/-- A wrong letter, an unknown kind of compression, and no kind at all. -/
example : (readFrame ⟨[1, 0, 0, 0, 1, 0, 0, 0, 0x50, 0x6C, 0x5B, 0x30, 7], 5, []⟩).1 =
      .err (.invalidHeader "Invalid PlZ magic [80, 108, 91]") ∧
    (readFrame ⟨[1, 0, 0, 0, 1, 0, 0, 0, 0x50, 0x6C, 0x5A, 0x33, 7], 5, []⟩).1 =
      .err (.invalidEnumValue "gvas::game_version::PalworldCompressionType" 0x33 17) ∧
    (readFrame ⟨[1, 0, 0, 0, 1, 0, 0, 0, 0x50, 0x6C, 0x5A], 5, []⟩).1 = .err .eof := by
  refine ⟨(C83_frame _ _ _ _).mpr (.magic [0x50, 0x6C, 0x5B] rfl ?_ (by decide)),
    (C83_frame _ _ _ _).mpr (.kind 0x33 ?_ (by decide)),
    (C83_frame _ _ _ _).mpr (.kindless rfl ?_)⟩
  · exact ⟨[1, 0, 0, 0, 1, 0, 0, 0], [0x30, 7], rfl, rfl⟩
  · exact ⟨[1, 0, 0, 0, 1, 0, 0, 0], [7], by decide, rfl⟩
  · exact ⟨[1, 0, 0, 0, 1, 0, 0, 0], [], rfl, rfl⟩

/-- The payload of a Palworld save does not give the announced number of bytes: it ends early, or
zlib gives up. -/
inductive Spec.PayloadFault (z : Codec) (dlen : Nat) (payload : Bytes) :
    PalworldCompressionType → Err → Prop
  | plain : payload.length < dlen → PayloadFault z dlen payload .none .eof
  | short : (z.inflate payload).1.length < dlen → (z.inflate payload).2 = true →
      PayloadFault z dlen payload .zlib .eof
  | corrupt : (z.inflate payload).1.length < dlen → (z.inflate payload).2 = false →
      PayloadFault z dlen payload .zlib .io
  | twice : z.inflate2 payload = none → PayloadFault z dlen payload .zlibTwice .io

/-- The contents in the payload of a Palworld save. -/
inductive Spec.Payload (z : Codec) (dlen : Nat) (payload : Bytes) :
    PalworldCompressionType → Bytes → Prop
  | plain : dlen ≤ payload.length → Payload z dlen payload .none (payload.take dlen)
  | once : dlen ≤ (z.inflate payload).1.length →
      Payload z dlen payload .zlib ((z.inflate payload).1.take dlen)
  | twice (d : Bytes) : z.inflate2 payload = some d → Payload z dlen payload .zlibTwice d

theorem unpack_err (z : Codec) (dlen : UInt32) (c : PalworldCompressionType) (payload : Bytes)
    (e : Err) (h : unpack z dlen c payload = .err e) : PayloadFault z dlen.toNat payload c e := by
  cases c with
  | none =>
    simp only [unpack] at h
    split at h <;> cases h
    exact .plain (by omega)
  | zlib =>
    simp only [unpack, inflateExact] at h
    split at h
    · cases h
    cases h
    cases hz : (z.inflate payload).2 with
    | true => exact .short (by omega) hz
    | false => exact .corrupt (by omega) hz
  | zlibTwice =>
    simp only [unpack] at h
    split at h <;> cases h
    exact .twice ‹_›

theorem unpack_ok (z : Codec) (dlen : UInt32) (c : PalworldCompressionType) (payload data : Bytes)
    (h : unpack z dlen c payload = .ok data) : Payload z dlen.toNat payload c data := by
  cases c with
  | none =>
    simp only [unpack] at h
    split at h <;> cases h
    exact .plain ‹_›
  | zlib =>
    simp only [unpack, inflateExact] at h
    split at h <;> cases h
    exact .once ‹_›
  | zlibTwice =>
    simp only [unpack] at h
    split at h <;> cases h
    exact .twice _ ‹_›

theorem readFrame_ok {start : Nat} {input : Bytes} {st : List String} {dlen : UInt32}
    {c : PalworldCompressionType} {s : RS} (h : readFrame ⟨input, start, st⟩ = (.ok (dlen, c), s)) :
    ∃ clen, input = frame dlen clen c s.rest := by
  unfold readFrame at h
  rbind h => d s1 h1
  rbind h => cl s2 h2
  rbind h => m s3 h3
  rbind h => u s4 h4
  rbind h => c' s5 h5
  obtain ⟨e1, -, -⟩ := readU32_inv h1
  obtain ⟨e2, -, -⟩ := readU32_inv h2
  obtain ⟨-, e3, -, -⟩ := R.take_inv h3
  obtain ⟨hm, rfl⟩ := R.ensure_inv (fun _ _ _ => R.fail_ne) h4
  subst hm
  obtain ⟨b, r, e4, rfl, v, hv, rfl⟩ := gives_enum (st := s4.stack) _ _ _ _ h5
  obtain ⟨e5, rfl⟩ := R.pure_inv h
  cases e5
  simp only at e1 e2 e3 e4
  refine ⟨cl, ?_⟩
  rw [e1, e2, e3, e4]
  have : i8B v = [compressionByte c] := by
    unfold PalworldCompressionType.ofI8 at hv
    split at hv
    · cases hv; subst_vars; decide
    split at hv
    · cases hv; subst_vars; decide
    split at hv
    · cases hv; subst_vars; decide
    · cases hv
  rw [this]
  simp [frame, plzMagic]

/-- **C83** for Palworld saves: an error is about the frame, about the payload, or about the
contents, in which positions then count. -/
theorem C83_palworld (z : Codec) (debug : Bool) (hints : String → Option String) (start : Nat)
    (input : Bytes) (e : Err) (h : GvasFile.read z debug .palworld hints start input = .err e) :
    FrameFault start input e ∨ ∃ dlen clen c payload, input = frame dlen clen c payload ∧
      (PayloadFault z dlen.toNat payload c e ∨
        ∃ data, Payload z dlen.toNat payload c data ∧ Describes hints data e) := by
  unfold GvasFile.read at h
  simp only at h
  match hf : readFrame ⟨input, start, []⟩ with
  | (.bad f, s) =>
    rw [hf] at h
    simp only at h
    cases h
    exact .inl ((C83_frame start input [] e).mp (by rw [hf]))
  | (.ok (dlen, c), s) =>
    rw [hf] at h
    simp only at h
    obtain ⟨clen, rfl⟩ := readFrame_ok hf
    refine .inr ⟨dlen, clen, c, s.rest, rfl, ?_⟩
    match hu : unpack z dlen c s.rest with
    | .bad f =>
      rw [hu] at h
      cases h
      exact .inl (unpack_err _ _ _ _ _ hu)
    | .ok data =>
      rw [hu] at h
      refine .inr ⟨data, unpack_ok _ _ _ _ _ hu, C83_errors_describe debug hints data e ?_⟩
      match hr : (readData debug hints data).1 with
      | .ok a => change (do let (h, ps) ← (readData debug hints data).1; _) = _ at h; rw [hr] at h; cases h
      | .bad f => change (do let (h, ps) ← (readData debug hints data).1; _) = _ at h; rw [hr] at h; cases h; rfl

/-- A plain payload of four bytes, of which three are used: the contents end within the tag. -/
example (z : Codec) : GvasFile.read z true .palworld noHints 5
      (frame 3 0 .none [0x47, 0x56, 0x41, 0x53]) = .err .eof ∧
    Payload z 3 [0x47, 0x56, 0x41, 0x53] .none [0x47, 0x56, 0x41] := by
  constructor
  · rw [GvasFile.read, readFrame_frame]; rfl
  · exact .plain (dlen := 3) (payload := [0x47, 0x56, 0x41, 0x53]) (by decide)

end Gvas
