import Verif.Props.Errors

/-!
# C84: what a panic says is true of the input
-/

namespace Gvas

open Spec Unicode

/-- **C84**: where reading panics, the input is at fault in the way `Blames` says for the message:
the offending number or string stands right before the position that was reached, or (for the
checks of debug builds) further before it. -/
theorem C84_panics_describe (debug : Bool) (hints : String → Option String) (data : Bytes)
    (msg : String) (h : (readData debug hints data).1 = .panic msg) :
    Blames debug data (readData debug hints data).2.pos msg :=
  (tells_contents (debug := debug) (hints := hints) (data.length + 1)).panics h

/-- Inputs for every reason to panic. -/
def Spec.panickingSamples : List (Bytes × String) := [
  (saveBytes (ascii "a" ++ ascii "IntProperty" ++ [4, 0, 0, 0, 0, 0, 0, 0, 1]),
    "assertion `left == right` failed"),
  (saveBytes (ascii "a" ++ ascii "ArrayProperty" ++ [0, 0, 0, 0, 0, 0, 0, 0] ++
    ascii "StructProperty" ++ [0, 1, 0, 0, 0] ++ ascii "a" ++ ascii "IntProperty"),
    "assertion `left == right` failed"),
  (saveBytes (ascii "a" ++ ascii "StructProperty" ++ [0, 0, 0, 0, 0, 0, 0, 0] ++ ascii "S" ++
    List.replicate 17 0 ++ ascii "b" ++ ascii "BoolProperty" ++ [0, 0, 0, 0, 0, 0, 0, 0, 1, 0] ++
    ascii "b" ++ ascii "BoolProperty" ++ [0, 0, 0, 0, 0, 0, 0, 0, 1, 0]),
    "assertion `left == right` failed"),
  (saveBytes (ascii "a" ++ ascii "StructProperty" ++ [0, 0, 0, 0, 0, 0, 0, 0] ++ ascii "S" ++
    List.replicate 17 0 ++ ascii "b" ++ ascii "NameProperty" ++ [6, 0, 0, 0, 3, 0, 0, 0, 0] ++
    ascii "x"), "assertion `left == right` failed"),
  (saveBytes (ascii "a" ++ ascii "X" ++ [0, 0, 0, 0, 1, 0, 0, 0]),
    "Expected array_index value zero"),
  (saveBytes (ascii "a" ++ ascii "TextProperty" ++ [9, 0, 0, 0, 0, 0, 0, 0, 0] ++
    [0, 0, 0, 0, 1, 0, 0, 0, 0, 0xFF] ++ [0xFF, 0xFF, 0xFF, 0xFF]), "capacity overflow"),
  (saveBytes (ascii "a" ++ ascii "TextProperty" ++ [9, 0, 0, 0, 0, 0, 0, 0, 0] ++
    [0, 0, 0, 0, 4, 5]), "not implemented"),
  (saveBytes (ascii "a" ++ ascii "TextProperty" ++ [9, 0, 0, 0, 0, 0, 0, 0, 0] ++
    [0, 0, 0, 0, 12]), "not implemented: unimplemented history type: TextGenerator"),
  (saveBytes (ascii "a" ++ ascii "TextProperty" ++ [9, 0, 0, 0, 0, 0, 0, 0, 0] ++
    [0, 0, 0, 0, 13]), "not implemented: unimplemented history type: RawText"),
  (saveBytes (ascii "a" ++ ascii "ByteProperty" ++ [0, 0, 0, 0, 0, 0, 0, 0] ++ ascii "None" ++
    [0, 7]), "attempt to subtract with overflow"),
  (saveBytes (ascii "a" ++ ascii "ArrayProperty" ++ [5, 0, 0, 0, 0, 0, 0, 0] ++
    ascii "ByteProperty" ++ [0, 2, 0, 0, 0]), "attempt to subtract with overflow"),
  (saveBytes (ascii "a" ++ ascii "SetProperty" ++ [7, 0, 0, 0, 0, 0, 0, 0] ++
    ascii "IntProperty" ++ [0, 0, 0, 0, 0, 1, 0, 0, 0]), "attempt to subtract with overflow")]

theorem panickingSamples_panic :
    ∀ x ∈ panickingSamples, failure (readData true noHints x.1).1 = some (.panic x.2) := by
  decide +kernel

example : ∀ x ∈ panickingSamples, Blames true x.1 (readData true noHints x.1).2.pos x.2 :=
  fun x hx => C84_panics_describe true noHints x.1 x.2 (eq_bad (panickingSamples_panic x hx))

/-- `Blames` is not true of any message: a gender was not read here, and in release builds nothing
overflows. -/
example : ¬ Blames true [0, 5, 4] 3 "not implemented" ∧ Blames true [0, 5, 4] 2 "not implemented" ∧
    ¬ Blames false [0, 0, 0, 0] 4 "attempt to subtract with overflow" := by
  refine ⟨fun h => ?_, .gender 1 rfl ⟨[5], littleEndian_leBytes 1 5, [0], [4], rfl, rfl⟩, fun h => ?_⟩
  · generalize hm : "not implemented" = m at h
    cases h with
    | gender q hq hn =>
      obtain rfl : q = 2 := by omega
      obtain ⟨b, hb, pre, post, e, hp⟩ := hn
      rw [littleEndian_unique hb] at e
      match pre, hp with
      | [_, _], _ => simp [leBytes] at e
    | _ => exact absurd hm (by decide)
  · generalize hm : "attempt to subtract with overflow" = m at h
    cases h with
    | small q len hd => cases hd
    | _ => exact absurd hm (by decide)

/-- **C84** for files without container, wherever in the stream they begin. -/
theorem C84_file (z : Codec) (debug : Bool) (hints : String → Option String) (start : Nat)
    (input : Bytes) (msg : String)
    (h : GvasFile.read z debug .default hints start input = .panic msg) :
    Blames debug input (readData debug hints input).2.pos msg := by
  unfold GvasFile.read at h
  match hr : (readData debug hints input).1 with
  | .ok a => simp only [hr] at h; cases h
  | .bad f =>
    simp only [hr] at h
    cases h
    exact C84_panics_describe debug hints input msg hr

example (z : Codec) : ∀ x ∈ panickingSamples, Blames true x.1 (readData true noHints x.1).2.pos x.2 :=
  fun x hx => C84_file z true noHints 5 x.1 x.2 (by
    have := eq_bad (panickingSamples_panic x hx)
    simp only [GvasFile.read, this]
    rfl)

/-- **C84** for Palworld saves: the frame and the payload never panic, the contents are to blame. -/
theorem C84_palworld (z : Codec) (debug : Bool) (hints : String → Option String) (start : Nat)
    (input : Bytes) (msg : String)
    (h : GvasFile.read z debug .palworld hints start input = .panic msg) :
    ∃ dlen clen c payload data, input = frame dlen clen c payload ∧
      Payload z dlen.toNat payload c data ∧ Blames debug data (readData debug hints data).2.pos msg := by
  unfold GvasFile.read at h
  simp only at h
  match hf : readFrame ⟨input, start, []⟩ with
  | (.bad f, s) =>
    rw [hf] at h
    simp only at h
    cases h
    have := readFrame_run start input []
    rw [hf] at this
    simp only at this
    repeat' (split at this)
    all_goals cases this
  | (.ok (dlen, c), s) =>
    rw [hf] at h
    simp only at h
    obtain ⟨clen, rfl⟩ := readFrame_ok hf
    refine ⟨dlen, clen, c, s.rest, ?_⟩
    match hu : unpack z dlen c s.rest with
    | .bad f =>
      rw [hu] at h
      cases h
      cases c <;> simp only [unpack, inflateExact] at hu <;> repeat' (split at hu)
      all_goals cases hu
    | .ok data =>
      rw [hu] at h
      refine ⟨data, rfl, unpack_ok _ _ _ _ _ hu, C84_panics_describe debug hints data msg ?_⟩
      match hr : (readData debug hints data).1 with
      | .ok a => change (do let (h, ps) ← (readData debug hints data).1; _) = _ at h; rw [hr] at h; cases h
      | .bad f => change (do let (h, ps) ← (readData debug hints data).1; _) = _ at h; rw [hr] at h; cases h; rfl

/-- A plain payload whose contents panic at a separator. -/
example : ∃ dlen clen c payload data, frame 80 0 .none (saveBytes (ascii "a" ++
      ascii "IntProperty" ++ [4, 0, 0, 0, 0, 0, 0, 0, 1])) = frame dlen clen c payload ∧
    Payload prefixCodec dlen.toNat payload c data ∧ Blames true data
      (readData true noHints data).2.pos "assertion `left == right` failed" :=
  C84_palworld prefixCodec true noHints 5 _ _ (eq_bad (by decide +kernel))

end Gvas
