import Verif.Props.Zlib
import Verif.Props.Errors
import Verif.Props.Grammar

/-!
# C106: the contents of a Palworld save are read like an ordinary save

What the other theorems say of the contents of a save thereby holds of files in either container.
-/

namespace Gvas

open Spec Format

theorem read_default_eq (z : Codec) (debug : Bool) (hints : String → Option String) (start : Nat)
    (input : Bytes) : GvasFile.read z debug .default hints start input =
      (do
        let (h, ps) ← (readData debug hints input).1
        return { gameVersion := .default, header := h, properties := ps }) := rfl

theorem unpack_payload {z : Codec} {dlen : UInt32} {c : PalworldCompressionType}
    {payload data : Bytes} (h : Payload z dlen.toNat payload c data) :
    unpack z dlen c payload = .ok data := by
  cases h with
  | plain h => simp only [unpack]; rw [if_pos h]
  | once h => simp only [unpack, inflateExact]; rw [if_pos h]
  | twice d h => simp only [unpack, h]

theorem unpack_fault {z : Codec} {dlen : UInt32} {c : PalworldCompressionType}
    {payload : Bytes} {e : Err} (h : PayloadFault z dlen.toNat payload c e) :
    unpack z dlen c payload = .err e := by
  cases h with
  | plain h => simp only [unpack]; rw [if_neg (by omega)]
  | short h h' => simp only [unpack, inflateExact, h']; rw [if_neg (by omega)]; rfl
  | corrupt h h' => simp only [unpack, inflateExact, h']; rw [if_neg (by omega)]; rfl
  | twice h => simp only [unpack, h]

/-- **C106**: a frame around contents is read as the contents by themselves are, whatever the hints,
the build and the places in a stream. -/
theorem C106_contents (z : Codec) (dlen clen : UInt32) (c : PalworldCompressionType)
    (payload data : Bytes) (h : Payload z dlen.toNat payload c data) (debug : Bool)
    (hints : String → Option String) (start start' : Nat) :
    GvasFile.read z debug .palworld hints start (frame dlen clen c payload) =
      labelled c (GvasFile.read z debug .default hints start' data) := by
  simp only [GvasFile.read, readFrame_frame, unpack_payload h]
  exact labelled_bind _ _

/-- **C106**: every input is such a frame, or is refused for its frame or its payload, whatever the
hints and the build. -/
theorem C106_frame_or_fault (z : Codec) (start : Nat) (input : Bytes) :
    (∃ dlen clen c payload data, input = frame dlen clen c payload ∧
      Payload z dlen.toNat payload c data) ∨
    ∃ e, (FrameFault start input e ∨ ∃ dlen clen c payload, input = frame dlen clen c payload ∧
        PayloadFault z dlen.toNat payload c e) ∧
      ∀ debug hints, GvasFile.read z debug .palworld hints start input = .err e := by
  match hf : readFrame ⟨input, start, []⟩ with
  | (.bad (.err e), s) =>
    refine .inr ⟨e, .inl ((C83_frame start input [] e).mp (by rw [hf])), fun debug hints => ?_⟩
    simp only [GvasFile.read, hf]
  | (.bad (.panic m), s) | (.bad .fuel, s) =>
    have := readFrame_run start input []
    rw [hf] at this
    simp only at this
    repeat' (split at this)
    all_goals cases this
  | (.ok (dlen, c), s) =>
    obtain ⟨clen, hi⟩ := readFrame_ok hf
    match hu : unpack z dlen c s.rest with
    | .ok data => exact .inl ⟨dlen, clen, c, s.rest, data, hi, unpack_ok _ _ _ _ _ hu⟩
    | .bad (.err e) =>
      refine .inr ⟨e, .inr ⟨dlen, clen, c, s.rest, hi, unpack_err _ _ _ _ _ hu⟩,
        fun debug hints => ?_⟩
      simp only [GvasFile.read, hf, hu]
      rfl
    | .bad (.panic m) | .bad .fuel =>
      cases c <;> simp only [unpack, inflateExact] at hu <;> repeat' (split at hu)
      all_goals cases hu

/-- **C106**: a file is read from an input exactly if the input is a frame around a save of the
grammar of C69, or, in the default container, is such a save itself. -/
theorem C106_accepts_iff (z : Codec) (debug : Bool) (hints : String → Option String) (start : Nat)
    (input : Bytes) (f : GvasFile) :
    (GvasFile.read z debug .palworld hints start input = .ok f ↔
      ∃ dlen clen c payload data, input = frame dlen clen c payload ∧
        Payload z dlen.toNat payload c data ∧ f.gameVersion = .palworld c ∧
        Save debug hints data f.header f.properties) ∧
    (GvasFile.read z debug .default hints start input = .ok f ↔
      f.gameVersion = .default ∧ Save debug hints input f.header f.properties) := by
  have hd : ∀ input f, GvasFile.read z debug .default hints start input = .ok f ↔
      f.gameVersion = .default ∧ Save debug hints input f.header f.properties := by
    intro input f
    rw [read_default_eq, ← C69_accepts_iff]
    obtain ⟨g, h, ps⟩ := f
    cases hr : (readData debug hints input).1 with
    | ok a =>
      obtain ⟨h', ps'⟩ := a
      constructor
      · intro e
        cases e
        exact ⟨rfl, rfl⟩
      · rintro ⟨rfl, e⟩
        cases e
        rfl
    | bad e =>
      constructor
      · intro e; cases e
      · rintro ⟨-, e⟩; cases e
  refine ⟨⟨fun h => ?_, ?_⟩, hd input f⟩
  · rcases C106_frame_or_fault z start input with ⟨dlen, clen, c, payload, data, rfl, hp⟩ | ⟨e, -, he⟩
    · rw [C106_contents z dlen clen c payload data hp debug hints start start] at h
      cases hr : GvasFile.read z debug .default hints start data with
      | ok g =>
        rw [hr] at h
        cases h
        exact ⟨dlen, clen, c, payload, data, rfl, hp, rfl, ((hd data g).mp hr).2⟩
      | bad e => rw [hr] at h; cases h
    · rw [he] at h; cases h
  · rintro ⟨dlen, clen, c, payload, data, rfl, hp, hg, hs⟩
    rw [C106_contents z dlen clen c payload data hp debug hints start start,
      (hd data { f with gameVersion := .default }).mpr ⟨rfl, hs⟩, labelled, ← hg]

/-- A compressed save, read by the decoder of C86. -/
example : ∃ f, GvasFile.read zlibCodec true .palworld noHints 3
      (frame 97 75 .zlib (exampleStream ++ [9])) = .ok f ∧ f.gameVersion = .palworld .zlib ∧
    Save true noHints (saveBytes intBytes) f.header f.properties := by
  have hp : Payload zlibCodec (97 : UInt32).toNat (exampleStream ++ [9]) .zlib (saveBytes intBytes) := by
    have hi : (zlibCodec.inflate (exampleStream ++ [9])).1 = saveBytes intBytes := by
      rw [C86_zlibCodec.1.once _ _ _ exampleStream_valid]
    have ht : ((zlibCodec.inflate (exampleStream ++ [9])).1).take (97 : UInt32).toNat =
        saveBytes intBytes := by
      rw [hi]
      decide +kernel
    have := Payload.once (z := zlibCodec) (dlen := (97 : UInt32).toNat)
      (payload := exampleStream ++ [9]) (by rw [hi]; decide +kernel)
    rwa [ht] at this
  have hr : namesRead (readData true noHints (saveBytes intBytes)).1 = ["a"] := by decide +kernel
  cases h : (readData true noHints (saveBytes intBytes)).1 with
  | bad e => rw [h] at hr; cases hr
  | ok a =>
    obtain ⟨h', ps⟩ := a
    have hs := (C69_accepts_iff _ _ _ _ _).mp h
    exact ⟨⟨.palworld .zlib, h', ps⟩, (C106_accepts_iff ..).1.mpr
      ⟨97, 75, .zlib, _, _, rfl, hp, rfl, hs⟩, rfl, hs⟩

/-- A payload that is too short for the announced length is refused for that. -/
example (z : Codec) : ∀ debug hints, GvasFile.read z debug .palworld hints 0
    (frame 5 0 .none [1, 2]) = .err .eof := fun debug hints => by
  rcases C106_frame_or_fault z 0 (frame 5 0 .none [1, 2]) with
    ⟨dlen, clen, c, payload, data, hi, hp⟩ | ⟨e, -, he⟩
  · exfalso
    have h1 := readFrame_frame dlen clen c payload 0 []
    rw [← hi, readFrame_frame] at h1
    cases h1
    cases hp with
    | plain h => exact absurd h (by decide)
  · rw [he debug hints, ← he false noHints]
    rw [GvasFile.read, readFrame_frame]
    rfl

/-- Either container: refused for itself, or read from contents. -/
theorem container (z : Codec) (gv : GameVersion) (start : Nat) (input : Bytes) :
    (∃ e, (∀ debug hints, GvasFile.read z debug gv hints start input = .err e) ∧
      ∀ ty path pos, e ≠ .missingHint ty path pos) ∨
    ∃ g data, ∀ debug hints, GvasFile.read z debug gv hints start input =
      (do
        let (h, ps) ← (readData debug hints data).1
        return { gameVersion := g, header := h, properties := ps }) := by
  cases gv with
  | default => exact .inr ⟨.default, input, fun _ _ => rfl⟩
  | palworld =>
    rcases C106_frame_or_fault z start input with ⟨dlen, clen, c, payload, data, rfl, hp⟩ | ⟨e, hf, he⟩
    · refine .inr ⟨.palworld c, data, fun debug hints => ?_⟩
      rw [C106_contents z dlen clen c payload data hp debug hints start start, read_default_eq,
        ← labelled_bind]
    · refine .inl ⟨e, he, ?_⟩
      rcases hf with hf | ⟨_, _, _, _, _, hf⟩ <;> cases hf <;> simp

theorem data_err {r : Res (GvasHeader × List (String × Property))} {g : DeserializedGameVersion}
    {e : Fail} : (do
        let (h, ps) ← r
        return { gameVersion := g, header := h, properties := ps } : Res GvasFile) = .bad e ↔
      r = .bad e := by
  cases r with
  | ok a => exact ⟨fun h => (by cases h), fun h => (by cases h)⟩
  | bad e' => exact ⟨fun h => (by cases h; rfl), fun h => (by cases h; rfl)⟩

/-- **C27** for files in either container: a reported hint is missing, and with an entry for the
reported path another one is missing, if any. -/
theorem C27_file (z : Codec) (debug : Bool) (gv : GameVersion) (hints : String → Option String)
    (start : Nat) (input : Bytes) (ty path : String) (pos : Nat)
    (h : GvasFile.read z debug gv hints start input = .err (.missingHint ty path pos)) :
    hints path = none ∧ ty = "StructProperty" ∧ ∀ hint ty' pos',
      GvasFile.read z debug gv (fun p => if p = path then some hint else hints p) start input ≠
        .err (.missingHint ty' path pos') := by
  rcases container z gv start input with ⟨e, he, hm⟩ | ⟨g, data, hd⟩
  · rw [he] at h
    cases h
    exact absurd rfl (hm _ _ _)
  · rw [hd] at h
    obtain ⟨h1, h2⟩ := C27_missing_hint_is_missing debug hints data ty path pos (data_err.mp h)
    refine ⟨h1, h2, fun hint ty' pos' h' => ?_⟩
    rw [hd] at h'
    exact C27_supplied_hint_helps debug hints data path hint ty' pos' (data_err.mp h')

/-- A frame around a save that lacks a hint. -/
example (z : Codec) : GvasFile.read z true .palworld noHints 0
      (frame (UInt32.ofNat (saveBytes structMapBytes).length) 0 .none (saveBytes structMapBytes)) =
    .err (.missingHint "StructProperty" "a.MapProperty.Value.StructProperty" 127) := by
  rw [C106_contents z _ 0 .none _ (saveBytes structMapBytes) ?_ true noHints 0 0, read_default_eq,
    show (readData true noHints (saveBytes structMapBytes)).1 = _ from eq_bad
      (f := .err (.missingHint "StructProperty" "a.MapProperty.Value.StructProperty" 127))
      (by decide +kernel)]
  · rfl
  · have := Payload.plain (z := z)
      (dlen := (UInt32.ofNat (saveBytes structMapBytes).length).toNat)
      (payload := saveBytes structMapBytes) (by decide +kernel)
    rwa [show (saveBytes structMapBytes).take (UInt32.ofNat (saveBytes structMapBytes).length).toNat
      = saveBytes structMapBytes by decide +kernel] at this

/-- **C28** for every outcome of reading a file in either container. -/
theorem C28_file_outcomes (z : Codec) (debug : Bool) (gv : GameVersion)
    (hints hints' : String → Option String) (hh : ∀ p h, hints p = some h → hints' p = some h)
    (start : Nat) (input : Bytes) :
    GvasFile.read z debug gv hints' start input = GvasFile.read z debug gv hints start input ∨
      ∃ path pos, GvasFile.read z debug gv hints start input =
          .err (.missingHint "StructProperty" path pos) ∧
        hints path = none ∧ hints' path ≠ none := by
  rcases container z gv start input with ⟨e, he, -⟩ | ⟨g, data, hd⟩
  · exact .inl (by rw [he, he])
  · rw [hd, hd]
    rcases C28_extra_hints_harmless debug hints hints' hh data with h | ⟨path, pos, h, h1, h2⟩
    · exact .inl (by rw [h])
    · exact .inr ⟨path, pos, data_err.mpr h, h1, h2⟩

/-- **C54** for files in either container. -/
theorem C54_files (z : Codec) (gv : GameVersion) (hints : String → Option String) (start : Nat)
    (input : Bytes) :
    GvasFile.read z true gv hints start input = GvasFile.read z false gv hints start input ∨
      ∃ msg, GvasFile.read z true gv hints start input = .panic msg := by
  rcases container z gv start input with ⟨e, he, -⟩ | ⟨g, data, hd⟩
  · exact .inl (by rw [he, he])
  · rw [hd, hd]
    rcases C54_debug_agrees_with_release hints data with h | ⟨msg, h⟩
    · exact .inl (by rw [h])
    · exact .inr ⟨msg, data_err.mpr h⟩

/-- A release build returns an error where a debug build panics. -/
example (z : Codec) : ∃ input, GvasFile.read z true .default noHints 0 input =
    .panic "attempt to subtract with overflow" ∧
    GvasFile.read z false .default noHints 0 input = .err .eof :=
  ⟨saveBytes (ascii "a" ++ ascii "ByteProperty" ++ [0, 0, 0, 0, 0, 0, 0, 0] ++ ascii "None" ++
      [0, 7]),
    by rw [read_default_eq]; exact data_err.mpr (eq_bad (by decide +kernel)),
    by rw [read_default_eq]; exact data_err.mpr (eq_bad (by decide +kernel))⟩

/-- **C26** for files in either container: no other panics.  Missing is the absence of panics. -/
theorem C26_file_panics_known_partial (z : Codec) (debug : Bool) (gv : GameVersion)
    (hints : String → Option String) (start : Nat) (input : Bytes) (msg : String)
    (h : GvasFile.read z debug gv hints start input = .panic msg) :
    msg ∈ ["assertion `left == right` failed", "Expected array_index value zero",
      "capacity overflow", "not implemented", "not implemented: unimplemented history type: TextGenerator",
      "not implemented: unimplemented history type: RawText"] ∨
    (debug = true ∧ msg = "attempt to subtract with overflow") := by
  rcases container z gv start input with ⟨e, he, -⟩ | ⟨g, data, hd⟩
  · rw [he] at h; cases h
  · rw [hd] at h
    exact C26_panics_known_partial debug hints data msg (data_err.mp h)

end Gvas
