import Verif.Lemmas.Meter
import Verif.Props.File
import Verif.Spec.Sample

/-! # C72: the memory that reading asks for in advance -/

namespace Gvas

open Spec

/-- **C72**: recording the requests changes nothing about reading. -/
theorem C72_recorded_faithfully (z : Codec) (debug : Bool) (gv : GameVersion)
    (hints : String → Option String) (start : Nat) (input : Bytes) :
    (∀ data, (M.data debug hints data).1 = readData debug hints data) ∧
    (M.file z debug gv hints start input).1 = GvasFile.read z debug gv hints start input := by
  have h : ∀ data, (M.data debug hints data).1 = readData debug hints data := fun data =>
    (Cost.contents debug hints (data.length + 1) (RS.init data)).same
  refine ⟨h, ?_⟩
  cases gv with
  | default => simp only [M.file, GvasFile.read, h]
  | palworld =>
    simp only [M.file, GvasFile.read]
    cases readFrame { rest := input, pos := start, stack := [] } with
    | mk r s =>
      cases r with
      | bad f => rfl
      | ok x =>
        obtain ⟨dlen, c⟩ := x
        simp only
        cases unpack z dlen c s.rest with
        | bad f => rfl
        | ok d => simp only [h]; rfl

theorem data_pos (debug : Bool) (hints : String → Option String) (data : Bytes) :
    (readData debug hints data).2.pos ≤ data.length := by
  obtain ⟨_, ⟨pre, h1, h2, _⟩, _⟩ := readContents_good debug hints (data.length + 1) (RS.init data)
  have hl := congrArg List.length h1
  have e : (readData debug hints data).2 =
    (readContents debug hints (data.length + 1) (RS.init data)).2 := rfl
  rw [e, h2]
  simp only [RS.init, List.length_append] at hl ⊢
  omega

/-- **C72**: an accepted save asks for room for no more items than it has bytes, not counting the
elements of arrays and sets of unknown type, which may have no bytes (C50). -/
theorem C72_accepted (debug : Bool) (hints : String → Option String) (data : Bytes)
    (x : GvasHeader × List (String × Property)) (hr : (readData debug hints data).1 = .ok x) :
    askedSizable (M.data debug hints data).2.requests ≤ data.length := by
  obtain ⟨h1, h2, k, h3, h4⟩ := Cost.contents debug hints (data.length + 1) (RS.init data)
  rw [show M.contents debug hints (data.length + 1) (RS.init data) = M.data debug hints data from rfl]
    at h1 h2 h3 h4
  have h1 : (M.data debug hints data).1 = readData debug hints data := h1
  have hp := data_pos debug hints data
  have h3 : (M.data debug hints data).1.2.pos = 0 + k := h3
  rw [h1] at h3
  rw [h1, hr] at h4
  simp only at h4
  omega

/-- The sample file is accepted; its 1278 bytes make the reader ask for room for 462 items. -/
example : ∃ data x, (readData true sampleHints data).1 = .ok x ∧ data.length = 1278 ∧
    askedSizable (M.data true sampleHints data).2.requests = 462 := by
  obtain ⟨data, he⟩ := fileOK_encodes (sampleFile_ok .default)
  have hl : (match (sampleFile .default).encode with
      | .ok d => (d.length, askedSizable (M.data true sampleHints d).2.requests)
      | .bad _ => (0, 0)) = (1278, 462) := by decide +kernel
  rw [he] at hl
  simp only [Prod.mk.injEq] at hl
  have hr := fileOK_reads (sampleFile_ok .default) he (by omega) []
  rw [List.append_nil] at hr
  exact ⟨data, _, hr, hl.1, hl.2⟩

/-- **C72**: whatever the input, no request is for 2^32 items or more, and all of them together are
for at most 2^30 items for each byte of the input, and one request more. -/
theorem C72_bound (debug : Bool) (hints : String → Option String) (data : Bytes) :
    (∀ q ∈ (M.data debug hints data).2.requests, q.count < 2 ^ 32) ∧
    asked (M.data debug hints data).2.requests ≤ 2 ^ 30 * data.length + 2 ^ 32 := by
  obtain ⟨h1, h2, k, h3, h4⟩ := Cost.contents debug hints (data.length + 1) (RS.init data)
  rw [show M.contents debug hints (data.length + 1) (RS.init data) = M.data debug hints data from rfl]
    at h1 h2 h3 h4
  have h1 : (M.data debug hints data).1 = readData debug hints data := h1
  have hp := data_pos debug hints data
  have h3 : (M.data debug hints data).1.2.pos = 0 + k := h3
  rw [h1] at h3
  refine ⟨h2, ?_⟩
  split at h4 <;> omega

/-- The start of a header that announces 2^32 - 1 custom versions. -/
def greedyHeader : Bytes :=
  [0x47, 0x56, 0x41, 0x53, 2, 0, 0, 0, 5, 2, 0, 0] ++ List.replicate 10 0 ++ [1, 0, 0, 0, 0] ++
    [3, 0, 0, 0] ++ [255, 255, 255, 255]

/-- A save with an array of 2^32 - 1 numbers, of which none are there. -/
def greedyArray : Bytes :=
  headerBytes [] ++ ascii "a" ++ ascii "ArrayProperty" ++ [4, 0, 0, 0] ++ [0, 0, 0, 0] ++
    ascii "IntProperty" ++ [0] ++ [255, 255, 255, 255]

/-- A save with an unknown property of 2^32 - 1 bytes, of which none are there. -/
def greedyUnknown : Bytes :=
  headerBytes [] ++ ascii "a" ++ ascii "X" ++ [255, 255, 255, 255] ++ [0, 0, 0, 0] ++ [0]

/-- A Palworld frame that announces 2^32 - 1 bytes. -/
def greedyFrame : Bytes := [255, 255, 255, 255, 0, 0, 0, 0] ++ plzMagic ++ [0x30]

/-- **C72**: rejected input is not as modest as accepted input: a few bytes, soon found to be too
short, first make the reader ask for room for 2^32 - 1 custom versions, array elements or
bytes. -/
theorem C72_greedy (debug : Bool) (z : Codec) :
    (greedyHeader.length = 35 ∧ (readData debug noHints greedyHeader).1 = .err .eof ∧
      ⟨none, 2 ^ 32 - 1⟩ ∈ (M.data debug noHints greedyHeader).2.requests) ∧
    (greedyArray.length = 102 ∧ (readData debug noHints greedyArray).1 = .err .eof ∧
      ⟨some "IntProperty", 2 ^ 32 - 1⟩ ∈ (M.data debug noHints greedyArray).2.requests) ∧
    (greedyUnknown.length = 70 ∧ (readData debug noHints greedyUnknown).1 = .err .eof ∧
      ⟨none, 2 ^ 32 - 1⟩ ∈ (M.data debug noHints greedyUnknown).2.requests) ∧
    (greedyFrame.length = 12 ∧ GvasFile.read z debug .palworld noHints 0 greedyFrame = .err .eof ∧
      ⟨none, 2 ^ 32 - 1⟩ ∈ (M.file z debug .palworld noHints 0 greedyFrame).2) := by
  refine ⟨⟨by decide, ?_, ?_⟩, ⟨by decide +kernel, ?_, ?_⟩, ⟨by decide +kernel, ?_, ?_⟩,
    ⟨by decide, ?_, ?_⟩⟩
  · refine eq_bad ?_; cases debug <;> decide +kernel
  · cases debug <;> decide +kernel
  · refine eq_bad ?_; cases debug <;> decide +kernel
  · cases debug <;> decide +kernel
  · refine eq_bad ?_; cases debug <;> decide +kernel
  · cases debug <;> decide +kernel
  · rfl
  · have e : (M.file z debug .palworld noHints 0 greedyFrame).2 = [⟨none, 2 ^ 32 - 1⟩] := rfl
    rw [e]
    simp

end Gvas
