import Verif.Props.Hints
import Verif.Props.Framed

/-!
# C66 for files in both containers
-/

namespace Gvas

open Spec

/-- The contents an input has in a container. -/
def Spec.HasContents (z : Codec) : GameVersion → Bytes → Bytes → Prop
  | .default, input, data => data = input
  | .palworld, input, data => ∃ dlen clen c payload, input = frame dlen clen c payload ∧
      Payload z dlen.toNat payload c data

/-- An input with contents asks for the hints its contents ask for. -/
private theorem asks {z : Codec} {gv : GameVersion} {input data : Bytes} (h : HasContents z gv input data)
    (debug : Bool) (hints : String → Option String) (start : Nat) (ty path : String) (pos : Nat) :
    GvasFile.read z debug gv hints start input = .err (.missingHint ty path pos) ↔
      (readData debug hints data).1 = .err (.missingHint ty path pos) := by
  have hd : GvasFile.read z debug .default hints start data = .err (.missingHint ty path pos) ↔
      (readData debug hints data).1 = .err (.missingHint ty path pos) := by
    rw [read_default_eq]
    cases (readData debug hints data).1 with
    | ok a => exact ⟨fun e => (by cases e), fun e => (by cases e)⟩
    | bad e => exact ⟨fun e => by cases e; rfl, fun e => by cases e; rfl⟩
  cases gv with
  | default =>
    obtain rfl := h
    exact hd
  | palworld =>
    obtain ⟨dlen, clen, c, payload, rfl, hp⟩ := h
    rw [C106_contents z dlen clen c payload data hp debug hints start start, ← hd]
    cases GvasFile.read z debug .default hints start data with
    | ok a => exact ⟨fun e => (by cases e), fun e => (by cases e)⟩
    | bad e => exact ⟨fun e => by cases e; rfl, fun e => by cases e; rfl⟩

/-- **C66**: for files in either container: if every table has the entries of the one before and
the entry the file asked for with it, one of the first tables is not asked for more.  How many it
takes is limited by the size of the contents. -/
theorem C66_files (z : Codec) (debug : Bool) (gv : GameVersion) (start : Nat) (input : Bytes)
    (n : Nat) (hn : ∀ data, HasContents z gv input data → data.length ≤ n)
    (tables : Nat → String → Option String)
    (hh : ∀ i p h, tables i p = some h → tables (i + 1) p = some h)
    (hs : ∀ i ty path pos, GvasFile.read z debug gv (tables i) start input =
      .err (.missingHint ty path pos) → tables (i + 1) path ≠ none) :
    ∃ i ≤ n / 4 + 1, ∀ ty path pos,
      GvasFile.read z debug gv (tables i) start input ≠ .err (.missingHint ty path pos) := by
  have main : ∀ data, HasContents z gv input data → ∃ i ≤ n / 4 + 1, ∀ ty path pos,
      GvasFile.read z debug gv (tables i) start input ≠ .err (.missingHint ty path pos) := by
    intro data hd
    obtain ⟨i, hi, h⟩ := C66_bounded_rounds debug data tables hh
      (fun i ty path pos h => hs i ty path pos ((asks hd debug _ start ty path pos).mpr h))
    have := hn data hd
    exact ⟨i, by omega, fun ty path pos e => h ty path pos ((asks hd debug _ start ty path pos).mp e)⟩
  cases gv with
  | default => exact main input rfl
  | palworld =>
    rcases C106_frame_or_fault z start input with ⟨dlen, clen, c, payload, data, hi, hp⟩ | ⟨e, hf, he⟩
    · exact main data ⟨dlen, clen, c, payload, hi, hp⟩
    · refine ⟨0, by omega, fun ty path pos h => ?_⟩
      rw [he] at h
      cases h
      rcases hf with hf | ⟨_, _, _, _, _, hf⟩ <;> cases hf

/-- Three tables for the two maps of `twoMapsBytes` in an uncompressed Palworld save; the third one
is not asked for more. -/
example (z : Codec) :
    let input := frame (UInt32.ofNat (saveBytes twoMapsBytes).length) 0 .none (saveBytes twoMapsBytes)
    let tables := Spec.hintRounds true (saveBytes twoMapsBytes) (fun _ => "S") noHints
    (∀ data, HasContents z .palworld input data → data.length ≤ input.length) ∧
    (∀ i p h, tables i p = some h → tables (i + 1) p = some h) ∧
    (∀ i ty path pos, GvasFile.read z true .palworld (tables i) 0 input =
      .err (.missingHint ty path pos) → tables (i + 1) path ≠ none) ∧
    GvasFile.read z true .palworld (tables 0) 0 input = .err (.missingHint "StructProperty"
      "a.MapProperty.Value.StructProperty" 127) := by
  intro input tables
  have hl : (saveBytes twoMapsBytes).length ≤ (UInt32.ofNat (saveBytes twoMapsBytes).length).toNat ∧
      (UInt32.ofNat (saveBytes twoMapsBytes).length).toNat ≤ (saveBytes twoMapsBytes).length := by
    decide +kernel
  have hp : HasContents z .palworld input (saveBytes twoMapsBytes) :=
    ⟨_, _, .none, saveBytes twoMapsBytes, rfl, by
      have := Payload.plain (z := z) hl.2
      rwa [List.take_of_length_le hl.1] at this⟩
  refine ⟨?_, fun i => hintRound_extends _ _ _ _, ?_, ?_⟩
  · rintro data ⟨dlen, clen, c, payload, hi, h⟩
    have hf := readFrame_frame dlen clen c payload 0 []
    rw [← hi, readFrame_frame] at hf
    simp only [Prod.mk.injEq, Res.ok.injEq, RS.mk.injEq, and_true] at hf
    obtain ⟨⟨rfl, rfl⟩, rfl⟩ := hf
    cases h with
    | plain h =>
      rw [List.length_take]
      simp only [input, frame, List.length_append]
      omega
  · intro i ty path pos h
    have h := (asks hp true _ 0 ty path pos).mp h
    show Spec.hintRound true _ _ _ path ≠ none
    rw [Spec.hintRound]
    simp only [tables] at h
    simp [h, Spec.missingPath]
  · exact (asks hp true _ 0 _ _ _).mpr (eq_bad (by decide +kernel))

end Gvas
