import Verif.Lemmas.Progress
import Verif.Props.Robust

/-! # Supplying hints one by one (C66)

Parsing a file with unhinted structs in maps fails with the path of the first one.  The documented
way on (`src/lib.rs` 24-58) is to add a hint for this path and to parse again. -/

namespace Gvas

open Spec

/-- The path of the missing hint, if that is the failure. -/
def Spec.missingPath {α : Type} : Res α → Option String
  | .err (.missingHint _ path _) => some path
  | _ => none

/-- One round of it: parse, and if a hint is missing, add the answer for its path. -/
def Spec.hintRound (debug : Bool) (data : Bytes) (answer : String → String)
    (hints : String → Option String) : String → Option String :=
  fun p => if Spec.missingPath (readData debug hints data).1 = some p then some (answer p)
    else hints p

/-- So many rounds of it. -/
def Spec.hintRounds (debug : Bool) (data : Bytes) (answer : String → String)
    (hints : String → Option String) : Nat → String → Option String
  | 0 => hints
  | n + 1 => Spec.hintRound debug data answer (Spec.hintRounds debug data answer hints n)

/-- **C66**: with the missing hint supplied, the next missing hint is reported at least four bytes
further on. -/
theorem C66_progress (debug : Bool) (hints hints' : String → Option String)
    (hh : ∀ p h, hints p = some h → hints' p = some h) (data : Bytes) (ty path : String) (pos : Nat)
    (h : (readData debug hints data).1 = .err (.missingHint ty path pos))
    (hs : hints' path ≠ none) (ty' path' : String) (pos' : Nat)
    (h' : (readData debug hints' data).1 = .err (.missingHint ty' path' pos')) :
    pos + 4 ≤ pos' := by
  have C := ((step_closed data.length debug hints hints' hh).contents (K := 0)
    (Nat.le_refl (data.length + 1)) (by omega) (RS.init data) (Nat.zero_le _)
    (by simp [RS.init])).same
  rcases C with C | ⟨path0, p, h1, -, h3⟩
  · have he : readData debug hints data = readData debug hints' data := C
    rw [he] at h
    exact absurd (C27_missing_hint_is_missing debug hints' data ty path pos h).1 hs
  · have he : (readData debug hints data).1 = _ := h1
    rw [h] at he
    simp only [Res.bad.injEq, Fail.err.injEq, Err.missingHint.injEq] at he
    rw [he.2.2]
    exact h3 _ _ _ h'

/-- **C66**: a sequence of hint tables, each with the hint the one before it lacked, soon has one
that lacks none. -/
theorem C66_bounded_rounds (debug : Bool) (data : Bytes) (tables : Nat → String → Option String)
    (hh : ∀ i p h, tables i p = some h → tables (i + 1) p = some h)
    (hs : ∀ i ty path pos, (readData debug (tables i) data).1 = .err (.missingHint ty path pos) →
      tables (i + 1) path ≠ none) :
    ∃ i ≤ data.length / 4 + 1, ∀ ty path pos,
      (readData debug (tables i) data).1 ≠ .err (.missingHint ty path pos) := by
  apply Classical.byContradiction
  intro hc
  have hall : ∀ i ≤ data.length / 4 + 1, ∃ ty path pos,
      (readData debug (tables i) data).1 = .err (.missingHint ty path pos) := by
    intro i hi
    apply Classical.byContradiction
    intro hn
    exact hc ⟨i, hi, fun ty path pos h => hn ⟨ty, path, pos, h⟩⟩
  have hpos : ∀ i ≤ data.length / 4 + 1, ∀ ty path pos,
      (readData debug (tables i) data).1 = .err (.missingHint ty path pos) → 4 * i ≤ pos := by
    intro i
    induction i with
    | zero => intros; omega
    | succ i ih =>
      intro hi ty path pos h
      obtain ⟨ty0, path0, pos0, h0⟩ := hall i (by omega)
      have := ih (by omega) ty0 path0 pos0 h0
      have := C66_progress debug _ _ (hh i) data ty0 path0 pos0 h0 (hs i _ _ _ h0) ty path pos h
      omega
  obtain ⟨ty, path, pos, h⟩ := hall _ (Nat.le_refl _)
  have := hpos _ (Nat.le_refl _) ty path pos h
  have := C51_error_positions_inside debug (tables (data.length / 4 + 1)) data _ h pos rfl
  omega

theorem missingPath_eq {α : Type} {r : Res α} {path : String} (h : Spec.missingPath r = some path) :
    ∃ ty pos, r = .err (.missingHint ty path pos) := by
  unfold Spec.missingPath at h
  split at h
  · rename_i ty path' pos
    simp at h
    exact ⟨ty, pos, by rw [h]⟩
  · simp at h

theorem hintRound_extends (debug : Bool) (data : Bytes) (answer : String → String)
    (hints : String → Option String) (p h : String) (hp : hints p = some h) :
    Spec.hintRound debug data answer hints p = some h := by
  unfold Spec.hintRound
  split
  · rename_i hm
    obtain ⟨ty, pos, hr⟩ := missingPath_eq hm
    rw [(C27_missing_hint_is_missing debug hints data _ _ _ hr).1] at hp
    simp at hp
  · exact hp

theorem hintRounds_answers (debug : Bool) (data : Bytes) (answer : String → String)
    (hints : String → Option String) (n : Nat) (p h : String)
    (hp : Spec.hintRounds debug data answer hints n p = some h) :
    hints p = some h ∨ (hints p = none ∧ h = answer p) := by
  induction n generalizing h with
  | zero => exact .inl hp
  | succ n ih =>
    rw [Spec.hintRounds, Spec.hintRound] at hp
    split at hp
    · rename_i hm
      obtain ⟨ty, pos, hr⟩ := missingPath_eq hm
      have hm := (C27_missing_hint_is_missing debug _ data _ _ _ hr).1
      match hq : hints p with
      | none => exact .inr ⟨rfl, by simpa using hp.symm⟩
      | some g =>
        exfalso
        have : ∀ k, Spec.hintRounds debug data answer hints k p = some g := by
          intro k
          induction k with
          | zero => exact hq
          | succ k ihk => exact hintRound_extends debug data answer _ p g ihk
        rw [this n] at hm
        simp at hm
    · exact ih _ hp

/-- **C66**: adding hints one by one, whatever the answers, takes at most one round for every four
bytes of input, and ends with what the full table of answers gives at once. -/
theorem C66_one_by_one (debug : Bool) (data : Bytes) (answer : String → String)
    (hints : String → Option String) :
    ∃ i ≤ data.length / 4 + 1,
      readData debug (Spec.hintRounds debug data answer hints i) data =
        readData debug (fun p => some ((hints p).getD (answer p))) data := by
  obtain ⟨i, hi, h⟩ := C66_bounded_rounds debug data (Spec.hintRounds debug data answer hints)
    (fun i => hintRound_extends debug data answer _) (by
      intro i ty path pos h
      rw [Spec.hintRounds, Spec.hintRound]
      simp [h, Spec.missingPath])
  refine ⟨i, hi, ?_⟩
  rcases C28_extra_hints_harmless debug (Spec.hintRounds debug data answer hints i)
    (fun p => some ((hints p).getD (answer p))) (by
      intro p g hp
      rcases hintRounds_answers debug data answer hints i p g hp with h | ⟨h, rfl⟩
      · simp [h]
      · simp [h]) data with e | ⟨path, pos, e, _⟩
  · exact e.symm
  · exact absurd e (h _ _ _)

/-- Two properties, `a` and `b`: maps from an integer to a headerless struct. -/
def twoMapsBytes : Bytes :=
  structMapBytes ++ ascii "b" ++ structMapBytes.drop (ascii "a").length

/-- Both maps need a hint; the rounds supply one after the other, and the third read succeeds. -/
example : failure (readData true noHints (saveBytes twoMapsBytes)).1 =
      some (.err (.missingHint "StructProperty" "a.MapProperty.Value.StructProperty" 127)) ∧
    failure (readData true (Spec.hintRounds true (saveBytes twoMapsBytes) (fun _ => "S") noHints 1)
        (saveBytes twoMapsBytes)).1 =
      some (.err (.missingHint "StructProperty" "b.MapProperty.Value.StructProperty" 214)) ∧
    failure (readData true (Spec.hintRounds true (saveBytes twoMapsBytes) (fun _ => "S") noHints 2)
        (saveBytes twoMapsBytes)).1 = none := by
  decide +kernel

end Gvas
