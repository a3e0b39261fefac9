import Verif.Lemmas.Steps
import Verif.Lemmas.Earns
import Verif.Props.Memory
import Verif.Props.Size

/-! # C90: how many steps reading takes -/

namespace Gvas

open Spec

/-- **C90**: whatever the input, and whether it is accepted or not, reading takes at most four steps
for each byte and eight more, and one for each element of unknown type that an array or set
announces. -/
theorem C90_linear (debug : Bool) (hints : String → Option String) (data : Bytes) :
    (M.data debug hints data).2.steps ≤
      4 * data.length + 8 + unsized (M.data debug hints data).2.requests := by
  obtain ⟨k, h1, h2⟩ := (Effort.contents debug hints (data.length + 1) (RS.init data)).total
  rw [show M.contents debug hints (data.length + 1) (RS.init data) = M.data debug hints data from rfl]
    at h1 h2
  have hp := data_pos debug hints data
  rw [← (C72_recorded_faithfully prefixCodec debug .default hints 0 []).1 data, h1] at hp
  simp only [RS.init] at hp
  split at h2 <;> omega

/-- The sample file has no arrays or sets of unknown type; its 1278 bytes are read in 457 steps. -/
example : (match (sampleFile .default).encode with
    | .ok d => (d.length, (M.data true sampleHints d).2.steps,
        unsized (M.data true sampleHints d).2.requests)
    | .bad _ => (0, 0, 0)) = (1278, 457, 0) := by decide +kernel

/-- A rejected input, a header with an unknown file type, takes two steps. -/
example : (readData true noHints [1, 2, 3, 4]).1 =
      .err (.invalidHeader "File type 67305985 not recognized") ∧
    (M.data true noHints [1, 2, 3, 4]).2.steps = 2 := by
  exact ⟨eq_bad (by decide +kernel), by decide +kernel⟩

/-- **C90**: in terms of the length alone, the factor is 2^30 + 4, with 2^32 + 8 steps more. -/
theorem C90_length (debug : Bool) (hints : String → Option String) (data : Bytes) :
    (M.data debug hints data).2.steps ≤ (2 ^ 30 + 4) * data.length + (2 ^ 32 + 8) := by
  have h1 := C90_linear debug hints data
  have h2 := (C72_bound debug hints data).2
  have h3 : ∀ l : List Request, unsized l ≤ asked l := by
    intro l
    induction l with
    | nil => simp [unsized, asked]
    | cons q l ih =>
      simp only [unsized, asked, List.map_cons, List.sum_cons] at ih ⊢
      omega
  have := h3 (M.data debug hints data).2.requests
  omega

/-- **C90**: each property of the result, however deep, takes at least one step. -/
theorem C90_below (debug : Bool) (hints : String → Option String) (data : Bytes) (h : GvasHeader)
    (ps : List (String × Property)) (hr : (readData debug hints data).1 = .ok (h, ps)) :
    (ps.map fun x => propertyCount x.2).sum ≤ (M.data debug hints data).2.steps := by
  refine Earns.contents debug hints (data.length + 1) (RS.init data) (h, ps) ?_
  rw [← hr, ← (C72_recorded_faithfully prefixCodec debug .default hints 0 []).1 data]
  rfl

/-- The sample file is accepted; its 27 properties take 457 steps. -/
example : ∃ data h ps, (readData true sampleHints data).1 = .ok (h, ps) ∧
    (ps.map fun x => propertyCount x.2).sum = 27 ∧
    (M.data true sampleHints data).2.steps = 457 := by
  obtain ⟨data, he⟩ := fileOK_encodes (sampleFile_ok .default)
  have hl : (match (sampleFile .default).encode with
      | .ok d => (d.length, (M.data true sampleHints d).2.steps)
      | .bad _ => (0, 0)) = (1278, 457) := by decide +kernel
  rw [he] at hl
  simp only [Prod.mk.injEq] at hl
  have hr := fileOK_reads (sampleFile_ok .default) he (by omega) []
  rw [List.append_nil] at hr
  exact ⟨data, _, _, hr, by decide +kernel, hl.2⟩

/-- **C90**: the elements of unknown type cannot be left out of the bound: a save of 96 bytes that is
accepted takes any number of steps up to 2^32, so that no factor below 2^25 would do for the
length alone. -/
theorem C90_slow (debug : Bool) :
    (∀ n, n < 2 ^ 32 → ∃ data x, data.length = 96 ∧ (readData debug noHints data).1 = .ok x ∧
      n < (M.data debug noHints data).2.steps) ∧
    ¬ ∀ data, (M.data debug noHints data).2.steps ≤ 2 ^ 25 * data.length := by
  have h : ∀ n, n < 2 ^ 32 → ∃ data x, data.length = 96 ∧ (readData debug noHints data).1 = .ok x ∧
      n < (M.data debug noHints data).2.steps := by
    intro n hn
    obtain ⟨data, h, ps, h1, h2, h3⟩ := C50_amplification debug n hn
    have := C90_below debug noHints data h ps h2
    exact ⟨data, _, h1, h2, by omega⟩
  refine ⟨h, fun hall => ?_⟩
  obtain ⟨data, _, h1, _, h2⟩ := h (2 ^ 32 - 1) (by decide)
  have := hall data
  omega

end Gvas
