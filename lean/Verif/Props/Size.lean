import Verif.Lemmas.Weight
import Verif.Props.File
import Verif.Spec.Sample

/-!
# C50: how many properties a save can hold
-/

namespace Gvas

open Spec

private theorem scale_nonempty : Scale 1 (fun raw => if raw = [] then 0 else 1) 1 0 :=
  ⟨Nat.le_refl _, fun raw => by cases raw <;> simp, by omega⟩

private theorem scale_all : Scale 1 (fun _ => 1) (2 ^ 30) 1 :=
  ⟨by omega, fun raw => by omega, by omega⟩

/-- **C50**: a save holds at most 2^30 properties for each of its bytes.  This is linear, but the
factor is no less than about 2^25 (`C50_amplification`). -/
theorem C50_linear (debug : Bool) (hints : String → Option String) (data : Bytes) (h : GvasHeader)
    (ps : List (String × Property)) (hr : (readData debug hints data).1 = .ok (h, ps)) :
    (ps.map fun x => propertyCount x.2).sum ≤ 2 ^ 30 * data.length :=
  weight_data scale_all hr

/-- **C50** without unknown properties of no bytes: a save holds no more properties than bytes. -/
theorem C50_nonempty (debug : Bool) (hints : String → Option String) (data : Bytes) (h : GvasHeader)
    (ps : List (String × Property)) (hr : (readData debug hints data).1 = .ok (h, ps)) :
    (ps.map fun x => nonemptyCount x.2).sum ≤ data.length := by
  exact Nat.le_trans (weight_data scale_nonempty hr) (Nat.le_of_eq (Nat.one_mul _))

/-- Both theorems apply to the sample file, whose 1278 bytes hold 27 properties. -/
example : ∃ data h ps, (readData true sampleHints data).1 = .ok (h, ps) ∧
    data.length = 1278 ∧ (ps.map fun x => propertyCount x.2).sum = 27 ∧
    (ps.map fun x => nonemptyCount x.2).sum = 27 := by
  obtain ⟨data, he⟩ := fileOK_encodes (sampleFile_ok .default)
  have hl : (match (sampleFile .default).encode with | .ok d => d.length | .bad _ => 0) = 1278 := by
    decide +kernel
  rw [he] at hl
  have hr := fileOK_reads (sampleFile_ok .default) he (by simp only at hl; omega) []
  rw [List.append_nil] at hr
  exact ⟨data, _, _, hr, hl, by decide +kernel, by decide +kernel⟩

/-- A save with one array of `n` elements of an unknown type, each without any bytes. -/
def bombFile (n : Nat) : GvasFile :=
  { gameVersion := .default
    header := .version2 522 ⟨0, 0, 0, 0, ""⟩ 3 [] ""
    properties := [("a", .array (.properties "X" (List.replicate n (.unknown "X" []))))] }

private theorem bomb_ok (debug : Bool) (n : Nat) (hn : n < 2 ^ 32) :
    FileOK debug noHints (bombFile n) := by
  refine ⟨?_, by simp [bombFile], ?_⟩
  · simp only [bombFile, HeaderOK]
    exact ⟨by decide, by decide, by decide, by decide, by decide, by decide, by decide⟩
  · simp only [bombFile, List.forall_mem_cons]
    refine ⟨⟨by decide, by decide, ?_⟩, by simp⟩
    simp only [HeadOK, ArrayOK, List.length_replicate]
    refine ⟨by decide, by decide, by decide, fun h => absurd h (by decide), hn, ?_, ?_⟩
    · intro p hp q hq
      rw [List.eq_of_mem_replicate hp, List.eq_of_mem_replicate hq]
    · refine baresOK_iff.mpr fun p hp => ?_
      rw [List.eq_of_mem_replicate hp]
      simp only [BareOK]
      decide

private theorem bomb_list (cv : List (Guid × UInt32)) (n : Nat) :
    writeList cv (List.replicate n (.unknown "X" [])) = .ok Out.nil := by
  induction n with
  | zero => rfl
  | succ n ih =>
    rw [List.replicate_succ, writeList, ih]
    rfl

private theorem weigh_bomb (n : Nat) :
    propertyCount (.array (.properties "X" (List.replicate n (.unknown "X" [])))) = n + 1 := by
  simp only [propertyCount, weigh, weighArray, weighProps_eq, List.map_replicate,
    List.sum_replicate_nat]
  omega

/-- **C50**: 96 bytes hold any number of properties up to 2^32. -/
theorem C50_amplification (debug : Bool) (n : Nat) (hn : n < 2 ^ 32) :
    ∃ data h ps, data.length = 96 ∧ (readData debug noHints data).1 = .ok (h, ps) ∧
      (ps.map fun x => propertyCount x.2).sum = n + 1 := by
  obtain ⟨data, he⟩ := fileOK_encodes (bomb_ok debug n hn)
  have hl : data.length = 96 := by
    have h := he
    simp only [GvasFile.encode, bombFile, writeTop, Property.write, ArrayProperty.writeBody,
      bomb_list] at h
    cases h
    simp only [GvasHeader.write, Out.app_bytes, List.length_append, headed_true_length,
      ArrayProperty.propertyType, u32O_bytes, u32B_length, i32B_length, Out.nil_bytes,
      List.length_nil]
    decide +kernel
  have hr := fileOK_reads (bomb_ok debug n hn) he (by omega) []
  rw [List.append_nil] at hr
  refine ⟨data, _, _, hl, hr, ?_⟩
  simp only [bombFile, List.map_cons, List.map_nil, List.sum_cons, List.sum_nil, weigh_bomb]
  rfl

end Gvas
