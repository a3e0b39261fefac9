import Verif.Spec.Inflate
import Verif.Lemmas.ZlibStream

/-!
# What decompression can give out: no more than 129 bytes for a bit

Helper lemmas for C93.
-/

namespace Gvas.Zlib

open Spec.Zlib

theorem length_le {s n : Nat} {w : List Bool} (h : Spec.Zlib.Length s w n) : n ≤ 258 := by
  rcases h with ⟨h1, h2, h3, rfl⟩ | ⟨-, -, rfl⟩
  · have h4 := low_lt w
    rw [h3] at h4
    have key : ∀ i < 28, base 3 lengthExtra i + 2 ^ lengthExtra i ≤ 259 := by decide +kernel
    have := key (s - 257) (by omega)
    omega
  · exact Nat.le_refl _

theorem bitsOf_length {bs : Bytes} {w : List Bool} (h : BitsOf bs w) : w.length = 8 * bs.length := by
  rw [(bitsOf_iff bs w).1 h, bits_length]

theorem someTokens_bound {lit dist : List Nat} {out out' : Bytes} {w : List Bool}
    (h : SomeTokens lit dist out w out') : out'.length ≤ out.length + 129 * w.length := by
  induction h with
  | here => simp
  | literal b hc _ ih =>
    have := code_length_pos hc
    simp only [List.length_append, List.length_cons, List.length_nil] at ih ⊢
    omega
  | copy h1 h2 h3 h4 h5 _ ih =>
    have := code_length_pos h1
    have := code_length_pos h3
    have := length_le h2
    have := h5.2.1
    simp only [List.length_append] at ih ⊢
    omega

theorem tokens_some {lit dist : List Nat} {out out' : Bytes} {w : List Bool}
    (h : Tokens lit dist out w out') : ∃ u v, w = u ++ v ∧ SomeTokens lit dist out u out' := by
  induction h with
  | done _ => exact ⟨[], _, rfl, .here⟩
  | literal b hc _ ih =>
    obtain ⟨u, v, rfl, h⟩ := ih
    exact ⟨_, v, (List.append_assoc _ _ _).symm, .literal b hc h⟩
  | copy h1 h2 h3 h4 h5 _ ih =>
    obtain ⟨u, v, rfl, h⟩ := ih
    exact ⟨_, v, (List.append_assoc _ _ _).symm, .copy h1 h2 h3 h4 h5 h⟩

theorem tokens_bound {lit dist : List Nat} {out out' : Bytes} {w : List Bool}
    (h : Tokens lit dist out w out') : out'.length ≤ out.length + 129 * w.length := by
  obtain ⟨u, v, rfl, h'⟩ := tokens_some h
  have := someTokens_bound h'
  rw [List.length_append]
  omega

theorem block_bound {pos : Nat} {out out' : Bytes} {w : List Bool} (h : Block pos out w out') :
    out'.length ≤ out.length + 129 * w.length := by
  cases h with
  | stored bs _ _ _ _ _ _ hb =>
    have := bitsOf_length hb
    simp only [List.length_append, List.length_cons, List.length_nil]
    omega
  | fixed ht =>
    have := tokens_bound ht
    simp only [List.length_append, List.length_cons, List.length_nil]
    omega
  | dynamic _ ht =>
    have := tokens_bound ht
    simp only [List.length_append, List.length_cons, List.length_nil]
    omega

theorem someBlocks_bound {pos : Nat} {out out' : Bytes} {w : List Bool}
    (h : SomeBlocks pos out w out') : out'.length ≤ out.length + 129 * w.length := by
  induction h with
  | here => simp
  | block last hb _ ih =>
    have := block_bound hb
    simp only [List.length_append, List.length_cons]
    omega
  | stored last bs _ _ _ _ _ hb =>
    have := bitsOf_length hb
    simp only [List.length_append, List.length_cons, List.length_nil]
    omega
  | fixed last ht =>
    have := someTokens_bound ht
    simp only [List.length_append, List.length_cons, List.length_nil]
    omega
  | dynamic last _ ht =>
    have := someTokens_bound ht
    simp only [List.length_append, List.length_cons, List.length_nil]
    omega

theorem yields_bound {input data : Bytes} (h : Yields input data) :
    data.length ≤ 1032 * (input.length - 2) := by
  rcases h with rfl | ⟨cmf, flg, body, w, v, out, rfl, h2, h3, h4⟩
  · simp
  · have h5 := bitsOf_length h2
    have h6 := someBlocks_bound h3
    have h7 := h4.length_le
    simp only [List.length_append, List.length_cons, List.length_nil] at h5 h6 ⊢
    omega

theorem blocks_some {pos : Nat} {out out' : Bytes} {w : List Bool} (h : Blocks pos out w out') :
    SomeBlocks pos out w out' := by
  induction h with
  | last h =>
    have := SomeBlocks.block true h .here
    rwa [List.append_nil] at this
  | more h _ ih => exact .block false h ih

theorem streamOf_yields {data s : Bytes} (h : StreamOf data s) (rest : Bytes) :
    Yields (s ++ rest) data := by
  obtain ⟨cmf, flg, body, check, w, pad, rfl, -, -, -, -, h1, -, h2, -⟩ := h
  refine .inr ⟨cmf, flg, body ++ check ++ rest, w, pad ++ bits (check ++ rest), data, by simp, ?_,
    blocks_some h2, List.prefix_refl _⟩
  rw [bitsOf_iff] at h1 ⊢
  rw [← List.append_assoc, h1, List.append_assoc body, bits_append body]

/-! ## Runs of zeros -/

/-- The code lengths for literals and lengths of the block below. -/
def runLit : List Nat := [2] ++ List.replicate 255 0 ++ [2] ++ List.replicate 28 0 ++ [1]

/-- The bits that describe the codes. -/
def runCodes : List Bool := ((bits [236, 224, 129, 0, 0, 0, 0, 128, 32, 236, 79, 189, 72, 85]).drop 3).take 103

theorem runCodes_valid : Codes runLit [1] runCodes := by
  have h : dynamicCodes runCodes = some ((runLit, [1]), []) := by decide +kernel
  obtain ⟨w, h1, h2⟩ := (exact_codes _ _ _).1 h
  rw [List.append_nil] at h1
  rw [h1]
  exact h2

theorem code_of {ls : List Nat} {s : Nat} {w : List Bool} (h : symbol ls w = some (s, [])) :
    Code ls s w := by
  obtain ⟨u, h1, h2⟩ := (exact_symbol ls _ _ _).1 h
  rw [List.append_nil] at h1
  rwa [h1]

theorem run_literal : Code runLit 0 [true, false] := code_of (by decide +kernel)
theorem run_end : Code runLit 256 [true, true] := code_of (by decide +kernel)
theorem run_copy : Code runLit 285 [false] := code_of (by decide +kernel)
theorem run_distance : Code [1] 0 [false] := code_of (by decide +kernel)

theorem copies_zeros (out : Bytes) (n : Nat) :
    Copies 1 n (out ++ [0]) (out ++ [0] ++ List.replicate n 0) := by
  refine ⟨by simp, by rw [List.length_append, List.length_replicate], List.prefix_append _ _, ?_⟩
  intro k h1 h2
  simp only [List.length_append, List.length_cons, List.length_nil, List.length_replicate] at h1 h2
  have h3 : ∀ i, out.length ≤ i → i < out.length + 1 + n →
      (out ++ [0] ++ List.replicate n (0 : UInt8))[i]? = some 0 := by
    intro i hi hj
    have e : out ++ [0] ++ List.replicate n (0 : UInt8) = out ++ List.replicate (n + 1) 0 := by
      rw [List.append_assoc]; rfl
    rw [e, List.getElem?_append_right hi, List.getElem?_replicate, if_pos (by omega)]
  rw [h3 k (by omega) (by omega), h3 (k - 1) (by omega) (by omega)]

theorem tokens_copies (out : Bytes) (n : Nat) :
    Tokens runLit [1] (out ++ [0]) (List.replicate (2 * n) false ++ [true, true])
      (out ++ [0] ++ List.replicate (258 * n) 0) := by
  induction n generalizing out with
  | zero => simpa using Tokens.done run_end
  | succ n ih =>
    have e1 : out ++ [0] ++ List.replicate 258 (0 : UInt8) =
        (out ++ List.replicate 258 0) ++ [0] := by
      rw [List.append_assoc, List.append_assoc, ← List.replicate_succ']
      rfl
    have e2 : out ++ [0] ++ List.replicate (258 * (n + 1)) (0 : UInt8) =
        (out ++ List.replicate 258 0) ++ [0] ++ List.replicate (258 * n) 0 := by
      rw [← e1, List.append_assoc _ (List.replicate 258 _), List.replicate_append_replicate]
      congr 2
      omega
    have e3 : List.replicate (2 * (n + 1)) false ++ [true, true] =
        [false] ++ [] ++ [false] ++ [] ++ (List.replicate (2 * n) false ++ [true, true]) := by
      rw [show 2 * (n + 1) = 2 * n + 1 + 1 from by omega, List.replicate_succ, List.replicate_succ]
      rfl
    rw [e2, e3]
    have hc := copies_zeros out 258
    rw [e1] at hc
    exact .copy run_copy (.inr ⟨rfl, rfl, rfl⟩) run_distance ⟨by decide, rfl, by decide⟩ hc
      (ih (out ++ List.replicate 258 0))

theorem bits_zeros (k : Nat) : bits (List.replicate k 0) = List.replicate (8 * k) false := by
  induction k with
  | zero => rfl
  | succ k ih =>
    rw [List.replicate_succ, show 8 * (k + 1) = 8 + 8 * k from by omega,
      ← List.replicate_append_replicate, ← ih]
    rfl

/-- The bytes that start a block of zeros: its codes, and three of the zeros. -/
def runStart : Bytes := [236, 224, 129, 0, 0, 0, 0, 128, 32, 236, 79, 189, 72, 85]

/-- The block of zeros: `k` bytes after `runStart`, and the two bits that end it. -/
theorem run_block (pos k : Nat) (out : Bytes) :
    ∃ w, bits (runStart ++ List.replicate k 0) ++ [true, true] = false :: w ∧
      Block pos out w (out ++ List.replicate (3 + 1032 * k) 0) := by
  have e : bits runStart = false :: ([false, true] ++ runCodes ++ [true, false] ++ [true, false] ++
      [true, false]) := by decide +kernel
  refine ⟨[false, true] ++ runCodes ++ ([true, false] ++ ([true, false] ++ ([true, false] ++
    (List.replicate (8 * k) false ++ [true, true])))), ?_, ?_⟩
  · rw [bits_append, e, bits_zeros]
    simp only [List.cons_append, List.append_assoc]
  · refine .dynamic runCodes_valid ?_
    refine .literal 0 run_literal (.literal 0 run_literal (.literal 0 run_literal ?_))
    have h := tokens_copies (out ++ [0] ++ [0]) (4 * k)
    rw [show 2 * (4 * k) = 8 * k from by omega, show 258 * (4 * k) = 1032 * k from by omega] at h
    have e2 : out ++ List.replicate (3 + 1032 * k) (0 : UInt8) =
        out ++ [0] ++ [0] ++ [0] ++ List.replicate (1032 * k) 0 := by
      rw [← List.replicate_append_replicate]
      simp [List.replicate]
    rw [e2]
    exact h

end Gvas.Zlib
