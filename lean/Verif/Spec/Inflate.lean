import Verif.Spec.Zlib
import Verif.Model.File

/-!
# Specification vocabulary: what a decompressor may give out

A decompressor need not see the end of a stream before it gives out what it has decoded: one over
another stops at the end of the inner stream, whatever is left of the outer one.  What it gives out
is determined by the bits it has seen.
-/

namespace Gvas.Spec.Zlib

/-- What a block with these codes has added to the output after the bits `w`, of which there may be
more. -/
inductive SomeTokens (lit dist : List Nat) : Bytes → List Bool → Bytes → Prop
  | here {out} : SomeTokens lit dist out [] out
  | literal {out w v out'} (b : UInt8) : Code lit b.toNat w →
      SomeTokens lit dist (out ++ [b]) v out' → SomeTokens lit dist out (w ++ v) out'
  | copy {out w e w' e' v s n t d mid out'} : Code lit s w → Length s e n → Code dist t w' →
      Distance t e' d → Copies d n out mid → SomeTokens lit dist mid v out' →
      SomeTokens lit dist out (w ++ e ++ w' ++ e' ++ v) out'

/-- The output after the bits `w`, of which there may be more: whole blocks, and perhaps the start
of another one. -/
inductive SomeBlocks : Nat → Bytes → List Bool → Bytes → Prop
  | here {pos out} : SomeBlocks pos out [] out
  | block {pos out w out' v out''} (last : Bool) : Block pos out w out' →
      SomeBlocks (pos + 1 + w.length) out' v out'' → SomeBlocks pos out (last :: (w ++ v)) out''
  | stored {pos out pad len nlen w} (last : Bool) (bs : Bytes) : pad.length < 8 →
      (pos + 3 + pad.length) % 8 = 0 → len.length = 16 → nlen.length = 16 →
      bs.length ≤ low len → BitsOf bs w →
      SomeBlocks pos out (last :: ([false, false] ++ pad ++ len ++ nlen ++ w)) (out ++ bs)
  | fixed {pos out w out'} (last : Bool) : SomeTokens fixedLiterals fixedDistances out w out' →
      SomeBlocks pos out (last :: ([true, false] ++ w)) out'
  | dynamic {pos out lit dist v w out'} (last : Bool) : Codes lit dist v →
      SomeTokens lit dist out w out' → SomeBlocks pos out (last :: ([false, true] ++ v ++ w)) out'

/-- `data` can be given out by a decompressor that has read `input` from its start, as far as it has
read. -/
def Yields (input data : Bytes) : Prop :=
  data = [] ∨ ∃ (cmf flg : UInt8) (body : Bytes) (w v : List Bool) (out : Bytes),
    input = cmf :: flg :: body ∧ BitsOf body (w ++ v) ∧ SomeBlocks 0 [] w out ∧ data <+: out

/-- A codec that gives out nothing but what it has decoded: one decompressor, and one over
another. -/
structure Faithful (z : Codec) : Prop where
  once : ∀ input data ok, z.inflate input = (data, ok) → Yields input data
  twice : ∀ input data, z.inflate2 input = some data → ∃ mid, Yields input mid ∧ Yields mid data

end Gvas.Spec.Zlib
