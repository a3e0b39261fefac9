import Verif.Model.Basic

/-!
# Specification vocabulary: what it means to read back
-/

namespace Gvas.Spec

/-- Whatever follows the encoding of `a`, wherever it is in the stream and
whatever the path stack: reading yields `a`, the reader stands right behind the
encoding, and the stack is as before. -/
def ReadsBack {α : Type} (m : R α) (enc : Bytes) (a : α) : Prop :=
  ∀ (rest : Bytes) (pos : Nat) (stack : List String),
    m { rest := enc ++ rest, pos := pos, stack := stack } =
      (.ok a, { rest := rest, pos := pos + enc.length, stack := stack })

/-- The same for a reader that depends on the path: below the path `st`. -/
def ReadsBackAt {α : Type} (st : List String) (m : R α) (enc : Bytes) (a : α) : Prop :=
  ∀ (rest : Bytes) (pos : Nat),
    m { rest := enc ++ rest, pos := pos, stack := st } =
      (.ok a, { rest := rest, pos := pos + enc.length, stack := st })

/-- Every value reads back from its encoding. -/
def RoundTrips {α : Type} (m : R α) (enc : α → Bytes) : Prop := ∀ a, ReadsBack m (enc a) a

/-- `bs` are exactly `n` bytes, the least significant byte of `x` first. -/
def LittleEndian (n : Nat) (x : Nat) (bs : Bytes) : Prop :=
  bs.length = n ∧ ∀ i (h : i < bs.length), bs[i].toNat = x / 256 ^ i % 256

end Gvas.Spec
