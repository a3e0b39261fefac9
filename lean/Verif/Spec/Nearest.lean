import Verif.Model.Basic

/-!
# Specification vocabulary: the numbers floats stand for

The magnitude of a binary float with `w` fraction bits, as a multiple of the smallest positive one:
that is a natural number, so no real numbers are needed.
-/

namespace Gvas.Spec

/-- The magnitude of the float whose bits without the sign are `b`: exponent 0 holds the subnormal
numbers.  By the same formula, infinity stands for the power of two behind the largest float. -/
def magnitude (w b : Nat) : Nat :=
  if b / 2 ^ w = 0 then b else (2 ^ w + b % 2 ^ w) * 2 ^ (b / 2 ^ w - 1)

/-- The distance of two numbers. -/
def distance (a b : Nat) : Nat := (a - b) + (b - a)

/-- Of all floats with `w` fraction bits up to infinity (the bits `top`), measured in units of `u`,
`b` is nearest to `x`; if another one is as near, `b` is even. -/
def Nearest (w top u x b : Nat) : Prop :=
  b ≤ top ∧ ∀ c, c ≤ top →
    distance (magnitude w b * u) x ≤ distance (magnitude w c * u) x ∧
    (distance (magnitude w b * u) x = distance (magnitude w c * u) x → b = c ∨ b % 2 = 0)

/-- The sign bit of a 32 bit float. -/
def sign32 (f : F32) : Nat := f.bits.toNat / 2 ^ 31
/-- The bits of a 32 bit float without the sign. -/
def abs32 (f : F32) : Nat := f.bits.toNat % 2 ^ 31
/-- The sign bit of a 64 bit float. -/
def sign64 (f : F64) : Nat := f.bits.toNat / 2 ^ 63
/-- The bits of a 64 bit float without the sign. -/
def abs64 (f : F64) : Nat := f.bits.toNat % 2 ^ 63

/-- The bits of infinity. -/
def inf32 : Nat := 0x7F800000
/-- The bits of infinity. -/
def inf64 : Nat := 0x7FF0000000000000

end Gvas.Spec
