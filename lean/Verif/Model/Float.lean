import Verif.Model.Basic

/-!
# Float conversions (`as` between `f32`, `f64` and integers)

Floats are their bit patterns.  These conversions happen in serde and serde_json when a file is
turned into JSON and back; they are IEEE 754, rounding to nearest, ties to even.
-/

namespace Gvas

/-- Is a 32 bit float neither infinite nor NaN (`f32::is_finite`, std)? -/
def F32.isFinite (f : F32) : Bool := f.bits.toNat / 2 ^ 23 % 2 ^ 8 != 255

/-- Is a 64 bit float neither infinite nor NaN (`f64::is_finite`, std)? -/
def F64.isFinite (f : F64) : Bool := f.bits.toNat / 2 ^ 52 % 2 ^ 11 != 2047

/-- Drop the lowest `k` bits of `m`, rounding to nearest, ties to even. -/
def roundShift (m k : Nat) : Nat :=
  let q := m / 2 ^ k
  let r := 2 * (m % 2 ^ k)
  if 2 ^ k < r || (r == 2 ^ k && q % 2 == 1) then q + 1 else q

/-- `f as f64` of a finite `f32` (`Number::from_f32`, serde_json): exact.  Subnormal numbers
become normal ones. -/
def F32.toF64 (f : F32) : F64 :=
  let s := f.bits.toNat / 2 ^ 31
  let e := f.bits.toNat / 2 ^ 23 % 2 ^ 8
  let m := f.bits.toNat % 2 ^ 23
  let mag :=
    if e ≠ 0 then (e + 896) * 2 ^ 52 + m * 2 ^ 29
    else if m = 0 then 0
    else (Nat.log2 m + 874) * 2 ^ 52 + (m - 2 ^ Nat.log2 m) * 2 ^ (52 - Nat.log2 m)
  ⟨UInt64.ofNat (s * 2 ^ 63 + mag)⟩

/-- `v as f32` of a finite `f64` (`visit_f64` of serde's `f32`).  A carry out of the fraction
moves to the next exponent, up to infinity. -/
def F64.toF32 (f : F64) : F32 :=
  let s := f.bits.toNat / 2 ^ 63
  let e := f.bits.toNat / 2 ^ 52 % 2 ^ 11
  let m := f.bits.toNat % 2 ^ 52
  let mag :=
    if 1151 ≤ e then 0x7F800000
    else if 897 ≤ e then (e - 896) * 2 ^ 23 + roundShift m 29
    else if e = 0 then 0
    else roundShift (2 ^ 52 + m) (926 - e)
  ⟨UInt32.ofNat (s * 2 ^ 31 + mag)⟩

/-- The bits of the float with `w` fraction bits and exponent bias `bias` nearest to `n`
(`n as f32`, `n as f64` for `n` below `2 ^ 64`). -/
def natToFloat (w bias n : Nat) : Nat :=
  if n = 0 then 0
  else
    let k := Nat.log2 n
    if k ≤ w then (k + bias) * 2 ^ w + (n - 2 ^ k) * 2 ^ (w - k)
    else (k + bias - 1) * 2 ^ w + roundShift n (k - w)

/-- `n as f64` of an integer (`visit_i64`/`visit_u64` of serde's `f64`). -/
def F64.ofInt (n : Int) : F64 :=
  ⟨UInt64.ofNat ((if n < 0 then 2 ^ 63 else 0) + natToFloat 52 1023 n.natAbs)⟩

/-- `n as f32` of an integer (`visit_i64`/`visit_u64` of serde's `f32`). -/
def F32.ofInt (n : Int) : F32 :=
  ⟨UInt32.ofNat ((if n < 0 then 2 ^ 31 else 0) + natToFloat 23 127 n.natAbs)⟩

end Gvas
