import Verif.Model.Basic

/-!
# Specification vocabulary: zlib streams

Which bytes are a zlib stream of which data, after RFC 1950 and RFC 1951.  Nothing is said about how
to decode them, or which of the streams of some data an encoder chooses.
-/

namespace Gvas.Spec.Zlib

/-- A number whose least significant bit comes first. -/
def low : List Bool → Nat
  | [] => 0
  | b :: w => b.toNat + 2 * low w

/-- A number whose most significant bit comes first. -/
def high (w : List Bool) : Nat := low w.reverse

/-- The bits of bytes: eight for each, the least significant one first. -/
def BitsOf : Bytes → List Bool → Prop
  | [], w => w = []
  | b :: bs, w => ∃ u v, w = u ++ v ∧ u.length = 8 ∧ low u = b.toNat ∧ BitsOf bs v

/-- The first code of a length (RFC 1951, 3.2.2), given the lengths of the codes of all symbols; a
length of zero means that a symbol is not used. -/
def firstCode (ls : List Nat) : Nat → Nat
  | 0 => 0
  | l + 1 => 2 * (firstCode ls l + if l = 0 then 0 else ls.count l)

/-- The code of a symbol: the codes of one length are consecutive numbers in the order of the
symbols. -/
def Code (ls : List Nat) (s : Nat) (w : List Bool) : Prop :=
  ∃ l, ls[s]? = some l ∧ 0 < l ∧ l ≤ 15 ∧ w.length = l ∧
    high w = firstCode ls l + (ls.take s).count l

/-- The lengths leave no bit sequence without a meaning, or at most one symbol is used. -/
def Usable (ls : List Nat) : Prop :=
  ((ls.filter (· ≠ 0)).map fun l => 2 ^ (15 - l)).sum = 2 ^ 15 ∨ (ls.filter (· ≠ 0)).length ≤ 1

/-- The fixed code of literals, lengths and the end of a block (RFC 1951, 3.2.6). -/
def fixedLiterals : List Nat :=
  (List.range 288).map fun s => if s ≤ 143 then 8 else if s ≤ 255 then 9 else if s ≤ 279 then 7 else 8

/-- The fixed code of distances. -/
def fixedDistances : List Nat := (List.range 32).map fun _ => 5

/-- How many extra bits the symbol `257 + i` for a length has. -/
def lengthExtra (i : Nat) : Nat := if i < 8 then 0 else (i - 4) / 4

/-- How many extra bits a symbol for a distance has. -/
def distanceExtra (i : Nat) : Nat := if i < 4 then 0 else (i - 2) / 2

/-- The first number for symbol `i` if those before it stand for as many numbers as their extra bits
can tell apart. -/
def base (start : Nat) (extra : Nat → Nat) (i : Nat) : Nat :=
  start + ((List.range i).map fun j => 2 ^ extra j).sum

/-- The length told by a symbol and extra bits (RFC 1951, 3.2.5). -/
def Length (s : Nat) (w : List Bool) (n : Nat) : Prop :=
  (257 ≤ s ∧ s ≤ 284 ∧ w.length = lengthExtra (s - 257) ∧
    n = base 3 lengthExtra (s - 257) + low w) ∨ (s = 285 ∧ w = [] ∧ n = 258)

/-- The distance told by a symbol and extra bits (RFC 1951, 3.2.5). -/
def Distance (s : Nat) (w : List Bool) (d : Nat) : Prop :=
  s ≤ 29 ∧ w.length = distanceExtra s ∧ d = base 1 distanceExtra s + low w

/-- `out'` is `out` and `n` bytes more, each equal to the one `d` bytes before it. -/
def Copies (d n : Nat) (out out' : Bytes) : Prop :=
  d ≤ out.length ∧ out'.length = out.length + n ∧ out <+: out' ∧
    ∀ k, out.length ≤ k → k < out'.length → out'[k]? = out'[k - d]?

/-- What a block with these codes adds to the output. -/
inductive Tokens (lit dist : List Nat) : Bytes → List Bool → Bytes → Prop
  | done {out w} : Code lit 256 w → Tokens lit dist out w out
  | literal {out w v out'} (b : UInt8) : Code lit b.toNat w →
      Tokens lit dist (out ++ [b]) v out' → Tokens lit dist out (w ++ v) out'
  | copy {out w e w' e' v s n t d mid out'} : Code lit s w → Length s e n → Code dist t w' →
      Distance t e' d → Copies d n out mid → Tokens lit dist mid v out' →
      Tokens lit dist out (w ++ e ++ w' ++ e' ++ v) out'

/-- Code lengths, `n` in all, behind `acc` (RFC 1951, 3.2.7). -/
inductive Lengths (cl : List Nat) (n : Nat) : List Nat → List Bool → List Nat → Prop
  | done {acc} : acc.length = n → Lengths cl n acc [] acc
  | one {acc w v r s} : acc.length < n → s ≤ 15 → Code cl s w → Lengths cl n (acc ++ [s]) v r →
      Lengths cl n acc (w ++ v) r
  | again {acc w e v r} (l : Nat) : acc.length < n → Code cl 16 w → acc.getLast? = some l →
      e.length = 2 → Lengths cl n (acc ++ List.replicate (3 + low e) l) v r →
      Lengths cl n acc (w ++ e ++ v) r
  | zeros {acc w e v r} : acc.length < n → Code cl 17 w → e.length = 3 →
      Lengths cl n (acc ++ List.replicate (3 + low e) 0) v r → Lengths cl n acc (w ++ e ++ v) r
  | manyZeros {acc w e v r} : acc.length < n → Code cl 18 w → e.length = 7 →
      Lengths cl n (acc ++ List.replicate (11 + low e) 0) v r → Lengths cl n acc (w ++ e ++ v) r

/-- In which order the lengths of the code for code lengths are stored. -/
def lengthOrder : List Nat := [16, 17, 18, 0, 8, 7, 9, 6, 10, 5, 11, 4, 12, 3, 13, 2, 14, 1, 15]

/-- Numbers of three bits each. -/
def Triples : List Nat → List Bool → Prop
  | [], w => w = []
  | x :: xs, w => ∃ u v, w = u ++ v ∧ u.length = 3 ∧ low u = x ∧ Triples xs v

/-- The two codes of a block, as described in the block. -/
def Codes (lit dist : List Nat) (w : List Bool) : Prop :=
  ∃ (a b c t v : List Bool) (xs cl : List Nat), w = a ++ b ++ c ++ t ++ v ∧
    a.length = 5 ∧ b.length = 5 ∧ c.length = 4 ∧ low a ≤ 29 ∧ low b ≤ 29 ∧
    xs.length = low c + 4 ∧ Triples xs t ∧
    cl.length = 19 ∧ (∀ i s, lengthOrder[i]? = some s → cl[s]? = some (xs.getD i 0)) ∧ Usable cl ∧
    lit.length = low a + 257 ∧ dist.length = low b + 1 ∧
    Lengths cl (lit.length + dist.length) [] v (lit ++ dist) ∧ Usable lit ∧ Usable dist

/-- A block that starts `pos` bits behind a byte boundary, without the bit that tells whether it is
the last one. -/
inductive Block (pos : Nat) (out : Bytes) : List Bool → Bytes → Prop
  | stored {pad len nlen w} (bs : Bytes) : pad.length < 8 → (pos + 3 + pad.length) % 8 = 0 →
      len.length = 16 → nlen.length = 16 → (∀ i < 16, len[i]? = (nlen[i]?).map not) →
      bs.length = low len → BitsOf bs w →
      Block pos out ([false, false] ++ pad ++ len ++ nlen ++ w) (out ++ bs)
  | fixed {w out'} : Tokens fixedLiterals fixedDistances out w out' →
      Block pos out ([true, false] ++ w) out'
  | dynamic {lit dist v w out'} : Codes lit dist v → Tokens lit dist out w out' →
      Block pos out ([false, true] ++ v ++ w) out'

/-- Blocks up to and including the last one. -/
inductive Blocks : Nat → Bytes → List Bool → Bytes → Prop
  | last {pos out w out'} : Block pos out w out' → Blocks pos out (true :: w) out'
  | more {pos out w out' v out''} : Block pos out w out' →
      Blocks (pos + 1 + w.length) out' v out'' → Blocks pos out (false :: (w ++ v)) out''

/-- The sums of Adler-32 (RFC 1950, 9): of the bytes, and of these sums. -/
def adlerA (bs : Bytes) : Nat := (1 + (bs.map UInt8.toNat).sum) % 65521
/-- The sum of the sums. -/
def adlerB (bs : Bytes) : Nat := ((List.range bs.length).map fun i => adlerA (bs.take (i + 1))).sum % 65521

/-- A zlib stream (RFC 1950, 2.2) without a preset dictionary: header, blocks, up to seven bits of
any value, checksum. -/
def StreamOf (data stream : Bytes) : Prop :=
  ∃ (cmf flg : UInt8) (body check : Bytes) (w pad : List Bool),
    stream = [cmf, flg] ++ body ++ check ∧
    cmf.toNat % 16 = 8 ∧ cmf.toNat / 16 ≤ 7 ∧ (cmf.toNat * 256 + flg.toNat) % 31 = 0 ∧
    flg.toNat / 32 % 2 = 0 ∧
    BitsOf body (w ++ pad) ∧ pad.length < 8 ∧ Blocks 0 [] w data ∧
    check.length = 4 ∧ leNat check.reverse = adlerB data * 65536 + adlerA data

end Gvas.Spec.Zlib
