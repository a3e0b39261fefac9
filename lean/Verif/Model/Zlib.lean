import Verif.Model.Basic

/-!
# Decompression of zlib streams

The crate leaves compression to flate2 (`src/lib.rs` 93-95, 441-455, 549-559), which follows RFC 1950
(zlib) and RFC 1951 (deflate).  This is a decoder for the formats of these documents, written after
the small decoder `puff.c` that comes with zlib; which sets of code lengths are refused follows
miniz_oxide, flate2's decoder.
-/

namespace Gvas.Zlib

/-- The bits of a byte, least significant first (RFC 1951, 3.1.1). -/
def byteBits (b : UInt8) : List Bool := (List.range 8).map fun i => b.toNat.testBit i

/-- The bits of bytes in the order deflate consumes them (RFC 1951, 3.1.1). -/
def bits (bs : Bytes) : List Bool := bs.flatMap byteBits

/-- A number stored with its least significant bit first (RFC 1951, 3.1.1). -/
def lsb : List Bool → Nat
  | [] => 0
  | b :: l => b.toNat + 2 * lsb l

/-- A decoder consumes bits and gives a value and what is left, or fails. -/
def D (α : Type) := List Bool → Option (α × List Bool)

/-- Consume nothing. -/
def D.pure {α : Type} (a : α) : D α := fun s => some (a, s)

/-- One decoder after another. -/
def D.bind {α β : Type} (m : D α) (f : α → D β) : D β := fun s =>
  match m s with
  | some (a, r) => f a r
  | none => none

instance : Monad D where
  pure := D.pure
  bind := D.bind

/-- Corrupt data. -/
def D.fail {α : Type} : D α := fun _ => none

/-- Fail unless the condition holds. -/
def D.guard (c : Prop) [Decidable c] : D Unit := if c then D.pure () else D.fail

/-- The next `n` bits. -/
def D.take (n : Nat) : D (List Bool) := fun s =>
  if n ≤ s.length then some (s.take n, s.drop n) else none

/-- A number of `n` bits. -/
def D.number (n : Nat) : D Nat := do return lsb (← D.take n)

/-- Skip to the next byte boundary; the whole input ends on one (RFC 1951, 3.2.4). -/
def D.align : D Unit := fun s => some ((), s.drop (s.length % 8))

/-- The same decoder several times. -/
def D.replicate {α : Type} (m : D α) : Nat → D (List α)
  | 0 => return []
  | n + 1 => do
    let a ← m
    let l ← D.replicate m n
    return a :: l

/-! ## Huffman codes -/

/-- The `k`-th symbol, counted from zero, whose code has `len` bits. -/
def nthOf (len : Nat) : List Nat → Nat → Option Nat
  | [], _ => none
  | x :: l, k =>
    if x = len then
      match k with
      | 0 => some 0
      | k + 1 => (nthOf len l k).map (· + 1)
    else (nthOf len l k).map (· + 1)

/-- `decode` of `puff.c`: `ls` has the code length of every symbol, `len` is the number of bits of
`code` after the next one, and `first` the first code of that length. -/
def symbolFrom (ls : List Nat) : Nat → Nat → Nat → Nat → D Nat
  | 0, _, _, _ => D.fail
  | n + 1, len, code, first => do
    let b ← D.number 1
    let code := 2 * code + b
    if code - first < ls.count len then
      match nthOf len ls (code - first) with
      | some s => return s
      | none => D.fail
    else symbolFrom ls n (len + 1) code (2 * (first + ls.count len))

/-- A symbol of the code with these lengths, none of which is above fifteen. -/
def symbol (ls : List Nat) : D Nat := symbolFrom ls 15 1 0 0

/-- Lengths are used if they fill the code space, or if there is at most one symbol
(miniz_oxide, `init_tree`). -/
def usable (ls : List Nat) : Bool :=
  (ls.map fun l => if l = 0 then 0 else 2 ^ (15 - l)).sum = 2 ^ 15
    || decide ((ls.filter (· ≠ 0)).length ≤ 1)

/-- The lengths of the fixed code for literals and lengths (RFC 1951, 3.2.6). -/
def fixedLiterals : List Nat :=
  List.replicate 144 8 ++ List.replicate 112 9 ++ List.replicate 24 7 ++ List.replicate 8 8

/-- The lengths of the fixed code for distances (RFC 1951, 3.2.6). -/
def fixedDistances : List Nat := List.replicate 32 5

/-! ## Compressed data -/

/-- Shortest length and number of extra bits for the symbols 257 and up (RFC 1951, 3.2.5). -/
def lengthTable : List (Nat × Nat) :=
  [(3, 0), (4, 0), (5, 0), (6, 0), (7, 0), (8, 0), (9, 0), (10, 0), (11, 1), (13, 1), (15, 1),
   (17, 1), (19, 2), (23, 2), (27, 2), (31, 2), (35, 3), (43, 3), (51, 3), (59, 3), (67, 4),
   (83, 4), (99, 4), (115, 4), (131, 5), (163, 5), (195, 5), (227, 5), (258, 0)]

/-- Shortest distance and number of extra bits for the distance symbols (RFC 1951, 3.2.5). -/
def distanceTable : List (Nat × Nat) :=
  [(1, 0), (2, 0), (3, 0), (4, 0), (5, 1), (7, 1), (9, 2), (13, 2), (17, 3), (25, 3), (33, 4),
   (49, 4), (65, 5), (97, 5), (129, 6), (193, 6), (257, 7), (385, 7), (513, 8), (769, 8),
   (1025, 9), (1537, 9), (2049, 10), (3073, 10), (4097, 11), (6145, 11), (8193, 12), (12289, 12),
   (16385, 13), (24577, 13)]

/-- A number given by a table entry and extra bits. -/
def extended (table : List (Nat × Nat)) (i : Nat) : D Nat :=
  match table[i]? with
  | some (base, extra) => do return base + (← D.number extra)
  | none => D.fail

/-- Append `n` bytes, each the one `d` bytes before it (RFC 1951, 3.2.3). -/
def copy (d : Nat) : Nat → Bytes → Bytes
  | 0, out => out
  | n + 1, out => copy d n (out ++ [out.getD (out.length - d) 0])

/-- Literals and copies up to the end of the block (RFC 1951, 3.2.3); the first number bounds their
number. -/
def tokens (lit dist : List Nat) : Nat → Bytes → D Bytes
  | 0, _ => D.fail
  | n + 1, out => do
    let s ← symbol lit
    if s < 256 then tokens lit dist n (out ++ [UInt8.ofNat s])
    else if s = 256 then return out
    else
      let len ← extended lengthTable (s - 257)
      let d ← extended distanceTable (← symbol dist)
      D.guard (d ≤ out.length)
      tokens lit dist n (copy d len out)

/-- `tokens`, of which there are no more than bits. -/
def compressed (lit dist : List Nat) (out : Bytes) : D Bytes := fun s =>
  tokens lit dist (s.length + 1) out s

/-! ## Dynamic codes (RFC 1951, 3.2.7) -/

/-- The order of the lengths of the code for code lengths. -/
def lengthOrder : List Nat := [16, 17, 18, 0, 8, 7, 9, 6, 10, 5, 11, 4, 12, 3, 13, 2, 14, 1, 15]

/-- The lengths in the order of the symbols. -/
def inOrder (xs : List Nat) : List Nat := (List.range 19).map fun s => xs.getD (lengthOrder.idxOf s) 0

/-- The code lengths, `n` of them, behind those already known; the first number bounds the
steps. -/
def lengthsFrom (cl : List Nat) (n : Nat) : Nat → List Nat → D (List Nat)
  | 0, _ => D.fail
  | k + 1, acc =>
    if n ≤ acc.length then do
      D.guard (acc.length = n)
      return acc
    else do
      let s ← symbol cl
      if s < 16 then lengthsFrom cl n k (acc ++ [s])
      else if s = 16 then
        match acc.getLast? with
        | some l => do
          let r ← D.number 2
          lengthsFrom cl n k (acc ++ List.replicate (3 + r) l)
        | none => D.fail
      else if s = 17 then do
        let r ← D.number 3
        lengthsFrom cl n k (acc ++ List.replicate (3 + r) 0)
      else do
        let r ← D.number 7
        lengthsFrom cl n k (acc ++ List.replicate (11 + r) 0)

/-- The two codes of a block. -/
def dynamicCodes : D (List Nat × List Nat) := do
  let hlit ← D.number 5
  let hdist ← D.number 5
  let hclen ← D.number 4
  D.guard (hlit ≤ 29 ∧ hdist ≤ 29)
  let cl := inOrder (← D.replicate (D.number 3) (hclen + 4))
  D.guard (usable cl = true)
  let ls ← lengthsFrom cl (hlit + 257 + (hdist + 1)) (hlit + 257 + (hdist + 1) + 1) []
  D.guard (usable (ls.take (hlit + 257)) = true ∧ usable (ls.drop (hlit + 257)) = true)
  return (ls.take (hlit + 257), ls.drop (hlit + 257))

/-! ## Blocks and streams -/

/-- A byte. -/
def byte : D UInt8 := do return UInt8.ofNat (← D.number 8)

/-- A block without compression (RFC 1951, 3.2.4). -/
def stored (out : Bytes) : D Bytes := do
  D.align
  let len ← D.number 16
  let nlen ← D.number 16
  D.guard (len + nlen = 65535)
  return out ++ (← D.replicate byte len)

/-- A block behind the bit that tells whether it is the last one (RFC 1951, 3.2.3). -/
def block (out : Bytes) : D Bytes := do
  let ty ← D.number 2
  if ty = 0 then stored out
  else if ty = 1 then compressed fixedLiterals fixedDistances out
  else if ty = 2 then do
    let (lit, dist) ← dynamicCodes
    compressed lit dist out
  else D.fail

/-- Blocks up to the last one; the first number bounds their number. -/
def blocks : Nat → Bytes → D Bytes
  | 0, _ => D.fail
  | n + 1, out => do
    let last ← D.number 1
    let out ← block out
    if last = 1 then return out else blocks n out

/-- A deflate stream. -/
def deflated : D Bytes := fun s => blocks (s.length + 1) [] s

/-- One step of Adler-32 (RFC 1950, 9). -/
def adlerStep (s : Nat × Nat) (b : UInt8) : Nat × Nat :=
  ((s.1 + b.toNat) % 65521, (s.2 + (s.1 + b.toNat) % 65521) % 65521)

/-- Adler-32 (RFC 1950, 9). -/
def adler32 (bs : Bytes) : Nat :=
  let s := bs.foldl adlerStep (1, 0)
  s.2 * 65536 + s.1

/-- A zlib stream and what follows it (RFC 1950, 2.2), the format behind `ZlibDecoder`
(`src/lib.rs` 441-455). -/
def decode : Bytes → Option (Bytes × Bytes)
  | cmf :: flg :: body =>
    if cmf.toNat % 16 = 8 ∧ cmf.toNat / 16 ≤ 7 ∧ (cmf.toNat * 256 + flg.toNat) % 31 = 0 ∧
        flg.toNat / 32 % 2 = 0 then
      match deflated (bits body) with
      | some (out, r) =>
        match body.drop (body.length - r.length / 8) with
        | a :: b :: c :: d :: rest =>
          if leNat [d, c, b, a] = adler32 out then some (out, rest) else none
        | _ => none
      | none => none
    else none
  | _ => none

end Gvas.Zlib
