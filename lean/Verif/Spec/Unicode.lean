import Verif.Spec.Codec

/-!
# Specification vocabulary: the Unicode encodings and stored strings

The two encoding forms as in the Unicode standard (tables 3-5 and 3-6), over numbers.
-/

namespace Gvas.Unicode

open Spec

/-- The bytes of a code point in UTF-8: the shortest form that holds its bits. -/
inductive Utf8 : Nat → List Nat → Prop
  | one (a : Nat) : a < 0x80 → Utf8 a [a]
  | two (a b : Nat) : a < 0x20 → b < 0x40 → 0x80 ≤ a * 0x40 + b →
      Utf8 (a * 0x40 + b) [0xC0 + a, 0x80 + b]
  | three (a b c : Nat) : a < 0x10 → b < 0x40 → c < 0x40 → 0x800 ≤ (a * 0x40 + b) * 0x40 + c →
      Utf8 ((a * 0x40 + b) * 0x40 + c) [0xE0 + a, 0x80 + b, 0x80 + c]
  | four (a b c d : Nat) : a < 0x08 → b < 0x40 → c < 0x40 → d < 0x40 →
      0x10000 ≤ ((a * 0x40 + b) * 0x40 + c) * 0x40 + d →
      Utf8 (((a * 0x40 + b) * 0x40 + c) * 0x40 + d) [0xF0 + a, 0x80 + b, 0x80 + c, 0x80 + d]

/-- The units of a code point in UTF-16: itself, or two surrogates. -/
inductive Utf16 : Nat → List Nat → Prop
  | one (a : Nat) : a < 0x10000 → Utf16 a [a]
  | two (a b : Nat) : a < 0x400 → b < 0x400 →
      Utf16 (0x10000 + a * 0x400 + b) [0xD800 + a, 0xDC00 + b]

/-- The units of a text: those of its characters one after the other. -/
inductive Encoded (form : Nat → List Nat → Prop) : List Char → List Nat → Prop
  | nil : Encoded form [] []
  | cons {c : Char} {cs : List Char} {us vs : List Nat} : form c.toNat us → Encoded form cs vs →
      Encoded form (c :: cs) (us ++ vs)

/-- Numbers of `w` bytes each, one after the other. -/
inductive Words (w : Nat) : List Nat → Bytes → Prop
  | nil : Words w [] []
  | cons {n : Nat} {ns : List Nat} {b bs : Bytes} : LittleEndian w n b → Words w ns bs →
      Words w (n :: ns) (b ++ bs)

/-- `b` stores the string `t` in bytes: the number of bytes with the zero at the end, the bytes of
UTF-8, a zero. -/
def Narrow (t : String) (b : Bytes) : Prop :=
  ∃ us len body, Encoded Utf8 t.toList us ∧ LittleEndian 4 (us.length + 1) len ∧
    Words 1 (us ++ [0]) body ∧ b = len ++ body

/-- `b` stores the string `t` in words: minus the number of words with the zero at the end (in two's
complement), the words of UTF-16, a zero. -/
def Wide (t : String) (b : Bytes) : Prop :=
  ∃ us len body, Encoded Utf16 t.toList us ∧ LittleEndian 4 (2 ^ 32 - (us.length + 1)) len ∧
    Words 2 (us ++ [0]) body ∧ b = len ++ body

/-- `b` stores the optional string `s` in at most `limit` units. -/
def Stored (limit : Nat) : Option String → Bytes → Prop
  | none, b => b = [0, 0, 0, 0]
  | some t, b => (Narrow t b ∧ b.length ≤ 4 + limit) ∨ (Wide t b ∧ b.length ≤ 4 + 2 * limit)

end Gvas.Unicode
