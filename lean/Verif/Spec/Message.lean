import Verif.Props.DebugTexts

/-!
# Specification vocabulary: messages

Messages are given by templates, as in `#[error("...")]` of the crate thiserror and `write!` of Rust:
`{0}` is the first argument and `{1:#x}` the second one in hexadecimal.  The templates below are those of
the source, letter by letter.
-/

namespace Gvas.Spec

/-- The text is the number in hexadecimal, in lower case and without leading zeros. -/
inductive Hexadecimal : List Char → Nat → Prop
  | one {c : Char} {d : Nat} : "0123456789abcdef".toList[d]? = some c → Hexadecimal [c] d
  | more {t : List Char} {n : Nat} {c : Char} {d : Nat} : Hexadecimal t n → 0 < n →
      "0123456789abcdef".toList[d]? = some c → Hexadecimal (t ++ [c]) (16 * n + d)

/-- An argument of a message. -/
inductive Argument where
  | text (s : String)
  | number (v : Int)

/-- The text of an argument at `{0}`. -/
inductive Argument.Shown : Argument → List Char → Prop
  | text (s : String) : Shown (.text s) s.toList
  | number {v : Int} {t : List Char} : Numeral t v → Shown (.number v) t

/-- `Filled args template message`: the message is the template with the arguments filled in. -/
inductive Filled (args : List Argument) : List Char → List Char → Prop
  | done : Filled args [] []
  | letter {c : Char} {t m : List Char} : c ≠ '{' → Filled args t m → Filled args (c :: t) (c :: m)
  | shown {c : Char} {n : Nat} {a : Argument} {s t m : List Char} :
      "01234".toList[n]? = some c → args[n]? = some a → a.Shown s → Filled args t m →
      Filled args ('{' :: c :: '}' :: t) (s ++ m)
  | hexadecimal {c : Char} {n v : Nat} {s t m : List Char} :
      "01234".toList[n]? = some c → args[n]? = some (.number v) → Hexadecimal s v → Filled args t m →
      Filled args ('{' :: c :: ':' :: '#' :: 'x' :: '}' :: t) ('0' :: 'x' :: s ++ m)

/-- The messages of errors: template and arguments (`src/error.rs` 11-49, 90; the end of the input is
an error of the standard library; errors of the operating system have messages of their own). -/
def message : Err → Option (String × List Argument)
  | .invalidHeader s => some ("Invalid header: {0}", [.text s])
  | .invalidValueSize e a p => some
      ("Invalid value size, expected {0} got {1} at position {2:#x}", [.number e, .number a, .number p])
  | .invalidString n p => some
      ("Invalid string size {0} at position {1:#x}", [.number n.toInt, .number p])
  | .invalidStringTerminator n p => some
      ("Invalid string terminator {0} at position {1:#x}", [.number n.toNat, .number p])
  | .invalidBoolean n p => some
      ("Invalid boolean value {0} at position {1:#x}", [.number n.toNat, .number p])
  | .missingHint s h p => some
      ("Missing hint for struct {0} at path {1} at position {2:#x}", [.text s, .text h, .number p])
  | .missingArgument s p => some
      ("Missing argument: {0} at position {1:#x}", [.text s, .number p])
  | .invalidProperty s p => some
      ("Invalid property {0} at position {1:#x}", [.text s, .number p])
  | .invalidEnumValue s n p => some
      ("No discriminant in enum `{0}` matches the value `{1}` at position {2:#x}",
        [.text s, .number n.toInt, .number p])
  | .invalidArrayIndex n p => some
      ("Unexpected array_index value {0} at position {1:#x}", [.number n.toNat, .number p])
  | .invalidTerminator n p => some
      ("Unexpected terminator value {0} at position {1:#x}", [.number n.toNat, .number p])
  | .fromUtf16 p => some ("Invalid UTF-16 string at position {1:#x}", [.text "", .number p])
  | .fromUtf8 p => some ("Invalid UTF-8 string at position {1:#x}", [.text "", .number p])
  | .serializeInvalidValue s => some ("Invalid value {0}", [.text s])
  | .eof => some ("failed to fill whole buffer", [])
  | .io => none

end Gvas.Spec
