import Verif.Spec.JsonText

/-!
# Specification vocabulary: the space between the parts of JSON text

How space is taken out of text and put into it, without a look at what the text stands for: all that
is followed is whether a place is inside of a string.
-/

namespace Gvas.Spec.Rfc8259

/-- The text without the space outside of strings; the switch says whether it starts inside of
one. -/
def squeeze : Bool → List Char → List Char
  | _, [] => []
  | false, c :: l =>
    if c = '"' then c :: squeeze true l
    else if c = ' ' ∨ c = '\t' ∨ c = '\n' ∨ c = '\r' then squeeze false l
    else c :: squeeze false l
  | true, [c] => [c]
  | true, c :: e :: l =>
    if c = '\\' then c :: e :: squeeze true l
    else if c = '"' then c :: squeeze false (e :: l)
    else c :: squeeze true (e :: l)

/-- A new line at a depth: two spaces for each bracket around it. -/
def newLine (depth : Nat) : List Char := '\n' :: List.replicate (2 * depth) ' '

/-- Text without space as it is laid out for people: a new line behind each opening bracket and each
comma and in front of each closing bracket, and a space behind each colon; nothing between brackets
with nothing between them.  The switch says whether the text starts inside of a string. -/
def spread : Nat → Bool → List Char → List Char
  | _, _, [] => []
  | d, false, [c] =>
    if c = ']' ∨ c = '}' then newLine (d - 1) ++ [c] else [c]
  | d, false, c :: e :: l =>
    if c = '"' then c :: spread d true (e :: l)
    else if c = '[' ∨ c = '{' then
      if e = ']' ∨ e = '}' then c :: e :: spread d false l
      else c :: newLine (d + 1) ++ spread (d + 1) false (e :: l)
    else if c = ']' ∨ c = '}' then newLine (d - 1) ++ c :: spread (d - 1) false (e :: l)
    else if c = ',' then c :: newLine d ++ spread d false (e :: l)
    else if c = ':' then c :: ' ' :: spread d false (e :: l)
    else c :: spread d false (e :: l)
  | _, true, [c] => [c]
  | d, true, c :: e :: l =>
    if c = '\\' then c :: e :: spread d true l
    else if c = '"' then c :: spread d false (e :: l)
    else c :: spread d true (e :: l)

end Gvas.Spec.Rfc8259
