import Verif.Model.Serde

/-!
# JSON as text: `serde_json::to_string` and `serde_json::from_str`

This is how the tests save and load files (`tests/serde_tests/serde_json_round_trip.rs` 10-11), with
the features `float_roundtrip` and `preserve_order` of serde_json 1 (`Cargo.toml` 29).  serde_json
is not part of the repository; its behaviour is modelled from knowledge of its sources.

The digits of floats are those of ryu and a parameter here.  Text is read into a
`serde_json::Value` first.  Reading a file from text without this step differs in texts with a name
repeated in an object (an error for the fields of structs) and in entries of the outermost object
that mean nothing, which are skipped however deep they are.  Errors are `none` without their text.

All floats of a file stand inside properties, which serde buffers (tag `type`,
`src/properties/mod.rs` 492), so numbers are read as `f64` and then converted: the parser for `f32`
numbers of serde_json is never used.
-/

namespace Gvas

/-! ## Writing -/

/-- The texts of finite floats (`ryu::Buffer::format_finite`). -/
structure FloatText where
  /-- The text of an `f32`. -/
  f32 : F32 → List Char
  /-- The text of an `f64`. -/
  f64 : F64 → List Char

/-- A character inside a string (`format_escaped_str_contents` and `CharEscape`, serde_json). -/
def escapeChar (c : Char) : List Char :=
  if c = '"' then ['\\', '"']
  else if c = '\\' then ['\\', '\\']
  else if c = '\n' then ['\\', 'n']
  else if c = '\r' then ['\\', 'r']
  else if c = '\t' then ['\\', 't']
  else if c.toNat = 8 then ['\\', 'b']
  else if c.toNat = 12 then ['\\', 'f']
  else if c.toNat < 32 then
    ['\\', 'u', '0', '0', hexLower (c.toNat / 16), hexLower (c.toNat % 16)]
  else [c]

/-- A string (`format_escaped_str`, serde_json). -/
def strText (s : String) : List Char := '"' :: (s.toList.flatMap escapeChar ++ ['"'])

/-- An integer (`itoa`). -/
def intText (n : Int) : List Char :=
  (if n < 0 then ['-'] else []) ++ Nat.toDigits 10 n.natAbs

mutual
/-- `serde_json::to_string` (`CompactFormatter`): no space between the parts; floats that are not
finite are `null`. -/
def Ser.text (t : FloatText) : Ser → List Char
  | .null => ['n', 'u', 'l', 'l']
  | .bool b => if b then ['t', 'r', 'u', 'e'] else ['f', 'a', 'l', 's', 'e']
  | .int n => intText n
  | .f32 f => if f.isFinite then t.f32 f else ['n', 'u', 'l', 'l']
  | .f64 f => if f.isFinite then t.f64 f else ['n', 'u', 'l', 'l']
  | .str s => strText s
  | .arr l => '[' :: itemsText t l ++ [']']
  | .obj l => '{' :: membersText t l ++ ['}']
/-- The elements of an array. -/
def itemsText (t : FloatText) : List Ser → List Char
  | [] => []
  | a :: l => Ser.text t a ++ (if l.isEmpty then [] else ',' :: itemsText t l)
/-- The entries of an object. -/
def membersText (t : FloatText) : List (String × Ser) → List Char
  | [] => []
  | (k, a) :: l => strText k ++ ':' :: Ser.text t a ++
      (if l.isEmpty then [] else ',' :: membersText t l)
end

/-- `serde_json::to_string(&file)` (`tests/serde_tests/serde_json_round_trip.rs` 10). -/
def GvasFile.toText (t : FloatText) (f : GvasFile) : String := String.ofList (f.toSerde.text t)

/-! ## Numbers -/

/-- The number in front of which a 64 bit float with the bits `b` (without the sign) stands, in
units of the smallest float. -/
def floatUnits (b : Nat) : Nat :=
  if b / 2 ^ 52 = 0 then b else (2 ^ 52 + b % 2 ^ 52) * 2 ^ (b / 2 ^ 52 - 1)

/-- The bits of the greatest float that is not above `x / u`: `i` more bits behind `b` are found. -/
def lowerBits (u x : Nat) : Nat → Nat → Nat
  | 0, b => b
  | i + 1, b =>
    if floatUnits (b + 2 ^ i) * u ≤ x then lowerBits u x i (b + 2 ^ i) else lowerBits u x i b

/-- The bits of the float nearest to `x / u`, of two the even one (`lexical::parse_truncated_float`
of serde_json, feature `float_roundtrip`: correctly rounded). -/
def nearestBits (u x : Nat) : Nat :=
  let b := lowerBits u x 63 0
  let mid := (floatUnits b + floatUnits (b + 1)) * u
  if 2 * x < mid ∨ (2 * x = mid ∧ b % 2 = 0) then b else b + 1

/-- A decimal number: `mantissa * 10 ^ exponent`, with a sign; `whole` if it is written without a
fraction and an exponent. -/
structure Decimal where
  neg : Bool
  mantissa : Nat
  exponent : Int
  whole : Bool
deriving DecidableEq, Repr

/-- The JSON number (`parse_any_number` and `f64_from_parts`, serde_json): an integer of `i64` or
`u64`, else the nearest float, which must be finite; `-0` is a float. -/
def Decimal.toJ (d : Decimal) : Option J :=
  let n : Int := if d.neg then -(d.mantissa : Int) else d.mantissa
  if d.whole = true ∧ ¬ (d.neg = true ∧ d.mantissa = 0) ∧ -2 ^ 63 ≤ n ∧ n < 2 ^ 64 then some (.int n)
  else
    let b := nearestBits (10 ^ (-d.exponent).toNat)
      (d.mantissa * 10 ^ d.exponent.toNat * 2 ^ 1074)
    if b < 0x7FF0000000000000 then
      some (.float ⟨UInt64.ofNat ((if d.neg then 2 ^ 63 else 0) + b)⟩)
    else none

/-! ## Reading -/

namespace Text

/-- Space between the parts (`parse_whitespace`, serde_json). -/
def isSpace (c : Char) : Bool := c == ' ' || c == '\n' || c == '\t' || c == '\r'

/-- Skip space. -/
def skip (cs : List Char) : List Char := cs.dropWhile isSpace

/-- A decimal digit. -/
def isDigit (c : Char) : Bool := decide (48 ≤ c.toNat ∧ c.toNat ≤ 57)

/-- The number that digits stand for. -/
def digitsVal (ds : List Char) : Nat := ds.foldl (fun n c => 10 * n + (c.toNat - 48)) 0

/-- As many digits as there are, and the rest. -/
def digits (cs : List Char) : List Char × List Char :=
  (cs.takeWhile isDigit, cs.dropWhile isDigit)

/-- The digits before the point (`parse_integer`, serde_json): a zero is the only one. -/
def whole (cs : List Char) : Option (List Char × List Char) :=
  let r := digits cs
  if r.1 = [] then none
  else if r.1.head? = some '0' ∧ 1 < r.1.length then none
  else some r

/-- The digits behind the point, if there is one (`parse_decimal`, serde_json). -/
def fraction : List Char → Option (List Char × List Char)
  | '.' :: cs =>
    let r := digits cs
    if r.1 = [] then none else some r
  | cs => some ([], cs)

/-- The digits of an exponent. -/
def exponentDigits (neg : Bool) (cs : List Char) : Option (Option Int × List Char) :=
  let r := digits cs
  if r.1 = [] then none
  else some (some (if neg then -(digitsVal r.1 : Int) else digitsVal r.1), r.2)

/-- The exponent, if there is one (`parse_exponent`, serde_json). -/
def exponent (cs : List Char) : Option (Option Int × List Char) :=
  match cs with
  | c :: r =>
    if c = 'e' ∨ c = 'E' then
      match r with
      | '+' :: r' => exponentDigits false r'
      | '-' :: r' => exponentDigits true r'
      | _ => exponentDigits false r
    else some (none, cs)
  | [] => some (none, cs)

/-- A number without its sign. -/
def decimal (neg : Bool) (cs : List Char) : Option (Decimal × List Char) := do
  let (w, cs) ← whole cs
  let (f, cs) ← fraction cs
  let (x, cs) ← exponent cs
  return (⟨neg, digitsVal (w ++ f), x.getD 0 - f.length, f.isEmpty && x.isNone⟩, cs)

/-- A number with its sign. -/
def signed (cs : List Char) : Option (Decimal × List Char) :=
  match cs with
  | '-' :: r => decimal true r
  | _ => decimal false cs

/-- A number (`parse_any_number`, serde_json). -/
def number (cs : List Char) : Option (J × List Char) := do
  let (d, cs) ← signed cs
  return (← d.toJ, cs)

/-- Four hexadecimal digits of either case (`decode_hex_escape`, serde_json). -/
def hex4 : List Char → Option (Nat × List Char)
  | a :: b :: c :: d :: r => do
    let x ← hexCharVal a
    let y ← hexCharVal b
    let z ← hexCharVal c
    let w ← hexCharVal d
    return (((x * 16 + y) * 16 + z) * 16 + w, r)
  | _ => none

/-- Behind `\u` (`parse_unicode_escape`, serde_json): a character, or the first half of a surrogate
pair, which the second half must follow. -/
def unicode (cs : List Char) : Option (Char × List Char) := do
  let (n, cs) ← hex4 cs
  if n < 0xD800 ∨ 0xE000 ≤ n then return (Char.ofNat n, cs)
  else if n < 0xDC00 then
    match cs with
    | '\\' :: 'u' :: r => do
      let (m, r) ← hex4 r
      if 0xDC00 ≤ m ∧ m < 0xE000 then
        return (Char.ofNat (0x10000 + (n - 0xD800) * 0x400 + (m - 0xDC00)), r)
      else none
    | _ => none
  else none

/-- Behind a backslash (`parse_escape`, serde_json). -/
def escaped : List Char → Option (Char × List Char)
  | [] => none
  | c :: r =>
    if c = '"' then some ('"', r)
    else if c = '\\' then some ('\\', r)
    else if c = '/' then some ('/', r)
    else if c = 'b' then some (Char.ofNat 8, r)
    else if c = 'f' then some (Char.ofNat 12, r)
    else if c = 'n' then some ('\n', r)
    else if c = 'r' then some ('\r', r)
    else if c = 't' then some ('\t', r)
    else if c = 'u' then unicode r
    else none

/-- The characters of a string up to the closing quote (`parse_str`, serde_json); no more than the
given number. -/
def chars : Nat → List Char → Option (List Char × List Char)
  | 0, _ => none
  | _ + 1, [] => none
  | n + 1, c :: r =>
    if c = '"' then some ([], r)
    else if c = '\\' then do
      let (d, r) ← escaped r
      let (l, r) ← chars n r
      return (d :: l, r)
    else if c.toNat < 32 then none
    else do
      let (l, r) ← chars n r
      return (c :: l, r)

/-- A string with its quotes. -/
def string : List Char → Option (String × List Char)
  | '"' :: r => do
    let (l, r) ← chars r.length r
    return (String.ofList l, r)
  | _ => none

/-- A value that is neither an array nor an object. -/
def scalar (cs : List Char) : Option (J × List Char) :=
  match cs with
  | 'n' :: 'u' :: 'l' :: 'l' :: r => some (.null, r)
  | 't' :: 'r' :: 'u' :: 'e' :: r => some (.bool true, r)
  | 'f' :: 'a' :: 'l' :: 's' :: 'e' :: r => some (.bool false, r)
  | '"' :: _ => do
    let (s, r) ← string cs
    return (.str s, r)
  | _ => number cs

/-- The elements of an array up to the closing bracket (`SeqAccess`, serde_json); no more than the
given number. -/
def items (value : List Char → Option (J × List Char)) :
    Nat → List Char → Option (List J × List Char)
  | 0, _ => none
  | n + 1, cs => do
    let (j, cs) ← value (skip cs)
    match skip cs with
    | ']' :: r => return ([j], r)
    | ',' :: r => do
      let (l, r) ← items value n r
      return (j :: l, r)
    | _ => none

/-- The entries of an object up to the closing brace (`MapAccess`, serde_json); no more than the
given number. -/
def members (value : List Char → Option (J × List Char)) :
    Nat → List Char → Option (List (String × J) × List Char)
  | 0, _ => none
  | n + 1, cs => do
    let (k, cs) ← string (skip cs)
    match skip cs with
    | ':' :: cs => do
      let (j, cs) ← value (skip cs)
      match skip cs with
      | '}' :: r => return ([(k, j)], r)
      | ',' :: r => do
        let (l, r) ← members value n r
        return ((k, j) :: l, r)
      | _ => none
    | _ => none

/-- An array behind its opening bracket. -/
def array (value : List Char → Option (J × List Char)) (cs : List Char) :
    Option (J × List Char) :=
  match skip cs with
  | ']' :: r => some (.arr [], r)
  | _ => do
    let (l, r) ← items value cs.length cs
    return (.arr l, r)

/-- An object behind its opening brace. -/
def object (value : List Char → Option (J × List Char)) (cs : List Char) :
    Option (J × List Char) :=
  match skip cs with
  | '}' :: r => some (.obj [], r)
  | _ => do
    let (l, r) ← members value cs.length cs
    return (.obj l, r)

/-- A value with arrays and objects nested at most `d` deep (`parse_value` and `check_recursion!`,
serde_json). -/
def value : Nat → List Char → Option (J × List Char)
  | 0, cs => scalar cs
  | d + 1, cs =>
    match cs with
    | '[' :: r => array (value d) r
    | '{' :: r => object (value d) r
    | _ => scalar cs

end Text

mutual
/-- `serde_json::Map` keeps the last of the values with the same name, at the place of the first
(feature `preserve_order`). -/
def J.merge : J → J
  | .arr l => .arr (mergeList l)
  | .obj l => .obj (imExtend (· == ·) [] (mergeEntries l))
  | j => j
/-- In all elements. -/
def mergeList : List J → List J
  | [] => []
  | j :: l => j.merge :: mergeList l
/-- In the values of all entries. -/
def mergeEntries : List (String × J) → List (String × J)
  | [] => []
  | (k, j) :: l => (k, j.merge) :: mergeEntries l
end

/-- `serde_json::from_str::<Value>`: a value with space around it.  Nesting is limited to 127
(`remaining_depth` starts at 128 and must not become 0). -/
def J.ofText (s : String) : Option J := do
  let (j, r) ← Text.value 127 (Text.skip s.toList)
  if (Text.skip r).isEmpty then return j.merge else none

/-- `serde_json::from_str` of a file (`tests/serde_tests/serde_json_round_trip.rs` 11), by way of a
`Value`. -/
def GvasFile.ofText (s : String) : Option GvasFile := (J.ofText s).bind GvasFile.ofJson

end Gvas
