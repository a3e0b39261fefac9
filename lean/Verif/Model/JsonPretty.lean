import Verif.Model.JsonText

/-!
# JSON as text for people: `serde_json::to_string_pretty`

This is how the tests show values (`tests/serde_tests/serde_json_template.rs` 48).  serde_json is not
part of the repository; its `PrettyFormatter` is modelled from knowledge of its sources.
-/

namespace Gvas

/-- The start of a line (`indent`, serde_json, with the default of two spaces). -/
def indent : Nat → List Char
  | 0 => []
  | n + 1 => ' ' :: ' ' :: indent n

mutual
/-- `serde_json::to_string_pretty` (`PrettyFormatter`), with the current indentation.  `end_array` and
`end_object` start a new line if there was a value. -/
def Ser.pretty (t : FloatText) (n : Nat) : Ser → List Char
  | .null => ['n', 'u', 'l', 'l']
  | .bool b => if b then ['t', 'r', 'u', 'e'] else ['f', 'a', 'l', 's', 'e']
  | .int i => intText i
  | .f32 f => if f.isFinite then t.f32 f else ['n', 'u', 'l', 'l']
  | .f64 f => if f.isFinite then t.f64 f else ['n', 'u', 'l', 'l']
  | .str s => strText s
  | .arr l => '[' :: itemsPretty t (n + 1) true l ++
      (if l.isEmpty then [] else '\n' :: indent n) ++ [']']
  | .obj l => '{' :: membersPretty t (n + 1) true l ++
      (if l.isEmpty then [] else '\n' :: indent n) ++ ['}']
/-- The elements of an array (`begin_array_value`, serde_json). -/
def itemsPretty (t : FloatText) (n : Nat) (first : Bool) : List Ser → List Char
  | [] => []
  | a :: l => (if first then ['\n'] else [',', '\n']) ++ indent n ++ Ser.pretty t n a ++
      itemsPretty t n false l
/-- The entries of an object (`begin_object_key` and `begin_object_value`, serde_json). -/
def membersPretty (t : FloatText) (n : Nat) (first : Bool) : List (String × Ser) → List Char
  | [] => []
  | (k, a) :: l => (if first then ['\n'] else [',', '\n']) ++ indent n ++ strText k ++ ':' :: ' ' ::
      Ser.pretty t n a ++ membersPretty t n false l
end

/-- `serde_json::to_string_pretty(&file)` (`tests/serde_tests/serde_json_template.rs` 48). -/
def GvasFile.toPretty (t : FloatText) (f : GvasFile) : String :=
  String.ofList (f.toSerde.pretty t 0)

/-- `serde_json::to_string_pretty` of a property (`tests/serde_tests/serde_json_template.rs` 48). -/
def Property.toPretty (t : FloatText) (p : Property) : String := String.ofList (p.toS.pretty t 0)

end Gvas
