import Verif.Model.Display
import Verif.Model.GuidText
import Verif.Model.Types

/-!
# The texts of values written by hand in the source: `Debug` of numbers and GUIDs, `Display` of the
struct types

The text of a float is core's (`OrderedFloat` passes it on); it is a parameter here.
-/

namespace Gvas

/-- `Debug` of the integer and boolean properties (`src/properties/int_property.rs` 63-67, 133-137,
296-300, with the types of 332-337); `none` for the others, which derive it or hold floats. -/
def Property.debugNumber : Property → Option String
  | .int8 v => some (decInt v.toInt ++ "i8")
  | .int16 v => some (decInt v.toInt ++ "i16")
  | .uint16 v => some (decInt v.toNat ++ "u16")
  | .int v => some (decInt v.toInt ++ "i32")
  | .uint32 v => some (decInt v.toNat ++ "u32")
  | .int64 v => some (decInt v.toInt ++ "i64")
  | .uint64 v => some (decInt v.toNat ++ "u64")
  | .bool v => some (if v then "true" else "false")
  | _ => none

/-- `Debug for Guid` (`src/types.rs` 106-111). -/
def Guid.debug (g : Guid) : String := "Guid(" ++ String.ofList g.display ++ ")"

/-- The `write!(f, concat!(..), ..)` of `make_struct!` (`src/properties/struct_types.rs` 76-84):
`field: value ` for each field. -/
def displayFields : List (String × String) → String
  | [] => ""
  | (name, text) :: l => name ++ ": " ++ text ++ " " ++ displayFields l

/-- `Display` of the struct types (`src/properties/struct_types.rs` 76-84, 88-178); `f32` and `f64`
are the texts of floats.  GUIDs have their own, tags and custom structs have none. -/
def StructPropertyValue.display (f32 : F32 → String) (f64 : F64 → String) :
    StructPropertyValue → Option String
  | .vector2F x y => some (displayFields [("x", f32 x), ("y", f32 y)])
  | .vector2D x y => some (displayFields [("x", f64 x), ("y", f64 y)])
  | .vectorF x y z => some (displayFields [("x", f32 x), ("y", f32 y), ("z", f32 z)])
  | .vectorD x y z => some (displayFields [("x", f64 x), ("y", f64 y), ("z", f64 z)])
  | .rotatorF p y r => some (displayFields [("pitch", f32 p), ("yaw", f32 y), ("roll", f32 r)])
  | .rotatorD p y r => some (displayFields [("pitch", f64 p), ("yaw", f64 y), ("roll", f64 r)])
  | .quatF x y z w => some (displayFields [("x", f32 x), ("y", f32 y), ("z", f32 z), ("w", f32 w)])
  | .quatD x y z w => some (displayFields [("x", f64 x), ("y", f64 y), ("z", f64 z), ("w", f64 w)])
  | .dateTime t => some (displayFields [("ticks", decInt t.toNat)])
  | .timespan t => some (displayFields [("ticks", decInt t.toNat)])
  | .linearColor r g b a =>
    some (displayFields [("r", f32 r), ("g", f32 g), ("b", f32 b), ("a", f32 a)])
  | .intPoint x y => some (displayFields [("x", decInt x.toInt), ("y", decInt y.toInt)])
  | .guid _ => none
  | .gameplayTagContainer _ => none
  | .customStruct _ => none

end Gvas
