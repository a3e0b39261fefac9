import Verif.Spec.File

/-!
# Specification vocabulary: the hints a file needs

The type of a struct that is an element of a set or a key or value of a map is not stored; a hint for
its path says how to read it.  `fileNeeds` lists the paths of all such structs in a file, each with the
name of its type if it has a fixed layout.  For the other structs the name does not matter, as long as
it is not one of those.
-/

namespace Gvas.Spec

/-- The name of the type of a struct with a fixed layout. -/
def structName : StructPropertyValue → Option String
  | .vector2F _ _ => some "Vector2D"
  | .vector2D _ _ => some "Vector2D"
  | .vectorF _ _ _ => some "Vector"
  | .vectorD _ _ _ => some "Vector"
  | .rotatorF _ _ _ => some "Rotator"
  | .rotatorD _ _ _ => some "Rotator"
  | .quatF _ _ _ _ => some "Quat"
  | .quatD _ _ _ _ => some "Quat"
  | .dateTime _ => some "DateTime"
  | .timespan _ => some "Timespan"
  | .guid _ => some "Guid"
  | .linearColor _ _ _ _ => some "LinearColor"
  | .intPoint _ _ => some "IntPoint"
  | .gameplayTagContainer _ => some "GameplayTagContainer"
  | .customStruct _ => none

/-- This type name is one for structs of the given kind. -/
def NameFits (ty : String) : Option String → Prop
  | some n => ty = n
  | none => ty ∉ builtinStructs

mutual
/-- The hints a property below the path `st` needs. -/
def needs (st : List String) : Property → List (String × Option String)
  | .array v => arrayNeeds (st ++ ["ArrayProperty"]) v
  | .map v => mapNeeds (st ++ ["MapProperty"]) v
  | .set _ _ ps => elemsNeeds (st ++ ["SetProperty"]) ps
  | .struct _ _ v => structNeeds (st ++ ["StructProperty"]) v
  | .structValue v => (joinDots (st ++ ["StructProperty"]), structName v) ::
      structNeeds (st ++ ["StructProperty"]) v
  | .bool _ => []
  | .byte _ _ => []
  | .double _ => []
  | .enum _ _ => []
  | .float _ => []
  | .int16 _ => []
  | .int64 _ => []
  | .int8 _ => []
  | .int _ => []
  | .name _ _ => []
  | .object _ => []
  | .delegate _ => []
  | .multicastInlineDelegate _ => []
  | .multicastSparseDelegate _ => []
  | .fieldPath _ => []
  | .str _ => []
  | .text _ => []
  | .uint16 _ => []
  | .uint32 _ => []
  | .uint64 _ => []
  | .unknown _ _ => []
/-- The hints an array needs.  Arrays of structs name the type themselves. -/
def arrayNeeds (st : List String) : ArrayProperty → List (String × Option String)
  | .structs _ _ _ v => structsNeeds st v
  | .properties _ ps => elemsNeeds st ps
  | .bools _ => []
  | .bytes _ => []
  | .enums _ => []
  | .floats _ => []
  | .ints _ => []
  | .names _ => []
  | .strings _ => []
/-- The hints a map needs. -/
def mapNeeds (st : List String) : MapProperty → List (String × Option String)
  | .enumProperty _ v => valuesNeeds (st ++ ["Value"]) v
  | .nameProperty _ v => valuesNeeds (st ++ ["Value"]) v
  | .strProperty _ v => valuesNeeds (st ++ ["Value"]) v
  | .properties _ _ _ m => entriesNeeds st m
  | .enumBool _ => []
  | .enumInt _ => []
  | .nameBool _ => []
  | .nameInt _ => []
  | .strBool _ => []
  | .strInt _ => []
  | .strStr _ => []
/-- The hints a struct at the path `st` needs for its fields. -/
def structNeeds (st : List String) : StructPropertyValue → List (String × Option String)
  | .customStruct fs => fieldsNeeds st fs
  | .vector2F _ _ => []
  | .vector2D _ _ => []
  | .vectorF _ _ _ => []
  | .vectorD _ _ _ => []
  | .rotatorF _ _ _ => []
  | .rotatorD _ _ _ => []
  | .quatF _ _ _ _ => []
  | .quatD _ _ _ _ => []
  | .dateTime _ => []
  | .timespan _ => []
  | .guid _ => []
  | .linearColor _ _ _ _ => []
  | .intPoint _ _ => []
  | .gameplayTagContainer _ => []
/-- The hints elements need. -/
def elemsNeeds (st : List String) : List Property → List (String × Option String)
  | [] => []
  | p :: l => needs st p ++ elemsNeeds st l
/-- The hints the structs of an array need for their fields. -/
def structsNeeds (st : List String) : List StructPropertyValue → List (String × Option String)
  | [] => []
  | v :: l => structNeeds st v ++ structsNeeds st l
/-- The hints the values of a map need. -/
def valuesNeeds (st : List String) : List (String × Property) → List (String × Option String)
  | [] => []
  | (_, p) :: l => needs st p ++ valuesNeeds st l
/-- The hints the entries of a map need. -/
def entriesNeeds (st : List String) : List (Property × Property) → List (String × Option String)
  | [] => []
  | (k, p) :: l => needs (st ++ ["Key"]) k ++ needs (st ++ ["Value"]) p ++ entriesNeeds st l
/-- The hints the fields of a struct need. -/
def fieldsNeeds (st : List String) : List (String × List Property) → List (String × Option String)
  | [] => []
  | (k, ps) :: l => elemsNeeds (st ++ [k]) ps ++ fieldsNeeds st l
end

/-- The hints a file needs. -/
def fileNeeds (f : GvasFile) : List (String × Option String) :=
  f.properties.flatMap fun e => needs [e.1] e.2

/-- The table has a hint for the path, which fits. -/
def Suits (hints : String → Option String) (n : String × Option String) : Prop :=
  ∃ ty, hints n.1 = some ty ∧ NameFits ty n.2

/-- The table lacks a hint for this path, and has fitting ones for all that is needed before it. -/
def FirstMissing (hints : String → Option String) (l : List (String × Option String))
    (path : String) : Prop :=
  ∃ pre k post, l = pre ++ (path, k) :: post ∧ (∀ n ∈ pre, Suits hints n) ∧ hints path = none

/-- The table made of what a file needs, with `other` for the structs without fixed layout. -/
def tableOf (f : GvasFile) (other : String) (path : String) : Option String :=
  ((fileNeeds f).lookup path).map fun k => k.getD other

end Gvas.Spec
