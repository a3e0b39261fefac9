import Verif.Model.Text

/-!
# The property types (`src/properties/*.rs`)
-/

namespace Gvas

/-- `BytePropertyValue` (`src/properties/int_property.rs` 139-147). -/
inductive BytePropertyValue where
  | byte (v : UInt8)
  | namespaced (v : String)
deriving DecidableEq, Repr

/-- `Delegate` (`src/properties/delegate_property.rs` 12-20). -/
structure Delegate where
  object : String
  functionName : String
deriving DecidableEq, Repr

/-- `FieldPath` (`src/properties/field_path_property.rs` 12-20). -/
structure FieldPath where
  path : List String
  resolvedOwner : String
deriving DecidableEq, Repr

mutual
/-- `Property` (`src/properties/mod.rs` 487-548), with the single-field property
structs (`src/properties/int_property.rs`, `str_property.rs`,
`object_property.rs`, `delegate_property.rs`, ...) inlined. -/
inductive Property where
  | array (v : ArrayProperty)
  | bool (v : Bool)
  | byte (name : Option String) (v : BytePropertyValue)
  | double (v : F64)
  | enum (enumType : Option String) (v : String)
  | float (v : F32)
  | int16 (v : Int16)
  | int64 (v : Int64)
  | int8 (v : Int8)
  | int (v : Int32)
  | map (v : MapProperty)
  | name (arrayIndex : UInt32) (v : Option String)
  | object (v : String)
  | delegate (v : Delegate)
  | multicastInlineDelegate (v : List Delegate)
  | multicastSparseDelegate (v : List Delegate)
  | fieldPath (v : FieldPath)
  | set (propertyType : String) (allocationFlags : UInt32) (properties : List Property)
  | str (v : Option String)
  | struct (guid : Guid) (typeName : String) (v : StructPropertyValue)
  | structValue (v : StructPropertyValue)
  | text (v : FText)
  | uint16 (v : UInt16)
  | uint32 (v : UInt32)
  | uint64 (v : UInt64)
  | unknown (propertyName : String) (raw : Bytes)
/-- `ArrayProperty` (`src/properties/array_property.rs` 28-90). -/
inductive ArrayProperty where
  | bools (v : List Bool)
  | bytes (v : Bytes)
  | enums (v : List String)
  | floats (v : List F32)
  | ints (v : List Int32)
  | names (v : List (Option String))
  | strings (v : List (Option String))
  | structs (fieldName typeName : String) (guid : Guid) (v : List StructPropertyValue)
  | properties (propertyType : String) (v : List Property)
/-- `MapProperty` (`src/properties/map_property.rs` 23-96). -/
inductive MapProperty where
  | enumBool (v : List (String × Bool))
  | enumInt (v : List (String × Int32))
  | enumProperty (valueType : String) (v : List (String × Property))
  | nameBool (v : List (String × Bool))
  | nameInt (v : List (String × Int32))
  | nameProperty (valueType : String) (v : List (String × Property))
  | properties (keyType valueType : String) (allocationFlags : UInt32)
      (v : List (Property × Property))
  | strBool (v : List (String × Bool))
  | strInt (v : List (String × Int32))
  | strProperty (valueType : String) (v : List (String × Property))
  | strStr (v : List (String × Option String))
/-- `StructPropertyValue` (`src/properties/struct_property.rs` 52-86) with the
structs of `src/properties/struct_types.rs` 88-178 inlined. -/
inductive StructPropertyValue where
  | vector2F (x y : F32)
  | vector2D (x y : F64)
  | vectorF (x y z : F32)
  | vectorD (x y z : F64)
  | rotatorF (pitch yaw roll : F32)
  | rotatorD (pitch yaw roll : F64)
  | quatF (x y z w : F32)
  | quatD (x y z w : F64)
  | dateTime (ticks : UInt64)
  | timespan (ticks : UInt64)
  | guid (g : Guid)
  | linearColor (r g b a : F32)
  | intPoint (x y : Int32)
  | gameplayTagContainer (tags : List String)
  | customStruct (fields : List (String × List Property))
end

instance : Inhabited Property := ⟨.bool false⟩

/-- The property type names `Property::new` dispatches on
(`src/properties/mod.rs` 560-604). -/
inductive Kind where
  | int8 | byte | int16 | uint16 | int | uint32 | int64 | uint64 | float | double | bool | enum
  | str | text | name | object | delegate | multicastInlineDelegate | multicastSparseDelegate
  | fieldPath | struct | array | set | map
deriving DecidableEq, Repr

/-- The name of a known property type (`src/properties/mod.rs` 560-604). -/
def Kind.typeName : Kind → String
  | .int8 => "Int8Property" | .byte => "ByteProperty" | .int16 => "Int16Property"
  | .uint16 => "UInt16Property" | .int => "IntProperty" | .uint32 => "UInt32Property"
  | .int64 => "Int64Property" | .uint64 => "UInt64Property" | .float => "FloatProperty"
  | .double => "DoubleProperty" | .bool => "BoolProperty" | .enum => "EnumProperty"
  | .str => "StrProperty" | .text => "TextProperty" | .name => "NameProperty"
  | .object => "ObjectProperty" | .delegate => "DelegateProperty"
  | .multicastInlineDelegate => "MulticastInlineDelegateProperty"
  | .multicastSparseDelegate => "MulticastSparseDelegateProperty"
  | .fieldPath => "FieldPathProperty" | .struct => "StructProperty"
  | .array => "ArrayProperty" | .set => "SetProperty" | .map => "MapProperty"

/-- All kinds, in the order of the match arms. -/
def Kind.all : List Kind :=
  [.int8, .byte, .int16, .uint16, .int, .uint32, .int64, .uint64, .float, .double, .bool, .enum,
   .str, .text, .name, .object, .delegate, .multicastInlineDelegate, .multicastSparseDelegate,
   .fieldPath, .struct, .array, .set, .map]

/-- The `match value_type` of `Property::new` (`src/properties/mod.rs`
560-604): `none` is the catch-all arm. -/
def Kind.ofName (s : String) : Option Kind := Kind.all.find? fun k => k.typeName == s

/-- The struct type names with a built-in layout
(`src/properties/struct_property.rs` 162-174). -/
inductive StructKind where
  | vector | vector2D | rotator | quat | dateTime | timespan | linearColor | intPoint | guid
  | gameplayTagContainer
deriving DecidableEq, Repr

/-- Their names (`src/properties/struct_property.rs` 163-172). -/
def StructKind.typeName : StructKind → String
  | .vector => "Vector" | .vector2D => "Vector2D" | .rotator => "Rotator" | .quat => "Quat"
  | .dateTime => "DateTime" | .timespan => "Timespan" | .linearColor => "LinearColor"
  | .intPoint => "IntPoint" | .guid => "Guid" | .gameplayTagContainer => "GameplayTagContainer"

/-- All built-in struct types, in the order of the match arms. -/
def StructKind.all : List StructKind :=
  [.vector, .vector2D, .rotator, .quat, .dateTime, .timespan, .linearColor, .intPoint, .guid,
   .gameplayTagContainer]

/-- The `match type_name` of `StructProperty::read_body`
(`src/properties/struct_property.rs` 162-174): `none` is the catch-all arm. -/
def StructKind.ofName (s : String) : Option StructKind :=
  StructKind.all.find? fun k => k.typeName == s

end Gvas
