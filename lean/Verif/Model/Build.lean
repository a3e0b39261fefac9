import Verif.Model.Access
import Verif.Model.Construct
import Verif.Model.GuidText

/-!
# The remaining constructors and conversions

The property structs are inlined in `Property`, so a constructor gives a `Property` here; structs
with several fields are tuples, as in `Verif.Model.Access`.
-/

namespace Gvas

/-! ## Numbers and flags -/

/-- `Int8Property::new` (`src/properties/int_property.rs` 98-101). -/
def Property.newInt8 (v : Int8) : Property := .int8 v
/-- `Int16Property::new` (`src/properties/int_property.rs` 42-47, 332). -/
def Property.newInt16 (v : Int16) : Property := .int16 v
/-- `UInt16Property::new` (`src/properties/int_property.rs` 42-47, 333). -/
def Property.newUInt16 (v : UInt16) : Property := .uint16 v
/-- `IntProperty::new` (`src/properties/int_property.rs` 42-47, 334). -/
def Property.newInt (v : Int32) : Property := .int v
/-- `UInt32Property::new` (`src/properties/int_property.rs` 42-47, 335). -/
def Property.newUInt32 (v : UInt32) : Property := .uint32 v
/-- `Int64Property::new` (`src/properties/int_property.rs` 42-47, 336). -/
def Property.newInt64 (v : Int64) : Property := .int64 v
/-- `UInt64Property::new` (`src/properties/int_property.rs` 42-47, 337). -/
def Property.newUInt64 (v : UInt64) : Property := .uint64 v
/-- `FloatProperty::new` (`src/properties/int_property.rs` 42-47, 330). -/
def Property.newFloat (v : F32) : Property := .float v
/-- `DoubleProperty::new` (`src/properties/int_property.rs` 42-47, 331). -/
def Property.newDouble (v : F64) : Property := .double v
/-- `BoolProperty::new` (`src/properties/int_property.rs` 274-277). -/
def Property.newBool (v : Bool) : Property := .bool v
/-- `ByteProperty::new` (`src/properties/int_property.rs` 163-166). -/
def Property.newByteValue (name : Option String) (v : BytePropertyValue) : Property := .byte name v
/-- `ByteProperty::new_byte` (`src/properties/int_property.rs` 169-175). -/
def Property.newByte (name : Option String) (v : UInt8) : Property := .byte name (.byte v)
/-- `ByteProperty::new_namespaced` (`src/properties/int_property.rs` 178-184). -/
def Property.newNamespaced (name : Option String) (v : String) : Property :=
  .byte name (.namespaced v)

/-! ## Strings -/

/-- `EnumProperty::new` (`src/properties/enum_property.rs` 25-28). -/
def Property.newEnum (ty : Option String) (v : String) : Property := .enum ty v
/-- `StrProperty::new` (`src/properties/str_property.rs` 37-40). -/
def Property.newStr (v : Option String) : Property := .str v
/-- `From<&str>`, `From<String> for StrProperty` (`src/properties/str_property.rs` 21-33). -/
def Property.strFrom (v : String) : Property := .newStr (some v)
/-- `From<Option<String>> for NameProperty` (`src/properties/name_property.rs` 41-47). -/
def Property.nameFromOpt (v : Option String) : Property := .name 0 v
/-- `From<&str>`, `From<String> for NameProperty` (`src/properties/name_property.rs` 27-39). -/
def Property.nameFrom (v : String) : Property := .nameFromOpt (some v)
/-- `ObjectProperty::new`, `From<&str> for ObjectProperty`
(`src/properties/object_property.rs` 20-32). -/
def Property.newObject (v : String) : Property := .object v
/-- `TextProperty::new` (`src/properties/text_property.rs` 33-35). -/
def Property.newText (v : FText) : Property := .text v
/-- `UnknownProperty::new` (`src/properties/unknown_property.rs` 19-22). -/
def Property.newUnknown (name : String) (raw : Bytes) : Property := .unknown name raw

/-! ## Delegates and paths -/

/-- `Delegate::new` (`src/properties/delegate_property.rs` 24-30). -/
def Delegate.new (object functionName : String) : Delegate := ⟨object, functionName⟩
/-- `DelegateProperty::new` (`src/properties/delegate_property.rs` 61-64). -/
def Property.newDelegate (v : Delegate) : Property := .delegate v
/-- `MulticastInlineDelegateProperty::new` of a `MulticastScriptDelegate::new`
(`src/properties/delegate_property.rs` 100-103, 139-142). -/
def Property.newMulticastInline (v : List Delegate) : Property := .multicastInlineDelegate v
/-- `MulticastSparseDelegateProperty::new` of a `MulticastScriptDelegate::new`
(`src/properties/delegate_property.rs` 100-103, 178-181). -/
def Property.newMulticastSparse (v : List Delegate) : Property := .multicastSparseDelegate v
/-- `FieldPath::new` (`src/properties/field_path_property.rs` 24-30). -/
def FieldPath.new (path : List String) (resolvedOwner : String) : FieldPath := ⟨path, resolvedOwner⟩
/-- `FieldPathProperty::new` (`src/properties/field_path_property.rs` 73-76). -/
def Property.newFieldPath (v : FieldPath) : Property := .fieldPath v

/-! ## Containers -/

/-- `SetProperty::new` (`src/properties/set_property.rs` 28-35). -/
def Property.newSet (ty : String) (flags : UInt32) (ps : List Property) : Property :=
  .set ty flags ps
/-- `StructProperty::new` (`src/properties/struct_property.rs` 90-97). -/
def Property.newStruct (guid : Guid) (ty : String) (v : StructPropertyValue) : Property :=
  .struct guid ty v
/-- `From<[(K, V); N]> for HashableIndexMap` (`src/types.rs` 259-276): `IndexMap::from_iter`
inserts the pairs first to last. -/
def imOfList {κ ν : Type} (same : κ → κ → Bool) (es : List (κ × ν)) : List (κ × ν) :=
  imExtend same [] es

/-! ## Struct values

Each `X::new` is an instance of `make_struct!` (`src/properties/struct_types.rs` 63-74). -/

namespace StructPropertyValue

/-- `From<Vector2F>` of `Vector2F::new` (`src/properties/struct_property.rs` 536-541). -/
def fromVector2F (x y : F32) : StructPropertyValue := .vector2F x y
/-- `From<Vector2D>` of `Vector2D::new` (`src/properties/struct_property.rs` 543-548). -/
def fromVector2D (x y : F64) : StructPropertyValue := .vector2D x y
/-- `From<VectorF>` of `VectorF::new` (`src/properties/struct_property.rs` 550-555). -/
def fromVectorF (x y z : F32) : StructPropertyValue := .vectorF x y z
/-- `From<VectorD>` of `VectorD::new` (`src/properties/struct_property.rs` 557-562). -/
def fromVectorD (x y z : F64) : StructPropertyValue := .vectorD x y z
/-- `From<RotatorF>` of `RotatorF::new` (`src/properties/struct_property.rs` 564-569). -/
def fromRotatorF (pitch yaw roll : F32) : StructPropertyValue := .rotatorF pitch yaw roll
/-- `From<RotatorD>` of `RotatorD::new` (`src/properties/struct_property.rs` 571-576). -/
def fromRotatorD (pitch yaw roll : F64) : StructPropertyValue := .rotatorD pitch yaw roll
/-- `From<QuatF>` of `QuatF::new` (`src/properties/struct_property.rs` 578-583). -/
def fromQuatF (x y z w : F32) : StructPropertyValue := .quatF x y z w
/-- `From<QuatD>` of `QuatD::new` (`src/properties/struct_property.rs` 585-590). -/
def fromQuatD (x y z w : F64) : StructPropertyValue := .quatD x y z w
/-- `From<DateTime>` of `DateTime::new` (`src/properties/struct_property.rs` 592-597). -/
def fromDateTime (ticks : UInt64) : StructPropertyValue := .dateTime ticks
/-- `From<Timespan>` of `Timespan::new` (`src/properties/struct_property.rs` 599-604). -/
def fromTimespan (ticks : UInt64) : StructPropertyValue := .timespan ticks
/-- `From<Guid>` (`src/properties/struct_property.rs` 606-611). -/
def fromGuid (g : Gvas.Guid) : StructPropertyValue := .guid g
/-- `From<LinearColor>` of `LinearColor::new` (`src/properties/struct_property.rs` 613-618). -/
def fromLinearColor (r g b a : F32) : StructPropertyValue := .linearColor r g b a
/-- `From<IntPoint>` of `IntPoint::new` (`src/properties/struct_property.rs` 620-625). -/
def fromIntPoint (x y : Int32) : StructPropertyValue := .intPoint x y

end StructPropertyValue

/-! ## GUIDs -/

/-- `From<[u32; 4]> for Guid` (`src/types.rs` 78-83). -/
def Guid.ofWords (w : UInt32 × UInt32 × UInt32 × UInt32) : Guid :=
  .fromU32 w.1 w.2.1 w.2.2.1 w.2.2.2
/-- `From<Guid> for [u32; 4]` (`src/types.rs` 85-90). -/
def Guid.words (g : Guid) : UInt32 × UInt32 × UInt32 × UInt32 := g.toU32
/-- `From<u128> for Guid` (`src/types.rs` 92-97). -/
def Guid.ofNumber (n : Nat) : Guid := .fromU128 n
/-- `From<Guid> for u128` (`src/types.rs` 99-104). -/
def Guid.number (g : Guid) : Nat := g.toU128

end Gvas
