import Verif.Model.Types

/-!
# The accessors of properties and struct values, and the constructors of texts

Each `get_x` and `get_x_mut` is an instance of `make_matcher!` (`src/properties/mod.rs` 412-432).
A mutable reference is modelled by the value it points at and by what becomes of the whole when
another value is stored through it.  Structs with several fields are tuples here.
-/

namespace Gvas

/-! ## `Property` -/

/-- `get_array` (`src/properties/mod.rs` 625). -/
def Property.getArray : Property → Option ArrayProperty
  | .array v => some v
  | _ => none

/-- `get_array_mut` (`src/properties/mod.rs` 625). -/
def Property.getArrayMut : Property → Option (ArrayProperty × (ArrayProperty → Property))
  | .array v => some (v, .array)
  | _ => none

/-- `get_enum` (`src/properties/mod.rs` 626). -/
def Property.getEnum : Property → Option (Option String × String)
  | .enum t v => some (t, v)
  | _ => none

/-- `get_enum_mut` (`src/properties/mod.rs` 626). -/
def Property.getEnumMut : Property → Option ((Option String × String) × (Option String × String → Property))
  | .enum t v => some ((t, v), fun x => .enum x.1 x.2)
  | _ => none

/-- `get_bool` (`src/properties/mod.rs` 627). -/
def Property.getBool : Property → Option Bool
  | .bool v => some v
  | _ => none

/-- `get_bool_mut` (`src/properties/mod.rs` 627). -/
def Property.getBoolMut : Property → Option (Bool × (Bool → Property))
  | .bool v => some (v, .bool)
  | _ => none

/-- `get_byte` (`src/properties/mod.rs` 628). -/
def Property.getByte : Property → Option (Option String × BytePropertyValue)
  | .byte n v => some (n, v)
  | _ => none

/-- `get_byte_mut` (`src/properties/mod.rs` 628). -/
def Property.getByteMut : Property → Option ((Option String × BytePropertyValue) × (Option String × BytePropertyValue → Property))
  | .byte n v => some ((n, v), fun x => .byte x.1 x.2)
  | _ => none

/-- `get_f64` (`src/properties/mod.rs` 629). -/
def Property.getF64 : Property → Option F64
  | .double v => some v
  | _ => none

/-- `get_f64_mut` (`src/properties/mod.rs` 629). -/
def Property.getF64Mut : Property → Option (F64 × (F64 → Property))
  | .double v => some (v, .double)
  | _ => none

/-- `get_f32` (`src/properties/mod.rs` 630). -/
def Property.getF32 : Property → Option F32
  | .float v => some v
  | _ => none

/-- `get_f32_mut` (`src/properties/mod.rs` 630). -/
def Property.getF32Mut : Property → Option (F32 × (F32 → Property))
  | .float v => some (v, .float)
  | _ => none

/-- `get_i16` (`src/properties/mod.rs` 631). -/
def Property.getI16 : Property → Option Int16
  | .int16 v => some v
  | _ => none

/-- `get_i16_mut` (`src/properties/mod.rs` 631). -/
def Property.getI16Mut : Property → Option (Int16 × (Int16 → Property))
  | .int16 v => some (v, .int16)
  | _ => none

/-- `get_i64` (`src/properties/mod.rs` 632). -/
def Property.getI64 : Property → Option Int64
  | .int64 v => some v
  | _ => none

/-- `get_i64_mut` (`src/properties/mod.rs` 632). -/
def Property.getI64Mut : Property → Option (Int64 × (Int64 → Property))
  | .int64 v => some (v, .int64)
  | _ => none

/-- `get_i8` (`src/properties/mod.rs` 633). -/
def Property.getI8 : Property → Option Int8
  | .int8 v => some v
  | _ => none

/-- `get_i8_mut` (`src/properties/mod.rs` 633). -/
def Property.getI8Mut : Property → Option (Int8 × (Int8 → Property))
  | .int8 v => some (v, .int8)
  | _ => none

/-- `get_int` (`src/properties/mod.rs` 634). -/
def Property.getInt : Property → Option Int32
  | .int v => some v
  | _ => none

/-- `get_int_mut` (`src/properties/mod.rs` 634). -/
def Property.getIntMut : Property → Option (Int32 × (Int32 → Property))
  | .int v => some (v, .int)
  | _ => none

/-- `get_u16` (`src/properties/mod.rs` 635). -/
def Property.getU16 : Property → Option UInt16
  | .uint16 v => some v
  | _ => none

/-- `get_u16_mut` (`src/properties/mod.rs` 635). -/
def Property.getU16Mut : Property → Option (UInt16 × (UInt16 → Property))
  | .uint16 v => some (v, .uint16)
  | _ => none

/-- `get_u32` (`src/properties/mod.rs` 636). -/
def Property.getU32 : Property → Option UInt32
  | .uint32 v => some v
  | _ => none

/-- `get_u32_mut` (`src/properties/mod.rs` 636). -/
def Property.getU32Mut : Property → Option (UInt32 × (UInt32 → Property))
  | .uint32 v => some (v, .uint32)
  | _ => none

/-- `get_u64` (`src/properties/mod.rs` 637). -/
def Property.getU64 : Property → Option UInt64
  | .uint64 v => some v
  | _ => none

/-- `get_u64_mut` (`src/properties/mod.rs` 637). -/
def Property.getU64Mut : Property → Option (UInt64 × (UInt64 → Property))
  | .uint64 v => some (v, .uint64)
  | _ => none

/-- `get_map` (`src/properties/mod.rs` 638). -/
def Property.getMap : Property → Option MapProperty
  | .map v => some v
  | _ => none

/-- `get_map_mut` (`src/properties/mod.rs` 638). -/
def Property.getMapMut : Property → Option (MapProperty × (MapProperty → Property))
  | .map v => some (v, .map)
  | _ => none

/-- `get_name` (`src/properties/mod.rs` 639). -/
def Property.getName : Property → Option (UInt32 × Option String)
  | .name i v => some (i, v)
  | _ => none

/-- `get_name_mut` (`src/properties/mod.rs` 639). -/
def Property.getNameMut : Property → Option ((UInt32 × Option String) × (UInt32 × Option String → Property))
  | .name i v => some ((i, v), fun x => .name x.1 x.2)
  | _ => none

/-- `get_object_ref` (`src/properties/mod.rs` 640). -/
def Property.getObjectRef : Property → Option String
  | .object v => some v
  | _ => none

/-- `get_object_ref_mut` (`src/properties/mod.rs` 640). -/
def Property.getObjectRefMut : Property → Option (String × (String → Property))
  | .object v => some (v, .object)
  | _ => none

/-- `get_delegate` (`src/properties/mod.rs` 641). -/
def Property.getDelegate : Property → Option Delegate
  | .delegate v => some v
  | _ => none

/-- `get_delegate_mut` (`src/properties/mod.rs` 641). -/
def Property.getDelegateMut : Property → Option (Delegate × (Delegate → Property))
  | .delegate v => some (v, .delegate)
  | _ => none

/-- `get_multicast_inline_delegate` (`src/properties/mod.rs` 644). -/
def Property.getMulticastInlineDelegate : Property → Option (List Delegate)
  | .multicastInlineDelegate v => some v
  | _ => none

/-- `get_multicast_inline_delegate_mut` (`src/properties/mod.rs` 644). -/
def Property.getMulticastInlineDelegateMut : Property → Option ((List Delegate) × (List Delegate → Property))
  | .multicastInlineDelegate v => some (v, .multicastInlineDelegate)
  | _ => none

/-- `get_multicast_sparse_delegate` (`src/properties/mod.rs` 649). -/
def Property.getMulticastSparseDelegate : Property → Option (List Delegate)
  | .multicastSparseDelegate v => some v
  | _ => none

/-- `get_multicast_sparse_delegate_mut` (`src/properties/mod.rs` 649). -/
def Property.getMulticastSparseDelegateMut : Property → Option ((List Delegate) × (List Delegate → Property))
  | .multicastSparseDelegate v => some (v, .multicastSparseDelegate)
  | _ => none

/-- `get_field_path` (`src/properties/mod.rs` 652). -/
def Property.getFieldPath : Property → Option FieldPath
  | .fieldPath v => some v
  | _ => none

/-- `get_field_path_mut` (`src/properties/mod.rs` 652). -/
def Property.getFieldPathMut : Property → Option (FieldPath × (FieldPath → Property))
  | .fieldPath v => some (v, .fieldPath)
  | _ => none

/-- `get_set` (`src/properties/mod.rs` 653). -/
def Property.getSet : Property → Option (String × UInt32 × List Property)
  | .set t f ps => some (t, f, ps)
  | _ => none

/-- `get_set_mut` (`src/properties/mod.rs` 653). -/
def Property.getSetMut : Property → Option ((String × UInt32 × List Property) × (String × UInt32 × List Property → Property))
  | .set t f ps => some ((t, f, ps), fun x => .set x.1 x.2.1 x.2.2)
  | _ => none

/-- `get_str` (`src/properties/mod.rs` 654). -/
def Property.getStr : Property → Option (Option String)
  | .str v => some v
  | _ => none

/-- `get_str_mut` (`src/properties/mod.rs` 654). -/
def Property.getStrMut : Property → Option ((Option String) × (Option String → Property))
  | .str v => some (v, .str)
  | _ => none

/-- `get_struct` (`src/properties/mod.rs` 655). -/
def Property.getStruct : Property → Option (Guid × String × StructPropertyValue)
  | .struct g t v => some (g, t, v)
  | _ => none

/-- `get_struct_mut` (`src/properties/mod.rs` 655). -/
def Property.getStructMut : Property → Option ((Guid × String × StructPropertyValue) × (Guid × String × StructPropertyValue → Property))
  | .struct g t v => some ((g, t, v), fun x => .struct x.1 x.2.1 x.2.2)
  | _ => none

/-- `get_text` (`src/properties/mod.rs` 656). -/
def Property.getText : Property → Option FText
  | .text v => some v
  | _ => none

/-- `get_text_mut` (`src/properties/mod.rs` 656). -/
def Property.getTextMut : Property → Option (FText × (FText → Property))
  | .text v => some (v, .text)
  | _ => none

/-- `get_unknown` (`src/properties/mod.rs` 657). -/
def Property.getUnknown : Property → Option (String × Bytes)
  | .unknown n raw => some (n, raw)
  | _ => none

/-- `get_unknown_mut` (`src/properties/mod.rs` 657). -/
def Property.getUnknownMut : Property → Option ((String × Bytes) × (String × Bytes → Property))
  | .unknown n raw => some ((n, raw), fun x => .unknown x.1 x.2)
  | _ => none

/-! ## `StructPropertyValue` -/

/-- `get_vector_f` (`src/properties/struct_property.rs` 505). -/
def StructPropertyValue.getVectorF : StructPropertyValue → Option (F32 × F32 × F32)
  | .vectorF x y z => some (x, y, z)
  | _ => none

/-- `get_vector_f_mut` (`src/properties/struct_property.rs` 505). -/
def StructPropertyValue.getVectorFMut : StructPropertyValue → Option ((F32 × F32 × F32) × (F32 × F32 × F32 → StructPropertyValue))
  | .vectorF x y z => some ((x, y, z), fun x => .vectorF x.1 x.2.1 x.2.2)
  | _ => none

/-- `get_vector_d` (`src/properties/struct_property.rs` 506). -/
def StructPropertyValue.getVectorD : StructPropertyValue → Option (F64 × F64 × F64)
  | .vectorD x y z => some (x, y, z)
  | _ => none

/-- `get_vector_d_mut` (`src/properties/struct_property.rs` 506). -/
def StructPropertyValue.getVectorDMut : StructPropertyValue → Option ((F64 × F64 × F64) × (F64 × F64 × F64 → StructPropertyValue))
  | .vectorD x y z => some ((x, y, z), fun x => .vectorD x.1 x.2.1 x.2.2)
  | _ => none

/-- `get_rotator_f` (`src/properties/struct_property.rs` 507). -/
def StructPropertyValue.getRotatorF : StructPropertyValue → Option (F32 × F32 × F32)
  | .rotatorF x y z => some (x, y, z)
  | _ => none

/-- `get_rotator_f_mut` (`src/properties/struct_property.rs` 507). -/
def StructPropertyValue.getRotatorFMut : StructPropertyValue → Option ((F32 × F32 × F32) × (F32 × F32 × F32 → StructPropertyValue))
  | .rotatorF x y z => some ((x, y, z), fun x => .rotatorF x.1 x.2.1 x.2.2)
  | _ => none

/-- `get_rotator_d` (`src/properties/struct_property.rs` 508). -/
def StructPropertyValue.getRotatorD : StructPropertyValue → Option (F64 × F64 × F64)
  | .rotatorD x y z => some (x, y, z)
  | _ => none

/-- `get_rotator_d_mut` (`src/properties/struct_property.rs` 508). -/
def StructPropertyValue.getRotatorDMut : StructPropertyValue → Option ((F64 × F64 × F64) × (F64 × F64 × F64 → StructPropertyValue))
  | .rotatorD x y z => some ((x, y, z), fun x => .rotatorD x.1 x.2.1 x.2.2)
  | _ => none

/-- `get_quat_f` (`src/properties/struct_property.rs` 509). -/
def StructPropertyValue.getQuatF : StructPropertyValue → Option (F32 × F32 × F32 × F32)
  | .quatF x y z w => some (x, y, z, w)
  | _ => none

/-- `get_quat_f_mut` (`src/properties/struct_property.rs` 509). -/
def StructPropertyValue.getQuatFMut : StructPropertyValue → Option ((F32 × F32 × F32 × F32) × (F32 × F32 × F32 × F32 → StructPropertyValue))
  | .quatF x y z w => some ((x, y, z, w), fun x => .quatF x.1 x.2.1 x.2.2.1 x.2.2.2)
  | _ => none

/-- `get_quat_d` (`src/properties/struct_property.rs` 510). -/
def StructPropertyValue.getQuatD : StructPropertyValue → Option (F64 × F64 × F64 × F64)
  | .quatD x y z w => some (x, y, z, w)
  | _ => none

/-- `get_quat_d_mut` (`src/properties/struct_property.rs` 510). -/
def StructPropertyValue.getQuatDMut : StructPropertyValue → Option ((F64 × F64 × F64 × F64) × (F64 × F64 × F64 × F64 → StructPropertyValue))
  | .quatD x y z w => some ((x, y, z, w), fun x => .quatD x.1 x.2.1 x.2.2.1 x.2.2.2)
  | _ => none

/-- `get_date_time` (`src/properties/struct_property.rs` 511). -/
def StructPropertyValue.getDateTime : StructPropertyValue → Option UInt64
  | .dateTime t => some t
  | _ => none

/-- `get_date_time_mut` (`src/properties/struct_property.rs` 511). -/
def StructPropertyValue.getDateTimeMut : StructPropertyValue → Option (UInt64 × (UInt64 → StructPropertyValue))
  | .dateTime t => some (t, .dateTime)
  | _ => none

/-- `get_int_point` (`src/properties/struct_property.rs` 512). -/
def StructPropertyValue.getIntPoint : StructPropertyValue → Option (Int32 × Int32)
  | .intPoint x y => some (x, y)
  | _ => none

/-- `get_int_point_mut` (`src/properties/struct_property.rs` 512). -/
def StructPropertyValue.getIntPointMut : StructPropertyValue → Option ((Int32 × Int32) × (Int32 × Int32 → StructPropertyValue))
  | .intPoint x y => some ((x, y), fun x => .intPoint x.1 x.2)
  | _ => none

/-- `get_guid` (`src/properties/struct_property.rs` 513). -/
def StructPropertyValue.getGuid : StructPropertyValue → Option Gvas.Guid
  | .guid g => some g
  | _ => none

/-- `get_guid_mut` (`src/properties/struct_property.rs` 513). -/
def StructPropertyValue.getGuidMut : StructPropertyValue → Option (Gvas.Guid × (Gvas.Guid → StructPropertyValue))
  | .guid g => some (g, .guid)
  | _ => none

/-- `get_custom_struct` (`src/properties/struct_property.rs` 517). -/
def StructPropertyValue.getCustomStruct : StructPropertyValue → Option (List (String × List Property))
  | .customStruct fs => some fs
  | _ => none

/-- `get_custom_struct_mut` (`src/properties/struct_property.rs` 517). -/
def StructPropertyValue.getCustomStructMut : StructPropertyValue → Option ((List (String × List Property)) × (List (String × List Property) → StructPropertyValue))
  | .customStruct fs => some (fs, .customStruct)
  | _ => none

/-! ## Texts -/

/-- `FText::new_none` (`src/properties/text_property.rs` 84-94). -/
def FText.newNone (flags : UInt32) (cultureInvariantString : Option (Option String)) : FText :=
  .mk flags (match cultureInvariantString with
    | some s => .none s
    | none => .empty)

/-- `FText::new_base` (`src/properties/text_property.rs` 97-111). -/
def FText.newBase (flags : UInt32) (ns key sourceString : Option String) : FText :=
  .mk flags (.base ns key sourceString)

end Gvas
