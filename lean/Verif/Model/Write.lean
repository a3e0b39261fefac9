import Verif.Model.Read

/-!
# Writing properties (`PropertyTrait::write` / `write_body`)
-/

namespace Gvas

/-- A `u32`, four bytes. -/
def u32O (x : UInt32) : Out := ⟨u32B x, 4⟩

/-- `write` of `impl_write!` without `array_index` (`src/properties/mod.rs`
347-375) and of `UnknownProperty` (`unknown_property.rs` 72-81), given the body
and the type specific header parts. -/
def withHeader (ty : String) (parts body : Out) : Out :=
  { bytes := (writeString ty).bytes ++ u32B (UInt32.ofNat body.bytes.length) ++ u32B 0 ++
      parts.bytes ++ [0] ++ body.bytes
    n := 9 + body.n + (writeString ty).n + parts.n }

/-- `write` of `impl_write!(.., array_index)` (`src/properties/mod.rs` 316-345):
the array index is stored, and the length of the type name is not counted. -/
def withHeaderIndex (ty : String) (idx : UInt32) (body : Out) : Out :=
  { bytes := (writeString ty).bytes ++ u32B (UInt32.ofNat body.bytes.length) ++ u32B idx ++
      [0] ++ body.bytes
    n := 9 + body.n }

/-- `if !include_header { write_body } else { .. }`. -/
def headed (h : Bool) (ty : String) (parts body : Out) : Out :=
  if h then withHeader ty parts body else body

/-- `BytePropertyValue` written (`src/properties/int_property.rs` 254-260). -/
def BytePropertyValue.write : BytePropertyValue → Out
  | .byte v => ⟨u8B v, 1⟩
  | .namespaced s => writeString s

/-- `ByteProperty::write` with header (`src/properties/int_property.rs` 233-245). -/
def byteHeader (name : Option String) (body : Out) : Out :=
  { bytes := (writeString "ByteProperty").bytes ++ u64B (UInt64.ofNat body.bytes.length) ++
      (writeFString name).bytes ++ [0] ++ body.bytes
    n := 9 + (writeString "ByteProperty").n + body.n + (writeFString name).n }

/-- `BoolProperty::write` (`src/properties/int_property.rs` 304-323). -/
def writeBoolProperty (h : Bool) (v : Bool) : Out :=
  if h then writeString "BoolProperty" ++ ⟨u64B 0, 8⟩ ++ ⟨boolB v, 1⟩ ++ ⟨u8B 0, 1⟩
  else ⟨boolB v, 1⟩

/-- `Delegate::write` (`src/properties/delegate_property.rs` 43-48). -/
def Delegate.write (d : Delegate) : Out := writeString d.object ++ writeString d.functionName

/-- Writes in a loop. -/
def concatOut {α : Type} (f : α → Out) : List α → Out
  | [] => Out.nil
  | a :: l => f a ++ concatOut f l

/-- `MulticastScriptDelegate::write` (`src/properties/delegate_property.rs`
117-126). -/
def writeMulticast (ds : List Delegate) : Out :=
  u32O (UInt32.ofNat ds.length) ++ concatOut Delegate.write ds

/-- `FieldPath::write` (`src/properties/field_path_property.rs` 49-60). -/
def FieldPath.write (p : FieldPath) : Out :=
  u32O (UInt32.ofNat p.path.length) ++ concatOut writeString p.path ++ writeString p.resolvedOwner

/-- The body of a struct array around its elements
(`src/properties/array_property.rs` 440-462). -/
def structArrayBody (count : Nat) (field ty : String) (guid : Guid) (elems : Out) : Out :=
  { bytes := u32B (UInt32.ofNat count) ++ (writeString field).bytes ++
      (writeString "StructProperty").bytes ++ u64B (UInt64.ofNat elems.bytes.length) ++
      (writeString ty).bytes ++ guidB guid ++ u8B 0 ++ elems.bytes
    n := 29 + (writeString field).n + (writeString "StructProperty").n + elems.n +
      (writeString ty).n }

/-- `validate!(cond, msg)` of `StructPropertyValue::write_body`
(`src/properties/struct_property.rs` 27-35): an error, nothing written. -/
def writeIf (c : Bool) (o : Out) (msg : String) : Res Out :=
  if c then .ok o else .err (.serializeInvalidValue msg)

/-- The flags and count in front of a map's entries
(`src/properties/map_property.rs` 507-509). -/
def mapHead (flags : UInt32) (count : Nat) : Out := u32O flags ++ u32O (UInt32.ofNat count)

mutual
/-- `Property::write` (`enum_dispatch` of `PropertyTrait::write`,
`src/properties/mod.rs` 468-548, and the `write`/`write_body` of each type). -/
def Property.write (cv : List (Guid × UInt32)) (h : Bool) : Property → Res Out
  | .array v => do
    let b ← ArrayProperty.writeBody cv v
    return headed h "ArrayProperty" (writeString v.propertyType) b
  | .bool v => .ok (writeBoolProperty h v)
  | .byte name v => .ok (if h then byteHeader name v.write else v.write)
  | .double v => .ok (headed h "DoubleProperty" Out.nil ⟨f64B v, 8⟩)
  | .enum ty v => .ok (headed h "EnumProperty" (writeFString ty) (writeString v))
  | .float v => .ok (headed h "FloatProperty" Out.nil ⟨f32B v, 4⟩)
  | .int16 v => .ok (headed h "Int16Property" Out.nil ⟨i16B v, 2⟩)
  | .int64 v => .ok (headed h "Int64Property" Out.nil ⟨i64B v, 8⟩)
  | .int8 v => .ok (headed h "Int8Property" Out.nil ⟨i8B v, 1⟩)
  | .int v => .ok (headed h "IntProperty" Out.nil ⟨i32B v, 4⟩)
  | .map v => do
    let b ← MapProperty.writeBody cv v
    return headed h "MapProperty" (writeString v.keyType ++ writeString v.valueType) b
  | .name idx v =>
    .ok (if h then withHeaderIndex "NameProperty" idx (writeFString v) else writeFString v)
  | .object v => .ok (headed h "ObjectProperty" Out.nil (writeString v))
  | .delegate v => .ok (headed h "DelegateProperty" Out.nil v.write)
  | .multicastInlineDelegate v =>
    .ok (headed h "MulticastInlineDelegateProperty" Out.nil (writeMulticast v))
  | .multicastSparseDelegate v =>
    .ok (headed h "MulticastSparseDelegateProperty" Out.nil (writeMulticast v))
  | .fieldPath v => .ok (headed h "FieldPathProperty" Out.nil v.write)
  | .set ty flags ps => do
    let es ← writeList cv ps
    return headed h "SetProperty" (writeString ty)
      (u32O flags ++ u32O (UInt32.ofNat ps.length) ++ es)
  | .str v => .ok (headed h "StrProperty" Out.nil (writeFString v))
  | .struct guid ty v => do
    let b ← StructPropertyValue.writeBody cv v
    return headed h "StructProperty" (writeString ty ++ ⟨guidB guid, 16⟩) b
  | .structValue v =>
    if h then
      .err (.serializeInvalidValue "StructPropertyValue can not be serialized with a header")
    else StructPropertyValue.writeBody cv v
  | .text v => do
    let b ← v.write cv
    return headed h "TextProperty" Out.nil b
  | .uint16 v => .ok (headed h "UInt16Property" Out.nil ⟨u16B v, 2⟩)
  | .uint32 v => .ok (headed h "UInt32Property" Out.nil ⟨u32B v, 4⟩)
  | .uint64 v => .ok (headed h "UInt64Property" Out.nil ⟨u64B v, 8⟩)
  | .unknown name raw => .ok (headed h name Out.nil ⟨raw, raw.length⟩)
/-- `ArrayProperty::write_body` (`src/properties/array_property.rs` 366-479). -/
def ArrayProperty.writeBody (cv : List (Guid × UInt32)) : ArrayProperty → Res Out
  | .bools v => .ok (u32O (UInt32.ofNat v.length) ++ concatOut (fun b => ⟨boolB b, 1⟩) v)
  | .bytes v => .ok (u32O (UInt32.ofNat v.length) ++ concatOut (fun b => ⟨u8B b, 1⟩) v)
  | .enums v => .ok (u32O (UInt32.ofNat v.length) ++ concatOut writeString v)
  | .floats v => .ok (u32O (UInt32.ofNat v.length) ++ concatOut (fun b => ⟨f32B b, 4⟩) v)
  | .ints v => .ok (u32O (UInt32.ofNat v.length) ++ concatOut (fun b => ⟨i32B b, 4⟩) v)
  | .names v => .ok (u32O (UInt32.ofNat v.length) ++ concatOut writeFString v)
  | .strings v => .ok (u32O (UInt32.ofNat v.length) ++ concatOut writeFString v)
  | .structs field ty guid v => do
    let es ← writeStructs cv v
    return structArrayBody v.length field ty guid es
  | .properties _ v => do
    let es ← writeList cv v
    return u32O (UInt32.ofNat v.length) ++ es
/-- `MapProperty::write_body` (`src/properties/map_property.rs` 500-672). -/
def MapProperty.writeBody (cv : List (Guid × UInt32)) : MapProperty → Res Out
  | .enumBool v | .nameBool v | .strBool v =>
    .ok (mapHead 0 v.length ++ concatOut (fun e => writeString e.1 ++ ⟨boolB e.2, 1⟩) v)
  | .enumInt v | .nameInt v | .strInt v =>
    .ok (mapHead 0 v.length ++ concatOut (fun e => writeString e.1 ++ ⟨i32B e.2, 4⟩) v)
  | .enumProperty _ v | .nameProperty _ v | .strProperty _ v => do
    let es ← writeStrProps cv v
    return mapHead 0 v.length ++ es
  | .strStr v =>
    .ok (mapHead 0 v.length ++ concatOut (fun e => writeString e.1 ++ writeFString e.2) v)
  | .properties _ _ flags v => do
    let es ← writePairs cv v
    return mapHead flags v.length ++ es
/-- `StructPropertyValue::write_body` (`src/properties/struct_property.rs`
235-369).  A `GameplayTagContainer` returns the number of tags plus the strings'
counts. -/
def StructPropertyValue.writeBody (cv : List (Guid × UInt32)) : StructPropertyValue → Res Out
  | .vector2F x y => writeIf (!lwc cv) ⟨f32B x ++ f32B y, 8⟩
      "Vector2F not supported when LWC is enabled, use Vector2D"
  | .vector2D x y => writeIf (lwc cv) ⟨f64B x ++ f64B y, 16⟩
      "Vector2D not supported when LWC is disabled, use Vector2F"
  | .vectorF x y z => writeIf (!lwc cv) ⟨f32B x ++ f32B y ++ f32B z, 12⟩
      "VectorF not supported when LWC is enabled, use VectorD"
  | .vectorD x y z => writeIf (lwc cv) ⟨f64B x ++ f64B y ++ f64B z, 24⟩
      "VectorD not supported when LWC is disabled, use VectorF"
  | .rotatorF x y z => writeIf (!lwc cv) ⟨f32B x ++ f32B y ++ f32B z, 12⟩
      "RotatorF not supported when LWC is enabled, use RotatorD"
  | .rotatorD x y z => writeIf (lwc cv) ⟨f64B x ++ f64B y ++ f64B z, 24⟩
      "RotatorD not supported when LWC is disabled, use RotatorF"
  | .quatF x y z w => writeIf (!lwc cv) ⟨f32B x ++ f32B y ++ f32B z ++ f32B w, 16⟩
      "QuatF not supported when LWC is enabled, use QuatD"
  | .quatD x y z w => writeIf (lwc cv) ⟨f64B x ++ f64B y ++ f64B z ++ f64B w, 32⟩
      "QuatD not supported when LWC is disabled, use QuatF"
  | .dateTime t => .ok ⟨u64B t, 8⟩
  | .timespan t => .ok ⟨u64B t, 8⟩
  | .linearColor r g b a => .ok ⟨f32B r ++ f32B g ++ f32B b ++ f32B a, 16⟩
  | .intPoint x y => .ok ⟨i32B x ++ i32B y, 8⟩
  | .guid g => .ok ⟨guidB g, 16⟩
  | .gameplayTagContainer tags =>
    .ok (⟨i32B (Int32.ofNat tags.length), tags.length⟩ ++ concatOut writeString tags)
  | .customStruct fs => do
    let es ← writeFields cv fs
    return es ++ writeString "None"
/-- Elements without headers, in a loop (`src/properties/array_property.rs`
472-474, `set_property.rs` 101-103). -/
def writeList (cv : List (Guid × UInt32)) : List Property → Res Out
  | [] => .ok Out.nil
  | p :: l => do
    let a ← Property.write cv false p
    let b ← writeList cv l
    return a ++ b
/-- Struct array elements (`src/properties/array_property.rs` 451-453). -/
def writeStructs (cv : List (Guid × UInt32)) : List StructPropertyValue → Res Out
  | [] => .ok Out.nil
  | p :: l => do
    let a ← StructPropertyValue.writeBody cv p
    let b ← writeStructs cv l
    return a ++ b
/-- String keyed map entries (`src/properties/map_property.rs` 545-549). -/
def writeStrProps (cv : List (Guid × UInt32)) : List (String × Property) → Res Out
  | [] => .ok Out.nil
  | (k, p) :: l => do
    let a ← Property.write cv false p
    let b ← writeStrProps cv l
    return writeString k ++ a ++ b
/-- Property keyed map entries (`src/properties/map_property.rs` 603-606). -/
def writePairs (cv : List (Guid × UInt32)) : List (Property × Property) → Res Out
  | [] => .ok Out.nil
  | (k, p) :: l => do
    let a ← Property.write cv false k
    let b ← Property.write cv false p
    let c ← writePairs cv l
    return a ++ b ++ c
/-- The fields of a custom struct (`src/properties/struct_property.rs` 358-364). -/
def writeFields (cv : List (Guid × UInt32)) : List (String × List Property) → Res Out
  | [] => .ok Out.nil
  | (k, ps) :: l => do
    let a ← writeFieldVals cv k ps
    let b ← writeFields cv l
    return a ++ b
/-- The values of one field (`src/properties/struct_property.rs` 359-363). -/
def writeFieldVals (cv : List (Guid × UInt32)) (k : String) : List Property → Res Out
  | [] => .ok Out.nil
  | p :: l => do
    let a ← Property.write cv true p
    let b ← writeFieldVals cv k l
    return writeString k ++ a ++ b
end

/-- `Property::write_body` (`enum_dispatch`): what `write` without a header
does, except that `BoolProperty::write_body` is `unimplemented!()`
(`src/properties/int_property.rs` 325-327). -/
def Property.writeBody (cv : List (Guid × UInt32)) : Property → Res Out
  | .bool _ => .panic "not implemented"
  | p => Property.write cv false p

end Gvas
