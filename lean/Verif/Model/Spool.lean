import Verif.Model.File

/-!
# What saving copies and holds

The writers with a meter.  A property with a header first writes its body to a
`Cursor<Vec<u8>>` of its own, to know the size, and then copies it behind the
header (`src/properties/mod.rs` 328-341, 358-371; `int_property.rs` 236-243;
`unknown_property.rs` 71-79); the elements of a struct array are buffered once
more (`array_property.rs` 453-464), and so is the whole file (`src/lib.rs`
518-536).  `Verif.Props.Spool` proves that the meter changes nothing.

What a buffer holds is counted by its length; its capacity, which grows by
doubling, is not modelled.
-/

namespace Gvas

/-- What has been written to a destination that was empty at first, how many
bytes were written on the way to it and to all buffers, and the greatest number
of bytes that it and the buffers held together at one time. -/
structure Spool where
  out : Out
  copied : Nat
  peak : Nat

/-- The number of bytes at the destination. -/
def Spool.size (s : Spool) : Nat := s.out.bytes.length

/-- Written straight to the destination. -/
def Spool.put (o : Out) : Spool := ⟨o, o.bytes.length, o.bytes.length⟩

/-- One after the other: what was written first stays while the second is. -/
def Spool.app (a b : Spool) : Spool :=
  ⟨a.out ++ b.out, a.copied + b.copied, max a.peak (a.size + b.peak)⟩

instance : Append Spool := ⟨Spool.app⟩

/-- `pre` is written to the destination, then the body to a buffer of its own,
then the rest with the body copied, `all` in the end (`src/properties/mod.rs`
328-341, 358-371).  The buffer is dropped afterwards. -/
def Spool.via (pre : Bytes) (body : Spool) (all : Out) : Spool :=
  ⟨all, body.copied + all.bytes.length, max (pre.length + body.peak) (body.size + all.bytes.length)⟩

/-- `headed` (`src/properties/mod.rs` 347-375): nothing goes to the destination
before the body is complete. -/
def Spool.headed (h : Bool) (ty : String) (parts : Out) (body : Spool) : Spool :=
  if h then Spool.via [] body (withHeader ty parts body.out) else body

/-- A value without a buffer of its own, or the failure to write it. -/
def Spool.leaf (r : Res Out) : Res Spool := do
  let o ← r
  return Spool.put o

/-- `ByteProperty::write` with header: the type name goes first
(`src/properties/int_property.rs` 233-245). -/
def Spool.byteHeader (name : Option String) (body : Spool) : Spool :=
  Spool.via (writeString "ByteProperty").bytes body (Gvas.byteHeader name body.out)

/-- The body of a struct array: the count, the field name and `StructProperty`
go first, the elements to a buffer (`src/properties/array_property.rs` 449-464). -/
def Spool.structArrayBody (count : Nat) (field ty : String) (guid : Guid) (elems : Spool) : Spool :=
  Spool.via
    (u32B (UInt32.ofNat count) ++ (writeString field).bytes ++ (writeString "StructProperty").bytes)
    elems (Gvas.structArrayBody count field ty guid elems.out)

mutual
/-- `Property::write` (`src/properties/mod.rs` 468-548), metered. -/
def Property.spool (cv : List (Guid × UInt32)) (h : Bool) : Property → Res Spool
  | .array v => do
    let b ← ArrayProperty.spoolBody cv v
    return Spool.headed h "ArrayProperty" (writeString v.propertyType) b
  | .bool v => .ok (Spool.put (writeBoolProperty h v))
  | .byte name v =>
    .ok (if h then Spool.byteHeader name (Spool.put v.write) else Spool.put v.write)
  | .double v => .ok (Spool.headed h "DoubleProperty" Out.nil (Spool.put ⟨f64B v, 8⟩))
  | .enum ty v => .ok (Spool.headed h "EnumProperty" (writeFString ty) (Spool.put (writeString v)))
  | .float v => .ok (Spool.headed h "FloatProperty" Out.nil (Spool.put ⟨f32B v, 4⟩))
  | .int16 v => .ok (Spool.headed h "Int16Property" Out.nil (Spool.put ⟨i16B v, 2⟩))
  | .int64 v => .ok (Spool.headed h "Int64Property" Out.nil (Spool.put ⟨i64B v, 8⟩))
  | .int8 v => .ok (Spool.headed h "Int8Property" Out.nil (Spool.put ⟨i8B v, 1⟩))
  | .int v => .ok (Spool.headed h "IntProperty" Out.nil (Spool.put ⟨i32B v, 4⟩))
  | .map v => do
    let b ← MapProperty.spoolBody cv v
    return Spool.headed h "MapProperty" (writeString v.keyType ++ writeString v.valueType) b
  | .name idx v =>
    .ok (if h then Spool.via [] (Spool.put (writeFString v))
        (withHeaderIndex "NameProperty" idx (writeFString v))
      else Spool.put (writeFString v))
  | .object v => .ok (Spool.headed h "ObjectProperty" Out.nil (Spool.put (writeString v)))
  | .delegate v => .ok (Spool.headed h "DelegateProperty" Out.nil (Spool.put v.write))
  | .multicastInlineDelegate v =>
    .ok (Spool.headed h "MulticastInlineDelegateProperty" Out.nil (Spool.put (writeMulticast v)))
  | .multicastSparseDelegate v =>
    .ok (Spool.headed h "MulticastSparseDelegateProperty" Out.nil (Spool.put (writeMulticast v)))
  | .fieldPath v => .ok (Spool.headed h "FieldPathProperty" Out.nil (Spool.put v.write))
  | .set ty flags ps => do
    let es ← spoolList cv ps
    return Spool.headed h "SetProperty" (writeString ty)
      (Spool.put (u32O flags ++ u32O (UInt32.ofNat ps.length)) ++ es)
  | .str v => .ok (Spool.headed h "StrProperty" Out.nil (Spool.put (writeFString v)))
  | .struct guid ty v => do
    let b ← StructPropertyValue.spoolBody cv v
    return Spool.headed h "StructProperty" (writeString ty ++ ⟨guidB guid, 16⟩) b
  | .structValue v =>
    if h then
      .err (.serializeInvalidValue "StructPropertyValue can not be serialized with a header")
    else StructPropertyValue.spoolBody cv v
  | .text v => do
    let b ← Spool.leaf (v.write cv)
    return Spool.headed h "TextProperty" Out.nil b
  | .uint16 v => .ok (Spool.headed h "UInt16Property" Out.nil (Spool.put ⟨u16B v, 2⟩))
  | .uint32 v => .ok (Spool.headed h "UInt32Property" Out.nil (Spool.put ⟨u32B v, 4⟩))
  | .uint64 v => .ok (Spool.headed h "UInt64Property" Out.nil (Spool.put ⟨u64B v, 8⟩))
  | .unknown name raw => .ok (Spool.headed h name Out.nil (Spool.put ⟨raw, raw.length⟩))
/-- `ArrayProperty::write_body` (`src/properties/array_property.rs` 366-479),
metered. -/
def ArrayProperty.spoolBody (cv : List (Guid × UInt32)) : ArrayProperty → Res Spool
  | .structs field ty guid v => do
    let es ← spoolStructs cv v
    return Spool.structArrayBody v.length field ty guid es
  | .properties _ v => do
    let es ← spoolList cv v
    return Spool.put (u32O (UInt32.ofNat v.length)) ++ es
  | v => Spool.leaf (ArrayProperty.writeBody cv v)
/-- `MapProperty::write_body` (`src/properties/map_property.rs` 500-672),
metered. -/
def MapProperty.spoolBody (cv : List (Guid × UInt32)) : MapProperty → Res Spool
  | .enumProperty _ v | .nameProperty _ v | .strProperty _ v => do
    let es ← spoolStrProps cv v
    return Spool.put (mapHead 0 v.length) ++ es
  | .properties _ _ flags v => do
    let es ← spoolPairs cv v
    return Spool.put (mapHead flags v.length) ++ es
  | v => Spool.leaf (MapProperty.writeBody cv v)
/-- `StructPropertyValue::write_body` (`src/properties/struct_property.rs`
235-369), metered. -/
def StructPropertyValue.spoolBody (cv : List (Guid × UInt32)) : StructPropertyValue → Res Spool
  | .customStruct fs => do
    let es ← spoolFields cv fs
    return es ++ Spool.put (writeString "None")
  | v => Spool.leaf (StructPropertyValue.writeBody cv v)
/-- Elements without headers (`src/properties/array_property.rs` 472-474,
`set_property.rs` 101-103), metered. -/
def spoolList (cv : List (Guid × UInt32)) : List Property → Res Spool
  | [] => .ok (Spool.put Out.nil)
  | p :: l => do
    let a ← Property.spool cv false p
    let b ← spoolList cv l
    return a ++ b
/-- Struct array elements (`src/properties/array_property.rs` 451-453), metered. -/
def spoolStructs (cv : List (Guid × UInt32)) : List StructPropertyValue → Res Spool
  | [] => .ok (Spool.put Out.nil)
  | p :: l => do
    let a ← StructPropertyValue.spoolBody cv p
    let b ← spoolStructs cv l
    return a ++ b
/-- String keyed map entries (`src/properties/map_property.rs` 545-549), metered. -/
def spoolStrProps (cv : List (Guid × UInt32)) : List (String × Property) → Res Spool
  | [] => .ok (Spool.put Out.nil)
  | (k, p) :: l => do
    let a ← Property.spool cv false p
    let b ← spoolStrProps cv l
    return Spool.put (writeString k) ++ a ++ b
/-- Property keyed map entries (`src/properties/map_property.rs` 603-606), metered. -/
def spoolPairs (cv : List (Guid × UInt32)) : List (Property × Property) → Res Spool
  | [] => .ok (Spool.put Out.nil)
  | (k, p) :: l => do
    let a ← Property.spool cv false k
    let b ← Property.spool cv false p
    let c ← spoolPairs cv l
    return a ++ b ++ c
/-- The fields of a custom struct (`src/properties/struct_property.rs` 358-364),
metered. -/
def spoolFields (cv : List (Guid × UInt32)) : List (String × List Property) → Res Spool
  | [] => .ok (Spool.put Out.nil)
  | (k, ps) :: l => do
    let a ← spoolFieldVals cv k ps
    let b ← spoolFields cv l
    return a ++ b
/-- The values of one field (`src/properties/struct_property.rs` 359-363),
metered. -/
def spoolFieldVals (cv : List (Guid × UInt32)) (k : String) : List Property → Res Spool
  | [] => .ok (Spool.put Out.nil)
  | p :: l => do
    let a ← Property.spool cv true p
    let b ← spoolFieldVals cv k l
    return Spool.put (writeString k) ++ a ++ b
end

/-- The top-level property loop of `write` (`src/lib.rs` 528-531), metered. -/
def spoolTop (cv : List (Guid × UInt32)) : List (String × Property) → Res Spool
  | [] => .ok (Spool.put Out.nil)
  | (k, p) :: l => do
    let a ← Property.spool cv true p
    let b ← spoolTop cv l
    return Spool.put (writeString k) ++ a ++ b

/-- The buffer that `write` fills before touching the output (`src/lib.rs`
518-533), metered. -/
def GvasFile.spool (f : GvasFile) : Res Spool := do
  let ps ← spoolTop f.header.customVersions f.properties
  return Spool.put f.header.write ++ ps ++ Spool.put (writeString "None") ++ Spool.put ⟨i32B 0, 4⟩

end Gvas
