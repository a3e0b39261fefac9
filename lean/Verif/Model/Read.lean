import Verif.Model.Construct

/-!
# Reading properties (`Property::new` and the `read*` functions it calls)

Recursion is by fuel: `Property.read env n` may nest `n` levels, and at each
level texts and custom structs may recurse / loop as often as the level allows.
`GvasFile.readData` supplies more fuel than there are input bytes, and
`Verif.Props.Robust` proves that this is never exhausted.

`Vec::with_capacity(count)` for an unsigned 32 bit count may abort for lack of
memory; that is not modelled here, but `Verif.Model.Meter` records what is asked for.
-/

namespace Gvas

/-! ## Headers -/

/-- Run `m` when the flag is set (`if include_header { .. }`). -/
def R.onlyIf (b : Bool) (m : R Unit) : R Unit := if b then m else R.pure ()

/-- The terminator byte of a property header (`src/properties/mod.rs` 166-170,
198-202, 226-230, 258-262; `struct_property.rs` 132-136; `array_property.rs`
318-322). -/
def readTerminator : R Unit := do
  let t ← readU8
  R.ensure (t = 0) (do R.fail (.invalidTerminator t ((← R.position) - 1)))

/-- The body of a property with the size check around it
(`src/properties/mod.rs` 172-177, 204-209, 232-237, 264-269;
`struct_property.rs` 138-147). -/
def readSized {β : Type} (length : UInt32) (body : R β) : R β := do
  let start ← R.position
  let r ← body
  let stop ← R.position
  R.ensure (stop - start = length.toNat)
    (R.fail (.invalidValueSize length.toNat (stop - start) start))
  return r

/-- The array index of a header, which must be zero (`src/properties/mod.rs`
158-162, 190-194, 250-254; `struct_property.rs` 122-126). -/
def readZeroIndex : R Unit := do
  let idx ← readU32
  R.ensure (idx = 0) (do R.fail (.invalidArrayIndex idx ((← R.position) - 4)))

/-- `read_header` as generated by `impl_read_header!` without `array_index`
(`src/properties/mod.rs` 151-214, 243-275) and `StructProperty::read_header`
(`struct_property.rs` 116-154); `hdr` reads the type specific strings. -/
def readHeader {α β : Type} (hdr : R α) (body : UInt32 → α → R β) : R β := do
  let length ← readU32
  readZeroIndex
  let a ← hdr
  readTerminator
  readSized length (body length a)

/-- `check_size!` (`src/properties/int_property.rs` 18-29). -/
def checkSize (expected : Nat) : R Unit := do
  let v ← readU64
  R.ensure (v.toNat = expected)
    (do R.fail (.invalidValueSize expected v.toNat (← R.position)))

/-- `let separator = cursor.read_u8()?; assert_eq!(separator, 0)`
(`src/properties/int_property.rs` 56-57, 110-111, 205-206, 289-290;
`unknown_property.rs` 52-53). -/
def readSeparator : R Unit := do
  let t ← readU8
  R.ensure (t = 0) (R.panic "assertion `left == right` failed")

/-- The array index of byte and unknown properties, asserted to be zero
(`src/properties/int_property.rs` 195-201; `unknown_property.rs` 45-51). -/
def readAssertedIndex : R Unit := do
  let idx ← readU32
  R.ensure (idx = 0) (R.panic "Expected array_index value zero")

/-- `u32` subtraction: panics on underflow when overflow checks are on, wraps
otherwise. -/
def subU32 (debug : Bool) (a b : UInt32) : R UInt32 :=
  if a < b ∧ debug = true then R.panic "attempt to subtract with overflow" else R.pure (a - b)

/-! ## Scalars -/

/-- `read` of the fixed width properties (`src/properties/int_property.rs`
50-60, 104-116). -/
def readFixed {α : Type} (hdr : Bool) (size : Nat) (m : R α) : R α := do
  R.onlyIf hdr (do checkSize size; readSeparator)
  m

/-- `BoolProperty::read` (`src/properties/int_property.rs` 280-293). -/
def readBoolProperty (hdr : Bool) : R Bool := do
  R.onlyIf hdr (checkSize 0)
  let v ← readBool
  R.onlyIf hdr readSeparator
  return v

/-- The value of a byte property for a given `length`
(`src/properties/int_property.rs` 212-215). -/
def readByteValue (len : UInt32) : R BytePropertyValue :=
  if len = 1 ∨ len = 0 then do return .byte (← readU8)
  else do return .namespaced (← readString)

/-- `suggested_length.map(|e| e - 1).unwrap_or(1)`
(`src/properties/int_property.rs` 210). -/
def byteLength (debug : Bool) : Option UInt32 → R UInt32
  | none => R.pure 1
  | some e => subU32 debug e 1

/-- `ByteProperty::read` (`src/properties/int_property.rs` 187-218). -/
def readByteProperty (debug hdr : Bool) (suggested : Option UInt32) : R Property :=
  if hdr then do
    let length ← readU32
    readAssertedIndex
    let name ← readString
    readSeparator
    let len ← byteLength debug (some length)
    let v ← readByteValue len
    return .byte (some name) v
  else do
    let len ← byteLength debug suggested
    let v ← readByteValue len
    return .byte none v

/-! ## Strings, names, delegates, field paths -/

/-- `read` of `impl_read!()` / `impl_read!(options)` properties without header
strings (`src/properties/mod.rs` 73-103). -/
def readPlain {β : Type} (hdr : Bool) (body : R β) : R β :=
  if hdr then readHeader (R.pure ()) (fun _ _ => body) else body

/-- `EnumProperty::read` (`src/properties/enum_property.rs` 31-48). -/
def readEnumProperty (hdr : Bool) : R Property :=
  if hdr then
    readHeader readString (fun _ ty => do return .enum (some ty) (← readString))
  else do return .enum none (← readString)

/-- `NameProperty::read` (`src/properties/mod.rs` 105-117, 216-241;
`name_property.rs` 49-57): the array index is kept. -/
def readNameProperty (hdr : Bool) : R Property :=
  if hdr then do
    let length ← readU32
    let idx ← readU32
    readTerminator
    readSized length (do return .name idx (← readFString))
  else do return .name 0 (← readFString)

/-- `Delegate::read` (`src/properties/delegate_property.rs` 33-40). -/
def Delegate.read : R Delegate := do
  let object ← readString
  let functionName ← readString
  return { object, functionName }

/-- `MulticastScriptDelegate::read` (`src/properties/delegate_property.rs`
106-114). -/
def readMulticast : R (List Delegate) := do
  let n ← readU32
  R.replicate Delegate.read n.toNat

/-- `FieldPath::read` (`src/properties/field_path_property.rs` 33-46). -/
def FieldPath.read : R FieldPath := do
  let n ← readU32
  let path ← R.replicate readString n.toNat
  let resolvedOwner ← readString
  return { path, resolvedOwner }

/-! ## Unknown properties -/

/-- `UnknownProperty::read_with_header` and `read_with_length`
(`src/properties/unknown_property.rs` 25-57), and the catch-all arm of
`Property::new` (`src/properties/mod.rs` 605-622). -/
def readUnknown (ty : String) (hdr : Bool) (suggested : Option UInt32) : R Property :=
  if hdr then do
    let length ← readU32
    readAssertedIndex
    readSeparator
    return .unknown ty (← R.take length.toNat)
  else
    match suggested with
    | some n => do return .unknown ty (← R.take n.toNat)
    | none => do R.fail (.invalidProperty ty (← R.position))

/-! ## Structs -/

/-- The array index `insert_property` looks at
(`src/properties/struct_property.rs` 188-192). -/
def Property.arrayIndex : Property → UInt32
  | .name idx _ => idx
  | _ => 0

/-- `entry(key).or_default().push(property)`
(`src/properties/struct_property.rs` 185, 198). -/
def fieldPush (k : String) (p : Property) :
    List (String × List Property) → List (String × List Property)
  | [] => [(k, [p])]
  | (k', ps) :: l => if k' == k then (k', ps ++ [p]) :: l else (k', ps) :: fieldPush k p l

/-- How many values a field has so far (`entry.len()`). -/
def fieldCount (k : String) (fs : List (String × List Property)) : Nat :=
  match fs.lookup k with
  | some ps => ps.length
  | none => 0

/-- `insert_property` (`src/properties/struct_property.rs` 184-199). -/
def insertProperty (debug : Bool) (fs : List (String × List Property)) (k : String)
    (p : Property) : R (List (String × List Property)) := do
  R.ensure (debug = true → UInt32.ofNat (fieldCount k fs) = p.arrayIndex)
    (R.panic "assertion `left == right` failed")
  return fieldPush k p fs

/-- The loop of `StructPropertyValue::read_custom`
(`src/properties/struct_property.rs` 378-389); `rec` is `Property::new`. -/
def readCustom (debug : Bool) (rec : String → Bool → Option UInt32 → R Property) :
    Nat → List (String × List Property) → R (List (String × List Property))
  | 0, _ => R.outOfFuel
  | n + 1, fs => do
    let name ← readString
    if name = "None" then return fs
    else
      let ty ← readString
      let fs' ← R.withEntry name (do
        let p ← rec ty true none
        insertProperty debug fs name p)
      readCustom debug rec n fs'

/-- The readers of the built-in structs (`src/properties/struct_property.rs`
393-503). -/
def readBuiltin (cv : List (Guid × UInt32)) : StructKind → R StructPropertyValue
  | .vector =>
    if lwc cv then do
      let x ← readF64
      let y ← readF64
      let z ← readF64
      return .vectorD x y z
    else do
      let x ← readF32
      let y ← readF32
      let z ← readF32
      return .vectorF x y z
  | .vector2D =>
    if lwc cv then do
      let x ← readF64
      let y ← readF64
      return .vector2D x y
    else do
      let x ← readF32
      let y ← readF32
      return .vector2F x y
  | .rotator =>
    if lwc cv then do
      let x ← readF64
      let y ← readF64
      let z ← readF64
      return .rotatorD x y z
    else do
      let x ← readF32
      let y ← readF32
      let z ← readF32
      return .rotatorF x y z
  | .quat =>
    if lwc cv then do
      let x ← readF64
      let y ← readF64
      let z ← readF64
      let w ← readF64
      return .quatD x y z w
    else do
      let x ← readF32
      let y ← readF32
      let z ← readF32
      let w ← readF32
      return .quatF x y z w
  | .dateTime => do return .dateTime (← readU64)
  | .timespan => do return .timespan (← readU64)
  | .linearColor => do
    let r ← readF32
    let g ← readF32
    let b ← readF32
    let a ← readF32
    return .linearColor r g b a
  | .intPoint => do
    let x ← readI32
    let y ← readI32
    return .intPoint x y
  | .guid => do return .guid (← readGuid)
  | .gameplayTagContainer => do
    let n ← capacity (← readI32)
    return .gameplayTagContainer (← R.replicate readString n)

/-- `StructProperty::read_body` (`src/properties/struct_property.rs` 157-176). -/
def readStructBody (env : Env) (fuel : Nat) (rec : String → Bool → Option UInt32 → R Property)
    (ty : String) : R StructPropertyValue :=
  match StructKind.ofName ty with
  | some k => readBuiltin env.cv k
  | none => do return .customStruct (← readCustom env.debug rec fuel [])

/-- `StructProperty` inside `Property::new` (`src/properties/mod.rs` 587-600,
`struct_property.rs` 100-154). -/
def readStructProperty (env : Env) (fuel : Nat)
    (rec : String → Bool → Option UInt32 → R Property) (hdr : Bool) : R Property :=
  if hdr then
    readHeader
      (do
        let ty ← readString
        let guid ← readGuid
        return (ty, guid))
      (fun _ x => do return .struct x.2 x.1 (← readStructBody env fuel rec x.1))
  else do
    let path := joinDots (← R.getStack)
    match env.hints path with
    | some hint => return .structValue (← readStructBody env fuel rec hint)
    | none => R.fail (.missingHint "StructProperty" path (← R.position))

/-! ## Arrays, sets, maps -/

/-- Lift a pure outcome into a reader (`?` on a function that does not touch
the stream). -/
def R.lift {α : Type} : Res α → R α
  | .ok a => R.pure a
  | .bad f => fun s => (.bad f, s)

/-- The suggested element length of an array
(`src/properties/array_property.rs` 339-343). -/
def arraySuggested (length count : UInt32) : Option UInt32 :=
  if 0 < count ∧ 4 ≤ length then some ((length - 4) / count) else none

/-- The struct metadata in the body of a struct array
(`src/properties/array_property.rs` 310-322): field name, declared size, struct
type, guid. -/
def readStructInfo : R (String × UInt64 × String × Guid) := do
  let field ← readString
  let inner ← readString
  R.ensure (inner = "StructProperty") (R.panic "assertion `left == right` failed")
  let size ← readU64
  let ty ← readString
  let guid ← readGuid
  readTerminator
  return (field, size, ty, guid)

/-- `ArrayProperty::read_body` (`src/properties/array_property.rs` 298-359).  The
failed `validate!` is an `InvalidProperty` error. -/
def readArrayBody (env : Env) (fuel : Nat) (rec : String → Bool → Option UInt32 → R Property)
    (length : UInt32) (ty : String) : R ArrayProperty := do
  let count ← readU32
  if ty = "StructProperty" then
    let (field, size, sty, guid) ← readStructInfo
    let start ← R.position
    let vs ← R.replicate (readStructBody env fuel rec sty) count.toNat
    let stop ← R.position
    R.ensure (stop - start = size.toNat)
      (do R.fail (.invalidProperty s!"{stop - start} != {size.toNat}" (← R.position)))
    R.lift (ArrayProperty.new ty (some (field, sty, guid)) (vs.map Property.structValue))
  else
    let ps ← R.replicate (rec ty false (arraySuggested length count)) count.toNat
    R.lift (ArrayProperty.new ty none ps)

/-- `ArrayProperty::read` (`src/properties/array_property.rs` 280-293). -/
def readArrayProperty (env : Env) (fuel : Nat)
    (rec : String → Bool → Option UInt32 → R Property) (hdr : Bool) : R Property :=
  if hdr then
    readHeader readString
      (fun length ty => do return .array (← readArrayBody env fuel rec length ty))
  else do
    R.fail (.invalidProperty "ArrayProperty is not supported in arrays" (← R.position))

/-- The elements of a set (`src/properties/set_property.rs` 67-79); `checked_div`
never fails as the count is positive. -/
def readSetElems (debug : Bool) (rec : String → Bool → Option UInt32 → R Property)
    (length : UInt32) (ty : String) (count : UInt32) : R (List Property) :=
  if 0 < count then do
    let avail ← subU32 debug length 8
    R.replicate (rec ty false (some (avail / count))) count.toNat
  else R.pure []

/-- `SetProperty::read_body` (`src/properties/set_property.rs` 56-86). -/
def readSetBody (debug : Bool) (rec : String → Bool → Option UInt32 → R Property)
    (length : UInt32) (ty : String) : R Property := do
  let flags ← readU32
  let count ← readU32
  let ps ← readSetElems debug rec length ty count
  return .set ty flags ps

/-- `SetProperty::read` (`src/properties/set_property.rs` 38-51). -/
def readSetProperty (debug : Bool) (rec : String → Bool → Option UInt32 → R Property)
    (hdr : Bool) : R Property :=
  if hdr then readHeader readString (fun length ty => readSetBody debug rec length ty)
  else do R.fail (.invalidProperty "SetProperty is not supported in arrays" (← R.position))

/-- One entry of a map (`src/properties/map_property.rs` 470-478). -/
def readMapEntry (rec : String → Bool → Option UInt32 → R Property) (kt vt : String) :
    R (Property × Property) := do
  let k ← R.withEntry "Key" (rec kt false none)
  let v ← R.withEntry "Value" (rec vt false none)
  return (k, v)

/-- `MapProperty::read_body` (`src/properties/map_property.rs` 459-489).  All
entries are read, then inserted in order; insertion cannot fail. -/
def readMapBody (rec : String → Bool → Option UInt32 → R Property) (kt vt : String) :
    R Property := do
  let flags ← readU32
  let count ← readU32
  let es ← R.replicate (readMapEntry rec kt vt) count.toNat
  return .map (MapProperty.new kt vt flags (imExtend sameKey [] es))

/-- `MapProperty::read` (`src/properties/map_property.rs` 441-454). -/
def readMapProperty (rec : String → Bool → Option UInt32 → R Property) (hdr : Bool) :
    R Property :=
  if hdr then
    readHeader
      (do
        let kt ← readString
        let vt ← readString
        return (kt, vt))
      (fun _ x => readMapBody rec x.1 x.2)
  else do R.fail (.invalidProperty "MapProperty is not supported in arrays" (← R.position))

/-! ## `Property::new` -/

/-- The match arms of `Property::new` for the known types
(`src/properties/mod.rs` 560-604). -/
def readKind (env : Env) (fuel : Nat) (rec : String → Bool → Option UInt32 → R Property)
    (hdr : Bool) (suggested : Option UInt32) : Kind → R Property
  | .int8 => do return .int8 (← readFixed hdr 1 readI8)
  | .byte => readByteProperty env.debug hdr suggested
  | .int16 => do return .int16 (← readFixed hdr 2 readI16)
  | .uint16 => do return .uint16 (← readFixed hdr 2 readU16)
  | .int => do return .int (← readFixed hdr 4 readI32)
  | .uint32 => do return .uint32 (← readFixed hdr 4 readU32)
  | .int64 => do return .int64 (← readFixed hdr 8 readI64)
  | .uint64 => do return .uint64 (← readFixed hdr 8 readU64)
  | .float => do return .float (← readFixed hdr 4 readF32)
  | .double => do return .double (← readFixed hdr 8 readF64)
  | .bool => do return .bool (← readBoolProperty hdr)
  | .enum => readEnumProperty hdr
  | .str => do return .str (← readPlain hdr readFString)
  | .text => do return .text (← readPlain hdr (FText.read env.cv fuel))
  | .name => readNameProperty hdr
  | .object => do return .object (← readPlain hdr readString)
  | .delegate => do return .delegate (← readPlain hdr Delegate.read)
  | .multicastInlineDelegate => do return .multicastInlineDelegate (← readPlain hdr readMulticast)
  | .multicastSparseDelegate => do return .multicastSparseDelegate (← readPlain hdr readMulticast)
  | .fieldPath => do return .fieldPath (← readPlain hdr FieldPath.read)
  | .struct => readStructProperty env fuel rec hdr
  | .array => readArrayProperty env fuel rec hdr
  | .set => readSetProperty env.debug rec hdr
  | .map => readMapProperty rec hdr

/-- One level of `Property::new` (`src/properties/mod.rs` 552-623). -/
def Property.readStep (env : Env) (fuel : Nat)
    (rec : String → Bool → Option UInt32 → R Property)
    (ty : String) (hdr : Bool) (suggested : Option UInt32) : R Property :=
  R.withEntry ty
    (match Kind.ofName ty with
     | some k => readKind env fuel rec hdr suggested k
     | none => readUnknown ty hdr suggested)

/-- `Property::new` (`src/properties/mod.rs` 552-623), recursion by fuel. -/
def Property.read (env : Env) : Nat → String → Bool → Option UInt32 → R Property
  | 0 => fun _ _ _ => R.outOfFuel
  | n + 1 => Property.readStep env (n + 1) (Property.read env n)

end Gvas
