import Verif.Model.File

/-!
# The readers, with a record of the memory they ask for

`Vec::with_capacity(n)`, `IndexMap::with_capacity(n)` and `vec![0; n]` ask for room for `n` items
before any of them has been read.  `M` is the reader monad of `Verif.Model.Basic` together with
a list of these requests.  Readers that ask for nothing are taken over unchanged with
`M.lift`, the others are written out again.  Memory that grows with the contents (`push`,
`insert`, `String::from_utf16`, the path stack) is not recorded.

Besides, each use of `M.lift` counts as a step.  What is lifted has no loop over a count: it reads a
few fields, takes or decodes a buffer, checks something, or rearranges what has been read, so that a
step takes time proportional to what it has in hand.
-/

namespace Gvas

/-- Room for `count` items was asked for; for arrays and sets, `elem` is the type of the elements. -/
structure Request where
  elem : Option String
  count : Nat
deriving DecidableEq, Repr

/-- What is recorded: the requests and how many steps were taken. -/
structure Log where
  requests : List Request
  steps : Nat
deriving DecidableEq, Repr

instance : Append Log where
  append l l' := ⟨l.requests ++ l'.requests, l.steps + l'.steps⟩

/-- A reader that records its requests and steps. -/
def M (α : Type) := RS → (Res α × RS) × Log

namespace M

/-- `Ok(a)`. -/
protected def pure {α : Type} (a : α) : M α := fun s => ((.ok a, s), ⟨[], 0⟩)

/-- Sequencing with `?`. -/
protected def bind {α β : Type} (m : M α) (f : α → M β) : M β := fun s =>
  match m s with
  | ((.ok a, s'), l) => ((f a s').1, l ++ (f a s').2)
  | ((.bad e, s'), l) => ((.bad e, s'), l)

instance : Monad M where
  pure := M.pure
  bind := M.bind

/-- A reader that asks for nothing, as one step. -/
def lift {α : Type} (m : R α) : M α := fun s => (m s, ⟨[], 1⟩)

/-- `with_capacity(n)`, `vec![0; n]`. -/
def reserve (elem : Option String) (n : Nat) : M Unit := fun s => ((.ok (), s), ⟨[⟨elem, n⟩], 0⟩)

/-- `ScopedStackEntry` (`src/scoped_stack_entry.rs` 8-22). -/
def withEntry {α : Type} (name : String) (m : M α) : M α := fun s =>
  match m { s with stack := s.stack ++ [name] } with
  | ((r, s'), l) => ((r, { s' with stack := s'.stack.dropLast }), l)

/-- `for _ in 0..n { v.push(m()?) }`. -/
def replicate {α : Type} (m : M α) : Nat → M (List α)
  | 0 => M.pure []
  | n + 1 => M.bind m fun a => M.bind (replicate m n) fun as => M.pure (a :: as)

/-- An unsigned count followed by `with_capacity` (`src/lib.rs` 223-224,
`src/properties/array_property.rs` 304-305, `set_property.rs` 64-65, `map_property.rs`
466-468, `delegate_property.rs` 107-108, `field_path_property.rs` 34-35). -/
def count (elem : Option String) : M UInt32 := do
  let n ← lift readU32
  reserve elem n.toNat
  return n

/-- A signed count followed by `with_capacity(count as usize)`
(`src/properties/text_property.rs` 334-335, 351-352, 365-366, `struct_property.rs` 394-395). -/
def signedCount : M Nat := do
  let n ← lift (do capacity (← readI32))
  reserve none n
  return n

/-- `let mut data = vec![0u8; n]; cursor.read_exact(&mut data)`
(`src/properties/unknown_property.rs` 30-31). -/
def take (n : Nat) : M Bytes := do
  reserve none n
  lift (R.take n)

/-- `read_fstring` (`src/cursor_ext.rs` 57-98), the buffers being those of lines 66 and 82. -/
def fstring : M (Option String) := do
  let start ← lift R.position
  let len ← lift readI32
  lift (R.ensure (-131072 ≤ len.toInt ∧ len.toInt ≤ 131072) (R.fail (.invalidString len start)))
  if len.toInt = 0 then
    return none
  else if len.toInt < 0 then
    reserve none ((-len.toInt).toNat - 1)
    lift (do
      let buf ← R.take (2 * ((-len.toInt).toNat - 1))
      let t ← readU16
      R.ensure (t = 0) (do R.fail (.invalidStringTerminator t (← R.position)))
      match utf16Decode (bytesToU16 buf) with
      | some cs => return some (String.ofList cs)
      | none => R.fail (.fromUtf16 start))
  else
    reserve none (len.toInt.toNat - 1)
    lift (do
      let buf ← R.take (len.toInt.toNat - 1)
      let t ← readU8
      R.ensure (t = 0) (do R.fail (.invalidStringTerminator t.toUInt16 (← R.position)))
      match utf8Decode buf with
      | some cs => return some (String.ofList cs)
      | none => R.fail (.fromUtf8 start))

/-- `read_string` (`src/cursor_ext.rs` 48-54). -/
def string : M String := do
  let start ← lift R.position
  match ← fstring with
  | some s => return s
  | none => lift (R.fail (.invalidString 0 start))

/-! ## Texts -/

/-- `FormatArgumentValue::read` (`src/properties/text_property.rs` 756-784). -/
def argument (cv : List (Guid × UInt32)) (rec : M FText) : M FormatArgumentValue := do
  let ty ← lift (readEnum (textEnumName "FormatArgumentType") FormatArgumentType.ofI8)
  match ty with
  | .int => if text64 cv then return .int64 (← lift readI64) else return .int (← lift readI32)
  | .uint => if text64 cv then return .uint64 (← lift readU64) else return .uint (← lift readU32)
  | .float => return .float (← lift readF32)
  | .double => return .double (← lift readF64)
  | .text => return .text (← rec)
  | .gender => lift (R.panic "not implemented")

/-- The argument map of named and argument formats
(`src/properties/text_property.rs` 334-341, 365-372). -/
def arguments (cv : List (Guid × UInt32)) (rec : M FText) :
    M (List (String × FormatArgumentValue)) := do
  let n ← signedCount
  let es ← replicate (do
    let key ← string
    let value ← argument cv rec
    return (key, value)) n
  return imExtend (· == ·) [] es

/-- `FTextHistory::read` (`src/properties/text_property.rs` 299-498). -/
def history (cv : List (Guid × UInt32)) (rec : M FText) : M FTextHistory := do
  let ty ← lift (readEnum (textEnumName "TextHistoryType") TextHistoryType.ofI8)
  match ty with
  | .none =>
    if cultureInvariant cv then
      if ← lift readB32 then
        return .none (← fstring)
      else
        return .empty
    else
      return .empty
  | .base =>
    let ns ← fstring
    let key ← fstring
    let src ← fstring
    return .base ns key src
  | .namedFormat =>
    let src ← rec
    let args ← arguments cv rec
    return .namedFormat src args
  | .orderedFormat =>
    let src ← rec
    let n ← signedCount
    let args ← replicate (argument cv rec) n
    return .orderedFormat src args
  | .argumentFormat =>
    let src ← rec
    let args ← arguments cv rec
    return .argumentFormat src args
  | .asNumber =>
    let v ← argument cv rec
    let o ← lift readFormatOptions
    let c ← fstring
    return .asNumber v o c
  | .asPercent =>
    let v ← argument cv rec
    let o ← lift readFormatOptions
    let c ← fstring
    return .asPercent v o c
  | .asCurrency =>
    let code ← fstring
    let v ← argument cv rec
    let o ← lift readFormatOptions
    let c ← fstring
    return .asCurrency code v o c
  | .asDate =>
    let t ← lift readU64
    let st ← lift (readEnum (textEnumName "DateTimeStyle") DateTimeStyle.ofI8)
    let c ← string
    return .asDate t st c
  | .asTime =>
    let t ← lift readU64
    let st ← lift (readEnum (textEnumName "DateTimeStyle") DateTimeStyle.ofI8)
    let z ← string
    let c ← string
    return .asTime t st z c
  | .asDateTime =>
    let t ← lift readU64
    let ds ← lift (readEnum (textEnumName "DateTimeStyle") DateTimeStyle.ofI8)
    let ts ← lift (readEnum (textEnumName "DateTimeStyle") DateTimeStyle.ofI8)
    let z ← string
    let c ← string
    return .asDateTime t ds ts z c
  | .transform =>
    let src ← rec
    let tt ← lift (readEnum (textEnumName "TransformType") TransformType.ofI8)
    return .transform src tt
  | .stringTableEntry =>
    let tableId ← string
    let key ← string
    return .stringTableEntry tableId key
  | .textGenerator => lift (R.panic "not implemented: unimplemented history type: TextGenerator")
  | .rawText => lift (R.panic "not implemented: unimplemented history type: RawText")

/-- `FText::read` (`src/properties/text_property.rs` 115-120). -/
def text (cv : List (Guid × UInt32)) : Nat → M FText
  | 0 => lift R.outOfFuel
  | n + 1 => do
    let flags ← lift readU32
    let h ← history cv (text cv n)
    return .mk flags h

/-! ## Property headers -/

/-- The size check around a body (`src/properties/mod.rs` 172-177, 204-209, 232-237, 264-269). -/
def sized {β : Type} (length : UInt32) (body : M β) : M β := do
  let start ← lift R.position
  let r ← body
  let stop ← lift R.position
  lift (R.ensure (stop - start = length.toNat)
    (R.fail (.invalidValueSize length.toNat (stop - start) start)))
  return r

/-- `read_header` (`src/properties/mod.rs` 151-214, 243-275; `struct_property.rs` 116-154). -/
def header {α β : Type} (hdr : M α) (body : UInt32 → α → M β) : M β := do
  let length ← lift readU32
  lift readZeroIndex
  let a ← hdr
  lift readTerminator
  sized length (body length a)

/-- `read` of `impl_read!()` (`src/properties/mod.rs` 73-103). -/
def plain {β : Type} (hdr : Bool) (body : M β) : M β :=
  if hdr then header (M.pure ()) (fun _ _ => body) else body

/-! ## Leaves -/

/-- The value of a byte property (`src/properties/int_property.rs` 212-215). -/
def byteValue (len : UInt32) : M BytePropertyValue :=
  if len = 1 ∨ len = 0 then do return .byte (← lift readU8)
  else do return .namespaced (← string)

/-- `ByteProperty::read` (`src/properties/int_property.rs` 187-218). -/
def byteProperty (debug hdr : Bool) (suggested : Option UInt32) : M Property :=
  if hdr then do
    let length ← lift readU32
    lift readAssertedIndex
    let name ← string
    lift readSeparator
    let len ← lift (byteLength debug (some length))
    let v ← byteValue len
    return .byte (some name) v
  else do
    let len ← lift (byteLength debug suggested)
    let v ← byteValue len
    return .byte none v

/-- `EnumProperty::read` (`src/properties/enum_property.rs` 31-48). -/
def enumProperty (hdr : Bool) : M Property :=
  if hdr then
    header string (fun _ ty => do return .enum (some ty) (← string))
  else do return .enum none (← string)

/-- `NameProperty::read` (`src/properties/mod.rs` 105-117, 216-241; `name_property.rs` 49-57). -/
def nameProperty (hdr : Bool) : M Property :=
  if hdr then do
    let length ← lift readU32
    let idx ← lift readU32
    lift readTerminator
    sized length (do return .name idx (← fstring))
  else do return .name 0 (← fstring)

/-- `Delegate::read` (`src/properties/delegate_property.rs` 33-40). -/
def delegate : M Delegate := do
  let object ← string
  let functionName ← string
  return { object, functionName }

/-- `MulticastScriptDelegate::read` (`src/properties/delegate_property.rs` 106-114). -/
def multicast : M (List Delegate) := do
  let n ← count none
  replicate delegate n.toNat

/-- `FieldPath::read` (`src/properties/field_path_property.rs` 33-46). -/
def fieldPath : M FieldPath := do
  let n ← count none
  let path ← replicate string n.toNat
  let resolvedOwner ← string
  return { path, resolvedOwner }

/-- `UnknownProperty::read_with_header` and `read_with_length`
(`src/properties/unknown_property.rs` 25-57, `src/properties/mod.rs` 605-622). -/
def unknown (ty : String) (hdr : Bool) (suggested : Option UInt32) : M Property :=
  if hdr then do
    let length ← lift readU32
    lift readAssertedIndex
    lift readSeparator
    return .unknown ty (← take length.toNat)
  else
    match suggested with
    | some n => do return .unknown ty (← take n.toNat)
    | none => do lift (R.fail (.invalidProperty ty (← lift R.position)))

/-! ## Structs -/

/-- `StructPropertyValue::read_custom` (`src/properties/struct_property.rs` 378-389). -/
def custom (debug : Bool) (rec : String → Bool → Option UInt32 → M Property) :
    Nat → List (String × List Property) → M (List (String × List Property))
  | 0, _ => lift R.outOfFuel
  | n + 1, fs => do
    let name ← string
    if name = "None" then return fs
    else
      let ty ← string
      let fs' ← withEntry name (do
        let p ← rec ty true none
        lift (insertProperty debug fs name p))
      custom debug rec n fs'

/-- The readers of the built-in structs (`src/properties/struct_property.rs` 393-503); only
gameplay tags ask for memory. -/
def builtin (cv : List (Guid × UInt32)) : StructKind → M StructPropertyValue
  | .gameplayTagContainer => do
    let n ← signedCount
    return .gameplayTagContainer (← replicate string n)
  | k => lift (readBuiltin cv k)

/-- `StructProperty::read_body` (`src/properties/struct_property.rs` 157-176). -/
def structBody (env : Env) (fuel : Nat) (rec : String → Bool → Option UInt32 → M Property)
    (ty : String) : M StructPropertyValue :=
  match StructKind.ofName ty with
  | some k => builtin env.cv k
  | none => do return .customStruct (← custom env.debug rec fuel [])

/-- `StructProperty` inside `Property::new` (`src/properties/mod.rs` 587-600,
`struct_property.rs` 100-154). -/
def structProperty (env : Env) (fuel : Nat) (rec : String → Bool → Option UInt32 → M Property)
    (hdr : Bool) : M Property :=
  if hdr then
    header
      (do
        let ty ← string
        let guid ← lift readGuid
        return (ty, guid))
      (fun _ x => do return .struct x.2 x.1 (← structBody env fuel rec x.1))
  else do
    let path := joinDots (← lift R.getStack)
    match env.hints path with
    | some hint => return .structValue (← structBody env fuel rec hint)
    | none => lift (R.fail (.missingHint "StructProperty" path (← lift R.position)))

/-! ## Arrays, sets, maps -/

/-- The struct metadata of a struct array (`src/properties/array_property.rs` 310-322). -/
def structInfo : M (String × UInt64 × String × Guid) := do
  let field ← string
  let inner ← string
  lift (R.ensure (inner = "StructProperty") (R.panic "assertion `left == right` failed"))
  let size ← lift readU64
  let ty ← string
  let guid ← lift readGuid
  lift readTerminator
  return (field, size, ty, guid)

/-- `ArrayProperty::read_body` (`src/properties/array_property.rs` 298-359). -/
def arrayBody (env : Env) (fuel : Nat) (rec : String → Bool → Option UInt32 → M Property)
    (length : UInt32) (ty : String) : M ArrayProperty := do
  let n ← count (some ty)
  if ty = "StructProperty" then
    let (field, size, sty, guid) ← structInfo
    let start ← lift R.position
    let vs ← replicate (structBody env fuel rec sty) n.toNat
    let stop ← lift R.position
    lift (R.ensure (stop - start = size.toNat)
      (do R.fail (.invalidProperty s!"{stop - start} != {size.toNat}" (← R.position))))
    lift (R.lift (ArrayProperty.new ty (some (field, sty, guid)) (vs.map Property.structValue)))
  else
    let ps ← replicate (rec ty false (arraySuggested length n)) n.toNat
    lift (R.lift (ArrayProperty.new ty none ps))

/-- `ArrayProperty::read` (`src/properties/array_property.rs` 280-293). -/
def arrayProperty (env : Env) (fuel : Nat) (rec : String → Bool → Option UInt32 → M Property)
    (hdr : Bool) : M Property :=
  if hdr then
    header string (fun length ty => do return .array (← arrayBody env fuel rec length ty))
  else do
    lift (R.fail (.invalidProperty "ArrayProperty is not supported in arrays" (← lift R.position)))

/-- The elements of a set (`src/properties/set_property.rs` 67-79). -/
def setElems (debug : Bool) (rec : String → Bool → Option UInt32 → M Property)
    (length : UInt32) (ty : String) (n : UInt32) : M (List Property) :=
  if 0 < n then do
    let avail ← lift (subU32 debug length 8)
    replicate (rec ty false (some (avail / n))) n.toNat
  else M.pure []

/-- `SetProperty::read_body` (`src/properties/set_property.rs` 56-86). -/
def setBody (debug : Bool) (rec : String → Bool → Option UInt32 → M Property)
    (length : UInt32) (ty : String) : M Property := do
  let flags ← lift readU32
  let n ← count (some ty)
  let ps ← setElems debug rec length ty n
  return .set ty flags ps

/-- `SetProperty::read` (`src/properties/set_property.rs` 38-51). -/
def setProperty (debug : Bool) (rec : String → Bool → Option UInt32 → M Property) (hdr : Bool) :
    M Property :=
  if hdr then header string (fun length ty => setBody debug rec length ty)
  else do
    lift (R.fail (.invalidProperty "SetProperty is not supported in arrays" (← lift R.position)))

/-- One entry of a map (`src/properties/map_property.rs` 470-478). -/
def mapEntry (rec : String → Bool → Option UInt32 → M Property) (kt vt : String) :
    M (Property × Property) := do
  let k ← withEntry "Key" (rec kt false none)
  let v ← withEntry "Value" (rec vt false none)
  return (k, v)

/-- `MapProperty::read_body` (`src/properties/map_property.rs` 459-489). -/
def mapBody (rec : String → Bool → Option UInt32 → M Property) (kt vt : String) : M Property := do
  let flags ← lift readU32
  let n ← count none
  let es ← replicate (mapEntry rec kt vt) n.toNat
  return .map (MapProperty.new kt vt flags (imExtend sameKey [] es))

/-- `MapProperty::read` (`src/properties/map_property.rs` 441-454). -/
def mapProperty (rec : String → Bool → Option UInt32 → M Property) (hdr : Bool) : M Property :=
  if hdr then
    header
      (do
        let kt ← string
        let vt ← string
        return (kt, vt))
      (fun _ x => mapBody rec x.1 x.2)
  else do
    lift (R.fail (.invalidProperty "MapProperty is not supported in arrays" (← lift R.position)))

/-! ## `Property::new` and files -/

/-- The match arms of `Property::new` (`src/properties/mod.rs` 560-604). -/
def kind (env : Env) (fuel : Nat) (rec : String → Bool → Option UInt32 → M Property)
    (hdr : Bool) (suggested : Option UInt32) : Kind → M Property
  | .byte => byteProperty env.debug hdr suggested
  | .enum => enumProperty hdr
  | .str => do return .str (← plain hdr fstring)
  | .text => do return .text (← plain hdr (text env.cv fuel))
  | .name => nameProperty hdr
  | .object => do return .object (← plain hdr string)
  | .delegate => do return .delegate (← plain hdr delegate)
  | .multicastInlineDelegate => do return .multicastInlineDelegate (← plain hdr multicast)
  | .multicastSparseDelegate => do return .multicastSparseDelegate (← plain hdr multicast)
  | .fieldPath => do return .fieldPath (← plain hdr fieldPath)
  | .struct => structProperty env fuel rec hdr
  | .array => arrayProperty env fuel rec hdr
  | .set => setProperty env.debug rec hdr
  | .map => mapProperty rec hdr
  | .int8 => do return .int8 (← lift (readFixed hdr 1 readI8))
  | .int16 => do return .int16 (← lift (readFixed hdr 2 readI16))
  | .uint16 => do return .uint16 (← lift (readFixed hdr 2 readU16))
  | .int => do return .int (← lift (readFixed hdr 4 readI32))
  | .uint32 => do return .uint32 (← lift (readFixed hdr 4 readU32))
  | .int64 => do return .int64 (← lift (readFixed hdr 8 readI64))
  | .uint64 => do return .uint64 (← lift (readFixed hdr 8 readU64))
  | .float => do return .float (← lift (readFixed hdr 4 readF32))
  | .double => do return .double (← lift (readFixed hdr 8 readF64))
  | .bool => do return .bool (← lift (readBoolProperty hdr))

/-- One level of `Property::new` (`src/properties/mod.rs` 552-623). -/
def propertyStep (env : Env) (fuel : Nat) (rec : String → Bool → Option UInt32 → M Property)
    (ty : String) (hdr : Bool) (suggested : Option UInt32) : M Property :=
  withEntry ty
    (match Kind.ofName ty with
     | some k => kind env fuel rec hdr suggested k
     | none => unknown ty hdr suggested)

/-- `Property::new` (`src/properties/mod.rs` 552-623). -/
def property (env : Env) : Nat → String → Bool → Option UInt32 → M Property
  | 0 => fun _ _ _ => lift R.outOfFuel
  | n + 1 => propertyStep env (n + 1) (property env n)

/-- `FEngineVersion::read` (`src/engine_version.rs` 50-63). -/
def engineVersion : M FEngineVersion := do
  let major ← lift readU16
  let minor ← lift readU16
  let patch ← lift readU16
  let changeList ← lift readU32
  let branch ← string
  return { major, minor, patch, changeList, branch }

/-- The part of the header behind the package versions (`src/lib.rs` 214-230). -/
def headerTail : M (FEngineVersion × UInt32 × List (Guid × UInt32) × String) := do
  let ev ← engineVersion
  let format ← lift readU32
  lift (headerCheck (format = 3)
    ("Custom version format " ++ toString format.toNat ++ " not supported"))
  let n ← count none
  let vs ← replicate (lift FCustomVersion.read) n.toNat
  let className ← string
  return (ev, format, imExtend (fun a b => decide (a = b)) [] vs, className)

/-- `GvasHeader::read` (`src/lib.rs` 170-249). -/
def gvasHeader : M GvasHeader := do
  let tag ← lift readU32
  lift (headerCheck (tag = fileTypeGvas) ("File type " ++ toString tag.toNat ++ " not recognized"))
  let version ← lift readU32
  lift (headerCheck (between version 2 3)
    ("GVAS version " ++ toString version.toNat ++ " not supported"))
  let pkg ← lift readU32
  lift (headerCheck (between pkg 0x205 0x20D)
    ("Package file version " ++ toString pkg.toNat ++ " not supported"))
  if 3 ≤ version then
    let ue5 ← lift readU32
    lift (headerCheck (between ue5 1000 1009)
      ("UE5 Package file version " ++ toString ue5.toNat ++ " is not supported"))
    let (ev, format, cvs, name) ← headerTail
    return .version3 pkg ue5 ev format cvs name
  else
    let (ev, format, cvs, name) ← headerTail
    return .version2 pkg ev format cvs name

/-- The top-level property loop (`src/lib.rs` 465-484). -/
def top (rec : String → Bool → Option UInt32 → M Property) :
    Nat → List (String × Property) → M (List (String × Property))
  | 0, _ => lift R.outOfFuel
  | n + 1, ps => do
    let name ← string
    if name = "None" then return ps
    else
      let ty ← string
      let p ← withEntry name (rec ty true none)
      top rec n (imInsert (· == ·) name p ps)

/-- The decompressed contents of a file (`src/lib.rs` 457-490). -/
def contents (debug : Bool) (hints : String → Option String) (fuel : Nat) :
    M (GvasHeader × List (String × Property)) := do
  let h ← gvasHeader
  let env : Env := { debug := debug, hints := hints, cv := h.customVersions }
  let ps ← top (property env fuel) fuel []
  return (h, ps)

/-- Reading decompressed `data`: outcome, final state and what was recorded. -/
def data (debug : Bool) (hints : String → Option String) (input : Bytes) :
    (Res (GvasHeader × List (String × Property)) × RS) × Log :=
  contents debug hints (input.length + 1) (RS.init input)

/-- The buffer for the decompressed data (`src/lib.rs` 435, 441); `read_to_end` of the doubly
compressed data asks for nothing in advance. -/
def frameRequest (dlen : UInt32) : PalworldCompressionType → List Request
  | .none => [⟨none, dlen.toNat⟩]
  | .zlib => [⟨none, dlen.toNat⟩]
  | .zlibTwice => []

/-- `GvasFile::read_with_hints` (`src/lib.rs` 404-491). -/
def file (z : Codec) (debug : Bool) (gv : GameVersion) (hints : String → Option String)
    (start : Nat) (input : Bytes) : Res GvasFile × List Request :=
  match gv with
  | .default =>
    (do
      let (h, ps) ← (data debug hints input).1.1
      return { gameVersion := .default, header := h, properties := ps },
     (data debug hints input).2.requests)
  | .palworld =>
    match readFrame { rest := input, pos := start, stack := [] } with
    | (.ok (dlen, c), s) =>
      match unpack z dlen c s.rest with
      | .ok d =>
        (do
          let (h, ps) ← (data debug hints d).1.1
          return { gameVersion := .palworld c, header := h, properties := ps },
         frameRequest dlen c ++ (data debug hints d).2.requests)
      | .bad f => (.bad f, frameRequest dlen c)
    | (.bad f, _) => (.bad f, [])

end M

end Gvas
