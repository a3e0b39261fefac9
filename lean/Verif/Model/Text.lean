import Verif.Model.Versions
import Verif.Model.IndexMap

/-!
# `FText` (`src/properties/text_property.rs`)
-/

namespace Gvas

/-! ## The enums -/

/-- `TextHistoryType` (`src/properties/text_property.rs` 136-171). -/
inductive TextHistoryType where
  | none | base | namedFormat | orderedFormat | argumentFormat | asNumber | asPercent
  | asCurrency | asDate | asTime | asDateTime | transform | stringTableEntry
  | textGenerator | rawText
deriving DecidableEq, Repr

/-- `Into<i8> for TextHistoryType` (derived `IntoPrimitive`, `#[repr(i8)]`, 139-171). -/
def TextHistoryType.toI8 : TextHistoryType → Int8
  | .none => -1 | .base => 0 | .namedFormat => 1 | .orderedFormat => 2 | .argumentFormat => 3
  | .asNumber => 4 | .asPercent => 5 | .asCurrency => 6 | .asDate => 7 | .asTime => 8
  | .asDateTime => 9 | .transform => 10 | .stringTableEntry => 11 | .textGenerator => 12
  | .rawText => 13

/-- `TryFrom<i8> for TextHistoryType` (derived `TryFromPrimitive`, 139-171). -/
def TextHistoryType.ofI8 (v : Int8) : Option TextHistoryType :=
  if v = -1 then some .none else if v = 0 then some .base
  else if v = 1 then some .namedFormat else if v = 2 then some .orderedFormat
  else if v = 3 then some .argumentFormat else if v = 4 then some .asNumber
  else if v = 5 then some .asPercent else if v = 6 then some .asCurrency
  else if v = 7 then some .asDate else if v = 8 then some .asTime
  else if v = 9 then some .asDateTime else if v = 10 then some .transform
  else if v = 11 then some .stringTableEntry else if v = 12 then some .textGenerator
  else if v = 13 then some .rawText else Option.none

/-- `FormatArgumentType` (`src/properties/text_property.rs` 715-731). -/
inductive FormatArgumentType where
  | int | uint | float | double | text | gender
deriving DecidableEq, Repr

/-- `Into<i8>` for `FormatArgumentType` (derived, 716-731). -/
def FormatArgumentType.toI8 : FormatArgumentType → Int8
  | .int => 0 | .uint => 1 | .float => 2 | .double => 3 | .text => 4 | .gender => 5

/-- `TryFrom<i8>` for `FormatArgumentType` (derived, 716-731). -/
def FormatArgumentType.ofI8 (v : Int8) : Option FormatArgumentType :=
  if v = 0 then some .int else if v = 1 then some .uint else if v = 2 then some .float
  else if v = 3 then some .double else if v = 4 then some .text else if v = 5 then some .gender
  else none

/-- `RoundingMode` (`src/properties/text_property.rs` 858-878). -/
inductive RoundingMode where
  | halfToEven | halfFromZero | halfToZero | fromZero | toZero | toNegativeInfinity
  | toPositiveInfinity
deriving DecidableEq, Repr

/-- `Into<i8>` for `RoundingMode` (derived, 859-878). -/
def RoundingMode.toI8 : RoundingMode → Int8
  | .halfToEven => 0 | .halfFromZero => 1 | .halfToZero => 2 | .fromZero => 3 | .toZero => 4
  | .toNegativeInfinity => 5 | .toPositiveInfinity => 6

/-- `TryFrom<i8>` for `RoundingMode` (derived, 859-878). -/
def RoundingMode.ofI8 (v : Int8) : Option RoundingMode :=
  if v = 0 then some .halfToEven else if v = 1 then some .halfFromZero
  else if v = 2 then some .halfToZero else if v = 3 then some .fromZero
  else if v = 4 then some .toZero else if v = 5 then some .toNegativeInfinity
  else if v = 6 then some .toPositiveInfinity else none

/-- `DateTimeStyle` (`src/properties/text_property.rs` 939-954). -/
inductive DateTimeStyle where
  | default | short | medium | long | full
deriving DecidableEq, Repr

/-- `Into<i8>` for `DateTimeStyle` (derived, 940-954). -/
def DateTimeStyle.toI8 : DateTimeStyle → Int8
  | .default => 0 | .short => 1 | .medium => 2 | .long => 3 | .full => 4

/-- `TryFrom<i8>` for `DateTimeStyle` (derived, 940-954). -/
def DateTimeStyle.ofI8 (v : Int8) : Option DateTimeStyle :=
  if v = 0 then some .default else if v = 1 then some .short else if v = 2 then some .medium
  else if v = 3 then some .long else if v = 4 then some .full else none

/-- `TransformType` (`src/properties/text_property.rs` 956-966). -/
inductive TransformType where
  | toLower | toUpper
deriving DecidableEq, Repr

/-- `Into<i8>` for `TransformType` (derived, 957-966). -/
def TransformType.toI8 : TransformType → Int8
  | .toLower => 0 | .toUpper => 1

/-- `TryFrom<i8>` for `TransformType` (derived, 957-966). -/
def TransformType.ofI8 (v : Int8) : Option TransformType :=
  if v = 0 then some .toLower else if v = 1 then some .toUpper else none

/-- Path prefix of `type_name` for the enums of `text_property.rs`
(`src/cursor_ext.rs` 138). -/
def textEnumName (n : String) : String := "gvas::properties::text_property::" ++ n

/-! ## The data types -/

/-- `NumberFormattingOptions` (`src/properties/text_property.rs` 880-899). -/
structure NumberFormattingOptions where
  alwaysIncludeSign : Bool
  useGrouping : Bool
  roundingMode : RoundingMode
  minimumIntegralDigits : Int32
  maximumIntegralDigits : Int32
  minimumFractionalDigits : Int32
  maximumFractionalDigits : Int32
deriving DecidableEq, Repr

/-- `NumberFormattingOptions::read` (`src/properties/text_property.rs` 904-922). -/
def NumberFormattingOptions.read : R NumberFormattingOptions := do
  let alwaysIncludeSign ← readB32
  let useGrouping ← readB32
  let roundingMode ← readEnum (textEnumName "RoundingMode") RoundingMode.ofI8
  let minimumIntegralDigits ← readI32
  let maximumIntegralDigits ← readI32
  let minimumFractionalDigits ← readI32
  let maximumFractionalDigits ← readI32
  return { alwaysIncludeSign, useGrouping, roundingMode, minimumIntegralDigits,
           maximumIntegralDigits, minimumFractionalDigits, maximumFractionalDigits }

/-- `NumberFormattingOptions::write` (`src/properties/text_property.rs` 926-936). -/
def NumberFormattingOptions.write (o : NumberFormattingOptions) : Out :=
  ⟨b32B o.alwaysIncludeSign ++ b32B o.useGrouping ++ i8B o.roundingMode.toI8 ++
    i32B o.minimumIntegralDigits ++ i32B o.maximumIntegralDigits ++
    i32B o.minimumFractionalDigits ++ i32B o.maximumFractionalDigits, 25⟩

mutual
/-- `FText` (`src/properties/text_property.rs` 64-74). -/
inductive FText where
  | mk (flags : UInt32) (history : FTextHistory)
/-- `FTextHistory` (`src/properties/text_property.rs` 173-294). `DateTime`s are
their tick counts. -/
inductive FTextHistory where
  | empty
  | none (cultureInvariantString : Option String)
  | base (ns key sourceString : Option String)
  | namedFormat (sourceFormat : FText) (arguments : List (String × FormatArgumentValue))
  | orderedFormat (sourceFormat : FText) (arguments : List FormatArgumentValue)
  | argumentFormat (sourceFormat : FText) (arguments : List (String × FormatArgumentValue))
  | asNumber (sourceValue : FormatArgumentValue)
      (formatOptions : Option NumberFormattingOptions) (targetCulture : Option String)
  | asPercent (sourceValue : FormatArgumentValue)
      (formatOptions : Option NumberFormattingOptions) (targetCulture : Option String)
  | asCurrency (currencyCode : Option String) (sourceValue : FormatArgumentValue)
      (formatOptions : Option NumberFormattingOptions) (targetCulture : Option String)
  | asDate (dateTime : UInt64) (dateStyle : DateTimeStyle) (targetCulture : String)
  | asTime (sourceDateTime : UInt64) (timeStyle : DateTimeStyle) (timeZone targetCulture : String)
  | asDateTime (sourceDateTime : UInt64) (dateStyle timeStyle : DateTimeStyle)
      (timeZone targetCulture : String)
  | transform (sourceText : FText) (transformType : TransformType)
  | stringTableEntry (tableId key : String)
/-- `FormatArgumentValue` (`src/properties/text_property.rs` 733-751). -/
inductive FormatArgumentValue where
  | int (v : Int32)
  | uint (v : UInt32)
  | float (v : F32)
  | double (v : F64)
  | text (v : FText)
  | int64 (v : Int64)
  | uint64 (v : UInt64)
end

/-! ## Reading -/

/-- `X::with_capacity(count as usize)` for an `i32` count: a negative count
becomes a huge `usize` and panics with "capacity overflow" (e.g.
`src/properties/text_property.rs` 334-335).  Simplified: for a map
(`src/types.rs` 241-243) the hash table panics first, with "Hash table
capacity overflow"; both get the one message here. -/
def capacity (count : Int32) : R Nat :=
  if count.toInt < 0 then R.panic "capacity overflow" else R.pure count.toInt.toNat

/-- `FormatArgumentValue::read` (`src/properties/text_property.rs` 756-784);
`rec` is `FText::read`. -/
def FormatArgumentValue.readWith (cv : List (Guid × UInt32)) (rec : R FText) :
    R FormatArgumentValue := do
  let ty ← readEnum (textEnumName "FormatArgumentType") FormatArgumentType.ofI8
  match ty with
  | .int => if text64 cv then return .int64 (← readI64) else return .int (← readI32)
  | .uint => if text64 cv then return .uint64 (← readU64) else return .uint (← readU32)
  | .float => return .float (← readF32)
  | .double => return .double (← readF64)
  | .text => return .text (← rec)
  | .gender => R.panic "not implemented"

/-- The optional formatting options (`src/properties/text_property.rs` 382-387,
400-405, 420-425). -/
def readFormatOptions : R (Option NumberFormattingOptions) := do
  if ← readB32 then return some (← NumberFormattingOptions.read) else return none

/-- The argument map of named and argument formats
(`src/properties/text_property.rs` 334-341, 365-372).  All entries are read
first and then inserted in order; insertion cannot fail, so this is the same
as inserting in the loop. -/
def readArguments (cv : List (Guid × UInt32)) (rec : R FText) :
    R (List (String × FormatArgumentValue)) := do
  let n ← capacity (← readI32)
  let es ← R.replicate (do
    let key ← readString
    let value ← FormatArgumentValue.readWith cv rec
    return (key, value)) n
  return imExtend (· == ·) [] es

/-- `FTextHistory::read` (`src/properties/text_property.rs` 299-498); `rec` is
`FText::read`. -/
def FTextHistory.readWith (cv : List (Guid × UInt32)) (rec : R FText) : R FTextHistory := do
  let ty ← readEnum (textEnumName "TextHistoryType") TextHistoryType.ofI8
  match ty with
  | .none =>
    if cultureInvariant cv then
      if ← readB32 then
        return .none (← readFString)
      else
        return .empty
    else
      return .empty
  | .base =>
    let ns ← readFString
    let key ← readFString
    let src ← readFString
    return .base ns key src
  | .namedFormat =>
    let src ← rec
    let args ← readArguments cv rec
    return .namedFormat src args
  | .orderedFormat =>
    let src ← rec
    let n ← capacity (← readI32)
    let args ← R.replicate (FormatArgumentValue.readWith cv rec) n
    return .orderedFormat src args
  | .argumentFormat =>
    let src ← rec
    let args ← readArguments cv rec
    return .argumentFormat src args
  | .asNumber =>
    let v ← FormatArgumentValue.readWith cv rec
    let o ← readFormatOptions
    let c ← readFString
    return .asNumber v o c
  | .asPercent =>
    let v ← FormatArgumentValue.readWith cv rec
    let o ← readFormatOptions
    let c ← readFString
    return .asPercent v o c
  | .asCurrency =>
    let code ← readFString
    let v ← FormatArgumentValue.readWith cv rec
    let o ← readFormatOptions
    let c ← readFString
    return .asCurrency code v o c
  | .asDate =>
    let t ← readU64
    let st ← readEnum (textEnumName "DateTimeStyle") DateTimeStyle.ofI8
    let c ← readString
    return .asDate t st c
  | .asTime =>
    let t ← readU64
    let st ← readEnum (textEnumName "DateTimeStyle") DateTimeStyle.ofI8
    let z ← readString
    let c ← readString
    return .asTime t st z c
  | .asDateTime =>
    let t ← readU64
    let ds ← readEnum (textEnumName "DateTimeStyle") DateTimeStyle.ofI8
    let ts ← readEnum (textEnumName "DateTimeStyle") DateTimeStyle.ofI8
    let z ← readString
    let c ← readString
    return .asDateTime t ds ts z c
  | .transform =>
    let src ← rec
    let tt ← readEnum (textEnumName "TransformType") TransformType.ofI8
    return .transform src tt
  | .stringTableEntry =>
    let tableId ← readString
    let key ← readString
    return .stringTableEntry tableId key
  | .textGenerator => R.panic "not implemented: unimplemented history type: TextGenerator"
  | .rawText => R.panic "not implemented: unimplemented history type: RawText"

/-- `FText::read` (`src/properties/text_property.rs` 115-120), recursion by
fuel. -/
def FText.read (cv : List (Guid × UInt32)) : Nat → R FText
  | 0 => R.outOfFuel
  | n + 1 => do
    let flags ← readU32
    let history ← FTextHistory.readWith cv (FText.read cv n)
    return .mk flags history

/-! ## Writing -/

/-- The discriminant byte of a history (`write_enum`, one byte). -/
def historyTag (t : TextHistoryType) : Out := ⟨i8B t.toI8, 1⟩

/-- Flag and optional formatting options (`src/properties/text_property.rs`
603-607, 620-624, 639-643). -/
def writeFormatOptions (o : Option NumberFormattingOptions) : Out :=
  ⟨b32B o.isSome, 4⟩ ++ match o with
    | some o => o.write
    | none => Out.nil

mutual
/-- `FText::write` (`src/properties/text_property.rs` 124-133). -/
def FText.write (cv : List (Guid × UInt32)) : FText → Res Out
  | .mk flags history => do
    let h ← FTextHistory.write cv history
    return ⟨u32B flags, 4⟩ ++ h
/-- `FTextHistory::write` (`src/properties/text_property.rs` 502-712). -/
def FTextHistory.write (cv : List (Guid × UInt32)) : FTextHistory → Res Out
  | .empty =>
    .ok (historyTag .none ++ (if cultureInvariant cv then ⟨b32B false, 4⟩ else Out.nil))
  | .none s =>
    .ok (historyTag .none ++
      (if cultureInvariant cv then ⟨b32B true, 4⟩ ++ writeFString s else Out.nil))
  | .base ns key src =>
    .ok (historyTag .base ++ writeFString ns ++ writeFString key ++ writeFString src)
  | .namedFormat src args => do
    let a ← FText.write cv src
    let b ← writeNamedArgs cv args
    return historyTag .namedFormat ++ a ++ ⟨i32B (Int32.ofNat args.length), 4⟩ ++ b
  | .orderedFormat src args => do
    let a ← FText.write cv src
    let b ← writeArgs cv args
    return historyTag .orderedFormat ++ a ++ ⟨i32B (Int32.ofNat args.length), 4⟩ ++ b
  | .argumentFormat src args => do
    let a ← FText.write cv src
    let b ← writeNamedArgs cv args
    return historyTag .argumentFormat ++ a ++ ⟨i32B (Int32.ofNat args.length), 4⟩ ++ b
  | .asNumber v o c => do
    let a ← FormatArgumentValue.write cv v
    return historyTag .asNumber ++ a ++ writeFormatOptions o ++ writeFString c
  | .asPercent v o c => do
    let a ← FormatArgumentValue.write cv v
    return historyTag .asPercent ++ a ++ writeFormatOptions o ++ writeFString c
  | .asCurrency code v o c => do
    let a ← FormatArgumentValue.write cv v
    return historyTag .asCurrency ++ writeFString code ++ a ++ writeFormatOptions o ++
      writeFString c
  | .asDate t st c =>
    .ok (⟨i8B TextHistoryType.asDate.toI8 ++ u64B t ++ i8B st.toI8, 10⟩ ++ writeString c)
  | .asTime t st z c =>
    .ok (⟨i8B TextHistoryType.asTime.toI8 ++ u64B t ++ i8B st.toI8, 10⟩ ++ writeString z ++
      writeString c)
  | .asDateTime t ds ts z c =>
    .ok (⟨i8B TextHistoryType.asDateTime.toI8 ++ u64B t ++ i8B ds.toI8 ++ i8B ts.toI8, 11⟩ ++
      writeString z ++ writeString c)
  | .transform src tt => do
    let a ← FText.write cv src
    return historyTag .transform ++ a ++ ⟨i8B tt.toI8, 1⟩
  | .stringTableEntry tableId key =>
    .ok (historyTag .stringTableEntry ++ writeString tableId ++ writeString key)
/-- `FormatArgumentValue::write` (`src/properties/text_property.rs` 788-855). -/
def FormatArgumentValue.write (cv : List (Guid × UInt32)) : FormatArgumentValue → Res Out
  | .int v =>
    if text64 cv then
      .panic "FormatArgumentValue::Int is not compatible with TextFormatArgumentData64bitSupport"
    else .ok ⟨i8B FormatArgumentType.int.toI8 ++ i32B v, 5⟩
  | .int64 v =>
    if text64 cv then .ok ⟨i8B FormatArgumentType.int.toI8 ++ i64B v, 9⟩
    else .panic "FormatArgumentValue::Int64 requires TextFormatArgumentData64bitSupport"
  | .uint v =>
    if text64 cv then
      .panic "FormatArgumentValue::UInt is not compatible with TextFormatArgumentData64bitSupport"
    else .ok ⟨i8B FormatArgumentType.uint.toI8 ++ u32B v, 5⟩
  | .uint64 v =>
    if text64 cv then .ok ⟨i8B FormatArgumentType.uint.toI8 ++ u64B v, 9⟩
    else .panic "FormatArgumentValue::UInt64 requires TextFormatArgumentData64bitSupport"
  | .float v => .ok ⟨i8B FormatArgumentType.float.toI8 ++ f32B v, 5⟩
  | .double v => .ok ⟨i8B FormatArgumentType.double.toI8 ++ f64B v, 9⟩
  | .text t => do
    let a ← FText.write cv t
    return ⟨i8B FormatArgumentType.text.toI8, 1⟩ ++ a
/-- The argument loop of ordered formats (`src/properties/text_property.rs`
573-575). -/
def writeArgs (cv : List (Guid × UInt32)) : List FormatArgumentValue → Res Out
  | [] => .ok Out.nil
  | v :: l => do
    let a ← FormatArgumentValue.write cv v
    let b ← writeArgs cv l
    return a ++ b
/-- The argument loop of named and argument formats
(`src/properties/text_property.rs` 557-560, 588-591). -/
def writeNamedArgs (cv : List (Guid × UInt32)) : List (String × FormatArgumentValue) → Res Out
  | [] => .ok Out.nil
  | (k, v) :: l => do
    let a ← FormatArgumentValue.write cv v
    let b ← writeNamedArgs cv l
    return writeString k ++ a ++ b
end

end Gvas
