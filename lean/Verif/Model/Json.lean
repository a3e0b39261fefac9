import Verif.Model.File
import Verif.Model.GuidText
import Verif.Model.Float

/-!
# JSON (feature `serde`): `Serialize`/`Deserialize` against `serde_json::Value`

The implementations are generated by serde's derive macros from the attributes cited at each
definition; the rules are serde's (tagged, untagged and flattened representations) and
serde_json's (`to_value`, `from_value`; non-finite floats become `null`).

Deserializing accepts more than serializing writes: an array in place of a struct or of a tagged
value, a variant without content as an object, and, inside tagged or flattened values, which serde
buffers, the index of a variant in place of its name.

Simplifications: errors are `none` without their text.  Names repeated inside one object cannot
occur in a `serde_json::Value`.  JSON as text is in `Verif.Model.JsonText`, loading it without a
`Value` in between in `Verif.Model.JsonDirect`.
-/

namespace Gvas

/-- `serde_json::Value`; integers are those of `i64` and `u64`, floats are finite. -/
inductive J where
  | null
  | bool (b : Bool)
  | int (n : Int)
  | float (f : F64)
  | str (s : String)
  | arr (l : List J)
  | obj (l : List (String × J))

mutual
/-- How deep arrays and objects are nested. -/
def J.depth : J → Nat
  | .arr l => depthList l + 1
  | .obj l => depthEntries l + 1
  | _ => 0
/-- The greatest depth in a list. -/
def depthList : List J → Nat
  | [] => 0
  | j :: l => max j.depth (depthList l)
/-- The greatest depth in an object. -/
def depthEntries : List (String × J) → Nat
  | [] => 0
  | (_, j) :: l => max j.depth (depthEntries l)
end

/-! ## Scalars -/

/-- Which number of JSON a finite `f32` becomes. -/
class FloatJ where
  /-- The number, which JSON keeps as `f64`. -/
  num : F32 → F64

/-- As a `serde_json::Value` an `f32` is widened (`Number::from_f32`).  As text it becomes the number
that is written, see `Verif.Model.JsonText`. -/
instance : FloatJ := ⟨F32.toF64⟩

/-- A finite float as a number, another one as `null` (`Value::from(f32)`, serde_json). -/
def F32.toJ [FloatJ] (f : F32) : J := if f.isFinite then .float (FloatJ.num f) else .null

/-- A finite float as a number, another one as `null` (`Value::from(f64)`, serde_json). -/
def F64.toJ (f : F64) : J := if f.isFinite then .float f else .null

/-- An optional string (`None` is `null`). -/
def optJ : Option String → J
  | none => .null
  | some s => .str s

/-- An optional field that is left out when it is `None` (`skip_serializing_none`, e.g.
`src/properties/str_property.rs` 14). -/
def optE (k : String) : Option String → List (String × J)
  | none => []
  | some s => [(k, .str s)]

/-- A field that is left out when it is zero (`skip_serializing_if = "is_zero"`,
`src/properties/name_property.rs` 15, `text_property.rs` 69). -/
def nonzeroE (k : String) (v : UInt32) : List (String × J) :=
  if v = 0 then [] else [(k, .int v.toNat)]

/-- `Serialize for Guid` (`src/types.rs` 190-197). -/
def Guid.toJ (g : Guid) : J := .str (String.ofList g.display)

/-- A GUID field that is left out when zero (`src/properties/struct_property.rs` 42,
`array_property.rs` 77). -/
def guidE (g : Guid) : List (String × J) := if g.isZero then [] else [("guid", g.toJ)]

/-- One lower case hexadecimal digit. -/
def hexLower (n : Nat) : Char := Char.ofNat (if n < 10 then 0x30 + n else 0x57 + n)

/-- `serde_with::hex::Hex` of bytes (`src/properties/array_property.rs` 42). -/
def hexText (bs : Bytes) : String :=
  String.ofList (bs.flatMap fun b => [hexLower (b.toNat / 16), hexLower (b.toNat % 16)])

/-! ## Texts -/

/-- The variant names of `RoundingMode` (`src/properties/text_property.rs` 863-878). -/
def RoundingMode.json : RoundingMode → String
  | .halfToEven => "HalfToEven" | .halfFromZero => "HalfFromZero" | .halfToZero => "HalfToZero"
  | .fromZero => "FromZero" | .toZero => "ToZero" | .toNegativeInfinity => "ToNegativeInfinity"
  | .toPositiveInfinity => "ToPositiveInfinity"

/-- The variant names of `DateTimeStyle` (`src/properties/text_property.rs` 943-954). -/
def DateTimeStyle.json : DateTimeStyle → String
  | .default => "Default" | .short => "Short" | .medium => "Medium" | .long => "Long"
  | .full => "Full"

/-- The variant names of `TransformType` (`src/properties/text_property.rs` 961-966). -/
def TransformType.json : TransformType → String
  | .toLower => "ToLower" | .toUpper => "ToUpper"

/-- `Serialize for NumberFormattingOptions` (`src/properties/text_property.rs` 882-899); the
rounding mode is flattened (861, 889). -/
def NumberFormattingOptions.toJ (o : NumberFormattingOptions) : J :=
  .obj [("always_include_sign", .bool o.alwaysIncludeSign), ("use_grouping", .bool o.useGrouping),
    ("rounding", .str o.roundingMode.json),
    ("minimum_integral_digits", .int o.minimumIntegralDigits.toInt),
    ("maximum_integral_digits", .int o.maximumIntegralDigits.toInt),
    ("minimum_fractional_digits", .int o.minimumFractionalDigits.toInt),
    ("maximum_fractional_digits", .int o.maximumFractionalDigits.toInt)]

/-- Optional formatting options (`skip_serializing_none`, 175). -/
def optionsE : Option NumberFormattingOptions → List (String × J)
  | none => []
  | some o => [("format_options", o.toJ)]

/-- `Serialize for DateTime` (`src/properties/struct_types.rs` 55, 151-155), also of `Timespan`. -/
def ticksJ (t : UInt64) : J := .obj [("ticks", .int t.toNat)]

mutual
/-- `Serialize for FText` (`src/properties/text_property.rs` 66-74): its history is flattened. -/
def FText.entries [FloatJ] : FText → List (String × J)
  | .mk flags h => nonzeroE "flags" flags ++ FTextHistory.entries h
/-- `Serialize for FTextHistory` (`src/properties/text_property.rs` 175-294). -/
def FTextHistory.entries [FloatJ] : FTextHistory → List (String × J)
  | .empty => [("history", .str "Empty")]
  | .none s => ("history", .str "None") :: optE "culture_invariant_string" s
  | .base a b c => ("history", .str "Base") ::
      (optE "namespace" a ++ optE "key" b ++ optE "source_string" c)
  | .namedFormat src args => [("history", .str "NamedFormat"),
      ("source_format", .obj (FText.entries src)), ("arguments", .obj (namedArgsJ args))]
  | .orderedFormat src args => [("history", .str "OrderedFormat"),
      ("source_format", .obj (FText.entries src)), ("arguments", .arr (argsJ args))]
  | .argumentFormat src args => [("history", .str "ArgumentFormat"),
      ("source_format", .obj (FText.entries src)), ("arguments", .obj (namedArgsJ args))]
  | .asNumber v o c => ("history", .str "AsNumber") ::
      (("source_value", FormatArgumentValue.toJ v) :: (optionsE o ++ optE "target_culture" c))
  | .asPercent v o c => ("history", .str "AsPercent") ::
      (("source_value", FormatArgumentValue.toJ v) :: (optionsE o ++ optE "target_culture" c))
  | .asCurrency a v o c => ("history", .str "AsCurrency") :: (optE "currency_code" a ++
      (("source_value", FormatArgumentValue.toJ v) :: (optionsE o ++ optE "target_culture" c)))
  | .asDate t st c => [("history", .str "AsDate"), ("date_time", ticksJ t),
      ("date_style", .str st.json), ("target_culture", .str c)]
  | .asTime t st z c => [("history", .str "AsTime"), ("source_date_time", ticksJ t),
      ("time_style", .str st.json), ("time_zone", .str z), ("target_culture", .str c)]
  | .asDateTime t ds ts z c => [("history", .str "AsDateTime"), ("source_date_time", ticksJ t),
      ("date_style", .str ds.json), ("time_style", .str ts.json), ("time_zone", .str z),
      ("target_culture", .str c)]
  | .transform src tt => [("history", .str "Transform"),
      ("source_text", .obj (FText.entries src)), ("transform", .str tt.json)]
  | .stringTableEntry a b => [("history", .str "StringTableEntry"), ("table_id", .str a),
      ("key", .str b)]
/-- `Serialize for FormatArgumentValue` (`src/properties/text_property.rs` 735-751). -/
def FormatArgumentValue.toJ [FloatJ] : FormatArgumentValue → J
  | .int v => .obj [("Int", .int v.toInt)]
  | .uint v => .obj [("UInt", .int v.toNat)]
  | .float v => .obj [("Float", v.toJ)]
  | .double v => .obj [("Double", v.toJ)]
  | .text t => .obj [("Text", .obj (FText.entries t))]
  | .int64 v => .obj [("Int64", .int v.toInt)]
  | .uint64 v => .obj [("UInt64", .int v.toNat)]
/-- A sequence of arguments. -/
def argsJ [FloatJ] : List FormatArgumentValue → List J
  | [] => []
  | v :: l => FormatArgumentValue.toJ v :: argsJ l
/-- A map of arguments. -/
def namedArgsJ [FloatJ] : List (String × FormatArgumentValue) → List (String × J)
  | [] => []
  | (k, v) :: l => (k, FormatArgumentValue.toJ v) :: namedArgsJ l
end

/-! ## Properties -/

/-- `Serialize for BytePropertyValue` (`src/properties/int_property.rs` 141-147), flattened
(157). -/
def BytePropertyValue.entry : BytePropertyValue → String × J
  | .byte v => ("Byte", .int v.toNat)
  | .namespaced s => ("Namespaced", .str s)

/-- `Serialize for Delegate` (`src/properties/delegate_property.rs` 14-20). -/
def Delegate.toJ (d : Delegate) : J :=
  .obj [("object", .str d.object), ("function_name", .str d.functionName)]

/-- `Serialize for MulticastScriptDelegate` (`src/properties/delegate_property.rs` 92-96). -/
def multicastJ (ds : List Delegate) : J := .obj [("delegates", .arr (ds.map Delegate.toJ))]

/-- `Serialize for FieldPath` (`src/properties/field_path_property.rs` 14-20). -/
def FieldPath.toJ (p : FieldPath) : J :=
  .obj [("path", .arr (p.path.map .str)), ("resolved_owner", .str p.resolvedOwner)]

mutual
/-- `Serialize for Property` (`src/properties/mod.rs` 489-548; tag `type`) and the property
structs (the `derive`s in `src/properties/*.rs`). -/
def Property.toJ [FloatJ] : Property → J
  | .array v => .obj (("type", .str "ArrayProperty") :: ArrayProperty.entries v)
  | .bool v => .obj [("type", .str "BoolProperty"), ("value", .bool v)]
  | .byte name v => .obj (("type", .str "ByteProperty") :: (optE "name" name ++ [v.entry]))
  | .double v => .obj [("type", .str "DoubleProperty"), ("value", v.toJ)]
  | .enum t v => .obj (("type", .str "EnumProperty") :: (optE "enum_type" t ++
      [("value", .str v)]))
  | .float v => .obj [("type", .str "FloatProperty"), ("value", v.toJ)]
  | .int16 v => .obj [("type", .str "Int16Property"), ("value", .int v.toInt)]
  | .int64 v => .obj [("type", .str "Int64Property"), ("value", .int v.toInt)]
  | .int8 v => .obj [("type", .str "Int8Property"), ("value", .int v.toInt)]
  | .int v => .obj [("type", .str "IntProperty"), ("value", .int v.toInt)]
  | .map v => .obj (("type", .str "MapProperty") :: MapProperty.entries v)
  | .name i v => .obj (("type", .str "NameProperty") :: (nonzeroE "array_index" i ++
      optE "value" v))
  | .object v => .obj [("type", .str "ObjectProperty"), ("value", .str v)]
  | .delegate v => .obj [("type", .str "DelegateProperty"), ("value", v.toJ)]
  | .multicastInlineDelegate v =>
    .obj [("type", .str "MulticastInlineDelegateProperty"), ("value", multicastJ v)]
  | .multicastSparseDelegate v =>
    .obj [("type", .str "MulticastSparseDelegateProperty"), ("value", multicastJ v)]
  | .fieldPath v => .obj [("type", .str "FieldPathProperty"), ("value", v.toJ)]
  | .set t fl ps => .obj [("type", .str "SetProperty"), ("property_type", .str t),
      ("allocation_flags", .int fl.toNat), ("properties", .arr (propsJ ps))]
  | .str v => .obj (("type", .str "StrProperty") :: optE "value" v)
  | .struct g t v => .obj (("type", .str "StructProperty") :: (guidE g ++
      [("type_name", .str t), StructPropertyValue.entry v]))
  | .structValue v => .obj [("type", .str "StructPropertyValue"), StructPropertyValue.entry v]
  | .text v => .obj (("type", .str "TextProperty") :: v.entries)
  | .uint16 v => .obj [("type", .str "UInt16Property"), ("value", .int v.toNat)]
  | .uint32 v => .obj [("type", .str "UInt32Property"), ("value", .int v.toNat)]
  | .uint64 v => .obj [("type", .str "UInt64Property"), ("value", .int v.toNat)]
  | .unknown name raw => .obj [("type", .str "UnknownProperty"), ("property_name", .str name),
      ("raw", .arr (raw.map fun b => .int b.toNat))]
/-- `Serialize for ArrayProperty` (`src/properties/array_property.rs` 30-90; untagged). -/
def ArrayProperty.entries [FloatJ] : ArrayProperty → List (String × J)
  | .bools v => [("bools", .arr (v.map .bool))]
  | .bytes v => [("bytes", .str (hexText v))]
  | .enums v => [("enums", .arr (v.map .str))]
  | .floats v => [("floats", .arr (v.map F32.toJ))]
  | .ints v => [("ints", .arr (v.map fun x => .int x.toInt))]
  | .names v => [("names", .arr (v.map optJ))]
  | .strings v => [("strings", .arr (v.map optJ))]
  | .structs field ty g v => [("field_name", .str field), ("type_name", .str ty)] ++ guidE g ++
      [("structs", .arr (structsJ v))]
  | .properties ty ps => [("property_type", .str ty), ("properties", .arr (propsJ ps))]
/-- `Serialize for MapProperty` (`src/properties/map_property.rs` 25-96; untagged). -/
def MapProperty.entries [FloatJ] : MapProperty → List (String × J)
  | .enumBool v => [("enum_bools", .obj (v.map fun e => (e.1, .bool e.2)))]
  | .enumInt v => [("enum_ints", .obj (v.map fun e => (e.1, .int e.2.toInt)))]
  | .enumProperty t v => [("value_type", .str t), ("enum_props", .obj (strPropsJ v))]
  | .nameBool v => [("name_bools", .obj (v.map fun e => (e.1, .bool e.2)))]
  | .nameInt v => [("name_ints", .obj (v.map fun e => (e.1, .int e.2.toInt)))]
  | .nameProperty t v => [("value_type", .str t), ("name_props", .obj (strPropsJ v))]
  | .properties kt vt fl v => [("key_type", .str kt), ("value_type", .str vt),
      ("allocation_flags", .int fl.toNat), ("value", .arr (pairsJ v))]
  | .strBool v => [("str_bools", .obj (v.map fun e => (e.1, .bool e.2)))]
  | .strInt v => [("str_ints", .obj (v.map fun e => (e.1, .int e.2.toInt)))]
  | .strProperty t v => [("value_type", .str t), ("str_props", .obj (strPropsJ v))]
  | .strStr v => [("str_strs", .obj (v.map fun e => (e.1, optJ e.2)))]
/-- `Serialize for StructPropertyValue` (`src/properties/struct_property.rs` 54-86) and of the
structs (`src/properties/struct_types.rs` 88-175): variant name and value. -/
def StructPropertyValue.entry [FloatJ] : StructPropertyValue → String × J
  | .vector2F x y => ("Vector2F", .obj [("x", x.toJ), ("y", y.toJ)])
  | .vector2D x y => ("Vector2D", .obj [("x", x.toJ), ("y", y.toJ)])
  | .vectorF x y z => ("VectorF", .obj [("x", x.toJ), ("y", y.toJ), ("z", z.toJ)])
  | .vectorD x y z => ("VectorD", .obj [("x", x.toJ), ("y", y.toJ), ("z", z.toJ)])
  | .rotatorF x y z => ("RotatorF", .obj [("pitch", x.toJ), ("yaw", y.toJ), ("roll", z.toJ)])
  | .rotatorD x y z => ("RotatorD", .obj [("pitch", x.toJ), ("yaw", y.toJ), ("roll", z.toJ)])
  | .quatF x y z w => ("QuatF", .obj [("x", x.toJ), ("y", y.toJ), ("z", z.toJ), ("w", w.toJ)])
  | .quatD x y z w => ("QuatD", .obj [("x", x.toJ), ("y", y.toJ), ("z", z.toJ), ("w", w.toJ)])
  | .dateTime t => ("DateTime", ticksJ t)
  | .timespan t => ("Timespan", ticksJ t)
  | .guid g => ("Guid", g.toJ)
  | .linearColor r g b a =>
    ("LinearColor", .obj [("r", r.toJ), ("g", g.toJ), ("b", b.toJ), ("a", a.toJ)])
  | .intPoint x y => ("IntPoint", .obj [("x", .int x.toInt), ("y", .int y.toInt)])
  | .gameplayTagContainer tags => ("GameplayTagContainer", .arr (tags.map .str))
  | .customStruct fs => ("CustomStruct", .obj (fieldsJ fs))
/-- A sequence of properties. -/
def propsJ [FloatJ] : List Property → List J
  | [] => []
  | p :: l => Property.toJ p :: propsJ l
/-- A sequence of structs. -/
def structsJ [FloatJ] : List StructPropertyValue → List J
  | [] => []
  | v :: l => .obj [StructPropertyValue.entry v] :: structsJ l
/-- A map from strings to properties. -/
def strPropsJ [FloatJ] : List (String × Property) → List (String × J)
  | [] => []
  | (k, p) :: l => (k, Property.toJ p) :: strPropsJ l
/-- A map as a sequence of pairs (`serde_seq`, `src/types.rs` 349-361). -/
def pairsJ [FloatJ] : List (Property × Property) → List J
  | [] => []
  | (k, p) :: l => .arr [Property.toJ k, Property.toJ p] :: pairsJ l
/-- The fields of a custom struct. -/
def fieldsJ [FloatJ] : List (String × List Property) → List (String × J)
  | [] => []
  | (k, ps) :: l => (k, .arr (propsJ ps)) :: fieldsJ l
end

/-! ## Files -/

/-- `Serialize for FEngineVersion` (`src/engine_version.rs` 11-23). -/
def FEngineVersion.toJ (v : FEngineVersion) : J :=
  .obj [("major", .int v.major.toNat), ("minor", .int v.minor.toNat),
    ("patch", .int v.patch.toNat), ("change_list", .int v.changeList.toNat),
    ("branch", .str v.branch)]

/-- The custom versions as a map (`src/lib.rs` 127, 142; `src/types.rs` 222). -/
def customVersionsJ (cv : List (Guid × UInt32)) : J :=
  .obj (cv.map fun e => (String.ofList e.1.display, .int e.2.toNat))

/-- `Serialize for GvasHeader` (`src/lib.rs` 115-146; tag `type`). -/
def GvasHeader.toJ : GvasHeader → J
  | .version2 pkg ev fmt cv cls => .obj [("type", .str "Version2"),
      ("package_file_version", .int pkg.toNat), ("engine_version", ev.toJ),
      ("custom_version_format", .int fmt.toNat), ("custom_versions", customVersionsJ cv),
      ("save_game_class_name", .str cls)]
  | .version3 pkg ue5 ev fmt cv cls => .obj [("type", .str "Version3"),
      ("package_file_version", .int pkg.toNat), ("package_file_version_ue5", .int ue5.toNat),
      ("engine_version", ev.toJ), ("custom_version_format", .int fmt.toNat),
      ("custom_versions", customVersionsJ cv), ("save_game_class_name", .str cls)]

/-- The variant names of `PalworldCompressionType` (`src/game_version.rs` 18-27). -/
def PalworldCompressionType.json : PalworldCompressionType → String
  | .none => "None" | .zlib => "Zlib" | .zlibTwice => "ZlibTwice"

/-- `Serialize for GvasFile` (`src/lib.rs` 331-343); the game version (`src/game_version.rs`
33-39) is left out when it is the default. -/
def GvasFile.toJson [FloatJ] (f : GvasFile) : J :=
  .obj ((match f.gameVersion with
      | .default => []
      | .palworld c => [("deserialized_game_version", .obj [("Palworld", .str c.json)])]) ++
    [("header", f.header.toJ), ("properties", .obj (strPropsJ f.properties))])

/-! ## Deserialization -/

/-- `bool::deserialize`. -/
def J.getBool : J → Option Bool
  | .bool b => some b
  | _ => none

/-- `String::deserialize`. -/
def J.getStr : J → Option String
  | .str s => some s
  | _ => none

/-- An integer in `lo ≤ n < hi`: serde's integers check their range. -/
def J.getInt (lo hi : Int) : J → Option Int
  | .int n => if lo ≤ n ∧ n < hi then some n else none
  | _ => none

/-- `u8::deserialize`. -/
def J.getU8 (j : J) : Option UInt8 := (j.getInt 0 (2 ^ 8)).map fun n => UInt8.ofNat n.toNat
/-- `u16::deserialize`. -/
def J.getU16 (j : J) : Option UInt16 := (j.getInt 0 (2 ^ 16)).map fun n => UInt16.ofNat n.toNat
/-- `u32::deserialize`. -/
def J.getU32 (j : J) : Option UInt32 := (j.getInt 0 (2 ^ 32)).map fun n => UInt32.ofNat n.toNat
/-- `u64::deserialize`. -/
def J.getU64 (j : J) : Option UInt64 := (j.getInt 0 (2 ^ 64)).map fun n => UInt64.ofNat n.toNat
/-- `i8::deserialize`. -/
def J.getI8 (j : J) : Option Int8 := (j.getInt (-2 ^ 7) (2 ^ 7)).map Int8.ofInt
/-- `i16::deserialize`. -/
def J.getI16 (j : J) : Option Int16 := (j.getInt (-2 ^ 15) (2 ^ 15)).map Int16.ofInt
/-- `i32::deserialize`. -/
def J.getI32 (j : J) : Option Int32 := (j.getInt (-2 ^ 31) (2 ^ 31)).map Int32.ofInt
/-- `i64::deserialize`. -/
def J.getI64 (j : J) : Option Int64 := (j.getInt (-2 ^ 63) (2 ^ 63)).map Int64.ofInt

/-- `f32::deserialize` (and `OrderedFloat<f32>`, ordered-float). -/
def J.getF32 : J → Option F32
  | .float f => some f.toF32
  | .int n => some (F32.ofInt n)
  | _ => none

/-- `f64::deserialize` (and `OrderedFloat<f64>`, ordered-float). -/
def J.getF64 : J → Option F64
  | .float f => some f
  | .int n => some (F64.ofInt n)
  | _ => none

/-- `Option::deserialize`: `null` is `None`. -/
def J.getOpt {α : Type} (d : J → Option α) : J → Option (Option α)
  | .null => some none
  | j => (d j).map some

/-- `Vec::deserialize`. -/
def J.getArr {α : Type} (d : J → Option α) : J → Option (List α)
  | .arr l => l.mapM d
  | _ => none

/-- `HashableIndexMap::deserialize` with keys parsed by `dk` (`src/types.rs` 222): a map,
inserted in order. -/
def J.getMap {κ α : Type} (same : κ → κ → Bool) (dk : String → Option κ) (d : J → Option α) :
    J → Option (List (κ × α))
  | .obj l => do
    let es ← l.mapM fun e => do return (← dk e.1, ← d e.2)
    return imExtend same [] es
  | _ => none

/-- A map with string keys. -/
def J.getStrMap {α : Type} (d : J → Option α) : J → Option (List (String × α)) :=
  J.getMap (· == ·) some d

/-- The pair of a key and a value in `serde_seq`. -/
def J.getPair {α : Type} (d : J → Option α) : J → Option (α × α)
  | .arr [a, b] => do return (← d a, ← d b)
  | _ => none

/-- How a field is found among the entries of an object: the outer `none` is an error. -/
class FieldJ where
  /-- The value of the field, if it is there. -/
  get : List (String × J) → String → Option (Option J)

/-- In a `serde_json::Value` no name is repeated.  In text this may be, see
`Verif.Model.JsonDirect`. -/
instance : FieldJ := ⟨fun es k => some (es.lookup k)⟩

/-- The entries of an object, which is what a struct with flattened fields is read from. -/
def J.getEntries : J → Option (List (String × J))
  | .obj l => some l
  | _ => none

/-- The entries a struct without flattened fields is read from: an object (serde's `visit_map`) or
an array with a value for each of its fields in order (`visit_seq`; the fields with a default come
first, so none can be left out). -/
def J.getFields (names : List String) : J → Option (List (String × J))
  | .obj l => some l
  | .arr l => if l.length = names.length then some (names.zip l) else none
  | _ => none

/-- The name of the variant of a tagged enum that serde has buffered: text, or the index of the
variant (`deserialize_identifier` of serde's `ContentDeserializer`). -/
def J.getTag (names : List String) : J → Option String
  | .str s => some s
  | .int (.ofNat n) => names[n]?
  | _ => none

/-- A value with a tag (serde's `TaggedContentVisitor`): an object with the tag among the fields, or
an array starting with the tag.  `tagOf` reads the tag, `names` gives the fields of a variant that
can be read from an array. -/
def J.getTagged [FieldJ] (key : String) (tagOf : J → Option String)
    (names : String → Option (List String)) : J → Option (String × List (String × J))
  | .obj es => (FieldJ.get es key).bind fun o => o.bind fun t => (tagOf t).map (·, es)
  | .arr (t :: l) => (tagOf t).bind fun tag => (names tag).bind fun ns =>
    ((J.arr l).getFields ns).map (tag, ·)
  | _ => none

/-- A field that must be there. -/
def field [FieldJ] {α : Type} (es : List (String × J)) (k : String) (d : J → Option α) : Option α :=
  (FieldJ.get es k).bind fun o => o.bind d

/-- An `Option` field: a missing one is `None`. -/
def optField [FieldJ] {α : Type} (es : List (String × J)) (k : String) (d : J → Option α) :
    Option (Option α) :=
  (FieldJ.get es k).bind fun o =>
  match o with
  | none => some none
  | some j => j.getOpt d

/-- A field with `serde(default)`. -/
def defaultField [FieldJ] {α : Type} (es : List (String × J)) (k : String) (a : α)
    (d : J → Option α) : Option α :=
  (FieldJ.get es k).bind fun o =>
  match o with
  | none => some a
  | some j => d j

/-- `Guid::from_str` inside `Deserialize for Guid` (`src/types.rs` 206).  A panic of the parser
counts as a failure here and is kept in `guidOfStrL` (`Verif.Model.JsonLoad`). -/
def guidOfStr (s : String) : Option Guid :=
  match Guid.parse s.toList with
  | .ok g => g
  | .bad _ => none

/-- `Deserialize for Guid` (`src/types.rs` 200-208). -/
def J.getGuid (j : J) : Option Guid := j.getStr.bind guidOfStr

/-- The value of a hexadecimal digit, either case. -/
def hexCharVal (c : Char) : Option Nat :=
  let n := c.toNat
  if 0x30 ≤ n ∧ n ≤ 0x39 then some (n - 0x30)
  else if 0x41 ≤ n ∧ n ≤ 0x46 then some (n - 0x37)
  else if 0x61 ≤ n ∧ n ≤ 0x66 then some (n - 0x57)
  else none

/-- `hex::decode` of text. -/
def unhex : List Char → Option Bytes
  | [] => some []
  | [_] => none
  | a :: b :: l => do
    let x ← hexCharVal a
    let y ← hexCharVal b
    let r ← unhex l
    return UInt8.ofNat (x * 16 + y) :: r

/-- Bytes in hexadecimal (`src/properties/array_property.rs` 42). -/
def J.getHex (j : J) : Option Bytes := j.getStr.bind fun s => unhex s.toList

/-- The variant with a name. -/
def variantOf {α : Type} (all : List α) (name : α → String) (s : String) : Option α :=
  all.find? fun a => name a == s

/-- A variant without content by its name, which may be an object with `null` for the content; when
serde has buffered it, `{}` will do for `null` (`deserialize_unit` of `ContentDeserializer`). -/
def J.getVariant {α : Type} (buffered : Bool) (all : List α) (name : α → String) : J → Option α
  | .str s => variantOf all name s
  | .obj [(s, .null)] => variantOf all name s
  | .obj [(s, .obj [])] => if buffered then variantOf all name s else none
  | _ => none

/-- A variant without content of a tagged enum, from its tag. -/
def J.getTagVariant {α : Type} (all : List α) (name : α → String) (j : J) : Option α :=
  (j.getTag (all.map name)).bind (variantOf all name)

/-- All rounding modes. -/
def RoundingMode.all : List RoundingMode :=
  [.halfToEven, .halfFromZero, .halfToZero, .fromZero, .toZero, .toNegativeInfinity,
   .toPositiveInfinity]

/-- All date styles. -/
def DateTimeStyle.all : List DateTimeStyle := [.default, .short, .medium, .long, .full]

/-- `Deserialize for DateTimeStyle` (`src/properties/text_property.rs` 941). -/
def J.getStyle : J → Option DateTimeStyle := J.getVariant true DateTimeStyle.all DateTimeStyle.json

/-- `Deserialize for NumberFormattingOptions` (`src/properties/text_property.rs` 882-899). -/
def J.getOptions [FieldJ] (j : J) : Option NumberFormattingOptions := do
  let es ← j.getEntries
  return {
    alwaysIncludeSign := ← field es "always_include_sign" J.getBool
    useGrouping := ← field es "use_grouping" J.getBool
    roundingMode := ← field es "rounding" (J.getTagVariant RoundingMode.all RoundingMode.json)
    minimumIntegralDigits := ← field es "minimum_integral_digits" J.getI32
    maximumIntegralDigits := ← field es "maximum_integral_digits" J.getI32
    minimumFractionalDigits := ← field es "minimum_fractional_digits" J.getI32
    maximumFractionalDigits := ← field es "maximum_fractional_digits" J.getI32 }

/-- `Deserialize for DateTime` and `Timespan` (`src/properties/struct_types.rs` 55). -/
def J.getTicks [FieldJ] (j : J) : Option UInt64 := do
  field (← j.getFields ["ticks"]) "ticks" J.getU64

/-- `Deserialize for FormatArgumentValue` (`src/properties/text_property.rs` 735-751): an object
with one entry.  `rec` reads a text. -/
def FormatArgumentValue.ofJ (rec : J → Option FText) : J → Option FormatArgumentValue
  | .obj [(k, j)] =>
    if k = "Int" then j.getI32.map .int
    else if k = "UInt" then j.getU32.map .uint
    else if k = "Float" then j.getF32.map .float
    else if k = "Double" then j.getF64.map .double
    else if k = "Text" then (rec j).map .text
    else if k = "Int64" then j.getI64.map .int64
    else if k = "UInt64" then j.getU64.map .uint64
    else none
  | _ => none

/-- The variant of `FTextHistory` with a tag (`src/properties/text_property.rs` 175-294). -/
def FTextHistory.ofTag [FieldJ] (rec : J → Option FText) (es : List (String × J)) (tag : String) :
    Option FTextHistory := do
  let arg := FormatArgumentValue.ofJ rec
  if tag = "Empty" then return .empty
  else if tag = "None" then return .none (← optField es "culture_invariant_string" J.getStr)
  else if tag = "Base" then
    return .base (← optField es "namespace" J.getStr) (← optField es "key" J.getStr)
      (← optField es "source_string" J.getStr)
  else if tag = "NamedFormat" then
    return .namedFormat (← field es "source_format" rec)
      (← field es "arguments" (J.getStrMap arg))
  else if tag = "OrderedFormat" then
    return .orderedFormat (← field es "source_format" rec)
      (← field es "arguments" (J.getArr arg))
  else if tag = "ArgumentFormat" then
    return .argumentFormat (← field es "source_format" rec)
      (← field es "arguments" (J.getStrMap arg))
  else if tag = "AsNumber" then
    return .asNumber (← field es "source_value" arg)
      (← optField es "format_options" J.getOptions) (← optField es "target_culture" J.getStr)
  else if tag = "AsPercent" then
    return .asPercent (← field es "source_value" arg)
      (← optField es "format_options" J.getOptions) (← optField es "target_culture" J.getStr)
  else if tag = "AsCurrency" then
    return .asCurrency (← optField es "currency_code" J.getStr) (← field es "source_value" arg)
      (← optField es "format_options" J.getOptions) (← optField es "target_culture" J.getStr)
  else if tag = "AsDate" then
    return .asDate (← field es "date_time" J.getTicks) (← field es "date_style" J.getStyle)
      (← field es "target_culture" J.getStr)
  else if tag = "AsTime" then
    return .asTime (← field es "source_date_time" J.getTicks)
      (← field es "time_style" J.getStyle) (← field es "time_zone" J.getStr)
      (← field es "target_culture" J.getStr)
  else if tag = "AsDateTime" then
    return .asDateTime (← field es "source_date_time" J.getTicks)
      (← field es "date_style" J.getStyle) (← field es "time_style" J.getStyle)
      (← field es "time_zone" J.getStr) (← field es "target_culture" J.getStr)
  else if tag = "Transform" then
    return .transform (← field es "source_text" rec)
      (← field es "transform" (J.getTagVariant [.toLower, .toUpper] TransformType.json))
  else if tag = "StringTableEntry" then
    return .stringTableEntry (← field es "table_id" J.getStr) (← field es "key" J.getStr)
  else Option.none

/-- The variants of `FTextHistory` in order (`src/properties/text_property.rs` 178-294). -/
def historyTags : List String :=
  ["Empty", "None", "Base", "NamedFormat", "OrderedFormat", "ArgumentFormat", "AsNumber",
   "AsPercent", "AsCurrency", "AsDate", "AsTime", "AsDateTime", "Transform", "StringTableEntry"]

/-- `Deserialize for FTextHistory` (`src/properties/text_property.rs` 175-294; tag `history`), which
is always flattened, so buffered and an object. -/
def FTextHistory.ofEntries [FieldJ] (rec : J → Option FText) (es : List (String × J)) :
    Option FTextHistory :=
  (field es "history" (J.getTag historyTags)).bind (FTextHistory.ofTag rec es)

/-- `Deserialize for FText` (`src/properties/text_property.rs` 66-74), from the entries of the
object it is, or is flattened into (27).  The number bounds the nesting. -/
def FText.ofEntries [FieldJ] : Nat → List (String × J) → Option FText
  | 0, _ => none
  | n + 1, es => do
    let flags ← defaultField es "flags" 0 J.getU32
    let h ← FTextHistory.ofEntries (fun j => j.getEntries.bind (FText.ofEntries n)) es
    return .mk flags h

/-- `Deserialize for Delegate` (`src/properties/delegate_property.rs` 14). -/
def J.getDelegate [FieldJ] (j : J) : Option Delegate := do
  let es ← j.getFields ["object", "function_name"]
  return ⟨← field es "object" J.getStr, ← field es "function_name" J.getStr⟩

/-- `Deserialize for MulticastScriptDelegate` (`src/properties/delegate_property.rs` 92). -/
def J.getMulticast [FieldJ] (j : J) : Option (List Delegate) := do
  field (← j.getFields ["delegates"]) "delegates" (J.getArr J.getDelegate)

/-- `Deserialize for FieldPath` (`src/properties/field_path_property.rs` 14). -/
def J.getFieldPath [FieldJ] (j : J) : Option FieldPath := do
  let es ← j.getFields ["path", "resolved_owner"]
  return ⟨← field es "path" (J.getArr J.getStr), ← field es "resolved_owner" J.getStr⟩

/-- Two floats or the like named `a` and `b`. -/
def J.get2 [FieldJ] {α β : Type} (d : J → Option α) (a b : String) (f : α → α → β) (j : J) :
    Option β := do
  let es ← j.getFields [a, b]
  return f (← field es a d) (← field es b d)

/-- Three components. -/
def J.get3 [FieldJ] {α β : Type} (d : J → Option α) (a b c : String) (f : α → α → α → β) (j : J) :
    Option β := do
  let es ← j.getFields [a, b, c]
  return f (← field es a d) (← field es b d) (← field es c d)

/-- Four components. -/
def J.get4 [FieldJ] {α β : Type} (d : J → Option α) (a b c e : String) (f : α → α → α → α → β)
    (j : J) : Option β := do
  let es ← j.getFields [a, b, c, e]
  return f (← field es a d) (← field es b d) (← field es c d) (← field es e d)

/-- `Deserialize for StructPropertyValue` (`src/properties/struct_property.rs` 54-86): the
variant with this name.  `rec` reads a property. -/
def StructPropertyValue.ofVariant [FieldJ] (rec : J → Option Property) (k : String) (j : J) :
    Option StructPropertyValue :=
  if k = "Vector2F" then j.get2 J.getF32 "x" "y" .vector2F
  else if k = "Vector2D" then j.get2 J.getF64 "x" "y" .vector2D
  else if k = "VectorF" then j.get3 J.getF32 "x" "y" "z" .vectorF
  else if k = "VectorD" then j.get3 J.getF64 "x" "y" "z" .vectorD
  else if k = "RotatorF" then j.get3 J.getF32 "pitch" "yaw" "roll" .rotatorF
  else if k = "RotatorD" then j.get3 J.getF64 "pitch" "yaw" "roll" .rotatorD
  else if k = "QuatF" then j.get4 J.getF32 "x" "y" "z" "w" .quatF
  else if k = "QuatD" then j.get4 J.getF64 "x" "y" "z" "w" .quatD
  else if k = "DateTime" then j.getTicks.map .dateTime
  else if k = "Timespan" then j.getTicks.map .timespan
  else if k = "Guid" then j.getGuid.map .guid
  else if k = "LinearColor" then j.get4 J.getF32 "r" "g" "b" "a" .linearColor
  else if k = "IntPoint" then j.get2 J.getI32 "x" "y" .intPoint
  else if k = "GameplayTagContainer" then (j.getArr J.getStr).map .gameplayTagContainer
  else if k = "CustomStruct" then (j.getStrMap (J.getArr rec)).map .customStruct
  else none

/-- The variant names of `StructPropertyValue` (`src/properties/struct_property.rs` 56-86). -/
def structVariants : List String :=
  ["Vector2F", "Vector2D", "VectorF", "VectorD", "RotatorF", "RotatorD", "QuatF", "QuatD",
   "DateTime", "Timespan", "Guid", "LinearColor", "IntPoint", "GameplayTagContainer",
   "CustomStruct"]

/-- A struct as an object with exactly one entry. -/
def StructPropertyValue.ofJ [FieldJ] (rec : J → Option Property) : J → Option StructPropertyValue
  | .obj [(k, j)] => StructPropertyValue.ofVariant rec k j
  | _ => none

/-- A struct flattened into another object (`src/properties/struct_property.rs` 48): the first
entry that is named like a variant. -/
def StructPropertyValue.ofFlat [FieldJ] (rec : J → Option Property) (es : List (String × J)) :
    Option StructPropertyValue := do
  let e ← es.find? fun e => structVariants.contains e.1
  StructPropertyValue.ofVariant rec e.1 e.2

/-- A byte value flattened into another object (`src/properties/int_property.rs` 141-157). -/
def BytePropertyValue.ofFlat (es : List (String × J)) : Option BytePropertyValue := do
  let e ← es.find? fun e => ["Byte", "Namespaced"].contains e.1
  if e.1 = "Byte" then e.2.getU8.map .byte else e.2.getStr.map .namespaced

/-- `Deserialize for ArrayProperty` (`src/properties/array_property.rs` 30-90; untagged): the
first variant that fits. -/
def ArrayProperty.ofEntries [FieldJ] (rec : J → Option Property) (es : List (String × J)) :
    Option ArrayProperty :=
  (field es "bools" (J.getArr J.getBool)).map .bools
  <|> (field es "bytes" J.getHex).map .bytes
  <|> (field es "enums" (J.getArr J.getStr)).map .enums
  <|> (field es "floats" (J.getArr J.getF32)).map .floats
  <|> (field es "ints" (J.getArr J.getI32)).map .ints
  <|> (field es "names" (J.getArr (J.getOpt J.getStr))).map .names
  <|> (field es "strings" (J.getArr (J.getOpt J.getStr))).map .strings
  <|> (do
    return .structs (← field es "field_name" J.getStr) (← field es "type_name" J.getStr)
      (← defaultField es "guid" (Guid.fromU128 0) J.getGuid)
      (← field es "structs" (J.getArr (StructPropertyValue.ofJ rec))))
  <|> (do
    return .properties (← field es "property_type" J.getStr)
      (← field es "properties" (J.getArr rec)))

/-- `Deserialize for MapProperty` (`src/properties/map_property.rs` 25-96; untagged): the first
variant that fits. -/
def MapProperty.ofEntries [FieldJ] (rec : J → Option Property) (es : List (String × J)) :
    Option MapProperty :=
  (field es "enum_bools" (J.getStrMap J.getBool)).map .enumBool
  <|> (field es "enum_ints" (J.getStrMap J.getI32)).map .enumInt
  <|> (do
    return .enumProperty (← field es "value_type" J.getStr) (← field es "enum_props" (J.getStrMap rec)))
  <|> (field es "name_bools" (J.getStrMap J.getBool)).map .nameBool
  <|> (field es "name_ints" (J.getStrMap J.getI32)).map .nameInt
  <|> (do
    return .nameProperty (← field es "value_type" J.getStr) (← field es "name_props" (J.getStrMap rec)))
  <|> (do
    return .properties (← field es "key_type" J.getStr) (← field es "value_type" J.getStr)
      (← field es "allocation_flags" J.getU32)
      (imExtend sameKey [] (← field es "value" (J.getArr (J.getPair rec)))))
  <|> (field es "str_bools" (J.getStrMap J.getBool)).map .strBool
  <|> (field es "str_ints" (J.getStrMap J.getI32)).map .strInt
  <|> (do
    return .strProperty (← field es "value_type" J.getStr) (← field es "str_props" (J.getStrMap rec)))
  <|> (field es "str_strs" (J.getStrMap (J.getOpt J.getStr))).map .strStr

/-- The variant of `Property` with a tag (`src/properties/mod.rs` 489-548).  `text` reads a
text from the entries, `rec` a property. -/
def Property.ofTag [FieldJ] (text : List (String × J) → Option FText) (rec : J → Option Property)
    (es : List (String × J)) (tag : String) : Option Property := do
  if tag = "ArrayProperty" then return .array (← ArrayProperty.ofEntries rec es)
  else if tag = "BoolProperty" then return .bool (← field es "value" J.getBool)
  else if tag = "ByteProperty" then
    return .byte (← optField es "name" J.getStr) (← BytePropertyValue.ofFlat es)
  else if tag = "DoubleProperty" then return .double (← field es "value" J.getF64)
  else if tag = "EnumProperty" then
    return .enum (← optField es "enum_type" J.getStr) (← field es "value" J.getStr)
  else if tag = "FloatProperty" then return .float (← field es "value" J.getF32)
  else if tag = "Int16Property" then return .int16 (← field es "value" J.getI16)
  else if tag = "Int64Property" then return .int64 (← field es "value" J.getI64)
  else if tag = "Int8Property" then return .int8 (← field es "value" J.getI8)
  else if tag = "IntProperty" then return .int (← field es "value" J.getI32)
  else if tag = "MapProperty" then return .map (← MapProperty.ofEntries rec es)
  else if tag = "NameProperty" then
    return .name (← defaultField es "array_index" 0 J.getU32) (← optField es "value" J.getStr)
  else if tag = "ObjectProperty" then return .object (← field es "value" J.getStr)
  else if tag = "DelegateProperty" then return .delegate (← field es "value" J.getDelegate)
  else if tag = "MulticastInlineDelegateProperty" then
    return .multicastInlineDelegate (← field es "value" J.getMulticast)
  else if tag = "MulticastSparseDelegateProperty" then
    return .multicastSparseDelegate (← field es "value" J.getMulticast)
  else if tag = "FieldPathProperty" then return .fieldPath (← field es "value" J.getFieldPath)
  else if tag = "SetProperty" then
    return .set (← field es "property_type" J.getStr) (← field es "allocation_flags" J.getU32)
      (← field es "properties" (J.getArr rec))
  else if tag = "StrProperty" then return .str (← optField es "value" J.getStr)
  else if tag = "StructProperty" then
    return .struct (← defaultField es "guid" (Guid.fromU128 0) J.getGuid)
      (← field es "type_name" J.getStr) (← StructPropertyValue.ofFlat rec es)
  else if tag = "StructPropertyValue" then
    return .structValue (← StructPropertyValue.ofJ rec (.obj (es.filter fun e => e.1 != "type")))
  else if tag = "TextProperty" then return .text (← text es)
  else if tag = "UInt16Property" then return .uint16 (← field es "value" J.getU16)
  else if tag = "UInt32Property" then return .uint32 (← field es "value" J.getU32)
  else if tag = "UInt64Property" then return .uint64 (← field es "value" J.getU64)
  else if tag = "UnknownProperty" then
    return .unknown (← field es "property_name" J.getStr) (← field es "raw" (J.getArr J.getU8))
  else none

/-- The variants of `Property` in order (`src/properties/mod.rs` 495-548). -/
def propertyTags : List String :=
  ["ArrayProperty", "BoolProperty", "ByteProperty", "DoubleProperty", "EnumProperty",
   "FloatProperty", "Int16Property", "Int64Property", "Int8Property", "IntProperty", "MapProperty",
   "NameProperty", "ObjectProperty", "DelegateProperty", "MulticastInlineDelegateProperty",
   "MulticastSparseDelegateProperty", "FieldPathProperty", "SetProperty", "StrProperty",
   "StructProperty", "StructPropertyValue", "TextProperty", "UInt16Property", "UInt32Property",
   "UInt64Property", "UnknownProperty"]

/-- The fields of the property structs in order (`src/properties/*.rs`); `none` for those with
flattened fields, the untagged ones (`src/properties/array_property.rs` 32, `map_property.rs` 26)
and `StructPropertyValue`, which is an enum: they are not read from arrays. -/
def propertyFields (tag : String) : Option (List String) :=
  if tag ∈ ["ArrayProperty", "ByteProperty", "MapProperty", "StructProperty",
    "StructPropertyValue", "TextProperty"] then none
  else if tag = "EnumProperty" then some ["enum_type", "value"]
  else if tag = "NameProperty" then some ["array_index", "value"]
  else if tag = "SetProperty" then some ["property_type", "allocation_flags", "properties"]
  else if tag = "UnknownProperty" then some ["property_name", "raw"]
  else some ["value"]

/-- `Deserialize for Property` (`src/properties/mod.rs` 489-548; tag `type`).  `tagOf` reads the
tag. -/
def Property.ofJStep [FieldJ] (tagOf : J → Option String) (text : List (String × J) → Option FText)
    (rec : J → Option Property) (j : J) : Option Property :=
  (j.getTagged "type" tagOf propertyFields).bind fun r => Property.ofTag text rec r.2 r.1

/-- `Deserialize for Property` of a property inside another one, which is buffered; the number
bounds the nesting. -/
def Property.ofJ [FieldJ] : Nat → J → Option Property
  | 0, _ => none
  | n + 1, j =>
    Property.ofJStep (J.getTag propertyTags) (FText.ofEntries (n + 1)) (Property.ofJ n) j

/-- `Deserialize for Property` of a property by itself. -/
def Property.ofJson [FieldJ] : Nat → J → Option Property
  | 0, _ => none
  | n + 1, j => Property.ofJStep J.getStr (FText.ofEntries (n + 1)) (Property.ofJ n) j

/-- `Deserialize for FEngineVersion` (`src/engine_version.rs` 11-23). -/
def J.getEngineVersion [FieldJ] (j : J) : Option FEngineVersion := do
  let es ← j.getFields ["major", "minor", "patch", "change_list", "branch"]
  return {
    major := ← field es "major" J.getU16
    minor := ← field es "minor" J.getU16
    patch := ← field es "patch" J.getU16
    changeList := ← field es "change_list" J.getU32
    branch := ← field es "branch" J.getStr }

/-- The custom versions (`src/lib.rs` 127, 142). -/
def J.getCustomVersions : J → Option (List (Guid × UInt32)) :=
  J.getMap (· == ·) guidOfStr J.getU32

/-- The variant of `GvasHeader` with a tag (`src/lib.rs` 115-146). -/
def GvasHeader.ofTag [FieldJ] (es : List (String × J)) (tag : String) : Option GvasHeader := do
  if tag = "Version2" then
    return .version2 (← field es "package_file_version" J.getU32)
      (← field es "engine_version" J.getEngineVersion)
      (← field es "custom_version_format" J.getU32)
      (← field es "custom_versions" J.getCustomVersions)
      (← field es "save_game_class_name" J.getStr)
  else if tag = "Version3" then
    return .version3 (← field es "package_file_version" J.getU32)
      (← field es "package_file_version_ue5" J.getU32)
      (← field es "engine_version" J.getEngineVersion)
      (← field es "custom_version_format" J.getU32)
      (← field es "custom_versions" J.getCustomVersions)
      (← field es "save_game_class_name" J.getStr)
  else none

/-- The fields of the variants of `GvasHeader` in order (`src/lib.rs` 117-146). -/
def headerFields (tag : String) : Option (List String) :=
  if tag = "Version2" then some ["package_file_version", "engine_version",
    "custom_version_format", "custom_versions", "save_game_class_name"]
  else some ["package_file_version", "package_file_version_ue5", "engine_version",
    "custom_version_format", "custom_versions", "save_game_class_name"]

/-- `Deserialize for GvasHeader` (`src/lib.rs` 115-146; tag `type`). -/
def GvasHeader.ofJ [FieldJ] (j : J) : Option GvasHeader :=
  (j.getTagged "type" J.getStr headerFields).bind fun r => GvasHeader.ofTag r.2 r.1

/-- `Deserialize for DeserializedGameVersion` (`src/game_version.rs` 18-39). -/
def J.getGameVersion : J → Option DeserializedGameVersion
  | .str "Default" => some .default
  | .obj [("Default", .null)] => some .default
  | .obj [("Palworld", j)] =>
    (j.getVariant false [.none, .zlib, .zlibTwice] PalworldCompressionType.json).map .palworld
  | _ => none

/-- `Deserialize for GvasFile` (`src/lib.rs` 331-343), i.e. `serde_json::from_value`. -/
def GvasFile.ofJson [FieldJ] (j : J) : Option GvasFile := do
  let es ← j.getFields ["deserialized_game_version", "header", "properties"]
  return {
    gameVersion := ← defaultField es "deserialized_game_version" .default J.getGameVersion
    header := ← field es "header" GvasHeader.ofJ
    properties := ← field es "properties" (J.getStrMap (Property.ofJson j.depth)) }

end Gvas
