import Verif.Model.Json

/-!
# What a file hands to a serializer (feature `serde`)

The calls that the `Serialize` implementations make, as a tree.  `serde_json::to_value` makes of
them the value in `Verif.Model.Json`, `serde_json::to_string` the text in `Verif.Model.JsonText`.
The two differ in `f32` numbers: the value holds them widened to `f64`, the text has the digits of
the `f32`.

The definitions repeat those of `Verif.Model.Json`, with `f32` and `f64` kept apart; that they say
the same is proved (`C88_same_value`).
-/

namespace Gvas

/-- The calls to a serializer (`serde::Serializer`), as a tree. -/
inductive Ser where
  | null
  | bool (b : Bool)
  | int (n : Int)
  | f32 (f : F32)
  | f64 (f : F64)
  | str (s : String)
  | arr (l : List Ser)
  | obj (l : List (String × Ser))

mutual
/-- `serde_json::to_value`: what is not finite becomes `null`, an `f32` the given number (with
`F32.toF64` it is widened, as `Number::from_f32` of serde_json does). -/
def Ser.toJ (num : F32 → F64) : Ser → J
  | .null => .null
  | .bool b => .bool b
  | .int n => .int n
  | .f32 f => if f.isFinite then .float (num f) else .null
  | .f64 f => if f.isFinite then .float f else .null
  | .str s => .str s
  | .arr l => .arr (serList num l)
  | .obj l => .obj (serEntries num l)
/-- The elements of an array. -/
def serList (num : F32 → F64) : List Ser → List J
  | [] => []
  | a :: l => a.toJ num :: serList num l
/-- The entries of an object. -/
def serEntries (num : F32 → F64) : List (String × Ser) → List (String × J)
  | [] => []
  | (k, a) :: l => (k, a.toJ num) :: serEntries num l
end

/-- `Serialize for f32` (and `OrderedFloat<f32>`, ordered-float). -/
def F32.toS (f : F32) : Ser := .f32 f

/-- `Serialize for f64` (and `OrderedFloat<f64>`, ordered-float). -/
def F64.toS (f : F64) : Ser := .f64 f

/-- An optional string (`None` is `null`). -/
def optS : Option String → Ser
  | none => .null
  | some s => .str s

/-- An optional field that is left out when it is `None` (`skip_serializing_none`, e.g.
`src/properties/str_property.rs` 14). -/
def optES (k : String) : Option String → List (String × Ser)
  | none => []
  | some s => [(k, .str s)]

/-- A field that is left out when it is zero (`skip_serializing_if = "is_zero"`,
`src/properties/name_property.rs` 15, `text_property.rs` 69). -/
def nonzeroES (k : String) (v : UInt32) : List (String × Ser) :=
  if v = 0 then [] else [(k, .int v.toNat)]

/-- `Serialize for Guid` (`src/types.rs` 190-197). -/
def Guid.toS (g : Guid) : Ser := .str (String.ofList g.display)

/-- A GUID field that is left out when zero (`src/properties/struct_property.rs` 42,
`array_property.rs` 77). -/
def guidES (g : Guid) : List (String × Ser) := if g.isZero then [] else [("guid", g.toS)]

/-! ## Texts -/

/-- `Serialize for NumberFormattingOptions` (`src/properties/text_property.rs` 882-899); the
rounding mode is flattened (861, 889). -/
def NumberFormattingOptions.toS (o : NumberFormattingOptions) : Ser :=
  .obj [("always_include_sign", .bool o.alwaysIncludeSign), ("use_grouping", .bool o.useGrouping),
    ("rounding", .str o.roundingMode.json),
    ("minimum_integral_digits", .int o.minimumIntegralDigits.toInt),
    ("maximum_integral_digits", .int o.maximumIntegralDigits.toInt),
    ("minimum_fractional_digits", .int o.minimumFractionalDigits.toInt),
    ("maximum_fractional_digits", .int o.maximumFractionalDigits.toInt)]

/-- Optional formatting options (`skip_serializing_none`, 175). -/
def optionsES : Option NumberFormattingOptions → List (String × Ser)
  | none => []
  | some o => [("format_options", o.toS)]

/-- `Serialize for DateTime` (`src/properties/struct_types.rs` 55, 151-155), also of `Timespan`. -/
def ticksS (t : UInt64) : Ser := .obj [("ticks", .int t.toNat)]

mutual
/-- `Serialize for FText` (`src/properties/text_property.rs` 66-74): its history is flattened. -/
def FText.entriesS : FText → List (String × Ser)
  | .mk flags h => nonzeroES "flags" flags ++ FTextHistory.entriesS h
/-- `Serialize for FTextHistory` (`src/properties/text_property.rs` 175-294). -/
def FTextHistory.entriesS : FTextHistory → List (String × Ser)
  | .empty => [("history", .str "Empty")]
  | .none s => ("history", .str "None") :: optES "culture_invariant_string" s
  | .base a b c => ("history", .str "Base") ::
      (optES "namespace" a ++ optES "key" b ++ optES "source_string" c)
  | .namedFormat src args => [("history", .str "NamedFormat"),
      ("source_format", .obj (FText.entriesS src)), ("arguments", .obj (namedArgsS args))]
  | .orderedFormat src args => [("history", .str "OrderedFormat"),
      ("source_format", .obj (FText.entriesS src)), ("arguments", .arr (argsS args))]
  | .argumentFormat src args => [("history", .str "ArgumentFormat"),
      ("source_format", .obj (FText.entriesS src)), ("arguments", .obj (namedArgsS args))]
  | .asNumber v o c => ("history", .str "AsNumber") ::
      (("source_value", FormatArgumentValue.toS v) :: (optionsES o ++ optES "target_culture" c))
  | .asPercent v o c => ("history", .str "AsPercent") ::
      (("source_value", FormatArgumentValue.toS v) :: (optionsES o ++ optES "target_culture" c))
  | .asCurrency a v o c => ("history", .str "AsCurrency") :: (optES "currency_code" a ++
      (("source_value", FormatArgumentValue.toS v) :: (optionsES o ++ optES "target_culture" c)))
  | .asDate t st c => [("history", .str "AsDate"), ("date_time", ticksS t),
      ("date_style", .str st.json), ("target_culture", .str c)]
  | .asTime t st z c => [("history", .str "AsTime"), ("source_date_time", ticksS t),
      ("time_style", .str st.json), ("time_zone", .str z), ("target_culture", .str c)]
  | .asDateTime t ds ts z c => [("history", .str "AsDateTime"), ("source_date_time", ticksS t),
      ("date_style", .str ds.json), ("time_style", .str ts.json), ("time_zone", .str z),
      ("target_culture", .str c)]
  | .transform src tt => [("history", .str "Transform"),
      ("source_text", .obj (FText.entriesS src)), ("transform", .str tt.json)]
  | .stringTableEntry a b => [("history", .str "StringTableEntry"), ("table_id", .str a),
      ("key", .str b)]
/-- `Serialize for FormatArgumentValue` (`src/properties/text_property.rs` 735-751). -/
def FormatArgumentValue.toS : FormatArgumentValue → Ser
  | .int v => .obj [("Int", .int v.toInt)]
  | .uint v => .obj [("UInt", .int v.toNat)]
  | .float v => .obj [("Float", v.toS)]
  | .double v => .obj [("Double", v.toS)]
  | .text t => .obj [("Text", .obj (FText.entriesS t))]
  | .int64 v => .obj [("Int64", .int v.toInt)]
  | .uint64 v => .obj [("UInt64", .int v.toNat)]
/-- A sequence of arguments. -/
def argsS : List FormatArgumentValue → List Ser
  | [] => []
  | v :: l => FormatArgumentValue.toS v :: argsS l
/-- A map of arguments. -/
def namedArgsS : List (String × FormatArgumentValue) → List (String × Ser)
  | [] => []
  | (k, v) :: l => (k, FormatArgumentValue.toS v) :: namedArgsS l
end

/-! ## Properties -/

/-- `Serialize for BytePropertyValue` (`src/properties/int_property.rs` 141-147), flattened
(157). -/
def BytePropertyValue.entryS : BytePropertyValue → String × Ser
  | .byte v => ("Byte", .int v.toNat)
  | .namespaced s => ("Namespaced", .str s)

/-- `Serialize for Delegate` (`src/properties/delegate_property.rs` 14-20). -/
def Delegate.toS (d : Delegate) : Ser :=
  .obj [("object", .str d.object), ("function_name", .str d.functionName)]

/-- `Serialize for MulticastScriptDelegate` (`src/properties/delegate_property.rs` 92-96). -/
def multicastS (ds : List Delegate) : Ser := .obj [("delegates", .arr (ds.map Delegate.toS))]

/-- `Serialize for FieldPath` (`src/properties/field_path_property.rs` 14-20). -/
def FieldPath.toS (p : FieldPath) : Ser :=
  .obj [("path", .arr (p.path.map .str)), ("resolved_owner", .str p.resolvedOwner)]

mutual
/-- `Serialize for Property` (`src/properties/mod.rs` 489-548; tag `type`) and the property
structs (the `derive`s in `src/properties/*.rs`). -/
def Property.toS : Property → Ser
  | .array v => .obj (("type", .str "ArrayProperty") :: ArrayProperty.entriesS v)
  | .bool v => .obj [("type", .str "BoolProperty"), ("value", .bool v)]
  | .byte name v => .obj (("type", .str "ByteProperty") :: (optES "name" name ++ [v.entryS]))
  | .double v => .obj [("type", .str "DoubleProperty"), ("value", v.toS)]
  | .enum t v => .obj (("type", .str "EnumProperty") :: (optES "enum_type" t ++
      [("value", .str v)]))
  | .float v => .obj [("type", .str "FloatProperty"), ("value", v.toS)]
  | .int16 v => .obj [("type", .str "Int16Property"), ("value", .int v.toInt)]
  | .int64 v => .obj [("type", .str "Int64Property"), ("value", .int v.toInt)]
  | .int8 v => .obj [("type", .str "Int8Property"), ("value", .int v.toInt)]
  | .int v => .obj [("type", .str "IntProperty"), ("value", .int v.toInt)]
  | .map v => .obj (("type", .str "MapProperty") :: MapProperty.entriesS v)
  | .name i v => .obj (("type", .str "NameProperty") :: (nonzeroES "array_index" i ++
      optES "value" v))
  | .object v => .obj [("type", .str "ObjectProperty"), ("value", .str v)]
  | .delegate v => .obj [("type", .str "DelegateProperty"), ("value", v.toS)]
  | .multicastInlineDelegate v =>
    .obj [("type", .str "MulticastInlineDelegateProperty"), ("value", multicastS v)]
  | .multicastSparseDelegate v =>
    .obj [("type", .str "MulticastSparseDelegateProperty"), ("value", multicastS v)]
  | .fieldPath v => .obj [("type", .str "FieldPathProperty"), ("value", v.toS)]
  | .set t fl ps => .obj [("type", .str "SetProperty"), ("property_type", .str t),
      ("allocation_flags", .int fl.toNat), ("properties", .arr (propsS ps))]
  | .str v => .obj (("type", .str "StrProperty") :: optES "value" v)
  | .struct g t v => .obj (("type", .str "StructProperty") :: (guidES g ++
      [("type_name", .str t), StructPropertyValue.entryS v]))
  | .structValue v => .obj [("type", .str "StructPropertyValue"), StructPropertyValue.entryS v]
  | .text v => .obj (("type", .str "TextProperty") :: v.entriesS)
  | .uint16 v => .obj [("type", .str "UInt16Property"), ("value", .int v.toNat)]
  | .uint32 v => .obj [("type", .str "UInt32Property"), ("value", .int v.toNat)]
  | .uint64 v => .obj [("type", .str "UInt64Property"), ("value", .int v.toNat)]
  | .unknown name raw => .obj [("type", .str "UnknownProperty"), ("property_name", .str name),
      ("raw", .arr (raw.map fun b => .int b.toNat))]
/-- `Serialize for ArrayProperty` (`src/properties/array_property.rs` 30-90; untagged). -/
def ArrayProperty.entriesS : ArrayProperty → List (String × Ser)
  | .bools v => [("bools", .arr (v.map .bool))]
  | .bytes v => [("bytes", .str (hexText v))]
  | .enums v => [("enums", .arr (v.map .str))]
  | .floats v => [("floats", .arr (v.map F32.toS))]
  | .ints v => [("ints", .arr (v.map fun x => .int x.toInt))]
  | .names v => [("names", .arr (v.map optS))]
  | .strings v => [("strings", .arr (v.map optS))]
  | .structs field ty g v => [("field_name", .str field), ("type_name", .str ty)] ++ guidES g ++
      [("structs", .arr (structsS v))]
  | .properties ty ps => [("property_type", .str ty), ("properties", .arr (propsS ps))]
/-- `Serialize for MapProperty` (`src/properties/map_property.rs` 25-96; untagged). -/
def MapProperty.entriesS : MapProperty → List (String × Ser)
  | .enumBool v => [("enum_bools", .obj (v.map fun e => (e.1, .bool e.2)))]
  | .enumInt v => [("enum_ints", .obj (v.map fun e => (e.1, .int e.2.toInt)))]
  | .enumProperty t v => [("value_type", .str t), ("enum_props", .obj (strPropsS v))]
  | .nameBool v => [("name_bools", .obj (v.map fun e => (e.1, .bool e.2)))]
  | .nameInt v => [("name_ints", .obj (v.map fun e => (e.1, .int e.2.toInt)))]
  | .nameProperty t v => [("value_type", .str t), ("name_props", .obj (strPropsS v))]
  | .properties kt vt fl v => [("key_type", .str kt), ("value_type", .str vt),
      ("allocation_flags", .int fl.toNat), ("value", .arr (pairsS v))]
  | .strBool v => [("str_bools", .obj (v.map fun e => (e.1, .bool e.2)))]
  | .strInt v => [("str_ints", .obj (v.map fun e => (e.1, .int e.2.toInt)))]
  | .strProperty t v => [("value_type", .str t), ("str_props", .obj (strPropsS v))]
  | .strStr v => [("str_strs", .obj (v.map fun e => (e.1, optS e.2)))]
/-- `Serialize for StructPropertyValue` (`src/properties/struct_property.rs` 54-86) and of the
structs (`src/properties/struct_types.rs` 88-175): variant name and value. -/
def StructPropertyValue.entryS : StructPropertyValue → String × Ser
  | .vector2F x y => ("Vector2F", .obj [("x", x.toS), ("y", y.toS)])
  | .vector2D x y => ("Vector2D", .obj [("x", x.toS), ("y", y.toS)])
  | .vectorF x y z => ("VectorF", .obj [("x", x.toS), ("y", y.toS), ("z", z.toS)])
  | .vectorD x y z => ("VectorD", .obj [("x", x.toS), ("y", y.toS), ("z", z.toS)])
  | .rotatorF x y z => ("RotatorF", .obj [("pitch", x.toS), ("yaw", y.toS), ("roll", z.toS)])
  | .rotatorD x y z => ("RotatorD", .obj [("pitch", x.toS), ("yaw", y.toS), ("roll", z.toS)])
  | .quatF x y z w => ("QuatF", .obj [("x", x.toS), ("y", y.toS), ("z", z.toS), ("w", w.toS)])
  | .quatD x y z w => ("QuatD", .obj [("x", x.toS), ("y", y.toS), ("z", z.toS), ("w", w.toS)])
  | .dateTime t => ("DateTime", ticksS t)
  | .timespan t => ("Timespan", ticksS t)
  | .guid g => ("Guid", g.toS)
  | .linearColor r g b a =>
    ("LinearColor", .obj [("r", r.toS), ("g", g.toS), ("b", b.toS), ("a", a.toS)])
  | .intPoint x y => ("IntPoint", .obj [("x", .int x.toInt), ("y", .int y.toInt)])
  | .gameplayTagContainer tags => ("GameplayTagContainer", .arr (tags.map .str))
  | .customStruct fs => ("CustomStruct", .obj (fieldsS fs))
/-- A sequence of properties. -/
def propsS : List Property → List Ser
  | [] => []
  | p :: l => Property.toS p :: propsS l
/-- A sequence of structs. -/
def structsS : List StructPropertyValue → List Ser
  | [] => []
  | v :: l => .obj [StructPropertyValue.entryS v] :: structsS l
/-- A map from strings to properties. -/
def strPropsS : List (String × Property) → List (String × Ser)
  | [] => []
  | (k, p) :: l => (k, Property.toS p) :: strPropsS l
/-- A map as a sequence of pairs (`serde_seq`, `src/types.rs` 349-361). -/
def pairsS : List (Property × Property) → List Ser
  | [] => []
  | (k, p) :: l => .arr [Property.toS k, Property.toS p] :: pairsS l
/-- The fields of a custom struct. -/
def fieldsS : List (String × List Property) → List (String × Ser)
  | [] => []
  | (k, ps) :: l => (k, .arr (propsS ps)) :: fieldsS l
end

/-! ## Files -/

/-- `Serialize for FEngineVersion` (`src/engine_version.rs` 11-23). -/
def FEngineVersion.toS (v : FEngineVersion) : Ser :=
  .obj [("major", .int v.major.toNat), ("minor", .int v.minor.toNat),
    ("patch", .int v.patch.toNat), ("change_list", .int v.changeList.toNat),
    ("branch", .str v.branch)]

/-- The custom versions as a map (`src/lib.rs` 127, 142; `src/types.rs` 222). -/
def customVersionsS (cv : List (Guid × UInt32)) : Ser :=
  .obj (cv.map fun e => (String.ofList e.1.display, .int e.2.toNat))

/-- `Serialize for GvasHeader` (`src/lib.rs` 115-146; tag `type`). -/
def GvasHeader.toS : GvasHeader → Ser
  | .version2 pkg ev fmt cv cls => .obj [("type", .str "Version2"),
      ("package_file_version", .int pkg.toNat), ("engine_version", ev.toS),
      ("custom_version_format", .int fmt.toNat), ("custom_versions", customVersionsS cv),
      ("save_game_class_name", .str cls)]
  | .version3 pkg ue5 ev fmt cv cls => .obj [("type", .str "Version3"),
      ("package_file_version", .int pkg.toNat), ("package_file_version_ue5", .int ue5.toNat),
      ("engine_version", ev.toS), ("custom_version_format", .int fmt.toNat),
      ("custom_versions", customVersionsS cv), ("save_game_class_name", .str cls)]

/-- `Serialize for GvasFile` (`src/lib.rs` 331-343); the game version (`src/game_version.rs`
33-39) is left out when it is the default. -/
def GvasFile.toSerde (f : GvasFile) : Ser :=
  .obj ((match f.gameVersion with
      | .default => []
      | .palworld c => [("deserialized_game_version", .obj [("Palworld", .str c.json)])]) ++
    [("header", f.header.toS), ("properties", .obj (strPropsS f.properties))])

end Gvas
