import Verif.Model.Debug
import Verif.Model.Json

/-!
# `Debug` of files and properties

`println!("{:#?}", gvas_file)` is how the documentation shows a file (`src/lib.rs` 20, 58).  Nearly all
`Debug` implementations are derived; a derived one makes the calls `debug_struct`, `debug_tuple`,
`debug_list` and `debug_map` of core, which are a tree here.  `Dbg.show` is how core's builders print
the tree, on one line (`{:?}`) or many (`{:#?}`).

core, ordered-float and indexmap are not part of the repository and modelled from knowledge of their
sources: `IndexMap` prints like a map.  Parameters are the texts of floats, whether `OrderedFloat` prints
its name around the float in it (which depends on its version) and the set of characters that are
printed as their number in strings (core's tables).
-/

namespace Gvas

/-- What is left to core: which characters are printed as numbers in strings (`is_grapheme_extended`
or not `is_printable`), and the texts of floats by `{:?}` and by `{}`; and to ordered-float: whether its
`Debug` is derived. -/
structure Fmt where
  hidden : Char → Bool
  wrapped : Bool
  debug32 : F32 → List Char
  debug64 : F64 → List Char
  display32 : F32 → List Char
  display64 : F64 → List Char

/-- The calls that a `Debug` implementation makes.  A tuple has one field in this crate. -/
inductive Dbg where
  /-- Text that is printed as it is: numbers, booleans, variants without fields. -/
  | atom (text : List Char)
  /-- `write!(f, "Guid({})", guid)` (`src/types.rs` 106-111): on one line always. -/
  | guid (text : List Char)
  | str (s : String)
  | list (l : List Dbg)
  | map (l : List (Dbg × Dbg))
  | tuple (name : String) (d : Dbg)
  | struct (name : String) (l : List (String × Dbg))

/-! ## Printing -/

/-- A character in a string (`char::escape_debug_ext` as called by `Debug for str`, core). -/
def Fmt.escape (t : Fmt) (c : Char) : List Char :=
  if c.toNat = 0 then ['\\', '0']
  else if c = '\t' then ['\\', 't']
  else if c = '\r' then ['\\', 'r']
  else if c = '\n' then ['\\', 'n']
  else if c = '\\' then ['\\', '\\']
  else if c = '"' then ['\\', '"']
  else if t.hidden c then '\\' :: 'u' :: '{' :: (Nat.toDigits 16 c.toNat ++ ['}'])
  else [c]

/-- `Debug for str` (core). -/
def Fmt.str (t : Fmt) (s : String) : List Char := '"' :: (s.toList.flatMap t.escape ++ ['"'])

/-- The beginning of a line at a depth: `PadAdapter` (core) puts four blanks behind every line break
for each level. -/
def newLine (n : Nat) : List Char := '\n' :: List.replicate (4 * n) ' '

/-- What is printed before a field or item (core's builders). -/
def leadIn (pretty : Bool) (n : Nat) (first : Bool) : List Char :=
  if pretty then newLine n else if first then [] else [',', ' ']

/-- What is printed after a field or item. -/
def leadOut (pretty : Bool) : List Char := if pretty then [','] else []

/-- What is printed before the bracket at the end. -/
def lastLine (pretty : Bool) (n : Nat) (blank : List Char) : List Char :=
  if pretty then newLine n else blank

mutual
/-- The text of a tree at a depth (`DebugStruct`, `DebugTuple`, `DebugList`, `DebugMap`, core). -/
def Dbg.show (t : Fmt) (pretty : Bool) (n : Nat) : Dbg → List Char
  | .atom s => s
  | .guid s => ['G', 'u', 'i', 'd', '('] ++ s ++ [')']
  | .str s => t.str s
  | .list l => '[' :: showItems t pretty (n + 1) true l ++
      (if l.isEmpty then [] else lastLine pretty n []) ++ [']']
  | .map l => '{' :: showEntries t pretty (n + 1) true l ++
      (if l.isEmpty then [] else lastLine pretty n []) ++ ['}']
  | .tuple name d => name.toList ++ '(' :: leadIn pretty (n + 1) true ++ Dbg.show t pretty (n + 1) d ++
      leadOut pretty ++ lastLine pretty n [] ++ [')']
  | .struct name l => name.toList ++ ' ' :: '{' :: (if pretty then [] else [' ']) ++
      showFields t pretty (n + 1) true l ++ lastLine pretty n [' '] ++ ['}']
/-- The items of a list. -/
def showItems (t : Fmt) (pretty : Bool) (n : Nat) (first : Bool) : List Dbg → List Char
  | [] => []
  | d :: l => leadIn pretty n first ++ Dbg.show t pretty n d ++ leadOut pretty ++
      showItems t pretty n false l
/-- The entries of a map. -/
def showEntries (t : Fmt) (pretty : Bool) (n : Nat) (first : Bool) : List (Dbg × Dbg) → List Char
  | [] => []
  | (k, d) :: l => leadIn pretty n first ++ Dbg.show t pretty n k ++ ':' :: ' ' ::
      Dbg.show t pretty n d ++ leadOut pretty ++ showEntries t pretty n false l
/-- The fields of a struct. -/
def showFields (t : Fmt) (pretty : Bool) (n : Nat) (first : Bool) : List (String × Dbg) → List Char
  | [] => []
  | (k, d) :: l => leadIn pretty n first ++ k.toList ++ ':' :: ' ' ::
      Dbg.show t pretty n d ++ leadOut pretty ++ showFields t pretty n false l
end

/-! ## The calls -/

/-- An integer (`Debug` of the integer types, core). -/
def intD (n : Int) : Dbg := .atom (decInt n).toList

/-- The `Debug` text of an `OrderedFloat` (ordered-float). -/
def Fmt.ordered (t : Fmt) (text : List Char) : Dbg :=
  if t.wrapped then .tuple "OrderedFloat" (.atom text) else .atom text

/-- An `OrderedFloat<f32>`, as in `src/properties/array_property.rs` 49-52. -/
def Fmt.f32 (t : Fmt) (v : F32) : Dbg := t.ordered (t.debug32 v)

/-- An `OrderedFloat<f64>`, as in `src/properties/text_property.rs` 742-743. -/
def Fmt.f64 (t : Fmt) (v : F64) : Dbg := t.ordered (t.debug64 v)

/-- A boolean (`Debug for bool`, core). -/
def boolD (b : Bool) : Dbg := .atom (if b then "true" else "false").toList

/-- A variant without fields. -/
def unitD (name : String) : Dbg := .atom name.toList

/-- A number with its type (`src/properties/int_property.rs` 63-67, 133-137). -/
def typedD (text : List Char) (ty : String) : Dbg := .atom (text ++ ty.toList)

/-- `Debug for Option<T>` (core). -/
def optD : Option Dbg → Dbg
  | none => unitD "None"
  | some d => .tuple "Some" d

/-- An `Option<String>`. -/
def optStrD (s : Option String) : Dbg := optD (s.map .str)

/-- A `HashableIndexMap` (derived, `src/types.rs` 221-223). -/
def mapD (l : List (Dbg × Dbg)) : Dbg := .tuple "HashableIndexMap" (.map l)

/-- `Debug for Guid` (`src/types.rs` 106-111). -/
def Guid.dbg (g : Guid) : Dbg := .guid g.display

/-- `DateTime` and `Timespan` (derived, `src/properties/struct_types.rs` 54, 150-160). -/
def ticksD (name : String) (t : UInt64) : Dbg := .struct name [("ticks", intD t.toNat)]

/-- `NumberFormattingOptions` (derived, `src/properties/text_property.rs` 880-899); `RoundingMode`
(derived, 858-876) prints the name that it has in JSON. -/
def NumberFormattingOptions.dbg (o : NumberFormattingOptions) : Dbg :=
  .struct "NumberFormattingOptions" [("always_include_sign", boolD o.alwaysIncludeSign),
    ("use_grouping", boolD o.useGrouping), ("rounding_mode", unitD o.roundingMode.json),
    ("minimum_integral_digits", intD o.minimumIntegralDigits.toInt),
    ("maximum_integral_digits", intD o.maximumIntegralDigits.toInt),
    ("minimum_fractional_digits", intD o.minimumFractionalDigits.toInt),
    ("maximum_fractional_digits", intD o.maximumFractionalDigits.toInt)]

mutual
/-- `FText` (derived, `src/properties/text_property.rs` 64-74). -/
def FText.dbg (t : Fmt) : FText → Dbg
  | .mk flags h => .struct "FText" [("flags", intD flags.toNat), ("history", FTextHistory.dbg t h)]
/-- `FTextHistory` (derived, `src/properties/text_property.rs` 173-294); a variant with an empty list
of fields prints its name only. -/
def FTextHistory.dbg (t : Fmt) : FTextHistory → Dbg
  | .empty => unitD "Empty"
  | .none s => .struct "None" [("culture_invariant_string", optStrD s)]
  | .base a b c => .struct "Base" [("namespace", optStrD a), ("key", optStrD b),
      ("source_string", optStrD c)]
  | .namedFormat src args => .struct "NamedFormat" [("source_format", FText.dbg t src),
      ("arguments", mapD (dbgNamedArgs t args))]
  | .orderedFormat src args => .struct "OrderedFormat" [("source_format", FText.dbg t src),
      ("arguments", .list (dbgArgs t args))]
  | .argumentFormat src args => .struct "ArgumentFormat" [("source_format", FText.dbg t src),
      ("arguments", mapD (dbgNamedArgs t args))]
  | .asNumber v o c => .struct "AsNumber" [("source_value", FormatArgumentValue.dbg t v),
      ("format_options", optD (o.map NumberFormattingOptions.dbg)), ("target_culture", optStrD c)]
  | .asPercent v o c => .struct "AsPercent" [("source_value", FormatArgumentValue.dbg t v),
      ("format_options", optD (o.map NumberFormattingOptions.dbg)), ("target_culture", optStrD c)]
  | .asCurrency a v o c => .struct "AsCurrency" [("currency_code", optStrD a),
      ("source_value", FormatArgumentValue.dbg t v),
      ("format_options", optD (o.map NumberFormattingOptions.dbg)), ("target_culture", optStrD c)]
  | .asDate d st c => .struct "AsDate" [("date_time", ticksD "DateTime" d),
      ("date_style", unitD st.json), ("target_culture", .str c)]
  | .asTime d st z c => .struct "AsTime" [("source_date_time", ticksD "DateTime" d),
      ("time_style", unitD st.json), ("time_zone", .str z), ("target_culture", .str c)]
  | .asDateTime d ds ts z c => .struct "AsDateTime" [("source_date_time", ticksD "DateTime" d),
      ("date_style", unitD ds.json), ("time_style", unitD ts.json), ("time_zone", .str z),
      ("target_culture", .str c)]
  | .transform src tt => .struct "Transform" [("source_text", FText.dbg t src),
      ("transform_type", unitD tt.json)]
  | .stringTableEntry a b => .struct "StringTableEntry" [("table_id", .str a), ("key", .str b)]
/-- `FormatArgumentValue` (derived, `src/properties/text_property.rs` 733-751). -/
def FormatArgumentValue.dbg (t : Fmt) : FormatArgumentValue → Dbg
  | .int v => .tuple "Int" (intD v.toInt)
  | .uint v => .tuple "UInt" (intD v.toNat)
  | .float v => .tuple "Float" (t.f32 v)
  | .double v => .tuple "Double" (t.f64 v)
  | .text v => .tuple "Text" (FText.dbg t v)
  | .int64 v => .tuple "Int64" (intD v.toInt)
  | .uint64 v => .tuple "UInt64" (intD v.toNat)
/-- A vector of arguments (`src/properties/text_property.rs` 207). -/
def dbgArgs (t : Fmt) : List FormatArgumentValue → List Dbg
  | [] => []
  | v :: l => FormatArgumentValue.dbg t v :: dbgArgs t l
/-- A map of arguments (`src/properties/text_property.rs` 200, 214). -/
def dbgNamedArgs (t : Fmt) : List (String × FormatArgumentValue) → List (Dbg × Dbg)
  | [] => []
  | (k, v) :: l => (.str k, FormatArgumentValue.dbg t v) :: dbgNamedArgs t l
end

/-- `BytePropertyValue` (derived, `src/properties/int_property.rs` 139-147). -/
def BytePropertyValue.dbg : BytePropertyValue → Dbg
  | .byte v => .tuple "Byte" (intD v.toNat)
  | .namespaced s => .tuple "Namespaced" (.str s)

/-- `Delegate` (derived, `src/properties/delegate_property.rs` 12-20). -/
def Delegate.dbg (d : Delegate) : Dbg :=
  .struct "Delegate" [("object", .str d.object), ("function_name", .str d.functionName)]

/-- `MulticastScriptDelegate` (derived, `src/properties/delegate_property.rs` 91-96). -/
def multicastD (ds : List Delegate) : Dbg :=
  .struct "MulticastScriptDelegate" [("delegates", .list (ds.map Delegate.dbg))]

/-- `FieldPath` (derived, `src/properties/field_path_property.rs` 13-20). -/
def FieldPath.dbg (p : FieldPath) : Dbg :=
  .struct "FieldPath" [("path", .list (p.path.map .str)), ("resolved_owner", .str p.resolvedOwner)]

/-- A map from strings. -/
def strMapD {α : Type} (f : α → Dbg) (l : List (String × α)) : Dbg :=
  mapD (l.map fun e => (.str e.1, f e.2))

mutual
/-- `Property` (derived, `src/properties/mod.rs` 488-548): the name of the type, twice where the type
of the property derives its `Debug`. -/
def Property.dbg (t : Fmt) : Property → Dbg
  | .array v => .tuple "ArrayProperty" (ArrayProperty.dbg t v)
  | .bool v => .tuple "BoolProperty" (boolD v)
  | .byte name v => .tuple "ByteProperty" (.struct "ByteProperty" [("name", optStrD name),
      ("value", v.dbg)])
  | .double v => .tuple "DoubleProperty" (typedD (t.display64 v) "f64")
  | .enum ty v => .tuple "EnumProperty" (.struct "EnumProperty" [("enum_type", optStrD ty),
      ("value", .str v)])
  | .float v => .tuple "FloatProperty" (typedD (t.display32 v) "f32")
  | .int16 v => .tuple "Int16Property" (typedD (decInt v.toInt).toList "i16")
  | .int64 v => .tuple "Int64Property" (typedD (decInt v.toInt).toList "i64")
  | .int8 v => .tuple "Int8Property" (typedD (decInt v.toInt).toList "i8")
  | .int v => .tuple "IntProperty" (typedD (decInt v.toInt).toList "i32")
  | .map v => .tuple "MapProperty" (MapProperty.dbg t v)
  | .name i v => .tuple "NameProperty" (.struct "NameProperty" [("array_index", intD i.toNat),
      ("value", optStrD v)])
  | .object v => .tuple "ObjectProperty" (.struct "ObjectProperty" [("value", .str v)])
  | .delegate v => .tuple "DelegateProperty" (.struct "DelegateProperty" [("value", v.dbg)])
  | .multicastInlineDelegate v => .tuple "MulticastInlineDelegateProperty"
      (.struct "MulticastInlineDelegateProperty" [("value", multicastD v)])
  | .multicastSparseDelegate v => .tuple "MulticastSparseDelegateProperty"
      (.struct "MulticastSparseDelegateProperty" [("value", multicastD v)])
  | .fieldPath v => .tuple "FieldPathProperty" (.struct "FieldPathProperty" [("value", v.dbg)])
  | .set ty fl ps => .tuple "SetProperty" (.struct "SetProperty" [("property_type", .str ty),
      ("allocation_flags", intD fl.toNat), ("properties", .list (dbgProps t ps))])
  | .str v => .tuple "StrProperty" (.struct "StrProperty" [("value", optStrD v)])
  | .struct g ty v => .tuple "StructProperty" (.struct "StructProperty" [("guid", g.dbg),
      ("type_name", .str ty), ("value", StructPropertyValue.dbg t v)])
  | .structValue v => .tuple "StructPropertyValue" (StructPropertyValue.dbg t v)
  | .text v => .tuple "TextProperty" (.struct "TextProperty" [("value", v.dbg t)])
  | .uint16 v => .tuple "UInt16Property" (typedD (decInt v.toNat).toList "u16")
  | .uint32 v => .tuple "UInt32Property" (typedD (decInt v.toNat).toList "u32")
  | .uint64 v => .tuple "UInt64Property" (typedD (decInt v.toNat).toList "u64")
  | .unknown name raw => .tuple "UnknownProperty" (.struct "UnknownProperty"
      [("property_name", .str name), ("raw", .list (raw.map fun b => intD b.toNat))])
/-- `ArrayProperty` (derived, `src/properties/array_property.rs` 28-90). -/
def ArrayProperty.dbg (t : Fmt) : ArrayProperty → Dbg
  | .bools v => .struct "Bools" [("bools", .list (v.map boolD))]
  | .bytes v => .struct "Bytes" [("bytes", .list (v.map fun b => intD b.toNat))]
  | .enums v => .struct "Enums" [("enums", .list (v.map .str))]
  | .floats v => .struct "Floats" [("floats", .list (v.map t.f32))]
  | .ints v => .struct "Ints" [("ints", .list (v.map fun i => intD i.toInt))]
  | .names v => .struct "Names" [("names", .list (v.map optStrD))]
  | .strings v => .struct "Strings" [("strings", .list (v.map optStrD))]
  | .structs f ty g v => .struct "Structs" [("field_name", .str f), ("type_name", .str ty),
      ("guid", g.dbg), ("structs", .list (dbgStructs t v))]
  | .properties ty v => .struct "Properties" [("property_type", .str ty),
      ("properties", .list (dbgProps t v))]
/-- `MapProperty` (derived, `src/properties/map_property.rs` 23-96). -/
def MapProperty.dbg (t : Fmt) : MapProperty → Dbg
  | .enumBool v => .struct "EnumBool" [("enum_bools", strMapD boolD v)]
  | .enumInt v => .struct "EnumInt" [("enum_ints", strMapD (fun i => intD i.toInt) v)]
  | .enumProperty ty v => .struct "EnumProperty" [("value_type", .str ty),
      ("enum_props", mapD (dbgStrProps t v))]
  | .nameBool v => .struct "NameBool" [("name_bools", strMapD boolD v)]
  | .nameInt v => .struct "NameInt" [("name_ints", strMapD (fun i => intD i.toInt) v)]
  | .nameProperty ty v => .struct "NameProperty" [("value_type", .str ty),
      ("name_props", mapD (dbgStrProps t v))]
  | .properties kt vt fl v => .struct "Properties" [("key_type", .str kt), ("value_type", .str vt),
      ("allocation_flags", intD fl.toNat), ("value", mapD (dbgPairs t v))]
  | .strBool v => .struct "StrBool" [("str_bools", strMapD boolD v)]
  | .strInt v => .struct "StrInt" [("str_ints", strMapD (fun i => intD i.toInt) v)]
  | .strProperty ty v => .struct "StrProperty" [("value_type", .str ty),
      ("str_props", mapD (dbgStrProps t v))]
  | .strStr v => .struct "StrStr" [("str_strs", strMapD optStrD v)]
/-- `StructPropertyValue` (derived, `src/properties/struct_property.rs` 52-86) and the structs of
`make_struct!` (derived, `src/properties/struct_types.rs` 54, 88-178). -/
def StructPropertyValue.dbg (t : Fmt) : StructPropertyValue → Dbg
  | .vector2F x y => .tuple "Vector2F" (.struct "Vector2F"
      [("x", t.f32 x), ("y", t.f32 y)])
  | .vector2D x y => .tuple "Vector2D" (.struct "Vector2D"
      [("x", t.f64 x), ("y", t.f64 y)])
  | .vectorF x y z => .tuple "VectorF" (.struct "VectorF"
      [("x", t.f32 x), ("y", t.f32 y), ("z", t.f32 z)])
  | .vectorD x y z => .tuple "VectorD" (.struct "VectorD"
      [("x", t.f64 x), ("y", t.f64 y), ("z", t.f64 z)])
  | .rotatorF x y z => .tuple "RotatorF" (.struct "RotatorF"
      [("pitch", t.f32 x), ("yaw", t.f32 y), ("roll", t.f32 z)])
  | .rotatorD x y z => .tuple "RotatorD" (.struct "RotatorD"
      [("pitch", t.f64 x), ("yaw", t.f64 y), ("roll", t.f64 z)])
  | .quatF x y z w => .tuple "QuatF" (.struct "QuatF"
      [("x", t.f32 x), ("y", t.f32 y), ("z", t.f32 z),
       ("w", t.f32 w)])
  | .quatD x y z w => .tuple "QuatD" (.struct "QuatD"
      [("x", t.f64 x), ("y", t.f64 y), ("z", t.f64 z),
       ("w", t.f64 w)])
  | .dateTime d => .tuple "DateTime" (ticksD "DateTime" d)
  | .timespan d => .tuple "Timespan" (ticksD "Timespan" d)
  | .guid g => .tuple "Guid" g.dbg
  | .linearColor r g b a => .tuple "LinearColor" (.struct "LinearColor"
      [("r", t.f32 r), ("g", t.f32 g), ("b", t.f32 b),
       ("a", t.f32 a)])
  | .intPoint x y => .tuple "IntPoint" (.struct "IntPoint" [("x", intD x.toInt), ("y", intD y.toInt)])
  | .gameplayTagContainer tags => .tuple "GameplayTagContainer" (.list (tags.map .str))
  | .customStruct fs => .tuple "CustomStruct" (mapD (dbgFieldLists t fs))
/-- A vector of properties. -/
def dbgProps (t : Fmt) : List Property → List Dbg
  | [] => []
  | p :: l => Property.dbg t p :: dbgProps t l
/-- A vector of struct values. -/
def dbgStructs (t : Fmt) : List StructPropertyValue → List Dbg
  | [] => []
  | p :: l => StructPropertyValue.dbg t p :: dbgStructs t l
/-- A map from strings to properties. -/
def dbgStrProps (t : Fmt) : List (String × Property) → List (Dbg × Dbg)
  | [] => []
  | (k, p) :: l => (.str k, Property.dbg t p) :: dbgStrProps t l
/-- A map from properties to properties. -/
def dbgPairs (t : Fmt) : List (Property × Property) → List (Dbg × Dbg)
  | [] => []
  | (k, p) :: l => (Property.dbg t k, Property.dbg t p) :: dbgPairs t l
/-- The fields of a custom struct (`src/properties/struct_property.rs` 85). -/
def dbgFieldLists (t : Fmt) : List (String × List Property) → List (Dbg × Dbg)
  | [] => []
  | (k, ps) :: l => (.str k, .list (dbgProps t ps)) :: dbgFieldLists t l
end

/-- `FEngineVersion` (derived, `src/engine_version.rs` 10-23). -/
def FEngineVersion.dbg (v : FEngineVersion) : Dbg :=
  .struct "FEngineVersion" [("major", intD v.major.toNat), ("minor", intD v.minor.toNat),
    ("patch", intD v.patch.toNat), ("change_list", intD v.changeList.toNat), ("branch", .str v.branch)]

/-- The table of custom versions (`src/lib.rs` 127, 142). -/
def versionsD (vs : List (Guid × UInt32)) : Dbg := mapD (vs.map fun e => (e.1.dbg, intD e.2.toNat))

/-- `GvasHeader` (derived, `src/lib.rs` 114-146). -/
def GvasHeader.dbg : GvasHeader → Dbg
  | .version2 p e f vs c => .struct "Version2" [("package_file_version", intD p.toNat),
      ("engine_version", e.dbg), ("custom_version_format", intD f.toNat),
      ("custom_versions", versionsD vs), ("save_game_class_name", .str c)]
  | .version3 p q e f vs c => .struct "Version3" [("package_file_version", intD p.toNat),
      ("package_file_version_ue5", intD q.toNat), ("engine_version", e.dbg),
      ("custom_version_format", intD f.toNat), ("custom_versions", versionsD vs),
      ("save_game_class_name", .str c)]

/-- `DeserializedGameVersion` and `PalworldCompressionType` (derived, `src/game_version.rs` 17-39). -/
def DeserializedGameVersion.dbg : DeserializedGameVersion → Dbg
  | .default => unitD "Default"
  | .palworld c => .tuple "Palworld" (unitD c.json)

/-- `GvasFile` (derived, `src/lib.rs` 330-343). -/
def GvasFile.dbg (t : Fmt) (f : GvasFile) : Dbg :=
  .struct "GvasFile" [("deserialized_game_version", f.gameVersion.dbg), ("header", f.header.dbg),
    ("properties", mapD (dbgStrProps t f.properties))]

/-- `format!("{:?}", file)` and `format!("{:#?}", file)` (`src/lib.rs` 20, 58). -/
def GvasFile.debug (t : Fmt) (pretty : Bool) (f : GvasFile) : String :=
  String.ofList ((f.dbg t).show t pretty 0)

/-- `format!("{:?}", property)` and `format!("{:#?}", property)`. -/
def Property.debug (t : Fmt) (pretty : Bool) (p : Property) : String :=
  String.ofList ((p.dbg t).show t pretty 0)

end Gvas
