import Verif.Spec.Message
import Verif.Props.DebugTexts
import Verif.Model.DebugTree

/-!
# The declarations of the crate, and the text that `#[derive(Debug)]` makes of them

`declared` is a copy of the `struct`s and `enum`s of the crate that a file is made of.  `Derived` says
which texts `{:?}` and `{:#?}` may give for a value of a type, from the declaration of the type alone.
-/

namespace Gvas.Spec

/-- A Rust type, as far as fields of the crate have it. -/
inductive Ty where
  | bool | f32 | f64 | string | guid
  /-- An integer type with its first value and the first one that is too great. -/
  | int (first last : Int)
  /-- A number type whose `Debug` puts the name of the primitive type behind the number. -/
  | suffixed (first last : Int) (name : String)
  | suffixed32 | suffixed64
  | option (a : Ty) | vec (a : Ty) | map (k v : Ty)
  /-- A type that is declared in the crate. -/
  | named (name : String)
deriving DecidableEq

/-- What a variant (or struct) has. -/
inductive Shape where
  | unit | tuple (a : Ty) | fields (l : List (String × Ty))
deriving DecidableEq

namespace Ty
abbrev u8 : Ty := .int 0 (2 ^ 8)
abbrev u16 : Ty := .int 0 (2 ^ 16)
abbrev u32 : Ty := .int 0 (2 ^ 32)
abbrev u64 : Ty := .int 0 (2 ^ 64)
abbrev i32 : Ty := .int (-2 ^ 31) (2 ^ 31)
abbrev i64 : Ty := .int (-2 ^ 63) (2 ^ 63)
end Ty

/-- The declaration of a type: its variants, or itself if it is a struct. -/
def declared : String → List (String × Shape)
  -- `src/lib.rs` 330-343
  | "GvasFile" => [("GvasFile", .fields [("deserialized_game_version", .named "DeserializedGameVersion"),
      ("header", .named "GvasHeader"), ("properties", .map .string (.named "Property"))])]
  -- `src/lib.rs` 114-146
  | "GvasHeader" => [
      ("Version2", .fields [("package_file_version", .u32), ("engine_version", .named "FEngineVersion"),
        ("custom_version_format", .u32), ("custom_versions", .map .guid .u32),
        ("save_game_class_name", .string)]),
      ("Version3", .fields [("package_file_version", .u32), ("package_file_version_ue5", .u32),
        ("engine_version", .named "FEngineVersion"), ("custom_version_format", .u32),
        ("custom_versions", .map .guid .u32), ("save_game_class_name", .string)])]
  -- `src/engine_version.rs` 10-23
  | "FEngineVersion" => [("FEngineVersion", .fields [("major", .u16), ("minor", .u16), ("patch", .u16),
      ("change_list", .u32), ("branch", .string)])]
  -- `src/game_version.rs` 17-39
  | "DeserializedGameVersion" => [("Default", .unit), ("Palworld", .tuple (.named "PalworldCompressionType"))]
  | "PalworldCompressionType" => [("None", .unit), ("Zlib", .unit), ("ZlibTwice", .unit)]
  -- `src/properties/mod.rs` 488-548
  | "Property" => [("ArrayProperty", .tuple (.named "ArrayProperty")), ("BoolProperty", .tuple .bool),
      ("ByteProperty", .tuple (.named "ByteProperty")), ("DoubleProperty", .tuple .suffixed64),
      ("EnumProperty", .tuple (.named "EnumProperty")), ("FloatProperty", .tuple .suffixed32),
      ("Int16Property", .tuple (.suffixed (-2 ^ 15) (2 ^ 15) "i16")),
      ("Int64Property", .tuple (.suffixed (-2 ^ 63) (2 ^ 63) "i64")),
      ("Int8Property", .tuple (.suffixed (-2 ^ 7) (2 ^ 7) "i8")),
      ("IntProperty", .tuple (.suffixed (-2 ^ 31) (2 ^ 31) "i32")),
      ("MapProperty", .tuple (.named "MapProperty")), ("NameProperty", .tuple (.named "NameProperty")),
      ("ObjectProperty", .tuple (.named "ObjectProperty")),
      ("DelegateProperty", .tuple (.named "DelegateProperty")),
      ("MulticastInlineDelegateProperty", .tuple (.named "MulticastInlineDelegateProperty")),
      ("MulticastSparseDelegateProperty", .tuple (.named "MulticastSparseDelegateProperty")),
      ("FieldPathProperty", .tuple (.named "FieldPathProperty")),
      ("SetProperty", .tuple (.named "SetProperty")), ("StrProperty", .tuple (.named "StrProperty")),
      ("StructProperty", .tuple (.named "StructProperty")),
      ("StructPropertyValue", .tuple (.named "StructPropertyValue")),
      ("TextProperty", .tuple (.named "TextProperty")),
      ("UInt16Property", .tuple (.suffixed 0 (2 ^ 16) "u16")),
      ("UInt32Property", .tuple (.suffixed 0 (2 ^ 32) "u32")),
      ("UInt64Property", .tuple (.suffixed 0 (2 ^ 64) "u64")),
      ("UnknownProperty", .tuple (.named "UnknownProperty"))]
  -- `src/properties/int_property.rs` 142-159
  | "BytePropertyValue" => [("Byte", .tuple .u8), ("Namespaced", .tuple .string)]
  | "ByteProperty" => [("ByteProperty", .fields [("name", .option .string),
      ("value", .named "BytePropertyValue")])]
  -- `src/properties/enum_property.rs` 16-21
  | "EnumProperty" => [("EnumProperty", .fields [("enum_type", .option .string), ("value", .string)])]
  -- `src/properties/name_property.rs` 13-20
  | "NameProperty" => [("NameProperty", .fields [("array_index", .u32), ("value", .option .string)])]
  -- `src/properties/object_property.rs` 15-18
  | "ObjectProperty" => [("ObjectProperty", .fields [("value", .string)])]
  -- `src/properties/str_property.rs` 16-19
  | "StrProperty" => [("StrProperty", .fields [("value", .option .string)])]
  -- `src/properties/delegate_property.rs` 15-20, 54-57, 93-96, 132-135, 171-174
  | "Delegate" => [("Delegate", .fields [("object", .string), ("function_name", .string)])]
  | "DelegateProperty" => [("DelegateProperty", .fields [("value", .named "Delegate")])]
  | "MulticastScriptDelegate" => [("MulticastScriptDelegate",
      .fields [("delegates", .vec (.named "Delegate"))])]
  | "MulticastInlineDelegateProperty" => [("MulticastInlineDelegateProperty",
      .fields [("value", .named "MulticastScriptDelegate")])]
  | "MulticastSparseDelegateProperty" => [("MulticastSparseDelegateProperty",
      .fields [("value", .named "MulticastScriptDelegate")])]
  -- `src/properties/field_path_property.rs` 15-20, 66-69
  | "FieldPath" => [("FieldPath", .fields [("path", .vec .string), ("resolved_owner", .string)])]
  | "FieldPathProperty" => [("FieldPathProperty", .fields [("value", .named "FieldPath")])]
  -- `src/properties/set_property.rs` 17-24
  | "SetProperty" => [("SetProperty", .fields [("property_type", .string), ("allocation_flags", .u32),
      ("properties", .vec (.named "Property"))])]
  -- `src/properties/unknown_property.rs` 12-15
  | "UnknownProperty" => [("UnknownProperty", .fields [("property_name", .string), ("raw", .vec .u8)])]
  -- `src/properties/array_property.rs` 28-90
  | "ArrayProperty" => [("Bools", .fields [("bools", .vec .bool)]), ("Bytes", .fields [("bytes", .vec .u8)]),
      ("Enums", .fields [("enums", .vec .string)]), ("Floats", .fields [("floats", .vec .f32)]),
      ("Ints", .fields [("ints", .vec .i32)]), ("Names", .fields [("names", .vec (.option .string))]),
      ("Strings", .fields [("strings", .vec (.option .string))]),
      ("Structs", .fields [("field_name", .string), ("type_name", .string), ("guid", .guid),
        ("structs", .vec (.named "StructPropertyValue"))]),
      ("Properties", .fields [("property_type", .string), ("properties", .vec (.named "Property"))])]
  -- `src/properties/map_property.rs` 23-96
  | "MapProperty" => [("EnumBool", .fields [("enum_bools", .map .string .bool)]),
      ("EnumInt", .fields [("enum_ints", .map .string .i32)]),
      ("EnumProperty", .fields [("value_type", .string), ("enum_props", .map .string (.named "Property"))]),
      ("NameBool", .fields [("name_bools", .map .string .bool)]),
      ("NameInt", .fields [("name_ints", .map .string .i32)]),
      ("NameProperty", .fields [("value_type", .string), ("name_props", .map .string (.named "Property"))]),
      ("Properties", .fields [("key_type", .string), ("value_type", .string), ("allocation_flags", .u32),
        ("value", .map (.named "Property") (.named "Property"))]),
      ("StrBool", .fields [("str_bools", .map .string .bool)]),
      ("StrInt", .fields [("str_ints", .map .string .i32)]),
      ("StrProperty", .fields [("value_type", .string), ("str_props", .map .string (.named "Property"))]),
      ("StrStr", .fields [("str_strs", .map .string (.option .string))])]
  -- `src/properties/struct_property.rs` 40-86
  | "StructProperty" => [("StructProperty", .fields [("guid", .guid), ("type_name", .string),
      ("value", .named "StructPropertyValue")])]
  | "StructPropertyValue" => [("Vector2F", .tuple (.named "Vector2F")), ("Vector2D", .tuple (.named "Vector2D")),
      ("VectorF", .tuple (.named "VectorF")), ("VectorD", .tuple (.named "VectorD")),
      ("RotatorF", .tuple (.named "RotatorF")), ("RotatorD", .tuple (.named "RotatorD")),
      ("QuatF", .tuple (.named "QuatF")), ("QuatD", .tuple (.named "QuatD")),
      ("DateTime", .tuple (.named "DateTime")), ("Timespan", .tuple (.named "Timespan")),
      ("Guid", .tuple .guid), ("LinearColor", .tuple (.named "LinearColor")),
      ("IntPoint", .tuple (.named "IntPoint")), ("GameplayTagContainer", .tuple (.vec .string)),
      ("CustomStruct", .tuple (.map .string (.vec (.named "Property"))))]
  -- `src/properties/struct_types.rs` 88-178
  | "Vector2F" => [("Vector2F", .fields [("x", .f32), ("y", .f32)])]
  | "Vector2D" => [("Vector2D", .fields [("x", .f64), ("y", .f64)])]
  | "VectorF" => [("VectorF", .fields [("x", .f32), ("y", .f32), ("z", .f32)])]
  | "VectorD" => [("VectorD", .fields [("x", .f64), ("y", .f64), ("z", .f64)])]
  | "RotatorF" => [("RotatorF", .fields [("pitch", .f32), ("yaw", .f32), ("roll", .f32)])]
  | "RotatorD" => [("RotatorD", .fields [("pitch", .f64), ("yaw", .f64), ("roll", .f64)])]
  | "QuatF" => [("QuatF", .fields [("x", .f32), ("y", .f32), ("z", .f32), ("w", .f32)])]
  | "QuatD" => [("QuatD", .fields [("x", .f64), ("y", .f64), ("z", .f64), ("w", .f64)])]
  | "DateTime" => [("DateTime", .fields [("ticks", .u64)])]
  | "Timespan" => [("Timespan", .fields [("ticks", .u64)])]
  | "LinearColor" => [("LinearColor", .fields [("r", .f32), ("g", .f32), ("b", .f32), ("a", .f32)])]
  | "IntPoint" => [("IntPoint", .fields [("x", .i32), ("y", .i32)])]
  -- `src/properties/text_property.rs` 25-29, 67-74
  | "TextProperty" => [("TextProperty", .fields [("value", .named "FText")])]
  | "FText" => [("FText", .fields [("flags", .u32), ("history", .named "FTextHistory")])]
  -- `src/properties/text_property.rs` 173-294; nothing is printed of an empty list of fields
  | "FTextHistory" => [("Empty", .unit),
      ("None", .fields [("culture_invariant_string", .option .string)]),
      ("Base", .fields [("namespace", .option .string), ("key", .option .string),
        ("source_string", .option .string)]),
      ("NamedFormat", .fields [("source_format", .named "FText"),
        ("arguments", .map .string (.named "FormatArgumentValue"))]),
      ("OrderedFormat", .fields [("source_format", .named "FText"),
        ("arguments", .vec (.named "FormatArgumentValue"))]),
      ("ArgumentFormat", .fields [("source_format", .named "FText"),
        ("arguments", .map .string (.named "FormatArgumentValue"))]),
      ("AsNumber", .fields [("source_value", .named "FormatArgumentValue"),
        ("format_options", .option (.named "NumberFormattingOptions")), ("target_culture", .option .string)]),
      ("AsPercent", .fields [("source_value", .named "FormatArgumentValue"),
        ("format_options", .option (.named "NumberFormattingOptions")), ("target_culture", .option .string)]),
      ("AsCurrency", .fields [("currency_code", .option .string), ("source_value", .named "FormatArgumentValue"),
        ("format_options", .option (.named "NumberFormattingOptions")), ("target_culture", .option .string)]),
      ("AsDate", .fields [("date_time", .named "DateTime"), ("date_style", .named "DateTimeStyle"),
        ("target_culture", .string)]),
      ("AsTime", .fields [("source_date_time", .named "DateTime"), ("time_style", .named "DateTimeStyle"),
        ("time_zone", .string), ("target_culture", .string)]),
      ("AsDateTime", .fields [("source_date_time", .named "DateTime"), ("date_style", .named "DateTimeStyle"),
        ("time_style", .named "DateTimeStyle"), ("time_zone", .string), ("target_culture", .string)]),
      ("Transform", .fields [("source_text", .named "FText"), ("transform_type", .named "TransformType")]),
      ("StringTableEntry", .fields [("table_id", .string), ("key", .string)])]
  -- `src/properties/text_property.rs` 733-751
  | "FormatArgumentValue" => [("Int", .tuple .i32), ("UInt", .tuple .u32), ("Float", .tuple .f32),
      ("Double", .tuple .f64), ("Text", .tuple (.named "FText")), ("Int64", .tuple .i64),
      ("UInt64", .tuple .u64)]
  -- `src/properties/text_property.rs` 858-899, 943-966
  | "RoundingMode" => [("HalfToEven", .unit), ("HalfFromZero", .unit), ("HalfToZero", .unit),
      ("FromZero", .unit), ("ToZero", .unit), ("ToNegativeInfinity", .unit), ("ToPositiveInfinity", .unit)]
  | "NumberFormattingOptions" => [("NumberFormattingOptions", .fields [("always_include_sign", .bool),
      ("use_grouping", .bool), ("rounding_mode", .named "RoundingMode"), ("minimum_integral_digits", .i32),
      ("maximum_integral_digits", .i32), ("minimum_fractional_digits", .i32),
      ("maximum_fractional_digits", .i32)])]
  | "DateTimeStyle" => [("Default", .unit), ("Short", .unit), ("Medium", .unit), ("Long", .unit),
      ("Full", .unit)]
  | "TransformType" => [("ToLower", .unit), ("ToUpper", .unit)]
  | _ => []

/-- The inside of a string literal: quotes, backslashes and what cannot be seen are escaped. -/
inductive Letters : List Char → Prop
  | nil : Letters []
  | plain {c : Char} {l : List Char} : c ≠ '"' → c ≠ '\\' → Letters l → Letters (c :: l)
  | escaped {c : Char} {l : List Char} : c ∈ "0trn\\\"".toList → Letters l → Letters ('\\' :: c :: l)
  | number {h l : List Char} {n : Nat} : Hexadecimal h n → Letters l →
      Letters ("\\u{".toList ++ h ++ '}' :: l)

/-- The parts of a text on one line. -/
def commas (l : List (List Char)) : List Char := ", ".toList.intercalate l

/-- The beginning of a line at a depth: four blanks for each level. -/
def line (n : Nat) : List Char := '\n' :: List.replicate (4 * n) ' '

/-- Parts between brackets: by `{:?}` on one line, with blanks inside the brackets of structs; by `{:#?}`
each on a line of its own, one level deeper, with a comma behind it. -/
def block (pretty : Bool) (n : Nat) (left blank right : String) (l : List (List Char)) : List Char :=
  if pretty then
    left.toList ++ (if l = [] then [] else l.flatMap (fun x => line (n + 1) ++ x ++ ",".toList) ++ line n) ++
      right.toList
  else left.toList ++ blank.toList ++ commas l ++ blank.toList ++ right.toList

/-- The texts that `{:?}` or `{:#?}` may give for a value of a type, at a depth. -/
inductive Derived (t : Fmt) (pretty : Bool) : Nat → Ty → List Char → Prop
  | yes {i : Nat} : Derived t pretty i .bool "true".toList
  | no {i : Nat} : Derived t pretty i .bool "false".toList
  | int {i : Nat} {a b n : Int} {x : List Char} : Numeral x n → a ≤ n → n < b →
      Derived t pretty i (.int a b) x
  | suffixed {i : Nat} {a b n : Int} {x : List Char} {s : String} : Numeral x n → a ≤ n → n < b →
      Derived t pretty i (.suffixed a b s) (x ++ s.toList)
  | suffixed32 {i : Nat} {v : F32} : Derived t pretty i .suffixed32 (t.display32 v ++ "f32".toList)
  | suffixed64 {i : Nat} {v : F64} : Derived t pretty i .suffixed64 (t.display64 v ++ "f64".toList)
  | f32 {i : Nat} {v : F32} : t.wrapped = false → Derived t pretty i .f32 (t.debug32 v)
  | f64 {i : Nat} {v : F64} : t.wrapped = false → Derived t pretty i .f64 (t.debug64 v)
  | wrapped32 {i : Nat} {v : F32} : t.wrapped = true →
      Derived t pretty i .f32 (block pretty i "OrderedFloat(" "" ")" [t.debug32 v])
  | wrapped64 {i : Nat} {v : F64} : t.wrapped = true →
      Derived t pretty i .f64 (block pretty i "OrderedFloat(" "" ")" [t.debug64 v])
  | string {i : Nat} {x : List Char} : Letters x → Derived t pretty i .string ('"' :: x ++ ['"'])
  | guid {i : Nat} {x : List Char} {g : Guid} : Guid.parse x = .ok (some g) →
      Derived t pretty i .guid ("Guid(".toList ++ x ++ ")".toList)
  | none {i : Nat} {a : Ty} : Derived t pretty i (.option a) "None".toList
  | some {i : Nat} {a : Ty} {x : List Char} : Derived t pretty (i + 1) a x →
      Derived t pretty i (.option a) (block pretty i "Some(" "" ")" [x])
  | vec {i : Nat} {a : Ty} {l : List (List Char)} : (∀ x ∈ l, Derived t pretty (i + 1) a x) →
      Derived t pretty i (.vec a) (block pretty i "[" "" "]" l)
  | map {i : Nat} {k v : Ty} {l : List (List Char × List Char)} :
      (∀ e ∈ l, Derived t pretty (i + 2) k e.1) → (∀ e ∈ l, Derived t pretty (i + 2) v e.2) →
      Derived t pretty i (.map k v) (block pretty i "HashableIndexMap(" "" ")"
        [block pretty (i + 1) "{" "" "}" (l.map fun e => e.1 ++ ": ".toList ++ e.2)])
  | unit {i : Nat} {name v : String} : (v, .unit) ∈ declared name →
      Derived t pretty i (.named name) v.toList
  | tuple {i : Nat} {name v : String} {a : Ty} {x : List Char} : (v, .tuple a) ∈ declared name →
      Derived t pretty (i + 1) a x → Derived t pretty i (.named name) (block pretty i (v ++ "(") "" ")" [x])
  | fields {i : Nat} {name v : String} {l : List ((String × Ty) × List Char)} :
      (v, .fields (l.map Prod.fst)) ∈ declared name → l ≠ [] →
      (∀ e ∈ l, Derived t pretty (i + 1) e.1.2 e.2) →
      Derived t pretty i (.named name) (block pretty i (v ++ " {") " " "}"
        (l.map fun e => e.1.1.toList ++ ": ".toList ++ e.2))

end Gvas.Spec
