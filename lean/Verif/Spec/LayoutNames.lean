import Verif.Model.File

/-!
# Specification vocabulary: which fields are written to JSON

Fields that are absent, or zero where zero is what a missing field means, are left out.
-/

namespace Gvas.Layout

/-- The name of an optional field. -/
def given {α : Type} (k : String) : Option α → List String
  | none => []
  | some _ => [k]

/-- The name of a field that is left out when it is zero. -/
def nonzero (k : String) (v : UInt32) : List String := if v.toNat = 0 then [] else [k]

/-- The name of a GUID that is left out when it is zero. -/
def nonzeroGuid (g : Guid) : List String := if g.bytes = List.replicate 16 0 then [] else ["guid"]

/-- The fields of a history. -/
def historyNames : FTextHistory → List String
  | .empty => ["history"]
  | .none s => "history" :: given "culture_invariant_string" s
  | .base a b c => "history" :: (given "namespace" a ++ given "key" b ++ given "source_string" c)
  | .namedFormat _ _ | .orderedFormat _ _ | .argumentFormat _ _ =>
    ["history", "source_format", "arguments"]
  | .asNumber _ o c | .asPercent _ o c =>
    ["history", "source_value"] ++ given "format_options" o ++ given "target_culture" c
  | .asCurrency a _ o c => "history" :: given "currency_code" a ++
      ("source_value" :: given "format_options" o ++ given "target_culture" c)
  | .asDate _ _ _ => ["history", "date_time", "date_style", "target_culture"]
  | .asTime _ _ _ _ => ["history", "source_date_time", "time_style", "time_zone", "target_culture"]
  | .asDateTime _ _ _ _ _ =>
    ["history", "source_date_time", "date_style", "time_style", "time_zone", "target_culture"]
  | .transform _ _ => ["history", "source_text", "transform"]
  | .stringTableEntry _ _ => ["history", "table_id", "key"]

/-- The fields of a text. -/
def textNames : FText → List String
  | .mk flags h => nonzero "flags" flags ++ historyNames h

/-- The fields of an array property besides its type. -/
def arrayNames : ArrayProperty → List String
  | .bools _ => ["bools"]
  | .bytes _ => ["bytes"]
  | .enums _ => ["enums"]
  | .floats _ => ["floats"]
  | .ints _ => ["ints"]
  | .names _ => ["names"]
  | .strings _ => ["strings"]
  | .structs _ _ g _ => ["field_name", "type_name"] ++ nonzeroGuid g ++ ["structs"]
  | .properties _ _ => ["property_type", "properties"]

/-- The fields of a map property besides its type. -/
def mapNames : MapProperty → List String
  | .enumBool _ => ["enum_bools"]
  | .enumInt _ => ["enum_ints"]
  | .enumProperty _ _ => ["value_type", "enum_props"]
  | .nameBool _ => ["name_bools"]
  | .nameInt _ => ["name_ints"]
  | .nameProperty _ _ => ["value_type", "name_props"]
  | .properties _ _ _ _ => ["key_type", "value_type", "allocation_flags", "value"]
  | .strBool _ => ["str_bools"]
  | .strInt _ => ["str_ints"]
  | .strProperty _ _ => ["value_type", "str_props"]
  | .strStr _ => ["str_strs"]

/-- The variant of a struct. -/
def variantName : StructPropertyValue → String
  | .vector2F _ _ => "Vector2F"
  | .vector2D _ _ => "Vector2D"
  | .vectorF _ _ _ => "VectorF"
  | .vectorD _ _ _ => "VectorD"
  | .rotatorF _ _ _ => "RotatorF"
  | .rotatorD _ _ _ => "RotatorD"
  | .quatF _ _ _ _ => "QuatF"
  | .quatD _ _ _ _ => "QuatD"
  | .dateTime _ => "DateTime"
  | .timespan _ => "Timespan"
  | .guid _ => "Guid"
  | .linearColor _ _ _ _ => "LinearColor"
  | .intPoint _ _ => "IntPoint"
  | .gameplayTagContainer _ => "GameplayTagContainer"
  | .customStruct _ => "CustomStruct"

/-- The fields of the JSON of a property. -/
def propertyNames : Property → List String
  | .array v => "type" :: arrayNames v
  | .byte name (.byte _) => "type" :: given "name" name ++ ["Byte"]
  | .byte name (.namespaced _) => "type" :: given "name" name ++ ["Namespaced"]
  | .enum t _ => "type" :: given "enum_type" t ++ ["value"]
  | .map v => "type" :: mapNames v
  | .name i v => "type" :: nonzero "array_index" i ++ given "value" v
  | .set _ _ _ => ["type", "property_type", "allocation_flags", "properties"]
  | .str v => "type" :: given "value" v
  | .struct g _ v => "type" :: nonzeroGuid g ++ ["type_name", variantName v]
  | .structValue v => ["type", variantName v]
  | .text t => "type" :: textNames t
  | .unknown _ _ => ["type", "property_name", "raw"]
  | _ => ["type", "value"]

/-- The fields of the JSON of a header. -/
def headerNames : GvasHeader → List String
  | .version2 _ _ _ _ _ => ["type", "package_file_version", "engine_version",
      "custom_version_format", "custom_versions", "save_game_class_name"]
  | .version3 _ _ _ _ _ _ => ["type", "package_file_version", "package_file_version_ue5",
      "engine_version", "custom_version_format", "custom_versions", "save_game_class_name"]

end Gvas.Layout
