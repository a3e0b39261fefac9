import Verif.Model.Json

/-!
# JSON with more entries than a file needs

The names come from the field and variant names of the Rust types (`src/lib.rs` 115-146, 331-343,
`src/engine_version.rs` 11-23, `src/properties/*.rs`); nothing here is taken from the readers.
-/

namespace Gvas.Spec

/-- What an object stands for. -/
inductive ObjectOf where
  /-- A file. -/
  | file
  /-- Its header. -/
  | header
  /-- A property. -/
  | property
  /-- A text, which may be flattened into a property. -/
  | text
  /-- The content of the variant of `StructPropertyValue` with this name. -/
  | struct (variant : String)
  /-- A struct with these fields. -/
  | plain (fields : List String)

/-- The names that mean something in a header. -/
def headerWords (tag : String) : List String :=
  if tag = "Version2" then ["package_file_version", "engine_version", "custom_version_format",
    "custom_versions", "save_game_class_name"]
  else ["package_file_version", "package_file_version_ue5", "engine_version",
    "custom_version_format", "custom_versions", "save_game_class_name"]

/-- The variants of `StructPropertyValue`. -/
def variantWords : List String :=
  ["Vector2F", "Vector2D", "VectorF", "VectorD", "RotatorF", "RotatorD", "QuatF", "QuatD",
   "DateTime", "Timespan", "Guid", "LinearColor", "IntPoint", "GameplayTagContainer",
   "CustomStruct"]

/-- The names that mean something in a property of this type other than texts and
`StructPropertyValue`. -/
def propertyWords (tag : String) : List String :=
  if tag = "ArrayProperty" then ["bools", "bytes", "enums", "floats", "ints", "names", "strings",
    "field_name", "type_name", "guid", "structs", "property_type", "properties"]
  else if tag = "MapProperty" then ["enum_bools", "enum_ints", "enum_props", "name_bools",
    "name_ints", "name_props", "str_bools", "str_ints", "str_props", "str_strs", "key_type",
    "value_type", "allocation_flags", "value"]
  else if tag = "ByteProperty" then ["name", "Byte", "Namespaced"]
  else if tag = "StructProperty" then ["guid", "type_name"] ++ variantWords
  else if tag = "EnumProperty" then ["enum_type", "value"]
  else if tag = "NameProperty" then ["array_index", "value"]
  else if tag = "SetProperty" then ["property_type", "allocation_flags", "properties"]
  else if tag = "UnknownProperty" then ["property_name", "raw"]
  else ["value"]

/-- The names that mean something in a text with this history. -/
def textWords (tag : String) : List String :=
  if tag = "Empty" then []
  else if tag = "None" then ["culture_invariant_string"]
  else if tag = "Base" then ["namespace", "key", "source_string"]
  else if tag = "NamedFormat" ∨ tag = "OrderedFormat" ∨ tag = "ArgumentFormat" then
    ["source_format", "arguments"]
  else if tag = "AsNumber" ∨ tag = "AsPercent" then
    ["source_value", "format_options", "target_culture"]
  else if tag = "AsCurrency" then
    ["currency_code", "source_value", "format_options", "target_culture"]
  else if tag = "AsDate" then ["date_time", "date_style", "target_culture"]
  else if tag = "AsTime" then ["source_date_time", "time_style", "time_zone", "target_culture"]
  else if tag = "AsDateTime" then
    ["source_date_time", "date_style", "time_style", "time_zone", "target_culture"]
  else if tag = "Transform" then ["source_text", "transform"]
  else ["table_id", "key"]

/-- The components of the structs that have a variant of their own. -/
def structWords (variant : String) : List String :=
  if variant = "Vector2F" ∨ variant = "Vector2D" ∨ variant = "IntPoint" then ["x", "y"]
  else if variant = "VectorF" ∨ variant = "VectorD" then ["x", "y", "z"]
  else if variant = "RotatorF" ∨ variant = "RotatorD" then ["pitch", "yaw", "roll"]
  else if variant = "QuatF" ∨ variant = "QuatD" then ["x", "y", "z", "w"]
  else if variant = "LinearColor" then ["r", "g", "b", "a"]
  else ["ticks"]

/-- The fields of the options for numbers in texts. -/
def optionWords : List String :=
  ["always_include_sign", "use_grouping", "rounding", "minimum_integral_digits",
   "maximum_integral_digits", "minimum_fractional_digits", "maximum_fractional_digits"]

/-- `OneMore kind j j'`: in an object of this kind, or somewhere inside it, `j'` has one entry more
than `j`, whose name means nothing there. -/
inductive OneMore : ObjectOf → J → J → Prop
  /-- In the file itself. -/
  | file {a b k x} (h : k ∉ ["deserialized_game_version", "header", "properties"]) :
    OneMore .file (.obj (a ++ b)) (.obj (a ++ (k, x) :: b))
  /-- In a header. -/
  | header {a b k x tag} (ht : (a ++ b).lookup "type" = some (.str tag))
    (h : k ∉ "type" :: headerWords tag) :
    OneMore .header (.obj (a ++ b)) (.obj (a ++ (k, x) :: b))
  /-- In a property. -/
  | property {a b k x tag} (ht : (a ++ b).lookup "type" = some (.str tag))
    (hs : tag ≠ "StructPropertyValue" ∧ tag ≠ "TextProperty")
    (h : k ∉ "type" :: propertyWords tag) :
    OneMore .property (.obj (a ++ b)) (.obj (a ++ (k, x) :: b))
  /-- In a text. -/
  | text {a b k x tag} (ht : (a ++ b).lookup "history" = some (.str tag))
    (h : k ∉ "flags" :: "history" :: textWords tag) :
    OneMore .text (.obj (a ++ b)) (.obj (a ++ (k, x) :: b))
  /-- In a struct. -/
  | plain {a b k x ws} (h : k ∉ ws) :
    OneMore (.plain ws) (.obj (a ++ b)) (.obj (a ++ (k, x) :: b))
  /-- In the header of a file. -/
  | inHeader {a b j j'} (h : OneMore .header j j') :
    OneMore .file (.obj (a ++ ("header", j) :: b)) (.obj (a ++ ("header", j') :: b))
  /-- In a property of a file. -/
  | inFile {a b c d n j j'} (h : OneMore .property j j') :
    OneMore .file (.obj (a ++ ("properties", .obj (c ++ (n, j) :: d)) :: b))
      (.obj (a ++ ("properties", .obj (c ++ (n, j') :: d)) :: b))
  /-- In the engine version of a header. -/
  | inEngine {a b j j'}
    (h : OneMore (.plain ["major", "minor", "patch", "change_list", "branch"]) j j') :
    OneMore .header (.obj (a ++ ("engine_version", j) :: b))
      (.obj (a ++ ("engine_version", j') :: b))
  /-- In an element of an array or a set. -/
  | inItem {a b l m j j'} (h : OneMore .property j j') :
    OneMore .property (.obj (a ++ ("properties", .arr (l ++ j :: m)) :: b))
      (.obj (a ++ ("properties", .arr (l ++ j' :: m)) :: b))
  /-- In a value of a map with names, strings or enums for keys. -/
  | inValue {a b c d k n j j'} (hk : k ∈ ["enum_props", "name_props", "str_props"])
    (h : OneMore .property j j') :
    OneMore .property (.obj (a ++ (k, .obj (c ++ (n, j) :: d)) :: b))
      (.obj (a ++ (k, .obj (c ++ (n, j') :: d)) :: b))
  /-- In a key of another map. -/
  | inPairKey {a b l m y j j'} (ht : (a ++ b).lookup "type" = some (.str "MapProperty"))
    (h : OneMore .property j j') :
    OneMore .property (.obj (a ++ ("value", .arr (l ++ .arr [j, y] :: m)) :: b))
      (.obj (a ++ ("value", .arr (l ++ .arr [j', y] :: m)) :: b))
  /-- In a value of another map. -/
  | inPairValue {a b l m y j j'} (ht : (a ++ b).lookup "type" = some (.str "MapProperty"))
    (h : OneMore .property j j') :
    OneMore .property (.obj (a ++ ("value", .arr (l ++ .arr [y, j] :: m)) :: b))
      (.obj (a ++ ("value", .arr (l ++ .arr [y, j'] :: m)) :: b))
  /-- In the struct of a struct property, or of a `StructPropertyValue`. -/
  | inStruct {a b v j j'} (hv : v ∈ variantWords) (h : OneMore (.struct v) j j') :
    OneMore .property (.obj (a ++ (v, j) :: b)) (.obj (a ++ (v, j') :: b))
  /-- In a struct of an array. -/
  | inStructItem {a b l m v j j'} (h : OneMore (.struct v) j j') :
    OneMore .property (.obj (a ++ ("structs", .arr (l ++ .obj [(v, j)] :: m)) :: b))
      (.obj (a ++ ("structs", .arr (l ++ .obj [(v, j')] :: m)) :: b))
  /-- In the components of a struct. -/
  | inVariant {v j j'} (hv : v ∈ variantWords ∧ v ≠ "CustomStruct")
    (h : OneMore (.plain (structWords v)) j j') : OneMore (.struct v) j j'
  /-- In a property of a custom struct. -/
  | inField {c d l m n j j'} (h : OneMore .property j j') :
    OneMore (.struct "CustomStruct") (.obj (c ++ (n, .arr (l ++ j :: m)) :: d))
      (.obj (c ++ (n, .arr (l ++ j' :: m)) :: d))
  /-- In a delegate. -/
  | inDelegate {a b j j'} (ht : (a ++ b).lookup "type" = some (.str "DelegateProperty"))
    (h : OneMore (.plain ["object", "function_name"]) j j') :
    OneMore .property (.obj (a ++ ("value", j) :: b)) (.obj (a ++ ("value", j') :: b))
  /-- In a field path. -/
  | inFieldPath {a b j j'} (ht : (a ++ b).lookup "type" = some (.str "FieldPathProperty"))
    (h : OneMore (.plain ["path", "resolved_owner"]) j j') :
    OneMore .property (.obj (a ++ ("value", j) :: b)) (.obj (a ++ ("value", j') :: b))
  /-- In the list of delegates. -/
  | inMulticast {a b j j' tag} (ht : (a ++ b).lookup "type" = some (.str tag))
    (hm : tag = "MulticastInlineDelegateProperty" ∨ tag = "MulticastSparseDelegateProperty")
    (h : OneMore (.plain ["delegates"]) j j') :
    OneMore .property (.obj (a ++ ("value", j) :: b)) (.obj (a ++ ("value", j') :: b))
  /-- In a delegate of the list. -/
  | inDelegates {a b c d l m j j' tag} (ht : (a ++ b).lookup "type" = some (.str tag))
    (hm : tag = "MulticastInlineDelegateProperty" ∨ tag = "MulticastSparseDelegateProperty")
    (h : OneMore (.plain ["object", "function_name"]) j j') :
    OneMore .property
      (.obj (a ++ ("value", .obj (c ++ ("delegates", .arr (l ++ j :: m)) :: d)) :: b))
      (.obj (a ++ ("value", .obj (c ++ ("delegates", .arr (l ++ j' :: m)) :: d)) :: b))
  /-- In the text of a text property, in whose object it is. -/
  | inText {es es'} (ht : es.lookup "type" = some (.str "TextProperty"))
    (ht' : (es'.filter fun e => e.1 == "type") = es.filter fun e => e.1 == "type")
    (h : OneMore .text (.obj es) (.obj es')) : OneMore .property (.obj es) (.obj es')
  /-- In the text a text is made from. -/
  | inSource {a b k j j'} (hk : k = "source_format" ∨ k = "source_text") (h : OneMore .text j j') :
    OneMore .text (.obj (a ++ (k, j) :: b)) (.obj (a ++ (k, j') :: b))
  /-- In an argument with a name. -/
  | inNamed {a b c d n j j'} (h : OneMore .text j j') :
    OneMore .text (.obj (a ++ ("arguments", .obj (c ++ (n, .obj [("Text", j)]) :: d)) :: b))
      (.obj (a ++ ("arguments", .obj (c ++ (n, .obj [("Text", j')]) :: d)) :: b))
  /-- In an argument without name. -/
  | inOrdered {a b l m j j'} (h : OneMore .text j j') :
    OneMore .text (.obj (a ++ ("arguments", .arr (l ++ .obj [("Text", j)] :: m)) :: b))
      (.obj (a ++ ("arguments", .arr (l ++ .obj [("Text", j')] :: m)) :: b))
  /-- In a text that stands where a number should. -/
  | inNumber {a b j j'} (h : OneMore .text j j') :
    OneMore .text (.obj (a ++ ("source_value", .obj [("Text", j)]) :: b))
      (.obj (a ++ ("source_value", .obj [("Text", j')]) :: b))
  /-- In the options for a number. -/
  | inOptions {a b j j'} (h : OneMore (.plain optionWords) j j') :
    OneMore .text (.obj (a ++ ("format_options", j) :: b))
      (.obj (a ++ ("format_options", j') :: b))
  /-- In a date. -/
  | inDate {a b k j j'} (hk : k = "date_time" ∨ k = "source_date_time")
    (h : OneMore (.plain ["ticks"]) j j') :
    OneMore .text (.obj (a ++ (k, j) :: b)) (.obj (a ++ (k, j') :: b))

/-- Any number of such entries, anywhere. -/
inductive More (kind : ObjectOf) : J → J → Prop
  /-- None. -/
  | none {j} : More kind j j
  /-- One more. -/
  | one {i j j'} (h : More kind i j) (h' : OneMore kind j j') : More kind i j'

end Gvas.Spec
