import Verif.Model.Json

/-!
# Loading JSON with the panics of loading (feature `serde`)

`GvasFile.ofJson` counts a panic of the GUID parser as a refusal.  Here panics are kept: the only
code of the crate that runs while JSON is loaded and can panic is `Guid::from_str`
(`src/types.rs` 167-186), called by `Deserialize for Guid` (`src/types.rs` 199-208); all other
implementations are derived.  A panic ends the loading, so it matters what is looked at first: serde
visits the entries of an object in order and complains about missing ones at the end, and tries the
variants of an untagged enum in order, whose errors (but not panics) are dropped.

Simplification: of entries with the same name only the first is looked at (see `Verif.Model.Json`).
-/

namespace Gvas

/-- The outcome of loading: a value, an error of serde (without its text), or a panic. -/
inductive Load (α : Type) where
  | ok (a : α)
  | err
  | panic
deriving DecidableEq, Repr

/-- One after the other. -/
def Load.bind {α β : Type} : Load α → (α → Load β) → Load β
  | .ok a, f => f a
  | .err, _ => .err
  | .panic, _ => .panic

instance : Monad Load where
  pure := .ok
  bind := Load.bind

/-- A part that cannot panic. -/
def Load.lift {α : Type} : Option α → Load α
  | some a => .ok a
  | none => .err

/-- An untagged variant, then the next one (serde's `untagged`). -/
def Load.orElse {α : Type} : Load α → Load α → Load α
  | .err, b => b
  | a, _ => a

/-- `Guid::from_str` inside `Deserialize for Guid` (`src/types.rs` 206). -/
def guidOfStrL (s : String) : Load Guid :=
  match Guid.parse s.toList with
  | .ok g => .lift g
  | .bad _ => .panic

/-- `Deserialize for Guid` (`src/types.rs` 199-208). -/
def J.getGuidL (j : J) : Load Guid := do guidOfStrL (← .lift j.getStr)

/-- The elements of an array in order. -/
def mapL {α β : Type} (d : α → Load β) : List α → Load (List β)
  | [] => return []
  | a :: l => do
    let b ← d a
    let r ← mapL d l
    return b :: r

/-- `Vec::deserialize`. -/
def J.getArrL {α : Type} (d : J → Load α) : J → Load (List α)
  | .arr l => mapL d l
  | _ => .err

/-- `HashableIndexMap::deserialize` (`src/types.rs` 222): keys and values in turn. -/
def J.getMapL {κ α : Type} (same : κ → κ → Bool) (dk : String → Load κ) (d : J → Load α) :
    J → Load (List (κ × α))
  | .obj l => do
    let es ← mapL (fun e => do return (← dk e.1, ← d e.2)) l
    return imExtend same [] es
  | _ => .err

/-- A map with string keys. -/
def J.getStrMapL {α : Type} (d : J → Load α) : J → Load (List (String × α)) :=
  J.getMapL (· == ·) .ok d

/-- The pair of a key and a value in `serde_seq` (`src/types.rs` 338-375): what is there is read
before its length is found wrong. -/
def J.getPairL {α : Type} (d : J → Load α) : J → Load (α × α)
  | .arr [] => .err
  | .arr [a] => do
    let _ ← d a
    .err
  | .arr (a :: b :: l) => do
    let x ← d a
    let y ← d b
    if l.isEmpty then return (x, y) else .err
  | _ => .err

/-- Visit the entries of a struct in order: those named like a field are read (serde's
`visit_map`), others ignored. -/
def visit (known : List (String × (J → Load Unit))) : List (String × J) → Load Unit
  | [] => return ()
  | e :: es =>
    match known.lookup e.1 with
    | some d => do
      d e.2
      visit (known.filter fun k => k.1 != e.1) es
    | none => visit known es

/-- The entries of a struct without flattened fields, visited: an object, or an array with a value
for each field, which is found too short or too long at its end (`visit_seq`). -/
def J.visitFields (known : List (String × (J → Load Unit))) : J → Load (List (String × J))
  | .obj l => do
    visit known l
    return l
  | .arr l => do
    visit known ((known.map Prod.fst).zip l)
    .lift ((J.arr l).getFields (known.map Prod.fst))
  | _ => .err

/-- A field that cannot panic, only visited. -/
def plain {α : Type} (d : J → Option α) : J → Load Unit := fun j => do
  let _ ← Load.lift (d j)
  return ()

/-- A field that may panic, only visited. -/
def seen {α : Type} (d : J → Load α) : J → Load Unit := fun j => do
  let _ ← d j
  return ()

/-- A field that must be there. -/
def fieldL {α : Type} (es : List (String × J)) (k : String) (d : J → Load α) : Load α := do
  d (← .lift (es.lookup k))

/-- A field with `serde(default)`. -/
def defaultFieldL {α : Type} (es : List (String × J)) (k : String) (a : α) (d : J → Load α) :
    Load α :=
  match es.lookup k with
  | none => .ok a
  | some j => d j

/-- `Deserialize for StructPropertyValue` (`src/properties/struct_property.rs` 54-86): the variant
with this name. -/
def StructPropertyValue.ofVariantL (rec : J → Load Property) (k : String) (j : J) :
    Load StructPropertyValue :=
  if k = "Guid" then do return .guid (← j.getGuidL)
  else if k = "CustomStruct" then do return .customStruct (← j.getStrMapL (J.getArrL rec))
  else .lift (StructPropertyValue.ofVariant (fun _ => none) k j)

/-- A struct as an object with exactly one entry, which serde makes sure of before it reads it
(`src/properties/struct_property.rs` 54-86). -/
def StructPropertyValue.ofJL (rec : J → Load Property) : J → Load StructPropertyValue
  | .obj [(k, j)] => StructPropertyValue.ofVariantL rec k j
  | _ => .err

/-- A struct flattened into another object (`src/properties/struct_property.rs` 48). -/
def StructPropertyValue.ofFlatL (rec : J → Load Property) (es : List (String × J)) :
    Load StructPropertyValue := do
  let e ← .lift (es.find? fun e => structVariants.contains e.1)
  StructPropertyValue.ofVariantL rec e.1 e.2

/-- The variant `Structs` of `ArrayProperty` (`src/properties/array_property.rs` 70-82). -/
def ArrayProperty.structsL (rec : J → Load Property) (es : List (String × J)) :
    Load ArrayProperty := do
  let structs := J.getArrL (StructPropertyValue.ofJL rec)
  visit [("field_name", plain J.getStr), ("type_name", plain J.getStr), ("guid", seen J.getGuidL),
    ("structs", seen structs)] es
  return .structs (← .lift (field es "field_name" J.getStr)) (← .lift (field es "type_name" J.getStr))
    (← defaultFieldL es "guid" (Guid.fromU128 0) J.getGuidL) (← fieldL es "structs" structs)

/-- The variant `Properties` of `ArrayProperty` (`src/properties/array_property.rs` 83-89). -/
def ArrayProperty.propertiesL (rec : J → Load Property) (es : List (String × J)) :
    Load ArrayProperty := do
  visit [("property_type", plain J.getStr), ("properties", seen (J.getArrL rec))] es
  return .properties (← .lift (field es "property_type" J.getStr))
    (← fieldL es "properties" (J.getArrL rec))

/-- `Deserialize for ArrayProperty` (`src/properties/array_property.rs` 30-90; untagged). -/
def ArrayProperty.ofEntriesL (rec : J → Load Property) (es : List (String × J)) :
    Load ArrayProperty :=
  (Load.lift ((field es "bools" (J.getArr J.getBool)).map .bools)).orElse <|
  (Load.lift ((field es "bytes" J.getHex).map .bytes)).orElse <|
  (Load.lift ((field es "enums" (J.getArr J.getStr)).map .enums)).orElse <|
  (Load.lift ((field es "floats" (J.getArr J.getF32)).map .floats)).orElse <|
  (Load.lift ((field es "ints" (J.getArr J.getI32)).map .ints)).orElse <|
  (Load.lift ((field es "names" (J.getArr (J.getOpt J.getStr))).map .names)).orElse <|
  (Load.lift ((field es "strings" (J.getArr (J.getOpt J.getStr))).map .strings)).orElse <|
  (ArrayProperty.structsL rec es).orElse <|
  ArrayProperty.propertiesL rec es

/-- A variant of `MapProperty` with a value type and values that are properties
(`src/properties/map_property.rs` 38-44, 55-61, 84-90). -/
def MapProperty.typedL (rec : J → Load Property) (key : String)
    (f : String → List (String × Property) → MapProperty) (es : List (String × J)) :
    Load MapProperty := do
  visit [("value_type", plain J.getStr), (key, seen (J.getStrMapL rec))] es
  return f (← .lift (field es "value_type" J.getStr)) (← fieldL es key (J.getStrMapL rec))

/-- The variant `Properties` of `MapProperty` (`src/properties/map_property.rs` 62-73). -/
def MapProperty.propertiesL (rec : J → Load Property) (es : List (String × J)) :
    Load MapProperty := do
  let pairs := J.getArrL (J.getPairL rec)
  visit [("key_type", plain J.getStr), ("value_type", plain J.getStr),
    ("allocation_flags", plain J.getU32), ("value", seen pairs)] es
  return .properties (← .lift (field es "key_type" J.getStr)) (← .lift (field es "value_type" J.getStr))
    (← .lift (field es "allocation_flags" J.getU32)) (imExtend sameKey [] (← fieldL es "value" pairs))

/-- `Deserialize for MapProperty` (`src/properties/map_property.rs` 25-96; untagged). -/
def MapProperty.ofEntriesL (rec : J → Load Property) (es : List (String × J)) : Load MapProperty :=
  (Load.lift ((field es "enum_bools" (J.getStrMap J.getBool)).map .enumBool)).orElse <|
  (Load.lift ((field es "enum_ints" (J.getStrMap J.getI32)).map .enumInt)).orElse <|
  (MapProperty.typedL rec "enum_props" .enumProperty es).orElse <|
  (Load.lift ((field es "name_bools" (J.getStrMap J.getBool)).map .nameBool)).orElse <|
  (Load.lift ((field es "name_ints" (J.getStrMap J.getI32)).map .nameInt)).orElse <|
  (MapProperty.typedL rec "name_props" .nameProperty es).orElse <|
  (MapProperty.propertiesL rec es).orElse <|
  (Load.lift ((field es "str_bools" (J.getStrMap J.getBool)).map .strBool)).orElse <|
  (Load.lift ((field es "str_ints" (J.getStrMap J.getI32)).map .strInt)).orElse <|
  (MapProperty.typedL rec "str_props" .strProperty es).orElse <|
  Load.lift ((field es "str_strs" (J.getStrMap (J.getOpt J.getStr))).map .strStr)

/-- `Deserialize for SetProperty` (`src/properties/set_property.rs` 14-24), from what stands behind
the tag. -/
def Property.setL (rec : J → Load Property) (j : J) : Load Property := do
  let es ← j.visitFields [("property_type", plain J.getStr), ("allocation_flags", plain J.getU32),
    ("properties", seen (J.getArrL rec))]
  return .set (← .lift (field es "property_type" J.getStr))
    (← .lift (field es "allocation_flags" J.getU32)) (← fieldL es "properties" (J.getArrL rec))

/-- `Deserialize for StructProperty` (`src/properties/struct_property.rs` 39-50): the flattened
value is read when the other fields are complete. -/
def Property.structL (rec : J → Load Property) (es : List (String × J)) : Load Property := do
  visit [("guid", seen J.getGuidL), ("type_name", plain J.getStr)] es
  let guid ← defaultFieldL es "guid" (Guid.fromU128 0) J.getGuidL
  let typeName ← .lift (field es "type_name" J.getStr)
  return .struct guid typeName (← StructPropertyValue.ofFlatL rec es)

/-- The entries behind a tag, where `names` are the fields if they can be read from an array. -/
def J.behind (names : Option (List String)) (rest : J) : Option (List (String × J)) :=
  match rest with
  | .obj es => some es
  | _ => names.bind rest.getFields

/-- The variant of `Property` with a tag (`src/properties/mod.rs` 489-548): those that can contain a
GUID; `rest` is what stands behind the tag. -/
def Property.ofTagL (text : List (String × J) → Option FText) (rec : J → Load Property)
    (rest : J) (tag : String) : Load Property :=
  if tag = "ArrayProperty" then do
    return .array (← ArrayProperty.ofEntriesL rec (← .lift rest.getEntries))
  else if tag = "MapProperty" then do
    return .map (← MapProperty.ofEntriesL rec (← .lift rest.getEntries))
  else if tag = "SetProperty" then Property.setL rec rest
  else if tag = "StructProperty" then do Property.structL rec (← .lift rest.getEntries)
  else if tag = "StructPropertyValue" then do
    let es ← .lift rest.getEntries
    return .structValue (← StructPropertyValue.ofJL rec (.obj (es.filter fun e => e.1 != "type")))
  else do
    let es ← .lift (rest.behind (propertyFields tag))
    .lift (Property.ofTag text (fun _ => none) es tag)

/-- The tag of a value and what stands behind it (serde's `TaggedContentVisitor`). -/
def J.splitTag (key : String) (tagOf : J → Option String) : J → Option (String × J)
  | .obj es => (es.lookup key).bind fun t => (tagOf t).map (·, .obj es)
  | .arr (t :: l) => (tagOf t).map (·, .arr l)
  | _ => none

/-- `Deserialize for Property` (`src/properties/mod.rs` 489-548; tag `type`). -/
def Property.ofJStepL (tagOf : J → Option String) (text : List (String × J) → Option FText)
    (rec : J → Load Property) (j : J) : Load Property := do
  let (tag, rest) ← .lift (j.splitTag "type" tagOf)
  Property.ofTagL text rec rest tag

/-- `Deserialize for Property` of a property inside another one; the number bounds the nesting. -/
def Property.ofJL : Nat → J → Load Property
  | 0, _ => .err
  | n + 1, j =>
    Property.ofJStepL (J.getTag propertyTags) (FText.ofEntries (n + 1)) (Property.ofJL n) j

/-- `Deserialize for Property` of a property by itself. -/
def Property.ofJsonL : Nat → J → Load Property
  | 0, _ => .err
  | n + 1, j => Property.ofJStepL J.getStr (FText.ofEntries (n + 1)) (Property.ofJL n) j

/-- The custom versions (`src/lib.rs` 127, 142). -/
def J.getCustomVersionsL : J → Load (List (Guid × UInt32)) :=
  J.getMapL (· == ·) guidOfStrL fun j => .lift j.getU32

/-- `Deserialize for GvasHeader` behind its tag (`src/lib.rs` 115-146). -/
def GvasHeader.ofTagL (rest : J) (tag : String) : Load GvasHeader :=
  if tag = "Version2" then do
    let es ← rest.visitFields [("package_file_version", plain J.getU32),
      ("engine_version", plain J.getEngineVersion), ("custom_version_format", plain J.getU32),
      ("custom_versions", seen J.getCustomVersionsL), ("save_game_class_name", plain J.getStr)]
    return .version2 (← .lift (field es "package_file_version" J.getU32))
      (← .lift (field es "engine_version" J.getEngineVersion))
      (← .lift (field es "custom_version_format" J.getU32))
      (← fieldL es "custom_versions" J.getCustomVersionsL)
      (← .lift (field es "save_game_class_name" J.getStr))
  else if tag = "Version3" then do
    let es ← rest.visitFields [("package_file_version", plain J.getU32),
      ("package_file_version_ue5", plain J.getU32),
      ("engine_version", plain J.getEngineVersion), ("custom_version_format", plain J.getU32),
      ("custom_versions", seen J.getCustomVersionsL), ("save_game_class_name", plain J.getStr)]
    return .version3 (← .lift (field es "package_file_version" J.getU32))
      (← .lift (field es "package_file_version_ue5" J.getU32))
      (← .lift (field es "engine_version" J.getEngineVersion))
      (← .lift (field es "custom_version_format" J.getU32))
      (← fieldL es "custom_versions" J.getCustomVersionsL)
      (← .lift (field es "save_game_class_name" J.getStr))
  else .err

/-- `Deserialize for GvasHeader` (`src/lib.rs` 115-146; tag `type`). -/
def GvasHeader.ofJL (j : J) : Load GvasHeader := do
  let (tag, rest) ← .lift (j.splitTag "type" J.getStr)
  GvasHeader.ofTagL rest tag

/-- `Deserialize for GvasFile` (`src/lib.rs` 331-343), i.e. `serde_json::from_value`. -/
def GvasFile.load (j : J) : Load GvasFile := do
  let properties := J.getStrMapL (Property.ofJsonL j.depth)
  let es ← j.visitFields [("deserialized_game_version", plain J.getGameVersion),
    ("header", seen GvasHeader.ofJL), ("properties", seen properties)]
  return {
    gameVersion := ← .lift (defaultField es "deserialized_game_version" .default J.getGameVersion)
    header := ← fieldL es "header" GvasHeader.ofJL
    properties := ← fieldL es "properties" properties }

end Gvas
