import Verif.Model.Key

/-!
# The constructors choosing a compact representation
`ArrayProperty::new`, `MapProperty::new`
-/

namespace Gvas

/-- `Property::BoolProperty(BoolProperty { value }) => Ok(value)`
(`src/properties/array_property.rs` 115). -/
def asBool : Property → Option Bool
  | .bool v => some v
  | _ => none
/-- A nameless byte (`src/properties/array_property.rs` 130-133). -/
def asByte : Property → Option UInt8
  | .byte none (.byte v) => some v
  | _ => none
/-- A typeless enum value (`src/properties/array_property.rs` 148-151,
`map_property.rs` 112-115). -/
def asEnum : Property → Option String
  | .enum none v => some v
  | _ => none
/-- An `i32` (`src/properties/array_property.rs` 166). -/
def asInt : Property → Option Int32
  | .int v => some v
  | _ => none
/-- An `f32` (`src/properties/array_property.rs` 181). -/
def asFloat : Property → Option F32
  | .float v => some v
  | _ => none
/-- A name with array index 0 (`src/properties/array_property.rs` 196-199). -/
def asName : Property → Option (Option String)
  | .name i v => if i = 0 then some v else none
  | _ => none
/-- A string (`src/properties/array_property.rs` 214). -/
def asStr : Property → Option (Option String)
  | .str v => some v
  | _ => none
/-- A bare struct value (`src/properties/array_property.rs` 229). -/
def asStructValue : Property → Option StructPropertyValue
  | .structValue v => some v
  | _ => none
/-- A non-null name with array index 0 (`src/properties/map_property.rs` 195-198). -/
def asNameKey : Property → Option String
  | .name i (some v) => if i = 0 then some v else none
  | _ => none
/-- A non-null string (`src/properties/map_property.rs` 273). -/
def asStrKey : Property → Option String
  | .str (some v) => some v
  | _ => none

/-- `iter().map(f).collect::<Result<Vec<_>, _>>()`: all or nothing. -/
def collect {α β : Type} (f : α → Option β) : List α → Option (List β)
  | [] => some []
  | a :: l =>
    match f a, collect f l with
    | some b, some bs => some (b :: bs)
    | _, _ => none

/-- The `Ok(..) => compact, Err(()) => Properties` pattern of
`ArrayProperty::new` (`src/properties/array_property.rs` 112-125). -/
def compactArray {β : Type} (ty : String) (ps : List Property) (f : Property → Option β)
    (mk : List β → ArrayProperty) : Res ArrayProperty :=
  match collect f ps with
  | some bs => .ok (mk bs)
  | none => .ok (.properties ty ps)

/-- `ArrayProperty::new` (`src/properties/array_property.rs` 106-255).  The error
message's rendering of the offending element is left out. -/
def ArrayProperty.new (ty : String) (info : Option (String × String × Guid)) (ps : List Property) :
    Res ArrayProperty :=
  match info with
  | none =>
    if ty = "BoolProperty" then compactArray ty ps asBool .bools
    else if ty = "ByteProperty" then compactArray ty ps asByte .bytes
    else if ty = "EnumProperty" then compactArray ty ps asEnum .enums
    else if ty = "IntProperty" then compactArray ty ps asInt .ints
    else if ty = "FloatProperty" then compactArray ty ps asFloat .floats
    else if ty = "NameProperty" then compactArray ty ps asName .names
    else if ty = "StrProperty" then compactArray ty ps asStr .strings
    else .ok (.properties ty ps)
  | some (field, tyName, guid) =>
    if ty = "StructProperty" then
      match collect asStructValue ps with
      | some vs => .ok (.structs field tyName guid vs)
      | none => .err (.serializeInvalidValue
          "Array property_type StructProperty doesn't match property inside array")
    else .err (.serializeInvalidValue "struct_info is only supported for StructProperty")

/-- `ArrayProperty::get_property_type` (`src/properties/array_property.rs` 257-277). -/
def ArrayProperty.propertyType : ArrayProperty → String
  | .bools _ => "BoolProperty"
  | .bytes _ => "ByteProperty"
  | .enums _ => "EnumProperty"
  | .floats _ => "FloatProperty"
  | .ints _ => "IntProperty"
  | .names _ => "NameProperty"
  | .strings _ => "StrProperty"
  | .structs .. => "StructProperty"
  | .properties ty _ => ty

/-- One entry `(key, value)` of a compact map. -/
def asEntry {κ ν : Type} (fk : Property → Option κ) (fv : Property → Option ν)
    (e : Property × Property) : Option (κ × ν) :=
  match fk e.1, fv e.2 with
  | some k, some v => some (k, v)
  | _, _ => none

/-- The `Ok(..) => compact, Err(_) => Properties` pattern of `MapProperty::new`
(`src/properties/map_property.rs` 108-136); the collected entries go into a
fresh `IndexMap<String, _>`. -/
def compactMap {ν : Type} (kt vt : String) (fl : UInt32) (m : List (Property × Property))
    (fk : Property → Option String) (fv : Property → Option ν)
    (mk : List (String × ν) → MapProperty) : MapProperty :=
  match collect (asEntry fk fv) m with
  | some es => mk (imExtend (· == ·) [] es)
  | none => .properties kt vt fl m

/-- `MapProperty::new` (`src/properties/map_property.rs` 101-366). -/
def MapProperty.new (kt vt : String) (fl : UInt32) (m : List (Property × Property)) :
    MapProperty :=
  if fl ≠ 0 then .properties kt vt fl m
  else if kt = "EnumProperty" then
    if vt = "BoolProperty" then compactMap kt vt fl m asEnum asBool .enumBool
    else if vt = "IntProperty" then compactMap kt vt fl m asEnum asInt .enumInt
    else compactMap kt vt fl m asEnum some (.enumProperty vt)
  else if kt = "NameProperty" then
    if vt = "BoolProperty" then compactMap kt vt fl m asNameKey asBool .nameBool
    else if vt = "IntProperty" then compactMap kt vt fl m asNameKey asInt .nameInt
    else compactMap kt vt fl m asNameKey some (.nameProperty vt)
  else if kt = "StrProperty" then
    if vt = "BoolProperty" then compactMap kt vt fl m asStrKey asBool .strBool
    else if vt = "IntProperty" then compactMap kt vt fl m asStrKey asInt .strInt
    else if vt = "StrProperty" then compactMap kt vt fl m asStrKey asStr .strStr
    else compactMap kt vt fl m asStrKey some (.strProperty vt)
  else .properties kt vt fl m

/-- `MapProperty::key_type` (`src/properties/map_property.rs` 379-407). -/
def MapProperty.keyType : MapProperty → String
  | .enumBool _ => "EnumProperty"
  | .enumInt _ => "EnumProperty"
  | .enumProperty _ _ => "EnumProperty"
  | .nameBool _ => "NameProperty"
  | .nameInt _ => "NameProperty"
  | .nameProperty _ _ => "NameProperty"
  | .properties kt _ _ _ => kt
  | .strBool _ => "StrProperty"
  | .strInt _ => "StrProperty"
  | .strProperty _ _ => "StrProperty"
  | .strStr _ => "StrProperty"

/-- `MapProperty::value_type` (`src/properties/map_property.rs` 410-438). -/
def MapProperty.valueType : MapProperty → String
  | .enumBool _ => "BoolProperty"
  | .enumInt _ => "IntProperty"
  | .enumProperty vt _ => vt
  | .nameBool _ => "BoolProperty"
  | .nameInt _ => "IntProperty"
  | .nameProperty vt _ => vt
  | .properties _ vt _ _ => vt
  | .strBool _ => "BoolProperty"
  | .strInt _ => "IntProperty"
  | .strProperty vt _ => vt
  | .strStr _ => "StrProperty"

end Gvas
