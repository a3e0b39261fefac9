import Verif.Spec.Grammar

/-!
# Specification vocabulary: what may stand in the way of saving a file

Whether a value can be saved depends on the custom versions of the file: coordinates are 32 or 64 bit
floats, and integers among the arguments of texts have 32 or 64 bits.  A struct without name and GUID
cannot stand where a header is needed.  `fileDemands` lists everything in a file to which this applies,
in the order in which it is stored.
-/

namespace Gvas.Spec

open Format

/-- Something that cannot be saved in every file. -/
inductive Demand
  /-- Coordinates of 32 bits, and what to use for 64 bits. -/
  | small (name other : String)
  /-- Coordinates of 64 bits, and what to use for 32 bits. -/
  | large (name other : String)
  /-- An integer argument of 32 bits. -/
  | narrow (name : String)
  /-- An integer argument of 64 bits. -/
  | wide (name : String)
  /-- A bare struct where a header is needed. -/
  | bare
  deriving DecidableEq

mutual
/-- What a text asks for. -/
def textDemands : FText → List Demand
  | .mk _ h => historyDemands h
/-- What a history asks for. -/
def historyDemands : FTextHistory → List Demand
  | .namedFormat t args => textDemands t ++ namedDemands args
  | .orderedFormat t args => textDemands t ++ argsDemands args
  | .argumentFormat t args => textDemands t ++ namedDemands args
  | .asNumber v _ _ => argDemands v
  | .asPercent v _ _ => argDemands v
  | .asCurrency _ v _ _ => argDemands v
  | .transform t _ => textDemands t
  | .empty => []
  | .none _ => []
  | .base _ _ _ => []
  | .asDate _ _ _ => []
  | .asTime _ _ _ _ => []
  | .asDateTime _ _ _ _ _ => []
  | .stringTableEntry _ _ => []
/-- What an argument asks for. -/
def argDemands : FormatArgumentValue → List Demand
  | .int _ => [.narrow "Int"]
  | .uint _ => [.narrow "UInt"]
  | .int64 _ => [.wide "Int64"]
  | .uint64 _ => [.wide "UInt64"]
  | .text t => textDemands t
  | .float _ => []
  | .double _ => []
/-- What arguments ask for. -/
def argsDemands : List FormatArgumentValue → List Demand
  | [] => []
  | v :: l => argDemands v ++ argsDemands l
/-- What named arguments ask for. -/
def namedDemands : List (String × FormatArgumentValue) → List Demand
  | [] => []
  | (_, v) :: l => argDemands v ++ namedDemands l
end

mutual
/-- What a property asks for, where it is stored with a header (`h`) or without. -/
def demands (h : Bool) : Property → List Demand
  | .array v => arrayDemands v
  | .map v => mapDemands v
  | .set _ _ ps => elemsDemands ps
  | .struct _ _ v => structDemands v
  | .structValue v => if h then [.bare] else structDemands v
  | .text t => textDemands t
  | .bool _ => []
  | .byte _ _ => []
  | .double _ => []
  | .enum _ _ => []
  | .float _ => []
  | .int16 _ => []
  | .int64 _ => []
  | .int8 _ => []
  | .int _ => []
  | .name _ _ => []
  | .object _ => []
  | .delegate _ => []
  | .multicastInlineDelegate _ => []
  | .multicastSparseDelegate _ => []
  | .fieldPath _ => []
  | .str _ => []
  | .uint16 _ => []
  | .uint32 _ => []
  | .uint64 _ => []
  | .unknown _ _ => []
/-- What an array asks for. -/
def arrayDemands : ArrayProperty → List Demand
  | .structs _ _ _ v => structsDemands v
  | .properties _ ps => elemsDemands ps
  | .bools _ => []
  | .bytes _ => []
  | .enums _ => []
  | .floats _ => []
  | .ints _ => []
  | .names _ => []
  | .strings _ => []
/-- What a map asks for. -/
def mapDemands : MapProperty → List Demand
  | .enumProperty _ v => valuesDemands v
  | .nameProperty _ v => valuesDemands v
  | .strProperty _ v => valuesDemands v
  | .properties _ _ _ m => entriesDemands m
  | .enumBool _ => []
  | .enumInt _ => []
  | .nameBool _ => []
  | .nameInt _ => []
  | .strBool _ => []
  | .strInt _ => []
  | .strStr _ => []
/-- What a struct asks for. -/
def structDemands : StructPropertyValue → List Demand
  | .vector2F _ _ => [.small "Vector2F" "Vector2D"]
  | .vector2D _ _ => [.large "Vector2D" "Vector2F"]
  | .vectorF _ _ _ => [.small "VectorF" "VectorD"]
  | .vectorD _ _ _ => [.large "VectorD" "VectorF"]
  | .rotatorF _ _ _ => [.small "RotatorF" "RotatorD"]
  | .rotatorD _ _ _ => [.large "RotatorD" "RotatorF"]
  | .quatF _ _ _ _ => [.small "QuatF" "QuatD"]
  | .quatD _ _ _ _ => [.large "QuatD" "QuatF"]
  | .dateTime _ => []
  | .timespan _ => []
  | .guid _ => []
  | .linearColor _ _ _ _ => []
  | .intPoint _ _ => []
  | .gameplayTagContainer _ => []
  | .customStruct fs => fieldsDemands fs
/-- What elements without headers ask for. -/
def elemsDemands : List Property → List Demand
  | [] => []
  | p :: l => demands false p ++ elemsDemands l
/-- What the structs of an array ask for. -/
def structsDemands : List StructPropertyValue → List Demand
  | [] => []
  | v :: l => structDemands v ++ structsDemands l
/-- What the values of a map with text as keys ask for. -/
def valuesDemands : List (String × Property) → List Demand
  | [] => []
  | (_, p) :: l => demands false p ++ valuesDemands l
/-- What the entries of a map ask for, keys first. -/
def entriesDemands : List (Property × Property) → List Demand
  | [] => []
  | (k, p) :: l => demands false k ++ demands false p ++ entriesDemands l
/-- What the fields of a struct ask for. -/
def fieldsDemands : List (String × List Property) → List Demand
  | [] => []
  | (_, ps) :: l => headedDemands ps ++ fieldsDemands l
/-- What the values of one field ask for. -/
def headedDemands : List Property → List Demand
  | [] => []
  | p :: l => demands true p ++ headedDemands l
end

/-- What a file asks for. -/
def fileDemands (f : GvasFile) : List Demand := f.properties.flatMap fun e => demands true e.2

/-- What cannot be saved with these custom versions, and how saving it fails. -/
inductive Unfit (cv : List (Guid × UInt32)) : Demand → Fail → Prop
  | small (name other : String) : LargeWorld cv → Unfit cv (.small name other)
      (.err (.serializeInvalidValue
        (name ++ " not supported when LWC is enabled, use " ++ other)))
  | large (name other : String) : ¬ LargeWorld cv → Unfit cv (.large name other)
      (.err (.serializeInvalidValue
        (name ++ " not supported when LWC is disabled, use " ++ other)))
  | narrow (name : String) : WideArguments cv → Unfit cv (.narrow name)
      (.panic ("FormatArgumentValue::" ++ name ++
        " is not compatible with TextFormatArgumentData64bitSupport"))
  | wide (name : String) : ¬ WideArguments cv → Unfit cv (.wide name)
      (.panic ("FormatArgumentValue::" ++ name ++
        " requires TextFormatArgumentData64bitSupport"))
  | bare : Unfit cv .bare
      (.err (.serializeInvalidValue "StructPropertyValue can not be serialized with a header"))

/-- The first of the things that cannot be saved fails with `e`. -/
def FirstUnfit (cv : List (Guid × UInt32)) (ds : List Demand) (e : Fail) : Prop :=
  ∃ l d r, ds = l ++ d :: r ∧ (∀ x ∈ l, ∀ e, ¬ Unfit cv x e) ∧ Unfit cv d e

end Gvas.Spec
