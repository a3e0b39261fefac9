import Verif.Model.Write

/-!
# Specification vocabulary: what is left of texts under versions without culture invariant strings
-/

namespace Gvas.Spec

mutual
/-- The text without the culture invariant strings: what is left of it in a file whose versions
know nothing of these strings. -/
def stripText : FText → FText
  | .mk flags h => .mk flags (stripHistory h)
/-- The same for histories. -/
def stripHistory : FTextHistory → FTextHistory
  | .none _ => .empty
  | .namedFormat t args => .namedFormat (stripText t) (stripNamed args)
  | .orderedFormat t args => .orderedFormat (stripText t) (stripArgs args)
  | .argumentFormat t args => .argumentFormat (stripText t) (stripNamed args)
  | .asNumber v o c => .asNumber (stripArg v) o c
  | .asPercent v o c => .asPercent (stripArg v) o c
  | .asCurrency code v o c => .asCurrency code (stripArg v) o c
  | .transform t k => .transform (stripText t) k
  | .empty => .empty
  | .base a b c => .base a b c
  | .asDate a b c => .asDate a b c
  | .asTime a b c d => .asTime a b c d
  | .asDateTime a b c d e => .asDateTime a b c d e
  | .stringTableEntry a b => .stringTableEntry a b
/-- The same for arguments. -/
def stripArg : FormatArgumentValue → FormatArgumentValue
  | .text t => .text (stripText t)
  | .int v => .int v
  | .uint v => .uint v
  | .float v => .float v
  | .double v => .double v
  | .int64 v => .int64 v
  | .uint64 v => .uint64 v
/-- The same for argument lists. -/
def stripArgs : List FormatArgumentValue → List FormatArgumentValue
  | [] => []
  | v :: l => stripArg v :: stripArgs l
/-- The same for named arguments. -/
def stripNamed : List (String × FormatArgumentValue) → List (String × FormatArgumentValue)
  | [] => []
  | (k, v) :: l => (k, stripArg v) :: stripNamed l
end

/-- What a file with the custom versions `cv` can hold of a text. -/
def keptText (cv : List (Guid × UInt32)) (t : FText) : FText :=
  if cultureInvariant cv then t else stripText t

mutual
/-- The property with `T` applied to all texts in it. -/
def mapTexts (T : FText → FText) : Property → Property
  | .array v => .array (mapArray T v)
  | .map v => .map (mapMap T v)
  | .set ty fl ps => .set ty fl (mapElems T ps)
  | .struct g ty v => .struct g ty (mapStruct T v)
  | .structValue v => .structValue (mapStruct T v)
  | .text t => .text (T t)
  | .bool v => .bool v
  | .byte n v => .byte n v
  | .double v => .double v
  | .enum t v => .enum t v
  | .float v => .float v
  | .int16 v => .int16 v
  | .int64 v => .int64 v
  | .int8 v => .int8 v
  | .int v => .int v
  | .name i v => .name i v
  | .object v => .object v
  | .delegate v => .delegate v
  | .multicastInlineDelegate v => .multicastInlineDelegate v
  | .multicastSparseDelegate v => .multicastSparseDelegate v
  | .fieldPath v => .fieldPath v
  | .str v => .str v
  | .uint16 v => .uint16 v
  | .uint32 v => .uint32 v
  | .uint64 v => .uint64 v
  | .unknown n raw => .unknown n raw
/-- The same for arrays. -/
def mapArray (T : FText → FText) : ArrayProperty → ArrayProperty
  | .structs f ty g v => .structs f ty g (mapStructs T v)
  | .properties ty ps => .properties ty (mapElems T ps)
  | .bools v => .bools v
  | .bytes v => .bytes v
  | .enums v => .enums v
  | .floats v => .floats v
  | .ints v => .ints v
  | .names v => .names v
  | .strings v => .strings v
/-- The same for maps. -/
def mapMap (T : FText → FText) : MapProperty → MapProperty
  | .enumProperty vt v => .enumProperty vt (mapValues T v)
  | .nameProperty vt v => .nameProperty vt (mapValues T v)
  | .strProperty vt v => .strProperty vt (mapValues T v)
  | .properties kt vt fl m => .properties kt vt fl (mapEntries T m)
  | .enumBool v => .enumBool v
  | .enumInt v => .enumInt v
  | .nameBool v => .nameBool v
  | .nameInt v => .nameInt v
  | .strBool v => .strBool v
  | .strInt v => .strInt v
  | .strStr v => .strStr v
/-- The same for structs. -/
def mapStruct (T : FText → FText) : StructPropertyValue → StructPropertyValue
  | .customStruct fs => .customStruct (mapFields T fs)
  | .vector2F x y => .vector2F x y
  | .vector2D x y => .vector2D x y
  | .vectorF x y z => .vectorF x y z
  | .vectorD x y z => .vectorD x y z
  | .rotatorF x y z => .rotatorF x y z
  | .rotatorD x y z => .rotatorD x y z
  | .quatF x y z w => .quatF x y z w
  | .quatD x y z w => .quatD x y z w
  | .dateTime t => .dateTime t
  | .timespan t => .timespan t
  | .guid g => .guid g
  | .linearColor r g b a => .linearColor r g b a
  | .intPoint x y => .intPoint x y
  | .gameplayTagContainer tags => .gameplayTagContainer tags
/-- The same for lists of properties. -/
def mapElems (T : FText → FText) : List Property → List Property
  | [] => []
  | p :: l => mapTexts T p :: mapElems T l
/-- The same for lists of structs. -/
def mapStructs (T : FText → FText) : List StructPropertyValue → List StructPropertyValue
  | [] => []
  | v :: l => mapStruct T v :: mapStructs T l
/-- The same for the values of maps with string keys. -/
def mapValues (T : FText → FText) : List (String × Property) → List (String × Property)
  | [] => []
  | (k, p) :: l => (k, mapTexts T p) :: mapValues T l
/-- The same for the entries of maps. -/
def mapEntries (T : FText → FText) : List (Property × Property) → List (Property × Property)
  | [] => []
  | (k, p) :: l => (mapTexts T k, mapTexts T p) :: mapEntries T l
/-- The same for the fields of structs. -/
def mapFields (T : FText → FText) : List (String × List Property) → List (String × List Property)
  | [] => []
  | (k, ps) :: l => (k, mapElems T ps) :: mapFields T l
end

/-- The properties of a file without the culture invariant strings. -/
def stripped (ps : List (String × Property)) : List (String × Property) :=
  ps.map fun e => (e.1, mapTexts stripText e.2)

end Gvas.Spec
