import Verif.Model.File

/-!
# Specification vocabulary: how far reported byte counts are off
-/

namespace Gvas.Spec

/-- Of an ASCII string, its characters and its terminator are counted twice. -/
def strOver (s : String) : Int :=
  if s.toList.all (fun c => decide (c.toNat < 128)) then s.toList.length + 1 else 0

/-- The same for strings that may be null. -/
def optOver : Option String → Int
  | some s => strOver s
  | none => 0

/-- The sum over a list. -/
def sumOver {α : Type} (f : α → Int) : List α → Int
  | [] => 0
  | a :: l => f a + sumOver f l

mutual
/-- Texts: their strings.  `ci`: whether culture invariant strings are stored. -/
def textOver (ci : Bool) : FText → Int
  | .mk _ h => historyOver ci h
/-- The strings of a text history. -/
def historyOver (ci : Bool) : FTextHistory → Int
  | .empty => 0
  | .none s => if ci then optOver s else 0
  | .base ns key src => optOver ns + optOver key + optOver src
  | .namedFormat src args => textOver ci src + namedOver ci args
  | .orderedFormat src args => textOver ci src + argsOver ci args
  | .argumentFormat src args => textOver ci src + namedOver ci args
  | .asNumber v _ c => argOver ci v + optOver c
  | .asPercent v _ c => argOver ci v + optOver c
  | .asCurrency code v _ c => optOver code + argOver ci v + optOver c
  | .asDate _ _ c => strOver c
  | .asTime _ _ z c => strOver z + strOver c
  | .asDateTime _ _ _ z c => strOver z + strOver c
  | .transform src _ => textOver ci src
  | .stringTableEntry t k => strOver t + strOver k
/-- The strings of a format argument. -/
def argOver (ci : Bool) : FormatArgumentValue → Int
  | .text t => textOver ci t
  | _ => 0
/-- The strings of format arguments. -/
def argsOver (ci : Bool) : List FormatArgumentValue → Int
  | [] => 0
  | v :: l => argOver ci v + argsOver ci l
/-- The strings of named format arguments. -/
def namedOver (ci : Bool) : List (String × FormatArgumentValue) → Int
  | [] => 0
  | (k, v) :: l => strOver k + argOver ci v + namedOver ci l
end

/-- The header of a property: the type name and the strings behind it. -/
def headOver (h : Bool) (ty : String) (parts body : Int) : Int :=
  if h then strOver ty + parts + body else body

mutual
/-- How many more bytes are reported than written for a property: the characters of ASCII strings
once more, but for a name property with a header 17 bytes (the type name) are forgotten, and
instead of the four bytes of the number of gameplay tags that number itself is counted. -/
def countOver (ci h : Bool) : Property → Int
  | .array v => headOver h "ArrayProperty" (strOver v.propertyType) (arrayOver ci v)
  | .bool _ => if h then strOver "BoolProperty" else 0
  | .byte name (.byte _) => if h then strOver "ByteProperty" + optOver name else 0
  | .byte name (.namespaced s) =>
    headOver h "ByteProperty" (optOver name) (strOver s)
  | .double _ => headOver h "DoubleProperty" 0 0
  | .enum ty v => headOver h "EnumProperty" (optOver ty) (strOver v)
  | .float _ => headOver h "FloatProperty" 0 0
  | .int16 _ => headOver h "Int16Property" 0 0
  | .int64 _ => headOver h "Int64Property" 0 0
  | .int8 _ => headOver h "Int8Property" 0 0
  | .int _ => headOver h "IntProperty" 0 0
  | .map v => headOver h "MapProperty" (strOver v.keyType + strOver v.valueType) (mapOver ci v)
  | .name _ v => if h then optOver v - 17 else optOver v
  | .object v => headOver h "ObjectProperty" 0 (strOver v)
  | .delegate v => headOver h "DelegateProperty" 0 (strOver v.object + strOver v.functionName)
  | .multicastInlineDelegate v => headOver h "MulticastInlineDelegateProperty" 0
      (sumOver (fun d => strOver d.object + strOver d.functionName) v)
  | .multicastSparseDelegate v => headOver h "MulticastSparseDelegateProperty" 0
      (sumOver (fun d => strOver d.object + strOver d.functionName) v)
  | .fieldPath v => headOver h "FieldPathProperty" 0 (sumOver strOver v.path + strOver v.resolvedOwner)
  | .set ty _ ps => headOver h "SetProperty" (strOver ty) (propsOver ci ps)
  | .str v => headOver h "StrProperty" 0 (optOver v)
  | .struct _ ty v => headOver h "StructProperty" (strOver ty) (structOver ci v)
  | .structValue v => structOver ci v
  | .text v => headOver h "TextProperty" 0 (textOver ci v)
  | .uint16 _ => headOver h "UInt16Property" 0 0
  | .uint32 _ => headOver h "UInt32Property" 0 0
  | .uint64 _ => headOver h "UInt64Property" 0 0
  | .unknown name _ => headOver h name 0 0
/-- The same for the body of an array. -/
def arrayOver (ci : Bool) : ArrayProperty → Int
  | .bools _ | .bytes _ | .floats _ | .ints _ => 0
  | .enums v => sumOver strOver v
  | .names v => sumOver optOver v
  | .strings v => sumOver optOver v
  | .structs field ty _ v => strOver field + strOver "StructProperty" + strOver ty + structsOver ci v
  | .properties _ v => propsOver ci v
/-- The same for the body of a map. -/
def mapOver (ci : Bool) : MapProperty → Int
  | .enumBool v | .nameBool v | .strBool v => sumOver (fun e => strOver e.1) v
  | .enumInt v | .nameInt v | .strInt v => sumOver (fun e => strOver e.1) v
  | .enumProperty _ v | .nameProperty _ v | .strProperty _ v => valuesOver ci v
  | .strStr v => sumOver (fun e => strOver e.1 + optOver e.2) v
  | .properties _ _ _ v => entriesOver ci v
/-- The same for the body of a struct. -/
def structOver (ci : Bool) : StructPropertyValue → Int
  | .gameplayTagContainer tags => tags.length - 4 + sumOver strOver tags
  | .customStruct fs => fieldsOver ci fs + strOver "None"
  | _ => 0
/-- The same for properties without headers. -/
def propsOver (ci : Bool) : List Property → Int
  | [] => 0
  | p :: ps => countOver ci false p + propsOver ci ps
/-- The same for structs. -/
def structsOver (ci : Bool) : List StructPropertyValue → Int
  | [] => 0
  | v :: vs => structOver ci v + structsOver ci vs
/-- The same for map entries whose keys are strings. -/
def valuesOver (ci : Bool) : List (String × Property) → Int
  | [] => 0
  | (k, p) :: es => strOver k + countOver ci false p + valuesOver ci es
/-- The same for map entries. -/
def entriesOver (ci : Bool) : List (Property × Property) → Int
  | [] => 0
  | (k, p) :: es => countOver ci false k + countOver ci false p + entriesOver ci es
/-- The same for struct fields. -/
def fieldsOver (ci : Bool) : List (String × List Property) → Int
  | [] => 0
  | (k, ps) :: fs => fieldOver ci k ps + fieldsOver ci fs
/-- The same for the values of one struct field. -/
def fieldOver (ci : Bool) (k : String) : List Property → Int
  | [] => 0
  | p :: ps => strOver k + countOver ci true p + fieldOver ci k ps
end

/-- The same for headers: their strings. -/
def headerOver : GvasHeader → Int
  | .version2 _ ev _ _ name => strOver ev.branch + strOver name
  | .version3 _ _ ev _ _ name => strOver ev.branch + strOver name

end Gvas.Spec
