import Verif.Model.Write
import Verif.Spec.Text

/-!
# Specification vocabulary: property trees the file format can represent

`HeadOK env st p` says that `p`, stored with a header below the path `st`, is representable:
strings fit, counts fit their fields, names and types are where the format stores them, struct
types found by hint are the right ones, numbers have the width the versions ask for.
-/

namespace Gvas.Spec

/-- The property type names the format knows. -/
def knownTypes : List String :=
  ["Int8Property", "ByteProperty", "Int16Property", "UInt16Property", "IntProperty",
   "UInt32Property", "Int64Property", "UInt64Property", "FloatProperty", "DoubleProperty",
   "BoolProperty", "EnumProperty", "StrProperty", "TextProperty", "NameProperty",
   "ObjectProperty", "DelegateProperty", "MulticastInlineDelegateProperty",
   "MulticastSparseDelegateProperty", "FieldPathProperty", "StructProperty", "ArrayProperty",
   "SetProperty", "MapProperty"]

/-- The struct type names with a fixed layout. -/
def builtinStructs : List String :=
  ["Vector", "Vector2D", "Rotator", "Quat", "DateTime", "Timespan", "LinearColor", "IntPoint",
   "Guid", "GameplayTagContainer"]

/-- The element types of arrays that have an array variant of their own. -/
def compactArrayTypes : List String :=
  ["BoolProperty", "EnumProperty", "IntProperty", "FloatProperty", "NameProperty", "StrProperty"]

/-- The strings of a delegate fit. -/
def DelegateOK (d : Delegate) : Prop := StrOK d.object ∧ StrOK d.functionName

/-- The string of a byte property, if any, fits. -/
def ByteOK : BytePropertyValue → Prop
  | .byte _ => True
  | .namespaced s => StrOK s

/-- The multicast delegates fit. -/
def MulticastOK (ds : List Delegate) : Prop := ds.length < 2 ^ 32 ∧ ∀ d ∈ ds, DelegateOK d

/-- The field path fits. -/
def FieldPathOK (p : FieldPath) : Prop :=
  p.path.length < 2 ^ 32 ∧ (∀ s ∈ p.path, StrOK s) ∧ StrOK p.resolvedOwner

/-- What distinguishes elements that are told apart only by the declared size: plain bytes, byte
enum names, and unknown elements of different lengths. -/
def sizeClass : Property → Option Nat
  | .byte _ (.byte _) => some 0
  | .byte _ (.namespaced _) => some 1
  | .unknown _ raw => some raw.length
  | _ => none

/-- All elements are of the same size class. -/
def Uniform (ps : List Property) : Prop := ∀ p ∈ ps, ∀ q ∈ ps, sizeClass p = sizeClass q

/-- Is this a byte enum name? -/
def isNamespaced : Property → Prop
  | .byte _ (.namespaced _) => True
  | _ => False

/-- Elements of maps come without any size, so byte enum names and unknown elements are out. -/
def SizeFree : Property → Prop
  | .byte _ (.namespaced _) => False
  | .unknown _ _ => False
  | _ => True

/-- Is this the null string or the null name? -/
def isNullKey : Property → Prop
  | .name _ none => True
  | .str none => True
  | _ => False

/-- The array index a property carries. -/
def storedIndex : Property → UInt32
  | .name i _ => i
  | _ => 0

/-- String keys: distinct and not too long. -/
def KeysOK {ν : Type} (v : List (String × ν)) : Prop :=
  v.length < 2 ^ 32 ∧ (v.map Prod.fst).Nodup ∧ ∀ e ∈ v, StrOK e.1

mutual
/-- A property stored with a header below the path `st`. -/
def HeadOK (env : Env) (st : List String) : Property → Prop
  | .array v => ArrayOK env (st ++ ["ArrayProperty"]) v
  | .bool _ => True
  | .byte name v => (∃ s, name = some s ∧ StrOK s) ∧ ByteOK v
  | .double _ => True
  | .enum ty v => (∃ s, ty = some s ∧ StrOK s) ∧ StrOK v
  | .float _ => True
  | .int16 _ => True
  | .int64 _ => True
  | .int8 _ => True
  | .int _ => True
  | .map v => MapOK env (st ++ ["MapProperty"]) v
  | .name _ v => FStrOK v
  | .object v => StrOK v
  | .delegate v => DelegateOK v
  | .multicastInlineDelegate v => MulticastOK v
  | .multicastSparseDelegate v => MulticastOK v
  | .fieldPath v => FieldPathOK v
  | .set ty _ ps => StrOK ty ∧ ps.length < 2 ^ 32 ∧ Uniform ps ∧
      BaresOK env (st ++ ["SetProperty"]) ty ps
  | .str v => FStrOK v
  | .struct _ ty v => StrOK ty ∧ StructOK env (st ++ ["StructProperty"]) ty v
  | .structValue _ => False
  | .text v => TextOK env.cv v
  | .uint16 _ => True
  | .uint32 _ => True
  | .uint64 _ => True
  | .unknown name _ => StrOK name ∧ name ∉ knownTypes
/-- A property stored without header, as an element of type `ty` below the path `st`. -/
def BareOK (env : Env) (st : List String) (ty : String) : Property → Prop
  | .array _ => False
  | .bool _ => ty = "BoolProperty"
  | .byte name v => ty = "ByteProperty" ∧ name = none ∧ ByteOK v
  | .double _ => ty = "DoubleProperty"
  | .enum t v => ty = "EnumProperty" ∧ t = none ∧ StrOK v
  | .float _ => ty = "FloatProperty"
  | .int16 _ => ty = "Int16Property"
  | .int64 _ => ty = "Int64Property"
  | .int8 _ => ty = "Int8Property"
  | .int _ => ty = "IntProperty"
  | .map _ => False
  | .name i v => ty = "NameProperty" ∧ i = 0 ∧ FStrOK v
  | .object v => ty = "ObjectProperty" ∧ StrOK v
  | .delegate v => ty = "DelegateProperty" ∧ DelegateOK v
  | .multicastInlineDelegate v => ty = "MulticastInlineDelegateProperty" ∧ MulticastOK v
  | .multicastSparseDelegate v => ty = "MulticastSparseDelegateProperty" ∧ MulticastOK v
  | .fieldPath v => ty = "FieldPathProperty" ∧ FieldPathOK v
  | .set _ _ _ => False
  | .str v => ty = "StrProperty" ∧ FStrOK v
  | .struct _ _ _ => False
  | .structValue v => ty = "StructProperty" ∧
      ∃ hint, env.hints (joinDots (st ++ ["StructProperty"])) = some hint ∧
        StructOK env (st ++ ["StructProperty"]) hint v
  | .text v => ty = "TextProperty" ∧ TextOK env.cv v
  | .uint16 _ => ty = "UInt16Property"
  | .uint32 _ => ty = "UInt32Property"
  | .uint64 _ => ty = "UInt64Property"
  | .unknown name _ => ty = name ∧ name ∉ knownTypes
/-- An array; `st` includes the array. -/
def ArrayOK (env : Env) (st : List String) : ArrayProperty → Prop
  | .bools v => v.length < 2 ^ 32
  | .bytes v => v.length < 2 ^ 32
  | .enums v => v.length < 2 ^ 32 ∧ ∀ s ∈ v, StrOK s
  | .floats v => v.length < 2 ^ 32
  | .ints v => v.length < 2 ^ 32
  | .names v => v.length < 2 ^ 32 ∧ ∀ s ∈ v, FStrOK s
  | .strings v => v.length < 2 ^ 32 ∧ ∀ s ∈ v, FStrOK s
  | .structs field ty _ v => StrOK field ∧ StrOK ty ∧ v.length < 2 ^ 32 ∧ StructsOK env st ty v
  | .properties ty ps => StrOK ty ∧ ty ≠ "StructProperty" ∧ ty ∉ compactArrayTypes ∧
      (ty = "ByteProperty" → ∃ p ∈ ps, isNamespaced p) ∧ ps.length < 2 ^ 32 ∧ Uniform ps ∧
      BaresOK env st ty ps
/-- A map; `st` includes the map. -/
def MapOK (env : Env) (st : List String) : MapProperty → Prop
  | .enumBool v => KeysOK v
  | .enumInt v => KeysOK v
  | .enumProperty vt v => StrOK vt ∧ vt ∉ ["BoolProperty", "IntProperty"] ∧ KeysOK v ∧
      ValuesOK env (st ++ ["Value"]) vt v
  | .nameBool v => KeysOK v
  | .nameInt v => KeysOK v
  | .nameProperty vt v => StrOK vt ∧ vt ∉ ["BoolProperty", "IntProperty"] ∧ KeysOK v ∧
      ValuesOK env (st ++ ["Value"]) vt v
  | .properties kt vt fl m => StrOK kt ∧ StrOK vt ∧ m.length < 2 ^ 32 ∧
      (m.map Prod.fst).Pairwise (fun a b => sameKey a b = false) ∧
      (fl = 0 → kt ≠ "EnumProperty") ∧
      (fl = 0 → kt ∈ ["NameProperty", "StrProperty"] → ∃ e ∈ m, isNullKey e.1) ∧
      EntriesOK env st kt vt m
  | .strBool v => KeysOK v
  | .strInt v => KeysOK v
  | .strProperty vt v => StrOK vt ∧ vt ∉ ["BoolProperty", "IntProperty", "StrProperty"] ∧
      KeysOK v ∧ ValuesOK env (st ++ ["Value"]) vt v
  | .strStr v => KeysOK v ∧ ∀ e ∈ v, FStrOK e.2
/-- A struct of type `ty` at the path `st`. -/
def StructOK (env : Env) (st : List String) (ty : String) : StructPropertyValue → Prop
  | .vector2F _ _ => ty = "Vector2D" ∧ lwc env.cv = false
  | .vector2D _ _ => ty = "Vector2D" ∧ lwc env.cv = true
  | .vectorF _ _ _ => ty = "Vector" ∧ lwc env.cv = false
  | .vectorD _ _ _ => ty = "Vector" ∧ lwc env.cv = true
  | .rotatorF _ _ _ => ty = "Rotator" ∧ lwc env.cv = false
  | .rotatorD _ _ _ => ty = "Rotator" ∧ lwc env.cv = true
  | .quatF _ _ _ _ => ty = "Quat" ∧ lwc env.cv = false
  | .quatD _ _ _ _ => ty = "Quat" ∧ lwc env.cv = true
  | .dateTime _ => ty = "DateTime"
  | .timespan _ => ty = "Timespan"
  | .guid _ => ty = "Guid"
  | .linearColor _ _ _ _ => ty = "LinearColor"
  | .intPoint _ _ => ty = "IntPoint"
  | .gameplayTagContainer tags => ty = "GameplayTagContainer" ∧ tags.length < 2 ^ 31 ∧
      ∀ s ∈ tags, StrOK s
  | .customStruct fs => ty ∉ builtinStructs ∧ (fs.map Prod.fst).Nodup ∧ FieldsOK env st fs
/-- Elements without headers. -/
def BaresOK (env : Env) (st : List String) (ty : String) : List Property → Prop
  | [] => True
  | p :: l => BareOK env st ty p ∧ BaresOK env st ty l
/-- The elements of a struct array. -/
def StructsOK (env : Env) (st : List String) (ty : String) : List StructPropertyValue → Prop
  | [] => True
  | v :: l => StructOK env st ty v ∧ StructsOK env st ty l
/-- The values of a string keyed map. -/
def ValuesOK (env : Env) (st : List String) (ty : String) : List (String × Property) → Prop
  | [] => True
  | (_, p) :: l => SizeFree p ∧ BareOK env st ty p ∧ ValuesOK env st ty l
/-- The entries of a map; `st` includes the map. -/
def EntriesOK (env : Env) (st : List String) (kt vt : String) :
    List (Property × Property) → Prop
  | [] => True
  | (k, p) :: l => SizeFree k ∧ BareOK env (st ++ ["Key"]) kt k ∧
      SizeFree p ∧ BareOK env (st ++ ["Value"]) vt p ∧ EntriesOK env st kt vt l
/-- The fields of a custom struct at the path `st`. -/
def FieldsOK (env : Env) (st : List String) : List (String × List Property) → Prop
  | [] => True
  | (k, ps) :: l => StrOK k ∧ k ≠ "None" ∧ ps ≠ [] ∧ ValsOK env (st ++ [k]) 0 ps ∧
      FieldsOK env st l
/-- The values of one field, from position `i` on.  With debug assertions, a value must carry its
position as array index. -/
def ValsOK (env : Env) (st : List String) (i : Nat) : List Property → Prop
  | [] => True
  | p :: l => (env.debug = true → storedIndex p = UInt32.ofNat i) ∧ HeadOK env st p ∧
      ValsOK env st (i + 1) l
end

/-- The type name a property is stored under. -/
def typeName : Property → String
  | .array _ => "ArrayProperty"
  | .bool _ => "BoolProperty"
  | .byte _ _ => "ByteProperty"
  | .double _ => "DoubleProperty"
  | .enum _ _ => "EnumProperty"
  | .float _ => "FloatProperty"
  | .int16 _ => "Int16Property"
  | .int64 _ => "Int64Property"
  | .int8 _ => "Int8Property"
  | .int _ => "IntProperty"
  | .map _ => "MapProperty"
  | .name _ _ => "NameProperty"
  | .object _ => "ObjectProperty"
  | .delegate _ => "DelegateProperty"
  | .multicastInlineDelegate _ => "MulticastInlineDelegateProperty"
  | .multicastSparseDelegate _ => "MulticastSparseDelegateProperty"
  | .fieldPath _ => "FieldPathProperty"
  | .set _ _ _ => "SetProperty"
  | .str _ => "StrProperty"
  | .struct _ _ _ => "StructProperty"
  | .structValue _ => "StructProperty"
  | .text _ => "TextProperty"
  | .uint16 _ => "UInt16Property"
  | .uint32 _ => "UInt32Property"
  | .uint64 _ => "UInt64Property"
  | .unknown name _ => name

end Gvas.Spec
