import Verif.Model.File
import Verif.Model.Key

/-!
# Specification vocabulary: files without infinities and NaNs, and maps without repeated keys
-/

namespace Gvas.Spec

/-- A 32 bit float that is a number: the exponent bits are not all ones. -/
def finite32 (f : F32) : Bool := f.bits.toNat / 2 ^ 23 % 2 ^ 8 != 255

/-- A 64 bit float that is a number: the exponent bits are not all ones. -/
def finite64 (f : F64) : Bool := f.bits.toNat / 2 ^ 52 % 2 ^ 11 != 2047

mutual
/-- All floats in a text are finite. -/
def textFinite : FText → Bool
  | .mk _ h => historyFinite h
/-- All floats in a history are finite. -/
def historyFinite : FTextHistory → Bool
  | .namedFormat src args => textFinite src && namedArgsFinite args
  | .orderedFormat src args => textFinite src && argsFinite args
  | .argumentFormat src args => textFinite src && namedArgsFinite args
  | .asNumber v _ _ => argFinite v
  | .asPercent v _ _ => argFinite v
  | .asCurrency _ v _ _ => argFinite v
  | .transform src _ => textFinite src
  | _ => true
/-- All floats in an argument are finite. -/
def argFinite : FormatArgumentValue → Bool
  | .float f => finite32 f
  | .double f => finite64 f
  | .text t => textFinite t
  | _ => true
/-- All floats in arguments are finite. -/
def argsFinite : List FormatArgumentValue → Bool
  | [] => true
  | v :: l => argFinite v && argsFinite l
/-- All floats in named arguments are finite. -/
def namedArgsFinite : List (String × FormatArgumentValue) → Bool
  | [] => true
  | (_, v) :: l => argFinite v && namedArgsFinite l
end

mutual
/-- All floats in a property are finite. -/
def allFinite : Property → Bool
  | .array v => arrayFinite v
  | .map v => mapFinite v
  | .set _ _ ps => propsFinite ps
  | .struct _ _ v => structFinite v
  | .structValue v => structFinite v
  | .text t => textFinite t
  | .float f => finite32 f
  | .double f => finite64 f
  | _ => true
/-- All floats in an array are finite. -/
def arrayFinite : ArrayProperty → Bool
  | .floats v => v.all finite32
  | .structs _ _ _ v => structsFinite v
  | .properties _ ps => propsFinite ps
  | _ => true
/-- All floats in a map are finite. -/
def mapFinite : MapProperty → Bool
  | .enumProperty _ v => valuesFinite v
  | .nameProperty _ v => valuesFinite v
  | .strProperty _ v => valuesFinite v
  | .properties _ _ _ m => entriesFinite m
  | _ => true
/-- All floats in a struct are finite. -/
def structFinite : StructPropertyValue → Bool
  | .vector2F x y => finite32 x && finite32 y
  | .vector2D x y => finite64 x && finite64 y
  | .vectorF x y z => finite32 x && finite32 y && finite32 z
  | .vectorD x y z => finite64 x && finite64 y && finite64 z
  | .rotatorF x y z => finite32 x && finite32 y && finite32 z
  | .rotatorD x y z => finite64 x && finite64 y && finite64 z
  | .quatF x y z w => finite32 x && finite32 y && finite32 z && finite32 w
  | .quatD x y z w => finite64 x && finite64 y && finite64 z && finite64 w
  | .linearColor r g b a => finite32 r && finite32 g && finite32 b && finite32 a
  | .customStruct fs => fieldsFinite fs
  | _ => true
/-- All floats in properties are finite. -/
def propsFinite : List Property → Bool
  | [] => true
  | p :: l => allFinite p && propsFinite l
/-- All floats in structs are finite. -/
def structsFinite : List StructPropertyValue → Bool
  | [] => true
  | v :: l => structFinite v && structsFinite l
/-- All floats in the values of a string keyed map are finite. -/
def valuesFinite : List (String × Property) → Bool
  | [] => true
  | (_, p) :: l => allFinite p && valuesFinite l
/-- All floats in map entries are finite. -/
def entriesFinite : List (Property × Property) → Bool
  | [] => true
  | (k, p) :: l => allFinite k && allFinite p && entriesFinite l
/-- All floats in struct fields are finite. -/
def fieldsFinite : List (String × List Property) → Bool
  | [] => true
  | (_, ps) :: l => propsFinite ps && fieldsFinite l
end

/-- All floats in a file are finite. -/
def fileFinite (f : GvasFile) : Bool := f.properties.all fun e => allFinite e.2

/-- String keys are distinct, as in every `IndexMap`. -/
def KeysDistinct {α : Type} (m : List (String × α)) : Prop := (m.map Prod.fst).Nodup

mutual
/-- The maps in a text have distinct keys. -/
def TextMaps : FText → Prop
  | .mk _ h => HistoryMaps h
/-- The maps in a history have distinct keys. -/
def HistoryMaps : FTextHistory → Prop
  | .namedFormat src args => TextMaps src ∧ KeysDistinct args ∧ NamedArgsMaps args
  | .orderedFormat src args => TextMaps src ∧ ArgsMaps args
  | .argumentFormat src args => TextMaps src ∧ KeysDistinct args ∧ NamedArgsMaps args
  | .asNumber v _ _ => ArgMaps v
  | .asPercent v _ _ => ArgMaps v
  | .asCurrency _ v _ _ => ArgMaps v
  | .transform src _ => TextMaps src
  | _ => True
/-- The maps in an argument have distinct keys. -/
def ArgMaps : FormatArgumentValue → Prop
  | .text t => TextMaps t
  | _ => True
/-- The maps in arguments have distinct keys. -/
def ArgsMaps : List FormatArgumentValue → Prop
  | [] => True
  | v :: l => ArgMaps v ∧ ArgsMaps l
/-- The maps in named arguments have distinct keys. -/
def NamedArgsMaps : List (String × FormatArgumentValue) → Prop
  | [] => True
  | (_, v) :: l => ArgMaps v ∧ NamedArgsMaps l
end

mutual
/-- All maps in a property have distinct keys.  Every value of the Rust types does, as its maps
are `IndexMap`s. -/
def MapsDistinct : Property → Prop
  | .array v => ArrayMaps v
  | .map v => MapMaps v
  | .set _ _ ps => PropsMaps ps
  | .struct _ _ v => StructMaps v
  | .structValue v => StructMaps v
  | .text t => TextMaps t
  | _ => True
/-- All maps in an array have distinct keys. -/
def ArrayMaps : ArrayProperty → Prop
  | .structs _ _ _ v => StructsMaps v
  | .properties _ ps => PropsMaps ps
  | _ => True
/-- A map and all maps in it have distinct keys. -/
def MapMaps : MapProperty → Prop
  | .enumBool v => KeysDistinct v
  | .enumInt v => KeysDistinct v
  | .enumProperty _ v => KeysDistinct v ∧ ValuesMaps v
  | .nameBool v => KeysDistinct v
  | .nameInt v => KeysDistinct v
  | .nameProperty _ v => KeysDistinct v ∧ ValuesMaps v
  | .properties _ _ _ m =>
    (m.map Prod.fst).Pairwise (fun a b => sameKey a b = false) ∧ EntriesMaps m
  | .strBool v => KeysDistinct v
  | .strInt v => KeysDistinct v
  | .strProperty _ v => KeysDistinct v ∧ ValuesMaps v
  | .strStr v => KeysDistinct v
/-- All maps in a struct have distinct keys. -/
def StructMaps : StructPropertyValue → Prop
  | .customStruct fs => KeysDistinct fs ∧ FieldsMaps fs
  | _ => True
/-- All maps in properties have distinct keys. -/
def PropsMaps : List Property → Prop
  | [] => True
  | p :: l => MapsDistinct p ∧ PropsMaps l
/-- All maps in structs have distinct keys. -/
def StructsMaps : List StructPropertyValue → Prop
  | [] => True
  | v :: l => StructMaps v ∧ StructsMaps l
/-- All maps in the values of a string keyed map have distinct keys. -/
def ValuesMaps : List (String × Property) → Prop
  | [] => True
  | (_, p) :: l => MapsDistinct p ∧ ValuesMaps l
/-- All maps in map entries have distinct keys. -/
def EntriesMaps : List (Property × Property) → Prop
  | [] => True
  | (k, p) :: l => MapsDistinct k ∧ MapsDistinct p ∧ EntriesMaps l
/-- All maps in struct fields have distinct keys. -/
def FieldsMaps : List (String × List Property) → Prop
  | [] => True
  | (_, ps) :: l => PropsMaps ps ∧ FieldsMaps l
end

/-- All maps in a file have distinct keys: its custom versions, its properties and the maps in
them. -/
def FileMaps (f : GvasFile) : Prop :=
  (f.header.customVersions.map Prod.fst).Nodup ∧ KeysDistinct f.properties ∧
    ∀ e ∈ f.properties, MapsDistinct e.2

end Gvas.Spec
