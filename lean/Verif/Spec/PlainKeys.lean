import Verif.Model.Types

/-!
# Values without maps inside, and values whose maps have such keys
-/

namespace Gvas.Spec

mutual
/-- No map in a text: no named arguments. -/
def TextMapless : FText → Prop
  | .mk _ h => HistoryMapless h
/-- No map in a history. -/
def HistoryMapless : FTextHistory → Prop
  | .namedFormat .. => False
  | .argumentFormat .. => False
  | .orderedFormat src args => TextMapless src ∧ ArgsMapless args
  | .asNumber v _ _ => ArgMapless v
  | .asPercent v _ _ => ArgMapless v
  | .asCurrency _ v _ _ => ArgMapless v
  | .transform src _ => TextMapless src
  | _ => True
/-- No map in an argument. -/
def ArgMapless : FormatArgumentValue → Prop
  | .text t => TextMapless t
  | _ => True
/-- No map in arguments. -/
def ArgsMapless : List FormatArgumentValue → Prop
  | [] => True
  | v :: l => ArgMapless v ∧ ArgsMapless l
end

/-- A struct without a map: not a custom one, whose fields are a map. -/
def StructMapless : StructPropertyValue → Prop
  | .customStruct _ => False
  | _ => True

mutual
/-- No map in a property. -/
def Mapless : Property → Prop
  | .array v => ArrayMapless v
  | .map _ => False
  | .set _ _ ps => PropsMapless ps
  | .struct _ _ v => StructMapless v
  | .structValue v => StructMapless v
  | .text t => TextMapless t
  | _ => True
/-- No map in an array. -/
def ArrayMapless : ArrayProperty → Prop
  | .structs _ _ _ v => ∀ x ∈ v, StructMapless x
  | .properties _ ps => PropsMapless ps
  | _ => True
/-- No map in properties. -/
def PropsMapless : List Property → Prop
  | [] => True
  | p :: l => Mapless p ∧ PropsMapless l
end

mutual
/-- The maps in a property, at whatever depth, have keys without maps inside, unless they have a
single entry. -/
def PlainKeys : Property → Prop
  | .array v => ArrayPlain v
  | .map v => MapPlain v
  | .set _ _ ps => PropsPlain ps
  | .struct _ _ v => StructPlain v
  | .structValue v => StructPlain v
  | _ => True
/-- The same for an array. -/
def ArrayPlain : ArrayProperty → Prop
  | .structs _ _ _ v => StructsPlain v
  | .properties _ ps => PropsPlain ps
  | _ => True
/-- The same for a map and the maps in it; the keys of most are strings. -/
def MapPlain : MapProperty → Prop
  | .enumProperty _ v => ValuesPlain v
  | .nameProperty _ v => ValuesPlain v
  | .properties _ _ _ m => (m.length = 1 ∨ ∀ e ∈ m, Mapless e.1) ∧ EntriesPlain m
  | .strProperty _ v => ValuesPlain v
  | _ => True
/-- The same for a struct. -/
def StructPlain : StructPropertyValue → Prop
  | .customStruct fs => FieldsPlain fs
  | _ => True
/-- The same for properties. -/
def PropsPlain : List Property → Prop
  | [] => True
  | p :: l => PlainKeys p ∧ PropsPlain l
/-- The same for structs. -/
def StructsPlain : List StructPropertyValue → Prop
  | [] => True
  | v :: l => StructPlain v ∧ StructsPlain l
/-- The same for the values of a map with string keys. -/
def ValuesPlain : List (String × Property) → Prop
  | [] => True
  | (_, p) :: l => PlainKeys p ∧ ValuesPlain l
/-- The same for entries. -/
def EntriesPlain : List (Property × Property) → Prop
  | [] => True
  | (k, p) :: l => PlainKeys k ∧ PlainKeys p ∧ EntriesPlain l
/-- The same for fields. -/
def FieldsPlain : List (String × List Property) → Prop
  | [] => True
  | (_, ps) :: l => PropsPlain ps ∧ FieldsPlain l
end

end Gvas.Spec
