import Verif.Model.Types

/-!
# Specification vocabulary: how deep values are nested
-/

namespace Gvas.Spec

mutual
/-- How deep texts are nested: a text and the texts inside it. -/
def textDepth : FText → Nat
  | .mk _ h => historyDepth h + 1
/-- The depth of the texts inside a history. -/
def historyDepth : FTextHistory → Nat
  | .namedFormat t args => max (textDepth t) (namedDepth args)
  | .orderedFormat t args => max (textDepth t) (argsDepth args)
  | .argumentFormat t args => max (textDepth t) (namedDepth args)
  | .asNumber v _ _ => argDepth v
  | .asPercent v _ _ => argDepth v
  | .asCurrency _ v _ _ => argDepth v
  | .transform t _ => textDepth t
  | _ => 0
/-- The depth of the text in an argument. -/
def argDepth : FormatArgumentValue → Nat
  | .text t => textDepth t
  | _ => 0
/-- The depth of the texts in arguments. -/
def argsDepth : List FormatArgumentValue → Nat
  | [] => 0
  | v :: l => max (argDepth v) (argsDepth l)
/-- The depth of the texts in named arguments. -/
def namedDepth : List (String × FormatArgumentValue) → Nat
  | [] => 0
  | (_, v) :: l => max (argDepth v) (namedDepth l)
end

mutual
/-- How deep properties, the structs in struct arrays and texts are nested. -/
def depth : Property → Nat
  | .array v => arrayDepth v + 1
  | .map v => mapDepth v + 1
  | .set _ _ ps => propsDepth ps + 1
  | .struct _ _ v => structDepth v + 1
  | .structValue v => structDepth v + 1
  | .text t => textDepth t + 1
  | _ => 1
/-- The depth of the elements of an array. -/
def arrayDepth : ArrayProperty → Nat
  | .structs _ _ _ v => structsDepth v
  | .properties _ v => propsDepth v
  | _ => 0
/-- The depth of the keys and values of a map. -/
def mapDepth : MapProperty → Nat
  | .enumProperty _ v => valuesDepth v
  | .nameProperty _ v => valuesDepth v
  | .properties _ _ _ v => entriesDepth v
  | .strProperty _ v => valuesDepth v
  | _ => 0
/-- The depth of the fields of a struct. -/
def structDepth : StructPropertyValue → Nat
  | .customStruct fs => fieldsDepth fs
  | _ => 0
/-- The depth of properties. -/
def propsDepth : List Property → Nat
  | [] => 0
  | p :: ps => max (depth p) (propsDepth ps)
/-- The depth of the elements of a struct array. -/
def structsDepth : List StructPropertyValue → Nat
  | [] => 0
  | v :: vs => max (structDepth v + 1) (structsDepth vs)
/-- The depth of map values. -/
def valuesDepth : List (String × Property) → Nat
  | [] => 0
  | (_, p) :: es => max (depth p) (valuesDepth es)
/-- The depth of map entries. -/
def entriesDepth : List (Property × Property) → Nat
  | [] => 0
  | (k, p) :: es => max (max (depth k) (depth p)) (entriesDepth es)
/-- The depth of struct fields. -/
def fieldsDepth : List (String × List Property) → Nat
  | [] => 0
  | (_, ps) :: fs => max (propsDepth ps) (fieldsDepth fs)
end

end Gvas.Spec
