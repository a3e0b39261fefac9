import Verif.Model.Types
import Verif.Spec.Norm

/-!
# Specification vocabulary: the order of map entries

Equality of files ignores the order of the entries of maps.  `keysOf p` lists the keys of all maps
in `p`, in order and at any depth, and nothing else.
-/

namespace Gvas.Spec

/-- The keys of a map in order, and those of the maps inside. -/
inductive Keys where
  | mk (keys : List (String ⊕ Property)) (inner : List Keys)

/-- String keys in order. -/
def strKeys {α : Type} (m : List (String × α)) : List (String ⊕ Property) := m.map fun e => .inl e.1

/-- Keys that are properties, in order; `==` on keys does not tell zeros and NaNs apart. -/
def propKeys {α : Type} (m : List (Property × α)) : List (String ⊕ Property) :=
  m.map fun e => .inr (norm e.1)

/-- Nothing with keys. -/
def noKeys : Keys := .mk [] []

mutual
/-- The keys in a text. -/
def textKeys : FText → Keys
  | .mk _ h => historyKeys h
/-- The keys in a history. -/
def historyKeys : FTextHistory → Keys
  | .namedFormat src args => .mk (strKeys args) (textKeys src :: namedArgsKeys args)
  | .orderedFormat src args => .mk [] (textKeys src :: argsKeys args)
  | .argumentFormat src args => .mk (strKeys args) (textKeys src :: namedArgsKeys args)
  | .asNumber v _ _ => argKeys v
  | .asPercent v _ _ => argKeys v
  | .asCurrency _ v _ _ => argKeys v
  | .transform src _ => textKeys src
  | _ => noKeys
/-- The keys in an argument. -/
def argKeys : FormatArgumentValue → Keys
  | .text t => textKeys t
  | _ => noKeys
/-- The keys in arguments. -/
def argsKeys : List FormatArgumentValue → List Keys
  | [] => []
  | v :: l => argKeys v :: argsKeys l
/-- The keys in the values of named arguments. -/
def namedArgsKeys : List (String × FormatArgumentValue) → List Keys
  | [] => []
  | (_, v) :: l => argKeys v :: namedArgsKeys l
end

mutual
/-- The keys in a property. -/
def keysOf : Property → Keys
  | .array v => arrayKeys v
  | .map v => mapKeys v
  | .set _ _ ps => .mk [] (propsKeys ps)
  | .struct _ _ v => structKeys v
  | .structValue v => structKeys v
  | .text t => textKeys t
  | _ => noKeys
/-- The keys in an array. -/
def arrayKeys : ArrayProperty → Keys
  | .structs _ _ _ v => .mk [] (structsKeys v)
  | .properties _ ps => .mk [] (propsKeys ps)
  | _ => noKeys
/-- The keys in a map property. -/
def mapKeys : MapProperty → Keys
  | .enumBool v => .mk (strKeys v) []
  | .enumInt v => .mk (strKeys v) []
  | .enumProperty _ v => .mk (strKeys v) (valuesKeys v)
  | .nameBool v => .mk (strKeys v) []
  | .nameInt v => .mk (strKeys v) []
  | .nameProperty _ v => .mk (strKeys v) (valuesKeys v)
  | .properties _ _ _ m => .mk (propKeys m) (entriesKeys m)
  | .strBool v => .mk (strKeys v) []
  | .strInt v => .mk (strKeys v) []
  | .strProperty _ v => .mk (strKeys v) (valuesKeys v)
  | .strStr v => .mk (strKeys v) []
/-- The keys in a struct: its fields are a map. -/
def structKeys : StructPropertyValue → Keys
  | .customStruct fs => .mk (strKeys fs) (fieldsKeys fs)
  | _ => noKeys
/-- The keys in properties. -/
def propsKeys : List Property → List Keys
  | [] => []
  | p :: l => keysOf p :: propsKeys l
/-- The keys in structs. -/
def structsKeys : List StructPropertyValue → List Keys
  | [] => []
  | v :: l => structKeys v :: structsKeys l
/-- The keys in the values of a string keyed map. -/
def valuesKeys : List (String × Property) → List Keys
  | [] => []
  | (_, p) :: l => keysOf p :: valuesKeys l
/-- The keys in the values of a map. -/
def entriesKeys : List (Property × Property) → List Keys
  | [] => []
  | (_, p) :: l => keysOf p :: entriesKeys l
/-- The keys in the values of struct fields. -/
def fieldsKeys : List (String × List Property) → List Keys
  | [] => []
  | (_, ps) :: l => .mk [] (propsKeys ps) :: fieldsKeys l
end

end Gvas.Spec
