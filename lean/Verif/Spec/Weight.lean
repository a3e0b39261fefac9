import Verif.Model.Types

/-!
# Specification vocabulary: how many properties there are
-/

namespace Gvas.Spec

mutual
/-- The weight of a property and all properties inside it, if each weighs `l`, except that an
unknown property weighs `u raw`. -/
def weigh (l : Nat) (u : Bytes → Nat) : Property → Nat
  | .array v => l + weighArray l u v
  | .map v => l + weighMap l u v
  | .set _ _ ps => l + weighProps l u ps
  | .struct _ _ v => l + weighStruct l u v
  | .structValue v => l + weighStruct l u v
  | .unknown _ raw => u raw
  | _ => l
/-- The weight of the elements of an array. -/
def weighArray (l : Nat) (u : Bytes → Nat) : ArrayProperty → Nat
  | .bools v => l * v.length
  | .bytes v => l * v.length
  | .enums v => l * v.length
  | .floats v => l * v.length
  | .ints v => l * v.length
  | .names v => l * v.length
  | .strings v => l * v.length
  | .structs _ _ _ v => weighStructs l u v
  | .properties _ v => weighProps l u v
/-- The weight of the keys and values of a map. -/
def weighMap (l : Nat) (u : Bytes → Nat) : MapProperty → Nat
  | .enumBool v => 2 * l * v.length
  | .enumInt v => 2 * l * v.length
  | .enumProperty _ v => weighValues l u v
  | .nameBool v => 2 * l * v.length
  | .nameInt v => 2 * l * v.length
  | .nameProperty _ v => weighValues l u v
  | .properties _ _ _ v => weighEntries l u v
  | .strBool v => 2 * l * v.length
  | .strInt v => 2 * l * v.length
  | .strProperty _ v => weighValues l u v
  | .strStr v => 2 * l * v.length
/-- The weight of the properties inside a struct. -/
def weighStruct (l : Nat) (u : Bytes → Nat) : StructPropertyValue → Nat
  | .customStruct fs => weighFields l u fs
  | _ => 0
/-- The weight of properties. -/
def weighProps (l : Nat) (u : Bytes → Nat) : List Property → Nat
  | [] => 0
  | p :: ps => weigh l u p + weighProps l u ps
/-- The weight of structs. -/
def weighStructs (l : Nat) (u : Bytes → Nat) : List StructPropertyValue → Nat
  | [] => 0
  | v :: vs => l + weighStruct l u v + weighStructs l u vs
/-- The weight of map entries whose keys are strings. -/
def weighValues (l : Nat) (u : Bytes → Nat) : List (String × Property) → Nat
  | [] => 0
  | (_, p) :: es => l + weigh l u p + weighValues l u es
/-- The weight of map entries. -/
def weighEntries (l : Nat) (u : Bytes → Nat) : List (Property × Property) → Nat
  | [] => 0
  | (k, p) :: es => weigh l u k + weigh l u p + weighEntries l u es
/-- The weight of struct fields. -/
def weighFields (l : Nat) (u : Bytes → Nat) : List (String × List Property) → Nat
  | [] => 0
  | (_, ps) :: fs => weighProps l u ps + weighFields l u fs
end

/-- How many properties there are: itself, elements, keys, values and fields. -/
def propertyCount (p : Property) : Nat := weigh 1 (fun _ => 1) p

/-- How many properties there are, without unknown ones that hold no bytes. -/
def nonemptyCount (p : Property) : Nat := weigh 1 (fun raw => if raw = [] then 0 else 1) p

end Gvas.Spec
