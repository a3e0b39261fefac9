import Verif.Model.Json

/-! # Specification vocabulary: where GUID texts stand in JSON -/

namespace Gvas.Spec

/-- The value of the field `k` holds a property or struct: as an element of a set, an array or an
array of structs, in a pair of a key and a value, as the value of a string key, or in a field of a
custom struct. -/
inductive Holds (k : String) : J → J → Prop
  | element {l j} : k = "properties" ∨ k = "structs" → j ∈ l → Holds k (.arr l) j
  | pair {l q j} : k = "value" → J.arr q ∈ l → j ∈ q → Holds k (.arr l) j
  | value {vs n j} : k = "enum_props" ∨ k = "name_props" ∨ k = "str_props" → (n, j) ∈ vs →
      Holds k (.obj vs) j
  | custom {vs n q j} : k = "CustomStruct" → (n, J.arr q) ∈ vs → j ∈ q → Holds k (.obj vs) j

/-- The text stands, at any depth, for a GUID in a property or struct: the GUID of a struct or of an
array of structs (`guid`), or a struct that is a GUID (`Guid`).  Sets can also be arrays with their
fields in order. -/
inductive GuidEntry : J → String → Prop
  | here {es k s} : k = "guid" ∨ k = "Guid" → (k, J.str s) ∈ es → GuidEntry (.obj es) s
  | field {es k v j s} : (k, v) ∈ es → Holds k v j → GuidEntry j s → GuidEntry (.obj es) s
  | sequence {l v j s} : v ∈ l → Holds "properties" v j → GuidEntry j s → GuidEntry (.arr l) s

/-- The text is a name in the custom versions of a header, which is an object, or an array with the
fields in order. -/
def VersionName : J → String → Prop
  | .obj es, s => ∃ vs v, ("custom_versions", J.obj vs) ∈ es ∧ (s, v) ∈ vs
  | .arr l, s => ∃ vs v, J.obj vs ∈ l ∧ (s, v) ∈ vs
  | _, _ => False

/-- The text stands for a GUID in the properties of a file. -/
def GuidValue : J → String → Prop
  | .obj vs, s => ∃ n j, (n, j) ∈ vs ∧ GuidEntry j s
  | _, _ => False

/-- The text stands for a GUID in a document that is a file: anywhere in its properties, or in the
custom versions of its header. -/
def GuidText : J → String → Prop
  | .obj es, s => (∃ h, ("header", h) ∈ es ∧ VersionName h s) ∨
      (∃ ps, ("properties", ps) ∈ es ∧ GuidValue ps s)
  | .arr l, s => ∃ j ∈ l, VersionName j s ∨ GuidValue j s
  | _, _ => False

end Gvas.Spec
