import Verif.Props.Construct
import Verif.Props.Header
import Verif.Spec.Inside

/-!
# Specification vocabulary: the properties inside a property or a save
-/

namespace Gvas.Spec

/-- A custom struct with the property `q` among its fields. -/
def HasField (v : StructPropertyValue) (q : Property) : Prop :=
  ∃ fs k ps, v = .customStruct fs ∧ (k, ps) ∈ fs ∧ q ∈ ps

/-- The property `q` is a field of a struct right inside `p`. -/
inductive FieldOf : Property → Property → Prop
  | struct {g : Guid} {ty : String} {v : StructPropertyValue} {q : Property} : HasField v q →
      FieldOf (.struct g ty v) q
  | structs {f ty : String} {g : Guid} {vs : List StructPropertyValue} {v : StructPropertyValue}
      {q : Property} : v ∈ vs → HasField v q → FieldOf (.array (.structs f ty g vs)) q
  | set {ty : String} {fl : UInt32} {ps : List Property} {v : StructPropertyValue} {q : Property} :
      .structValue v ∈ ps → HasField v q → FieldOf (.set ty fl ps) q
  | mapKey {m : MapProperty} {x : Property} {v : StructPropertyValue} {q : Property} :
      (.structValue v, x) ∈ entries m → HasField v q → FieldOf (.map m) q
  | mapValue {m : MapProperty} {k : Property} {v : StructPropertyValue} {q : Property} :
      (k, .structValue v) ∈ entries m → HasField v q → FieldOf (.map m) q

/-- The property `q`, stored with a header, is `p` or somewhere inside `p`, at any depth. -/
inductive Nested : Property → Property → Prop
  | self {p : Property} : Nested p p
  | field {p r q : Property} : FieldOf p r → Nested r q → Nested p q

/-- The beginning of a save with the header `h` up to the header of a property in it, at any
depth: the header, complete properties, a name, a type name and the beginning of that property. -/
def InSave (debug : Bool) (hints : String → Option String) (h : GvasHeader) (front : Bytes)
    (st : List String) (ty : String) : Prop :=
  ∃ hb b n t c es name top, front = hb ++ (b ++ n ++ t ++ c) ∧
    (∀ rest, HeaderAt (hb ++ rest) h rest) ∧
    Format.Seq (Format.Entry ⟨debug, hints, h.customVersions⟩ []) b es ∧
    Format.Str n (some name) ∧ name ≠ "None" ∧ Format.Str t (some top) ∧
    Format.Inside ⟨debug, hints, h.customVersions⟩ [name] top c st ty

end Gvas.Spec
