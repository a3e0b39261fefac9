import Verif.Model.Json
import Verif.Spec.Json

/-!
# Specification vocabulary: places in JSON
-/

namespace Gvas.Spec

/-- A step into a JSON value: to the entry of an object or to the element of an array.  A list of
steps is what RFC 6901 calls a JSON pointer. -/
inductive Step where
  | field (name : String)
  | index (n : Nat)

/-- What a pointer points to. -/
def follow : List Step → J → Option J
  | [], j => some j
  | .field k :: w, .obj l => (l.lookup k).bind (follow w)
  | .index n :: w, .arr l => l[n]?.bind (follow w)
  | _, _ => none

/-- The value with `new` in the place that a pointer points to, and all else as it was. -/
def replace (new : J) : List Step → J → J
  | [], _ => new
  | .field k :: w, .obj l => .obj (l.map fun e => if e.1 = k then (k, replace new w e.2) else e)
  | .index n :: w, .arr l => .arr (l.modify n (replace new w))
  | _, j => j

/-- The field that holds the value of a number, a switch or a string, and the JSON of the value. -/
def valueField : Property → Option (String × J)
  | .bool v => some ("value", .bool v)
  | .byte _ (.byte v) => some ("Byte", .int v.toNat)
  | .byte _ (.namespaced v) => some ("Namespaced", .str v)
  | .int8 v => some ("value", .int v.toInt)
  | .int16 v => some ("value", .int v.toInt)
  | .int v => some ("value", .int v.toInt)
  | .int64 v => some ("value", .int v.toInt)
  | .uint16 v => some ("value", .int v.toNat)
  | .uint32 v => some ("value", .int v.toNat)
  | .uint64 v => some ("value", .int v.toNat)
  | .float v => some ("value", if finite32 v then .float v.toF64 else .null)
  | .double v => some ("value", if finite64 v then .float v else .null)
  | .enum _ v => some ("value", .str v)
  | .name _ (some v) => some ("value", .str v)
  | .str (some v) => some ("value", .str v)
  | .object v => some ("value", .str v)
  | _ => none

end Gvas.Spec
