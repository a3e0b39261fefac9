import Verif.Model.Access
import Verif.Model.Construct
import Verif.Model.Display
import Verif.Model.Equality
import Verif.Model.Json

/-!
# The crate's own tests, run on the model

The files in this directory put the expectations of the crate's tests (`tests/`) and its sample
saves (`resources/test/`) to the model, to find places where the model is not the program.  They
are tests of the model: nothing in them is claimed for all inputs, and no property rests on them.
Values are translated from the Rust source of the tests by `conformance/checks.py`.
-/

namespace Gvas.Check

/-- A GUID by its bytes, the first one lowest. -/
def guid (n : Nat) : Guid := .fromU128 n

/-- `Guid::default()`. -/
def zeroGuid : Guid := .fromU128 0

/-- `ArrayProperty::new(..).expect(..)`. -/
def newArray (ty : String) (info : Option (String × String × Guid)) (ps : List Property) :
    Property :=
  match ArrayProperty.new ty info ps with
  | .ok a => .array a
  | .bad _ => .bool false

/-- `HashableIndexMap::from([..])`. -/
def imFrom {κ ν : Type} [BEq κ] (l : List (κ × ν)) : List (κ × ν) := imExtend (· == ·) [] l

/-- `MapProperty::new(.., HashableIndexMap::from([..]))`. -/
def newMap (kt vt : String) (flags : UInt32) (l : List (Property × Property)) : Property :=
  .map (.new kt vt flags (imExtend sameKey [] l))

/-- The bytes of a number, the first one highest. -/
def raw (len n : Nat) : Bytes :=
  (List.range len).map fun i => UInt8.ofNat (n >>> (8 * (len - 1 - i)))

mutual
/-- Equality of JSON; the tests have numbers with as many digits as their type needs, so floats
may agree as `f32`. -/
def same : J → J → Bool
  | .null, .null => true
  | .bool a, .bool b => a == b
  | .int a, .int b => a == b
  | .float a, .float b => a == b || a.toF32 == b.toF32
  | .str a, .str b => a == b
  | .arr a, .arr b => sameList a b
  | .obj a, .obj b => sameEntries a b
  | _, _ => false
/-- Equality of arrays. -/
def sameList : List J → List J → Bool
  | [], [] => true
  | a :: l, b :: m => same a b && sameList l m
  | _, _ => false
/-- Equality of objects, in order. -/
def sameEntries : List (String × J) → List (String × J) → Bool
  | [], [] => true
  | (k, a) :: l, (k', b) :: m => k == k' && same a b && sameEntries l m
  | _, _ => false
end

/-- `serde_json(value, json)` (`tests/serde_tests/serde_json_template.rs` 43-57). -/
def template (p : Property) (j : J) : Bool :=
  same p.toJ j && match Property.ofJson j.depth j with
    | some q => q.eqv p
    | none => false

/-- No hints and no custom versions. -/
def plainEnv (debug : Bool) : Env := { debug := debug, hints := fun _ => none, cv := [] }

/-- `test_property!` (`tests/gvas_tests/test_property.rs` 25-57). -/
def roundTrip (ty : String) (p : Property) : Bool :=
  match p.write [] true with
  | .ok o =>
    match readString (RS.init o.bytes) with
    | (.ok ty', s) =>
      ty == ty' && match Property.read (plainEnv true) 100 ty' true none s with
        | (.ok q, s') => q.eqv p && s'.rest.isEmpty
        | _ => false
    | _ => false
  | _ => false

/-- `test_gvas_file_` for a plain file (`tests/gvas.rs` 14-50); more is asked of what was read. -/
def saved (hints : List (String × String)) (data : Bytes) (more : GvasFile → Bool) : Bool :=
  match GvasFile.read ⟨fun _ => ([], false), fun _ => none, fun _ x => x⟩ true .default
      (fun k => hints.lookup k) 0 data with
  | .ok f => (match f.encode with | .ok d => d == data | _ => false) && more f
  | _ => false

/-- `file_with_hints` (`tests/serde_tests/serde_json_template.rs` 63-79). -/
def jsonOf (j : J) (f : GvasFile) : Bool :=
  same f.toJson j && match GvasFile.ofJson j with
    | some g => g.eqv f
    | none => false

/-- Reading fails with this message. -/
def failsWith {α : Type} (r : R α) (data : Bytes) (msg : String) : Bool :=
  match (r (RS.init data)).1 with
  | .bad (.err e) => e.display == some msg
  | _ => false

/-- Reading fails with this error. -/
def failsAs {α : Type} (r : R α) (data : Bytes) (e : Err) : Bool :=
  match (r (RS.init data)).1 with
  | .bad (.err e') => e == e'
  | _ => false

/-- Reading gives this value. -/
def reads {α : Type} [BEq α] (r : R α) (data : Bytes) (a : α) : Bool :=
  match (r (RS.init data)).1 with
  | .ok a' => a == a'
  | _ => false

end Gvas.Check
