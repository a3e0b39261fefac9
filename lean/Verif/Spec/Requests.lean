import Verif.Model.Meter
import Verif.Spec.Wf

/-! # Measures of memory requests -/

namespace Gvas.Spec

/-- How many items room was asked for in all. -/
def asked (l : List Request) : Nat := (l.map Request.count).sum

/-- The items of a request, without the elements of arrays and sets of an unknown type, which may
take no bytes of the input (see C50). -/
def sizable (q : Request) : Nat :=
  match q.elem with
  | some ty => if ty ∈ knownTypes then q.count else 0
  | none => q.count

/-- `asked`, without elements of unknown type. -/
def askedSizable (l : List Request) : Nat := (l.map sizable).sum

end Gvas.Spec
