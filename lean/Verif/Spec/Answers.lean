import Verif.Spec.Grammar
import Verif.Spec.Strip

/-!
# Specification vocabulary: what the custom versions decide
-/

namespace Gvas

open Spec Format

/-- Two tables of custom versions give the same answers to the three questions on which the layout
of properties depends: are culture invariant strings stored, are integer arguments of texts wide, are
coordinates wide. -/
def Spec.SameAnswers (cv cv' : List (Guid × UInt32)) : Prop :=
  (InvariantText cv ↔ InvariantText cv') ∧ (WideArguments cv ↔ WideArguments cv') ∧
    (LargeWorld cv ↔ LargeWorld cv')

/-- A value is saved under custom versions without error and without loss: they know culture invariant
strings, or it has none. -/
def Spec.Keeps (cv : List (Guid × UInt32)) (b : Bool) (q : Property) : Prop :=
  (∃ o, Property.write cv b q = .ok o) ∧ (InvariantText cv ∨ mapTexts stripText q = q)

end Gvas
