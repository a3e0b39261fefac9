/-!
# Specification vocabulary: lists that agree item by item
-/

namespace Gvas.Spec

/-- Two lists of the same length whose items are related one by one. -/
inductive Pairs {α β : Type} (r : α → β → Prop) : List α → List β → Prop
  | nil : Pairs r [] []
  | cons {a : α} {b : β} {as : List α} {bs : List β} :
      r a b → Pairs r as bs → Pairs r (a :: as) (b :: bs)

end Gvas.Spec
