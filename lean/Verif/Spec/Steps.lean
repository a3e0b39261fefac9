import Verif.Spec.Requests

/-! # Elements that need not have any bytes -/

namespace Gvas.Spec

/-- How many elements of unknown type were announced by arrays and sets. -/
def unsized (l : List Request) : Nat := (l.map fun q => q.count - sizable q).sum

end Gvas.Spec
