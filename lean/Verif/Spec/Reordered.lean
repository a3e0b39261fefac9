import Verif.Model.Json

/-! # Specification vocabulary: JSON values that differ in the order of the entries of objects -/

namespace Gvas.Spec

mutual
/-- The same value, but the entries of every object, at any depth, may come in another order. -/
inductive Reordered : J → J → Prop
  | null : Reordered .null .null
  | bool (b : Bool) : Reordered (.bool b) (.bool b)
  | int (n : Int) : Reordered (.int n) (.int n)
  | float (f : F64) : Reordered (.float f) (.float f)
  | str (s : String) : Reordered (.str s) (.str s)
  | arr {l l' : List J} : ReorderedItems l l' → Reordered (.arr l) (.arr l')
  | obj {l m l' : List (String × J)} : ReorderedValues l m → m.Perm l' →
      Reordered (.obj l) (.obj l')
/-- Elements, one by one. -/
inductive ReorderedItems : List J → List J → Prop
  | nil : ReorderedItems [] []
  | cons {a b : J} {l l' : List J} : Reordered a b → ReorderedItems l l' →
      ReorderedItems (a :: l) (b :: l')
/-- The values of entries, one by one; the names are the same. -/
inductive ReorderedValues : List (String × J) → List (String × J) → Prop
  | nil : ReorderedValues [] []
  | cons {k : String} {a b : J} {l l' : List (String × J)} : Reordered a b →
      ReorderedValues l l' → ReorderedValues ((k, a) :: l) ((k, b) :: l')
end

/-- An entry put before the first one whose name is not smaller. -/
def insertEntry (e : String × J) : List (String × J) → List (String × J)
  | [] => [e]
  | a :: l => if e.1 ≤ a.1 then e :: a :: l else a :: insertEntry e l

mutual
/-- A value with the entries of all objects sorted by their names.  That is what a
`serde_json::Value` holds where serde_json is built without its feature `preserve_order`, which
the crate asks for only in its own tests (`Cargo.toml` 28-29). -/
def sorted : J → J
  | .arr l => .arr (sortedItems l)
  | .obj l => .obj (sortedEntries l)
  | j => j
/-- Elements. -/
def sortedItems : List J → List J
  | [] => []
  | j :: l => sorted j :: sortedItems l
/-- Entries. -/
def sortedEntries : List (String × J) → List (String × J)
  | [] => []
  | (k, j) :: l => insertEntry (k, sorted j) (sortedEntries l)
end

end Gvas.Spec
