import Verif.Model.File
import Verif.Spec.LastWins

/-!
# Specification vocabulary: what a stream holds, item by item

These relations say which items a reader finds one after the other, without any of
the maps the library collects them in.
-/

namespace Gvas.Spec

/-- From state `s` on, `m` yields the items `as` in turn and ends in state `s'`. -/
inductive Items {α : Type} (m : R α) : RS → List α → RS → Prop
  | nil (s : RS) : Items m s [] s
  | cons {s s1 s' : RS} {a : α} {as : List α} :
      m s = (.ok a, s1) → Items m s1 as s' → Items m s (a :: as) s'

/-- From state `s` on there are named properties - a name, a type name, the property, read by
`rec` with the name on the path stack - up to the name `None`. -/
inductive Named (rec : String → Bool → Option UInt32 → R Property) :
    RS → List (String × Property) → RS → Prop
  | done {s s' : RS} : readString s = (.ok "None", s') → Named rec s [] s'
  | entry {s s1 s2 s3 s' : RS} {name ty : String} {p : Property} {es : List (String × Property)} :
      readString s = (.ok name, s1) → name ≠ "None" → readString s1 = (.ok ty, s2) →
      R.withEntry name (rec ty true none) s2 = (.ok p, s3) → Named rec s3 es s' →
      Named rec s ((name, p) :: es) s'

/-- The fields `fs` of a struct are the entries `es`, grouped by name: names in order of first
occurrence, and for each name all its values in order. -/
structure Grouped (es : List (String × Property)) (fs : List (String × List Property)) : Prop where
  keys : fs.map Prod.fst = firsts (· == ·) (es.map Prod.fst)
  values : ∀ k ps, (k, ps) ∈ fs → ps = (es.filter (·.1 == k)).map Prod.snd

/-- The array index a property records: that of a name, otherwise 0. -/
def recordedIndex : Property → UInt32
  | .name idx _ => idx
  | _ => 0

/-- The values of every name record the array indices 0, 1, 2, ... -/
def IndicesMatch (es : List (String × Property)) : Prop :=
  ∀ pre k p post, es = pre ++ (k, p) :: post →
    recordedIndex p = UInt32.ofNat (pre.filter (·.1 == k)).length

end Gvas.Spec
