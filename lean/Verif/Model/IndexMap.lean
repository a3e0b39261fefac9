import Verif.Model.Basic

/-!
# `IndexMap` / `HashableIndexMap` as an association list
-/

namespace Gvas

/-- `IndexMap::insert` (indexmap; `src/types.rs` 220-223 wraps it): an existing
equal key keeps its position and its stored key and gets the new value,
otherwise the entry is appended.  `same` is the key equality. -/
def imInsert {κ ν : Type} (same : κ → κ → Bool) (k : κ) (v : ν) : List (κ × ν) → List (κ × ν)
  | [] => [(k, v)]
  | (k', v') :: l => if same k' k then (k', v) :: l else (k', v') :: imInsert same k v l

/-- Inserting a sequence of entries, first to last (`FromIterator`, or the
`map.insert` loops of the readers). -/
def imExtend {κ ν : Type} (same : κ → κ → Bool) (m : List (κ × ν)) (es : List (κ × ν)) :
    List (κ × ν) :=
  es.foldl (fun m e => imInsert same e.1 e.2 m) m

/-- `PartialEq for HashableIndexMap` (`src/types.rs` 221, derived, i.e. indexmap's
`PartialEq`): as many entries, and every entry of one is in the other, in whatever
order. -/
def imEq {κ ν : Type} [BEq κ] [BEq ν] (m m' : List (κ × ν)) : Bool :=
  m.length == m'.length && m.all fun e => (m'.lookup e.1).any (· == e.2)

/-- What `Hash for HashableIndexMap` feeds the hasher (`src/types.rs` 246-257): keys
and values in iteration order; `fk` and `fv` are the feeds of a key and a value. -/
def imFeed {κ ν τ : Type} (fk : κ → List τ) (fv : ν → List τ) (m : List (κ × ν)) : List τ :=
  m.flatMap fun e => fk e.1 ++ fv e.2

end Gvas
