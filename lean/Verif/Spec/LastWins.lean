/-!
# Specification vocabulary: collapsing repeated keys
-/

namespace Gvas.Spec

/-- The first occurrence of every key, in order. -/
def firsts {κ : Type} (same : κ → κ → Bool) : List κ → List κ
  | [] => []
  | k :: l => k :: (firsts same l).filter fun k' => !same k k'

/-- `m` is the sequence of entries `es` with repeated keys collapsed: every key once, at the
position and in the form of its first occurrence, with the value of its last occurrence. -/
structure LastWins {κ ν : Type} (same : κ → κ → Bool) (es m : List (κ × ν)) : Prop where
  keys : m.map Prod.fst = firsts same (es.map Prod.fst)
  last : ∀ k v, (k, v) ∈ m → ∃ pre k' post, es = pre ++ (k', v) :: post ∧ same k' k = true ∧
    ∀ e ∈ post, same e.1 k = false

/-- `same` is an equivalence. -/
structure Equiv {κ : Type} (same : κ → κ → Bool) : Prop where
  refl : ∀ a, same a a = true
  symm : ∀ a b, same a b = true → same b a = true
  trans : ∀ a b c, same a b = true → same b c = true → same a c = true

end Gvas.Spec
