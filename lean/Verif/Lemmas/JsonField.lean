import Verif.Model.Json

/-! # Fields of a `serde_json::Value` -/

namespace Gvas

variable {α : Type}

theorem field_eq (es : List (String × J)) (k : String) (d : J → Option α) :
    field es k d = (es.lookup k).bind d := by
  exact Option.bind_some _ _

theorem optField_eq (es : List (String × J)) (k : String) (d : J → Option α) :
    optField es k d = match es.lookup k with
      | none => some none
      | some j => j.getOpt d := by
  exact Option.bind_some _ _

theorem defaultField_eq (es : List (String × J)) (k : String) (a : α) (d : J → Option α) :
    defaultField es k a d = match es.lookup k with
      | none => some a
      | some j => d j := by
  exact Option.bind_some _ _

theorem getTagged_obj (key : String) (tagOf : J → Option String)
    (names : String → Option (List String)) (es : List (String × J)) :
    (J.obj es).getTagged key tagOf names =
      (es.lookup key).bind fun t => (tagOf t).map (·, es) := by
  exact Option.bind_some _ _

/-- What is found is there. -/
class FieldIn [FieldJ] : Prop where
  mem : ∀ {es : List (String × J)} {k : String} {j : J},
    FieldJ.get es k = some (some j) → (k, j) ∈ es

theorem mem_of_lookup {es : List (String × J)} {k : String} {j : J} (h : es.lookup k = some j) :
    (k, j) ∈ es := by
  induction es with
  | nil => cases h
  | cons e es ih =>
    obtain ⟨k', j'⟩ := e
    simp only [List.lookup_cons] at h
    split at h
    · rename_i hk
      rw [beq_iff_eq] at hk
      cases h; simp [hk]
    · simp [ih h]

instance : FieldIn := ⟨fun h => mem_of_lookup (Option.some.inj h)⟩

end Gvas
