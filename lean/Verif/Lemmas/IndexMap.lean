import Verif.Model.IndexMap

/-! # Insertion into index maps -/

namespace Gvas

variable {κ ν : Type}

theorem imInsert_fresh {same : κ → κ → Bool} {k : κ} {v : ν} {m : List (κ × ν)}
    (h : ∀ e ∈ m, same e.1 k = false) : imInsert same k v m = m ++ [(k, v)] := by
  induction m with
  | nil => rfl
  | cons e m ih =>
    obtain ⟨k', v'⟩ := e
    have h1 : same k' k = false := h (k', v') (by simp)
    simp only [imInsert, h1, List.cons_append]
    rw [ih fun e he => h e (by simp [he])]
    rfl

/-- Inserting entries with fresh, pairwise different keys appends them. -/
theorem imExtend_fresh {same : κ → κ → Bool} (m es : List (κ × ν))
    (h : ((m ++ es).map Prod.fst).Pairwise (fun a b => same a b = false)) :
    imExtend same m es = m ++ es := by
  induction es generalizing m with
  | nil => simp [imExtend]
  | cons e es ih =>
    have h1 : ∀ x ∈ m, same x.1 e.1 = false := by
      intro x hx
      rw [List.map_append, List.pairwise_append] at h
      exact h.2.2 x.1 (List.mem_map_of_mem hx) e.1 (by simp)
    show imExtend same (imInsert same e.1 e.2 m) es = _
    rw [imInsert_fresh h1, ih]
    · simp
    · simpa using h

theorem imExtend_nil_fresh {same : κ → κ → Bool} (es : List (κ × ν))
    (h : (es.map Prod.fst).Pairwise (fun a b => same a b = false)) :
    imExtend same [] es = es := by
  simpa using imExtend_fresh [] es (by simpa using h)

theorem imInsert_keys {same : κ → κ → Bool} (k : κ) (v : ν) (m : List (κ × ν)) :
    (imInsert same k v m).map Prod.fst =
      if m.any (fun e => same e.1 k) then m.map Prod.fst else m.map Prod.fst ++ [k] := by
  induction m with
  | nil => rfl
  | cons e m ih =>
    obtain ⟨k', v'⟩ := e
    by_cases h : same k' k = true
    · simp [imInsert, h]
    · simp only [imInsert, h, List.map_cons, List.any_cons]
      rw [if_neg (by simp), List.map_cons, ih]
      simp only [Bool.false_or]
      split <;> simp

theorem imInsert_mem {same : κ → κ → Bool} {k : κ} {v : ν} {m : List (κ × ν)} {e : κ × ν}
    (h : e ∈ imInsert same k v m) : e ∈ m ∨ (e.2 = v ∧ (e.1 = k ∨ same e.1 k = true)) := by
  induction m with
  | nil => simp [imInsert] at h; exact .inr (by simp [h])
  | cons x m ih =>
    obtain ⟨k', v'⟩ := x
    simp only [imInsert] at h
    split at h
    · rename_i hs
      rcases List.mem_cons.mp h with rfl | h
      · exact .inr ⟨rfl, .inr hs⟩
      · exact .inl (by simp [h])
    · rcases List.mem_cons.mp h with rfl | h
      · exact .inl (by simp)
      · rcases ih h with h | h
        · exact .inl (by simp [h])
        · exact .inr h

end Gvas
