import Verif.Lemmas.Copy
import Verif.Lemmas.Stretch
import Verif.Spec.Merge

/-!
# Lists with elements from elsewhere: what is looked at
-/

namespace Gvas

open Spec

theorem stands_bare {env env' : Env} {x : Property} {st : List String}
    (hcv : env'.cv = env.cv) (hdb : env'.debug = env.debug) (hx : Stands env' false x)
    (hn : ∀ n ∈ needs st x, Suits env.hints n) : BareOK env st (typeName x) x := by
  have he : ({ env' with hints := env.hints } : Env) = env := by
    obtain ⟨d, h, c⟩ := env
    simp_all
  obtain ⟨st0, ty0, h0⟩ := hx.2 rfl
  rw [← bare_typeName h0, ← he]
  exact (bare_hints st0 st ty0 x h0).mpr hn

theorem stands_head {env env' : Env} {x : Property} {st : List String}
    (hcv : env'.cv = env.cv) (hdb : env'.debug = env.debug) (hx : Stands env' true x)
    (hn : ∀ n ∈ needs st x, Suits env.hints n) : HeadOK env st x := by
  have he : ({ env' with hints := env.hints } : Env) = env := by
    obtain ⟨d, h, c⟩ := env
    simp_all
  obtain ⟨st0, h0⟩ := hx.1 rfl
  rw [← he]
  exact (head_hints st0 st x h0).mpr hn

theorem fieldsNeeds_flat (st : List String) (l : List (String × List Property)) :
    fieldsNeeds st l = l.flatMap fun e => elemsNeeds (st ++ [e.1]) e.2 := by
  induction l with
  | nil => rfl
  | cons e l ih => obtain ⟨k, ps⟩ := e; simp [fieldsNeeds, ih]

theorem fieldsOK_all {env : Env} {st : List String} {l : List (String × List Property)} :
    FieldsOK env st l ↔ ∀ e ∈ l, StrOK e.1 ∧ e.1 ≠ "None" ∧ e.2 ≠ [] ∧
      ValsOK env (st ++ [e.1]) 0 e.2 := by
  induction l with
  | nil => simp [FieldsOK]
  | cons e l ih => obtain ⟨k, ps⟩ := e; simp [FieldsOK, ih, and_assoc]

theorem valsOK_of {env : Env} {st : List String} (l : List Property) (i : Nat)
    (h : ∀ j x, l[j]? = some x → HeadOK env st x ∧ storedIndex x = UInt32.ofNat (i + j)) :
    ValsOK env st i l := by
  induction l generalizing i with
  | nil => simp [ValsOK]
  | cons p l ih =>
    simp only [ValsOK]
    refine ⟨fun _ => (h 0 p rfl).2, (h 0 p rfl).1, ih _ fun j x hx => ?_⟩
    have := h (j + 1) x (by simpa using hx)
    rwa [Nat.add_assoc, Nat.add_comm 1 j]

section
variable {env : Env} {found : Bool → Property → Prop}
  (hfd : ∀ b x, found b x → ∃ env' : Env, env'.cv = env.cv ∧ env'.debug = env.debug ∧ Stands env' b x)
include hfd

theorem found_bare {x : Property} {st : List String} {ty : String} (hx : found false x)
    (hty : typeName x = ty) (hn : ∀ n ∈ needs st x, Suits env.hints n) : BareOK env st ty x := by
  obtain ⟨env', h1, h2, h3⟩ := hfd _ _ hx
  exact hty ▸ stands_bare h1 h2 h3 hn

theorem fieldsFrom_ok {fs gs : List (String × List Property)} {st : List String} {ty : String}
    (h : FieldsFrom found fs gs) (hf : StructOK env st ty (.customStruct fs))
    (hn : ∀ n ∈ fieldsNeeds st gs, Suits env.hints n) : StructOK env st ty (.customStruct gs) := by
  simp only [StructOK] at hf ⊢
  refine ⟨hf.1, h.1, fieldsOK_all.mpr fun e he => ?_⟩
  rcases h.2 e he with h1 | ⟨h1, h2, h3, h4⟩
  · exact fieldsOK_all.mp hf.2.2 e h1
  · refine ⟨h1, h2, h3, valsOK_of _ _ fun j x hx => ?_⟩
    obtain ⟨env', i1, i2, i3⟩ := hfd _ _ (h4 j x hx).1
    refine ⟨stands_head i1 i2 i3 fun n hm => hn n ?_, by simpa using (h4 j x hx).2⟩
    rw [fieldsNeeds_flat, List.mem_flatMap]
    refine ⟨e, he, ?_⟩
    rw [elemsNeeds_eq, List.mem_flatMap]
    exact ⟨x, List.mem_of_getElem? hx, hm⟩

theorem merged_values {vs ws : List (String × Property)} {st : List String} {ty : String}
    (hw : ∀ w ∈ ws, (∃ k, (k, w.2) ∈ vs) ∨ SizeFree w.2 ∧ found false w.2 ∧ typeName w.2 = ty)
    (hv : ValuesOK env st ty vs) (hn : ∀ n ∈ valuesNeeds st ws, Suits env.hints n) :
    ValuesOK env st ty ws := by
  rw [valuesOK_iff] at hv ⊢
  rw [valuesNeeds_eq] at hn
  intro w hm
  rcases hw w hm with ⟨k, hk⟩ | ⟨h1, h2, h3⟩
  · exact hv (k, w.2) hk
  · exact ⟨h1, found_bare hfd h2 h3 fun n h => hn n (List.mem_flatMap.mpr ⟨w, hm, h⟩)⟩

theorem merged_bares {ps qs : List Property} {st : List String} {ty : String}
    (hw : ∀ x ∈ qs, x ∈ ps ∨ found false x ∧ typeName x = ty)
    (hv : BaresOK env st ty ps) (hn : ∀ n ∈ elemsNeeds st qs, Suits env.hints n) :
    BaresOK env st ty qs := by
  rw [baresOK_iff] at hv ⊢
  rw [elemsNeeds_eq] at hn
  intro w hm
  rcases hw w hm with h | ⟨h2, h3⟩
  · exact hv w h
  · exact found_bare hfd h2 h3 fun n h => hn n (List.mem_flatMap.mpr ⟨w, hm, h⟩)

theorem merged_carries {h : Bool} {p q : Property} (hm : Merged found p q) : Carries env h p q := by
  cases hm
  case array hs hu hb hl =>
    refine carries_of_head ?_ (by simp [BareOK]) (by simp [storedIndex, sizeClass, isNamespaced])
      (by simp [storedIndex, sizeClass, SizeFree])
    intro st
    simp only [HeadOK, ArrayOK, needs, arrayNeeds]
    exact fun ⟨h1, h2, h3, _, _, _, h5⟩ hn => ⟨h1, h2, h3, hb, hl, hu, merged_bares hfd hs h5 hn⟩
  case set hs hu hl =>
    refine carries_of_head ?_ (by simp [BareOK]) (by simp [storedIndex, sizeClass, isNamespaced])
      (by simp [storedIndex, sizeClass, SizeFree])
    intro st
    simp only [HeadOK, needs]
    exact fun ⟨h1, _, _, h5⟩ hn => ⟨h1, hl, hu, merged_bares hfd hs h5 hn⟩
  case enumMap hk hs | nameMap hk hs | strMap hk hs =>
    refine carries_of_head ?_ (by simp [BareOK]) (by simp [storedIndex, sizeClass, isNamespaced])
      (by simp [storedIndex, sizeClass, SizeFree])
    intro st
    simp only [HeadOK, MapOK, needs, mapNeeds]
    exact fun ⟨h1, h2, _, h5⟩ hn => ⟨h1, h2, hk, merged_values hfd hs h5 hn⟩
  case map hs hp hl hnull =>
    refine carries_of_head ?_ (by simp [BareOK]) (by simp [storedIndex, sizeClass, isNamespaced])
      (by simp [storedIndex, sizeClass, SizeFree])
    intro st
    simp only [HeadOK, MapOK, needs, mapNeeds, entriesOK_iff, entriesNeeds_eq]
    refine fun ⟨h1, h2, _, _, h5, _, h6⟩ hn => ⟨h1, h2, hl, hp, h5, hnull, fun w hw => ?_⟩
    rcases hs w hw with h | ⟨⟨i1, i2, i3⟩, i4, i5, i6⟩
    · exact h6 w h
    · exact ⟨⟨i1, found_bare hfd i2 i3 fun n h => hn n (List.mem_flatMap.mpr ⟨w, hw, List.mem_append_left _ h⟩)⟩,
        i4, found_bare hfd i5 i6 fun n h => hn n (List.mem_flatMap.mpr ⟨w, hw, List.mem_append_right _ h⟩)⟩
  case fields hs =>
    refine carries_of_head ?_ (by simp [BareOK]) (by simp [storedIndex, sizeClass, isNamespaced])
      (by simp [storedIndex, sizeClass, SizeFree])
    intro st
    simp only [HeadOK, needs, structNeeds]
    exact fun h hn => ⟨h.1, fieldsFrom_ok hfd hs h.2 hn⟩
  case bareFields hs =>
    refine carries_of_head (by simp [HeadOK]) ?_ (by simp [storedIndex, sizeClass, isNamespaced])
      (by simp [storedIndex, sizeClass, SizeFree])
    intro st ty
    simp only [BareOK, needs, structNeeds]
    exact fun ⟨h1, hint, h2, h3⟩ hn =>
      ⟨h1, hint, h2, fieldsFrom_ok hfd hs h3 fun n h => hn n (List.mem_cons_of_mem _ h)⟩
  case structFields l r fs gs hs =>
    refine carries_of_head ?_ (by simp [BareOK]) (by simp [storedIndex, sizeClass, isNamespaced])
      (by simp [storedIndex, sizeClass, SizeFree])
    intro st
    simp only [HeadOK, ArrayOK, needs, arrayNeeds, structsNeeds_eq]
    exact fun ⟨h1, h2, h3, h4⟩ hn => ⟨h1, h2, by simpa using h3,
      structsOK_swap (fun h => fieldsFrom_ok hfd hs h fun n hm => hn n (by
        simp only [List.flatMap_append, List.flatMap_cons, List.mem_append, structNeeds]
        exact .inr (.inl hm))) l r h4⟩

end

end Gvas
