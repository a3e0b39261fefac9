import Verif.Spec.JsonLoad
import Verif.Lemmas.Json

/-!
# GUID texts of saved JSON
-/

namespace Gvas.Saved

open Spec Js

/-- Saved JSON of a property or struct. -/
def Saved (j : J) : Prop := (∃ p : Property, j = p.toJ) ∨ ∃ v : StructPropertyValue, j = .obj [v.entry]

/-- An entry where GUID texts come from GUIDs and what it holds is saved JSON. -/
def Fine (e : String × J) : Prop :=
  (e.1 = "guid" ∨ e.1 = "Guid" → ∀ s, e.2 = .str s → ∃ g : Guid, s = String.ofList g.display) ∧
  ∀ j, Holds e.1 e.2 j → Saved j

theorem fine_other (k : String) (v : J) (h : k ∉ ["guid", "Guid", "properties", "structs", "value",
    "enum_props", "name_props", "str_props", "CustomStruct"]) : Fine (k, v) := by
  simp only [List.mem_cons, List.not_mem_nil, or_false, not_or] at h
  obtain ⟨h1, h2, h3, h4, h5, h6, h7, h8, h9⟩ := h
  refine ⟨fun hk => (hk.elim h1 h2).elim, fun j hj => ?_⟩
  cases hj with
  | element h _ => exact (h.elim h3 h4).elim
  | pair h _ _ => exact (h5 h).elim
  | value h _ => exact (h.elim h6 fun h => h.elim h7 h8).elim
  | custom h _ _ => exact (h9 h).elim

theorem fine_name {e : String × J} (h : e.1 ∉ ["guid", "Guid", "properties", "structs", "value",
    "enum_props", "name_props", "str_props", "CustomStruct"]) : Fine e := fine_other e.1 e.2 h

theorem fine_value (v : J) (h : ∀ l, v ≠ .arr l) : Fine ("value", v) := by
  refine ⟨fun hk => absurd hk (by simp), fun j hj => ?_⟩
  cases hj with
  | element _ _ => exact absurd rfl (h _)
  | pair _ _ _ => exact absurd rfl (h _)
  | value h _ => exact absurd h (by simp)
  | custom h _ _ => exact absurd h (by simp)

theorem fine_guid (g : Guid) (k : String) : Fine (k, g.toJ) := by
  refine ⟨fun _ s hs => ⟨g, ?_⟩, fun j hj => ?_⟩
  · cases hs; rfl
  · unfold Guid.toJ at hj; cases hj

theorem fine_elements (k : String) (l : List J) (hk : k = "properties" ∨ k = "structs")
    (h : ∀ j ∈ l, Saved j) : Fine (k, .arr l) := by
  refine ⟨fun h' => by rcases hk with rfl | rfl <;> exact absurd h' (by simp), fun j hj => ?_⟩
  cases hj with
  | element _ hm => exact h j hm
  | pair h' _ _ =>
    simp only at h'
    rcases hk with rfl | rfl <;> exact absurd h' (by simp)

theorem fine_optE (k : String) (v : Option String) (h : Fine (k, .null) ∧ ∀ s, Fine (k, .str s)) :
    ∀ e ∈ optE k v, Fine e := by
  intro e he
  cases v with
  | none => simp [optE] at he
  | some s => simp only [optE, List.mem_cons, List.not_mem_nil, or_false] at he; subst he; exact h.2 s

theorem saved_props (ps : List Property) : ∀ j ∈ propsJ ps, Saved j := by
  rw [propsJ_eq]
  intro j hj
  obtain ⟨p, _, rfl⟩ := List.mem_map.1 hj
  exact .inl ⟨p, rfl⟩

theorem saved_structs (vs : List StructPropertyValue) : ∀ j ∈ structsJ vs, Saved j := by
  rw [structsJ_eq]
  intro j hj
  obtain ⟨v, _, rfl⟩ := List.mem_map.1 hj
  exact .inr ⟨v, rfl⟩

theorem fine_values (k : String) (m : List (String × Property))
    (hk : k = "enum_props" ∨ k = "name_props" ∨ k = "str_props") :
    Fine (k, .obj (strPropsJ m)) := by
  refine ⟨fun h' => by rcases hk with rfl | rfl | rfl <;> exact absurd h' (by simp),
    fun j hj => ?_⟩
  cases hj with
  | value _ hm =>
    rw [strPropsJ_eq] at hm
    obtain ⟨e, _, he⟩ := List.mem_map.1 hm
    cases he
    exact .inl ⟨_, rfl⟩
  | custom h' _ _ =>
    simp only at h'
    rcases hk with rfl | rfl | rfl <;> exact absurd h' (by simp)

theorem fine_pairs (m : List (Property × Property)) : Fine ("value", .arr (pairsJ m)) := by
  refine ⟨fun h' => absurd h' (by simp), fun j hj => ?_⟩
  cases hj with
  | element h' _ => exact absurd h' (by simp)
  | pair _ hq hm =>
    rw [pairsJ_eq] at hq
    obtain ⟨e, _, he⟩ := List.mem_map.1 hq
    cases he
    simp only [List.mem_cons, List.not_mem_nil, or_false] at hm
    rcases hm with rfl | rfl
    · exact .inl ⟨_, rfl⟩
    · exact .inl ⟨_, rfl⟩

theorem fine_custom (m : List (String × List Property)) :
    Fine ("CustomStruct", .obj (fieldsJ m)) := by
  refine ⟨fun h' => absurd h' (by simp), fun j hj => ?_⟩
  cases hj with
  | value h' _ => exact absurd h' (by simp)
  | custom _ hq hm =>
    rw [fieldsJ_eq] at hq
    obtain ⟨e, _, he⟩ := List.mem_map.1 hq
    cases he
    rw [← propsJ_eq] at hm
    exact saved_props _ j hm

theorem fine_struct (v : StructPropertyValue) : Fine v.entry := by
  cases v with
  | guid g => exact fine_guid g _
  | customStruct fs => exact fine_custom fs
  | _ => exact fine_other _ _ (by simp)

theorem fine_guidE (g : Guid) : ∀ e ∈ guidE g, Fine e := by
  intro e he
  unfold guidE at he
  split at he
  · simp at he
  · simp only [List.mem_cons, List.not_mem_nil, or_false] at he
    subst he
    exact fine_guid g _

theorem fine_array (v : ArrayProperty) : ∀ e ∈ v.entries, Fine e := by
  cases v with
  | structs field ty g v =>
    simp only [ArrayProperty.entries, List.mem_append, List.mem_cons, List.not_mem_nil, or_false]
    rintro e (((rfl | rfl) | h) | rfl)
    · exact fine_other _ _ (by simp)
    · exact fine_other _ _ (by simp)
    · exact fine_guidE g e h
    · exact fine_elements _ _ (.inr rfl) (saved_structs v)
  | properties ty ps =>
    simp only [ArrayProperty.entries, List.mem_cons, List.not_mem_nil, or_false]
    rintro e (rfl | rfl)
    · exact fine_other _ _ (by simp)
    · exact fine_elements _ _ (.inl rfl) (saved_props ps)
  | _ =>
    simp only [ArrayProperty.entries, List.mem_cons, List.not_mem_nil, or_false]
    rintro e rfl
    exact fine_other _ _ (by simp)

theorem fine_map (v : MapProperty) : ∀ e ∈ v.entries, Fine e := by
  cases v with
  | enumProperty t v | nameProperty t v | strProperty t v =>
    simp only [MapProperty.entries, List.mem_cons, List.not_mem_nil, or_false]
    rintro e (rfl | rfl)
    · exact fine_other _ _ (by simp)
    · exact fine_values _ v (by simp)
  | properties kt vt fl v =>
    simp only [MapProperty.entries, List.mem_cons, List.not_mem_nil, or_false]
    rintro e (rfl | rfl | rfl | rfl)
    · exact fine_other _ _ (by simp)
    · exact fine_other _ _ (by simp)
    · exact fine_other _ _ (by simp)
    · exact fine_pairs v
  | _ =>
    simp only [MapProperty.entries, List.mem_cons, List.not_mem_nil, or_false]
    rintro e rfl
    exact fine_other _ _ (by simp)

theorem other_optE {k : String} {v : Option String} {e : String × J} (h : e ∈ optE k v) :
    e.1 = k := by
  cases v with
  | none => simp [optE] at h
  | some s => simp only [optE, List.mem_cons, List.not_mem_nil, or_false] at h; subst h; rfl

theorem other_options {o : Option NumberFormattingOptions} {e : String × J} (h : e ∈ optionsE o) :
    e.1 = "format_options" := by
  cases o with
  | none => simp [optionsE] at h
  | some s => simp only [optionsE, List.mem_cons, List.not_mem_nil, or_false] at h; subst h; rfl

theorem other_nonzero {k : String} {v : UInt32} {e : String × J} (h : e ∈ nonzeroE k v) :
    e.1 = k := by
  unfold nonzeroE at h
  split at h
  · simp at h
  · simp only [List.mem_cons, List.not_mem_nil, or_false] at h; subst h; rfl

theorem names_history (t : FTextHistory) : ∀ e ∈ t.entries, e.1 ∈ ["history",
    "culture_invariant_string", "namespace", "key", "source_string", "source_format", "arguments",
    "source_value", "format_options", "target_culture", "currency_code", "date_time", "date_style",
    "source_date_time", "time_style", "time_zone", "source_text", "transform", "table_id"] := by
  intro e he
  cases t <;> simp only [FTextHistory.entries, List.mem_cons, List.mem_append, List.not_mem_nil,
    or_false] at he
  all_goals
    repeat' (refine Or.elim he (fun he => ?_) (fun he => ?_))
    all_goals
      first
        | (subst he; simp)
        | (rw [other_optE he]; simp)
        | (rw [other_options he]; simp)

theorem fine_text (t : FText) : ∀ e ∈ t.entries, Fine e := by
  obtain ⟨fl, h⟩ := t
  simp only [FText.entries, List.mem_append]
  rintro e (he | he)
  · refine fine_name ?_
    rw [other_nonzero he]; simp
  · refine fine_name ?_
    have := names_history h _ he
    simp only [List.mem_cons, List.not_mem_nil, or_false] at this
    rcases this with h | h | h | h | h | h | h | h | h | h | h | h | h | h | h | h | h | h | h <;>
      (rw [h]; simp)

theorem F32.toJ_ne (f : F32) (l : List J) : f.toJ ≠ .arr l := by
  unfold F32.toJ; split <;> simp
theorem F64.toJ_ne (f : F64) (l : List J) : f.toJ ≠ .arr l := by
  unfold F64.toJ; split <;> simp

theorem fine_property (p : Property) : ∃ es, p.toJ = .obj es ∧ ∀ e ∈ es, Fine e := by
  have ht : ∀ s, Fine ("type", .str s) := fun s => fine_other _ _ (by simp)
  cases p <;> simp only [Property.toJ, J.obj.injEq, exists_eq_left', List.forall_mem_cons,
    List.not_mem_nil, false_implies, implies_true, and_true, List.mem_append, or_imp,
    forall_and, ht, true_and]
  case array v => exact fine_array v
  case map v => exact fine_map v
  case text v => exact fine_text v
  case struct g t v =>
    exact ⟨fine_guidE g, fine_other _ _ (by simp), fine_struct v⟩
  case structValue v => exact fine_struct v
  case set t fl ps =>
    exact ⟨fine_other _ _ (by simp), fine_other _ _ (by simp),
      fine_elements _ _ (.inl rfl) (saved_props ps)⟩
  case unknown => exact ⟨fine_other _ _ (by simp), fine_other _ _ (by simp)⟩
  case byte n v =>
    refine ⟨fine_optE _ _ ⟨fine_other _ _ (by simp), fun s => fine_other _ _ (by simp)⟩, ?_⟩
    cases v <;> exact fine_other _ _ (by simp)
  case enum n v =>
    exact ⟨fine_optE _ _ ⟨fine_other _ _ (by simp), fun s => fine_other _ _ (by simp)⟩,
      fine_value _ (by simp)⟩
  case name i v =>
    refine ⟨fun e he => ?_,
      fine_optE _ _ ⟨fine_value _ (by simp), fun s => fine_value _ (by simp)⟩⟩
    refine fine_name ?_
    rw [other_nonzero he]; simp
  case str v => exact fine_optE _ _ ⟨fine_value _ (by simp), fun s => fine_value _ (by simp)⟩
  case float v => exact fine_value _ (F32.toJ_ne v)
  case double v => exact fine_value _ (F64.toJ_ne v)
  all_goals exact fine_value _ (by simp [Delegate.toJ, multicastJ, FieldPath.toJ])

theorem saved_entries {j : J} (h : Saved j) : ∃ es, j = .obj es ∧ ∀ e ∈ es, Fine e := by
  rcases h with ⟨p, rfl⟩ | ⟨v, rfl⟩
  · exact fine_property p
  · exact ⟨_, rfl, by simpa using fine_struct v⟩

theorem saved_guid {j : J} {s : String} (h : GuidEntry j s) (hj : Saved j) :
    ∃ g : Guid, s = String.ofList g.display := by
  induction h with
  | here hk hm =>
    obtain ⟨es, e, hf⟩ := saved_entries hj
    cases e
    exact (hf _ hm).1 hk _ rfl
  | field hm hh _ ih =>
    obtain ⟨es, e, hf⟩ := saved_entries hj
    cases e
    exact ih ((hf _ hm).2 _ hh)
  | sequence _ _ _ _ =>
    obtain ⟨es, e, _⟩ := saved_entries hj
    cases e

theorem saved_version {h : GvasHeader} {s : String} (hs : VersionName h.toJ s) :
    ∃ g : Guid, s = String.ofList g.display := by
  have : ∀ cv vs v, (J.obj vs = customVersionsJ cv) → (s, v) ∈ vs →
      ∃ g : Guid, s = String.ofList g.display := by
    intro cv vs v e hm
    cases e
    obtain ⟨x, _, hx⟩ := List.mem_map.1 hm
    cases hx
    exact ⟨_, rfl⟩
  cases h with
  | version2 pkg ev fmt cv cls =>
    obtain ⟨vs, v, h1, h2⟩ := hs
    simp at h1
    exact this cv vs v h1 h2
  | version3 pkg ue5 ev fmt cv cls =>
    obtain ⟨vs, v, h1, h2⟩ := hs
    simp at h1
    exact this cv vs v h1 h2

theorem saved_file {f : GvasFile} {s : String} (hs : GuidText f.toJson s) :
    ∃ g : Guid, s = String.ofList g.display := by
  unfold GvasFile.toJson GuidText at hs
  simp only at hs
  have hn : ∀ k j, (k, j) ∈ (match f.gameVersion with
      | .default => []
      | .palworld c => [("deserialized_game_version", J.obj [("Palworld", .str c.json)])]) →
      k = "deserialized_game_version" := by
    intro k j hm
    cases hv : f.gameVersion with
    | default => rw [hv] at hm; simp at hm
    | palworld c => rw [hv] at hm; simp at hm; exact hm.1
  rcases hs with ⟨h, hm, hs⟩ | ⟨ps, hm, hs⟩
  · rcases List.mem_append.1 hm with hm | hm
    · exact absurd (hn _ _ hm) (by simp)
    · simp at hm
      subst hm
      exact saved_version hs
  · rcases List.mem_append.1 hm with hm | hm
    · exact absurd (hn _ _ hm) (by simp)
    · simp at hm
      subst hm
      obtain ⟨n, j, hm, hg⟩ := hs
      rw [strPropsJ_eq] at hm
      obtain ⟨e, _, he⟩ := List.mem_map.1 hm
      cases he
      exact saved_guid hg (.inl ⟨_, rfl⟩)

end Gvas.Saved
