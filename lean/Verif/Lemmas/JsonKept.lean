import Verif.Lemmas.Layout
import Verif.Lemmas.JsonWrite

/-!
# Lemmas: floats that come back from JSON are the ones that were saved
-/

namespace Gvas.Kept

open Spec Layout Rfc8259

/-- The float comes back from the number that it is saved as. -/
def Back [FloatJ] (x : F32) : Prop := x.isFinite = true ∧ (FloatJ.num x).toF32 = x

theorem float_back [FloatJ] {x : F32} (h : IsF32 x.toJ x) : Back x := by
  unfold F32.toJ at h
  split at h
  · rename_i hx
    refine ⟨hx, ?_⟩
    generalize FloatJ.num x = d at h
    cases h
    rfl
  · cases h

theorem has_float [FloatJ] {es : Fields} {k : String} {x : F32} (h : Has es k IsF32 x)
    (hl : es.lookup k = some x.toJ) : Back x := by
  obtain ⟨j, hj, h⟩ := h
  rw [hl] at hj
  cases hj
  exact float_back h

theorem obj_fields {names : List String} {l es : Fields} (h : FieldsOf names (.obj l) es) :
    es = l := by
  rcases h with h | ⟨_, h, _⟩
  · cases h; rfl
  · cases h

theorem has_iff {α : Type} {es : Fields} {k : String} {R : J → α → Prop} {a : α} {j : J}
    (hl : es.lookup k = some j) : Has es k R a ↔ R j a := by
  constructor
  · rintro ⟨i, hi, h⟩
    rw [hl] at hi
    cases hi
    exact h
  · exact fun h => ⟨j, hl, h⟩

theorem lookup_behind {l : Fields} {k : String} (pre : Fields) (h : ∀ e ∈ pre, e.1 ≠ k) :
    (pre ++ l).lookup k = l.lookup k := by
  induction pre with
  | nil => rfl
  | cons e pre ih =>
    obtain ⟨a, j⟩ := e
    have h1 : (k == a) = false := by
      rw [beq_eq_false_iff_ne]
      exact fun e => h (a, j) (List.mem_cons_self ..) e.symm
    rw [List.cons_append, List.lookup, h1]
    exact ih fun e he => h e (List.mem_cons_of_mem _ he)

theorem optE_names {k : String} {s : Option String} : ∀ e ∈ optE k s, e.1 = k := by
  cases s <;> simp [optE]

theorem nonzeroE_names {k : String} {v : UInt32} : ∀ e ∈ nonzeroE k v, e.1 = k := by
  unfold nonzeroE; split <;> simp

theorem guidE_names {g : Guid} : ∀ e ∈ guidE g, e.1 = "guid" := by
  unfold guidE; split <;> simp

theorem optE_skip {l : Fields} {k k' : String} {s : Option String} (h : k' ≠ k) :
    (optE k' s ++ l).lookup k = l.lookup k :=
  lookup_behind _ fun e he => by rw [optE_names e he]; exact h

theorem nonzeroE_skip {l : Fields} {k k' : String} {v : UInt32} (h : k' ≠ k) :
    (nonzeroE k' v ++ l).lookup k = l.lookup k :=
  lookup_behind _ fun e he => by rw [nonzeroE_names e he]; exact h

/-! ## Every float -/

variable {P : F32 → Prop}

theorem items_map {α : Type} (f : α → Ser) (l : List α) :
    EveryF32Items P (l.map f) ↔ ∀ a ∈ l, EveryF32 P (f a) := by
  induction l with
  | nil => simp [EveryF32Items]
  | cons a l ih => simp [EveryF32Items, ih]

theorem members_map {α : Type} (k : α → String) (f : α → Ser) (l : List α) :
    EveryF32Members P (l.map fun a => (k a, f a)) ↔ ∀ a ∈ l, EveryF32 P (f a) := by
  induction l with
  | nil => simp [EveryF32Members]
  | cons a l ih => simp [EveryF32Members, ih]

theorem members_append (a b : List (String × Ser)) :
    EveryF32Members P (a ++ b) ↔ EveryF32Members P a ∧ EveryF32Members P b := by
  induction a with
  | nil => simp [EveryF32Members]
  | cons e a ih => obtain ⟨k, s⟩ := e; simp [EveryF32Members, ih, and_assoc]

theorem optES_every (k : String) (s : Option String) : EveryF32Members P (optES k s) := by
  cases s <;> simp [optES, EveryF32Members, EveryF32]

theorem nonzeroES_every (k : String) (v : UInt32) : EveryF32Members P (nonzeroES k v) := by
  unfold nonzeroES; split <;> simp [EveryF32Members, EveryF32]

theorem guidES_every (g : Guid) : EveryF32Members P (guidES g) := by
  unfold guidES; split <;> simp [EveryF32Members, EveryF32, Guid.toS]

theorem optionsES_every (o : Option NumberFormattingOptions) :
    EveryF32Members P (optionsES o) := by
  cases o <;> simp [optionsES, EveryF32Members, EveryF32, NumberFormattingOptions.toS]

/-! ## Lists and maps -/

theorem first_some {α : Type} {l : List (α → Prop)} {a : α} (h : First l a) : ∃ R ∈ l, R a := by
  induction l with
  | nil => exact h.elim
  | cons R l ih =>
    rcases h with h | ⟨_, h⟩
    · exact ⟨R, List.mem_cons_self .., h⟩
    · obtain ⟨R', h1, h2⟩ := ih h
      exact ⟨R', List.mem_cons_of_mem _ h1, h2⟩

theorem each_length {α β : Type} {R : α → β → Prop} {as : List α} {bs : List β}
    (h : Each R as bs) : as.length = bs.length := by
  induction h with
  | nil => rfl
  | cons _ _ ih => simp [ih]

theorem each_map {α β γ : Type} {R : α → β → Prop} {f : γ → α} {g : γ → β} {l : List γ}
    (h : Each R (l.map f) (l.map g)) : ∀ c ∈ l, R (f c) (g c) := by
  induction l with
  | nil => simp
  | cons c l ih =>
    cases h with
    | cons h1 h2 =>
      intro x hx
      rcases List.mem_cons.mp hx with rfl | hx
      · exact h1
      · exact ih h2 x hx

theorem each_self {α β : Type} {R : α → β → Prop} {f : β → α} {l : List β}
    (h : Each R (l.map f) l) : ∀ c ∈ l, R (f c) c :=
  each_map (g := id) (by simpa using h)

theorem firsts_full {κ : Type} (same : κ → κ → Bool) (l : List κ)
    (h : (firsts same l).length = l.length) :
    firsts same l = l ∧ l.Pairwise fun a b => same a b = false := by
  induction l with
  | nil => simp [firsts]
  | cons k l ih =>
    simp only [firsts, List.length_cons] at h ⊢
    have h1 := List.length_filter_le (fun k' => !same k k') (firsts same l)
    have h2 := firsts_length same l
    obtain ⟨i1, i2⟩ := ih (by omega)
    rw [i1] at h ⊢
    have h3 : (l.filter fun k' => !same k k').length = l.length := by omega
    rw [List.length_filter_eq_length_iff] at h3
    refine ⟨by rw [List.filter_eq_self.mpr h3], List.pairwise_cons.mpr ⟨fun b hb => ?_, i2⟩⟩
    simpa using h3 b hb

/-- Nothing is dropped if the number of entries stays the same. -/
theorem lastWins_full {κ ν : Type} {same : κ → κ → Bool} (heq : Spec.Equiv same)
    {es m : List (κ × ν)} (h : LastWins same es m) (hl : es.length = m.length) : es = m := by
  have h1 := congrArg List.length h.keys
  rw [List.length_map] at h1
  obtain ⟨_, h2⟩ := firsts_full same (es.map Prod.fst) (by rw [← h1, List.length_map, hl])
  have h3 := lastWins_unique h (lastWins_imExtend heq es)
  rw [h3, imExtend_nil_fresh]
  exact h2

/-- A map that comes back does so entry by entry. -/
theorem strMap_self {α : Type} {R : J → α → Prop} {f : α → J} {l : List (String × α)}
    (h : StrMap R (.obj (l.map fun e => (e.1, f e.2))) l) : ∀ e ∈ l, R (f e.2) e.2 := by
  obtain ⟨js, es, e, h1, h2⟩ := h
  cases e
  have hl := each_length h1
  rw [List.length_map] at hl
  obtain rfl := lastWins_full equiv_beq h2 hl.symm
  exact fun e he => (each_self (f := fun e : String × α => (e.1, f e.2)) h1 e he).2

/-! ## Texts -/

theorem argsS_map (l : List FormatArgumentValue) : argsS l = l.map FormatArgumentValue.toS := by
  induction l with
  | nil => rfl
  | cons v l ih => simp [argsS, ih]

theorem namedArgsS_map (l : List (String × FormatArgumentValue)) :
    namedArgsS l = l.map fun e => (e.1, e.2.toS) := by
  induction l with
  | nil => rfl
  | cons e l ih => obtain ⟨k, v⟩ := e; simp [namedArgsS, ih]

variable [FloatJ]

theorem namedArgsJ_map (l : List (String × FormatArgumentValue)) :
    namedArgsJ l = l.map fun e => (e.1, e.2.toJ) := by
  induction l with
  | nil => rfl
  | cons e l ih => obtain ⟨k, v⟩ := e; simp [namedArgsJ, ih]

theorem texts_back (n : Nat) : ∀ (t : FText) (pre : Fields), (∀ e ∈ pre, e.1 = "type") →
    TextJ n (pre ++ t.entries) t → EveryF32Members Back t.entriesS := by
  induction n with
  | zero => intro t pre _ h; exact h.elim
  | succ n ih =>
    have hT : ∀ t : FText, Obj (TextJ n) (.obj t.entries) t → EveryF32Members Back t.entriesS := by
      rintro t ⟨es, e, h⟩
      cases e
      exact ih t [] (by simp) h
    have hA : ∀ v : FormatArgumentValue, ArgJ (Obj (TextJ n)) v.toJ v → EveryF32 Back v.toS := by
      intro v h
      generalize hj : v.toJ = j at h
      cases h with
      | float h =>
        simp only [FormatArgumentValue.toJ, J.obj.injEq, List.cons.injEq, Prod.mk.injEq, true_and,
          and_true] at hj
        subst hj
        exact ⟨float_back h, trivial⟩
      | text h =>
        simp only [FormatArgumentValue.toJ, J.obj.injEq, List.cons.injEq, Prod.mk.injEq, true_and,
          and_true] at hj
        subst hj
        exact ⟨hT _ h, trivial⟩
      | _ => simp [FormatArgumentValue.toS, EveryF32, EveryF32Members, F64.toS]
    have hN : ∀ l : List (String × FormatArgumentValue),
        StrMap (ArgJ (Obj (TextJ n))) (.obj (namedArgsJ l)) l →
        EveryF32Members Back (namedArgsS l) := by
      intro l h
      rw [namedArgsJ_map] at h
      rw [namedArgsS_map, members_map]
      exact fun e he => hA _ (strMap_self h e he)
    have hL : ∀ l : List FormatArgumentValue,
        Arr (ArgJ (Obj (TextJ n))) (.arr (argsJ l)) l → EveryF32Items Back (argsS l) := by
      rintro l ⟨js, e, h⟩
      cases e
      rw [Js.argsJ_eq] at h
      rw [argsS_map, items_map]
      exact fun v hv => hA v (each_self h v hv)
    rintro ⟨flags, h⟩ pre hp ht
    cases ht with
    | mk _ ht =>
      have look : ∀ k, k ≠ "type" → k ≠ "flags" →
          (pre ++ (FText.mk flags h).entries).lookup k = h.entries.lookup k := by
        intro k h1 h2
        rw [lookup_behind pre fun e he => by rw [hp e he]; exact h1.symm, FText.entries,
          nonzeroE_skip h2.symm]
      generalize pre ++ (FText.mk flags h).entries = es at *
      rw [FText.entriesS, members_append]
      refine ⟨nonzeroES_every _ _, ?_⟩
      cases ht with
      | namedFormat _ h1 h2 =>
        rw [FTextHistory.entries] at look
        rw [has_iff (look _ (by decide) (by decide))] at h1 h2
        exact ⟨trivial, hT _ h1, hN _ h2, trivial⟩
      | orderedFormat _ h1 h2 =>
        rw [FTextHistory.entries] at look
        rw [has_iff (look _ (by decide) (by decide))] at h1 h2
        exact ⟨trivial, hT _ h1, hL _ h2, trivial⟩
      | argumentFormat _ h1 h2 =>
        rw [FTextHistory.entries] at look
        rw [has_iff (look _ (by decide) (by decide))] at h1 h2
        exact ⟨trivial, hT _ h1, hN _ h2, trivial⟩
      | asNumber _ h1 _ _ =>
        rw [FTextHistory.entries] at look
        rw [has_iff (look _ (by decide) (by decide))] at h1
        exact ⟨trivial, hA _ h1, (members_append _ _).mpr ⟨optionsES_every _, optES_every _ _⟩⟩
      | asPercent _ h1 _ _ =>
        rw [FTextHistory.entries] at look
        rw [has_iff (look _ (by decide) (by decide))] at h1
        exact ⟨trivial, hA _ h1, (members_append _ _).mpr ⟨optionsES_every _, optES_every _ _⟩⟩
      | asCurrency _ _ h1 _ _ =>
        rw [FTextHistory.entries] at look
        rw [has_iff ((look _ (by decide) (by decide)).trans (optE_skip (by decide)))] at h1
        exact ⟨trivial, (members_append _ _).mpr ⟨optES_every _ _, hA _ h1,
          (members_append _ _).mpr ⟨optionsES_every _, optES_every _ _⟩⟩⟩
      | transform _ h1 _ =>
        rw [FTextHistory.entries] at look
        rw [has_iff (look _ (by decide) (by decide))] at h1
        exact ⟨trivial, hT _ h1, trivial, trivial⟩
      | _ => simp [FTextHistory.entriesS, EveryF32, EveryF32Members, members_append, optES_every,
          ticksS]

/-! ## Properties -/

omit [FloatJ] in
theorem propsS_map (l : List Property) : propsS l = l.map Property.toS := by
  induction l with
  | nil => rfl
  | cons p l ih => simp [propsS, ih]

omit [FloatJ] in
theorem structsS_map (l : List StructPropertyValue) :
    structsS l = l.map fun v => .obj [v.entryS] := by
  induction l with
  | nil => rfl
  | cons p l ih => simp [structsS, ih]

omit [FloatJ] in
theorem strPropsS_map (l : List (String × Property)) :
    strPropsS l = l.map fun e => (e.1, e.2.toS) := by
  induction l with
  | nil => rfl
  | cons e l ih => obtain ⟨k, p⟩ := e; simp [strPropsS, ih]

omit [FloatJ] in
theorem pairsS_map (l : List (Property × Property)) :
    pairsS l = l.map fun e => .arr [e.1.toS, e.2.toS] := by
  induction l with
  | nil => rfl
  | cons e l ih => obtain ⟨k, p⟩ := e; simp [pairsS, ih]

omit [FloatJ] in
theorem fieldsS_map (l : List (String × List Property)) :
    fieldsS l = l.map fun e => (e.1, .arr (propsS e.2)) := by
  induction l with
  | nil => rfl
  | cons e l ih => obtain ⟨k, p⟩ := e; simp [fieldsS, ih]

theorem propsJ_map (l : List Property) : propsJ l = l.map Property.toJ := by
  induction l with
  | nil => rfl
  | cons p l ih => simp [propsJ, ih]

theorem structsJ_map (l : List StructPropertyValue) :
    structsJ l = l.map fun v => .obj [v.entry] := by
  induction l with
  | nil => rfl
  | cons p l ih => simp [structsJ, ih]

theorem strPropsJ_map (l : List (String × Property)) :
    strPropsJ l = l.map fun e => (e.1, e.2.toJ) := by
  induction l with
  | nil => rfl
  | cons e l ih => obtain ⟨k, p⟩ := e; simp [strPropsJ, ih]

theorem pairsJ_map (l : List (Property × Property)) :
    pairsJ l = l.map fun e => .arr [e.1.toJ, e.2.toJ] := by
  induction l with
  | nil => rfl
  | cons e l ih => obtain ⟨k, p⟩ := e; simp [pairsJ, ih]

theorem fieldsJ_map (l : List (String × List Property)) :
    fieldsJ l = l.map fun e => (e.1, .arr (propsJ e.2)) := by
  induction l with
  | nil => rfl
  | cons e l ih => obtain ⟨k, p⟩ := e; simp [fieldsJ, ih]

theorem variant_name {R : J → Property → Prop} {k : String} {j : J} {v : StructPropertyValue}
    (h : Variant R k j v) : k ∈ variants := by
  cases h <;> decide

section step

variable {R : J → Property → Prop} (hP : ∀ p : Property, R p.toJ p → EveryF32 Back p.toS)
include hP

theorem props_step (l : List Property) (h : Arr R (.arr (propsJ l)) l) :
    EveryF32Items Back (propsS l) := by
  obtain ⟨js, e, h⟩ := h
  cases e
  rw [propsJ_map] at h
  rw [propsS_map, items_map]
  exact fun p hp => hP p (each_self h p hp)

theorem values_step (l : List (String × Property)) (h : StrMap R (.obj (strPropsJ l)) l) :
    EveryF32Members Back (strPropsS l) := by
  rw [strPropsJ_map] at h
  rw [strPropsS_map, members_map]
  exact fun e he => hP _ (strMap_self h e he)

theorem fields_step (l : List (String × List Property))
    (h : StrMap (Arr R) (.obj (fieldsJ l)) l) : EveryF32Members Back (fieldsS l) := by
  rw [fieldsJ_map] at h
  rw [fieldsS_map, members_map]
  exact fun e he => props_step hP _ (strMap_self (f := fun ps => .arr (propsJ ps)) h e he)

theorem variant_step (v : StructPropertyValue) (k : String) (h : Variant R k v.entry.2 v) :
    EveryF32 Back v.entryS.2 := by
  generalize hj : v.entry.2 = j at h
  cases h with
  | vector2F h0 h1 h2 =>
    subst hj
    obtain rfl := obj_fields h0
    exact ⟨has_float h1 rfl, has_float h2 rfl, trivial⟩
  | vectorF h0 h1 h2 h3 =>
    subst hj
    obtain rfl := obj_fields h0
    exact ⟨has_float h1 rfl, has_float h2 rfl, has_float h3 rfl, trivial⟩
  | rotatorF h0 h1 h2 h3 =>
    subst hj
    obtain rfl := obj_fields h0
    exact ⟨has_float h1 rfl, has_float h2 rfl, has_float h3 rfl, trivial⟩
  | quatF h0 h1 h2 h3 h4 =>
    subst hj
    obtain rfl := obj_fields h0
    exact ⟨has_float h1 rfl, has_float h2 rfl, has_float h3 rfl, has_float h4 rfl, trivial⟩
  | linearColor h0 h1 h2 h3 h4 =>
    subst hj
    obtain rfl := obj_fields h0
    exact ⟨has_float h1 rfl, has_float h2 rfl, has_float h3 rfl, has_float h4 rfl, trivial⟩
  | customStruct h =>
    subst hj
    exact fields_step hP _ h
  | gameplayTagContainer _ => exact (items_map _ _).mpr fun _ _ => trivial
  | _ => simp [StructPropertyValue.entryS, EveryF32, EveryF32Members, F64.toS, ticksS, Guid.toS]

theorem array_step (v : ArrayProperty) (pre : Fields) (hp : ∀ e ∈ pre, e.1 = "type")
    (h : ArrayJ R (pre ++ v.entries) v) : EveryF32Members Back v.entriesS := by
  have look : ∀ k, k ≠ "type" → (pre ++ v.entries).lookup k = v.entries.lookup k :=
    fun k hk => lookup_behind pre fun e he => by rw [hp e he]; exact hk.symm
  generalize pre ++ v.entries = es at *
  replace h := first_some h
  obtain ⟨Q, hQ, h⟩ := h
  simp only [List.mem_cons, List.not_mem_nil, or_false] at hQ
  rcases hQ with rfl | rfl | rfl | rfl | rfl | rfl | rfl | rfl | rfl
  · obtain ⟨l, rfl, -⟩ := h
    exact ⟨(items_map _ _).mpr fun _ _ => trivial, trivial⟩
  · obtain ⟨l, rfl, -⟩ := h
    exact ⟨trivial, trivial⟩
  · obtain ⟨l, rfl, -⟩ := h
    exact ⟨(items_map _ _).mpr fun _ _ => trivial, trivial⟩
  · obtain ⟨l, rfl, h1⟩ := h
    obtain ⟨js, e, h⟩ := (has_iff (look _ (by decide))).mp h1
    cases e
    exact ⟨(items_map _ _).mpr fun x hx => float_back (each_self h x hx), trivial⟩
  · obtain ⟨l, rfl, -⟩ := h
    exact ⟨(items_map _ _).mpr fun _ _ => trivial, trivial⟩
  · obtain ⟨l, rfl, -⟩ := h
    exact ⟨(items_map _ _).mpr fun x _ => by cases x <;> trivial, trivial⟩
  · obtain ⟨l, rfl, -⟩ := h
    exact ⟨(items_map _ _).mpr fun x _ => by cases x <;> trivial, trivial⟩
  · obtain ⟨f, t, g, l, rfl, -, -, -, h⟩ := h
    rw [has_iff ((look _ (by decide)).trans (lookup_behind _ fun e he => by
      simp only [List.cons_append, List.nil_append, List.mem_cons] at he
      rcases he with rfl | rfl | he
      · simp
      · simp
      · rw [guidE_names e he]; decide))] at h
    obtain ⟨js, e, h⟩ := h
    cases e
    rw [structsJ_map] at h
    refine ⟨trivial, trivial, (members_append _ _).mpr ⟨guidES_every g, ?_, trivial⟩⟩
    change EveryF32Items Back (structsS l)
    rw [structsS_map, items_map]
    intro v hv
    have := each_self h v hv
    generalize hj : v.entry = e at this
    cases this with
    | mk h => exact ⟨variant_step hP v _ (by rw [hj]; exact h), trivial⟩
  · obtain ⟨t, l, rfl, -, h⟩ := h
    rw [has_iff (look _ (by decide))] at h
    exact ⟨trivial, props_step hP l h, trivial⟩

theorem map_step (v : MapProperty) (pre : Fields) (hp : ∀ e ∈ pre, e.1 = "type")
    (h : MapJ R (pre ++ v.entries) v) : EveryF32Members Back v.entriesS := by
  have look : ∀ k, k ≠ "type" → (pre ++ v.entries).lookup k = v.entries.lookup k :=
    fun k hk => lookup_behind pre fun e he => by rw [hp e he]; exact hk.symm
  generalize pre ++ v.entries = es at *
  replace h := first_some h
  obtain ⟨Q, hQ, h⟩ := h
  simp only [List.mem_cons, List.not_mem_nil, or_false] at hQ
  rcases hQ with rfl | rfl | rfl | rfl | rfl | rfl | rfl | rfl | rfl | rfl | rfl
  · obtain ⟨m, rfl, -⟩ := h
    exact ⟨(members_map _ _ _).mpr fun _ _ => trivial, trivial⟩
  · obtain ⟨m, rfl, -⟩ := h
    exact ⟨(members_map _ _ _).mpr fun _ _ => trivial, trivial⟩
  · obtain ⟨t, m, rfl, -, h⟩ := h
    rw [has_iff (look _ (by decide))] at h
    exact ⟨trivial, values_step hP m h, trivial⟩
  · obtain ⟨m, rfl, -⟩ := h
    exact ⟨(members_map _ _ _).mpr fun _ _ => trivial, trivial⟩
  · obtain ⟨m, rfl, -⟩ := h
    exact ⟨(members_map _ _ _).mpr fun _ _ => trivial, trivial⟩
  · obtain ⟨t, m, rfl, -, h⟩ := h
    rw [has_iff (look _ (by decide))] at h
    exact ⟨trivial, values_step hP m h, trivial⟩
  · obtain ⟨kt, vt, fl, ps, m, rfl, -, -, -, h, hw⟩ := h
    rw [has_iff (look _ (by decide))] at h
    obtain ⟨js, e, h⟩ := h
    cases e
    rw [pairsJ_map] at h
    have hl := each_length h
    rw [List.length_map] at hl
    obtain rfl := lastWins_full sameKey_equiv hw hl.symm
    refine ⟨trivial, trivial, trivial, ?_, trivial⟩
    change EveryF32Items Back (pairsS ps)
    rw [pairsS_map, items_map]
    intro e he
    obtain ⟨a, b, h1, h2, h3⟩ := each_self h e he
    cases h1
    exact ⟨hP _ h2, hP _ h3, trivial⟩
  · obtain ⟨m, rfl, -⟩ := h
    exact ⟨(members_map _ _ _).mpr fun _ _ => trivial, trivial⟩
  · obtain ⟨m, rfl, -⟩ := h
    exact ⟨(members_map _ _ _).mpr fun _ _ => trivial, trivial⟩
  · obtain ⟨t, m, rfl, -, h⟩ := h
    rw [has_iff (look _ (by decide))] at h
    exact ⟨trivial, values_step hP m h, trivial⟩
  · obtain ⟨m, rfl, -⟩ := h
    exact ⟨(members_map _ _ _).mpr fun x _ => by cases x.2 <;> trivial, trivial⟩

theorem fits_step (n : Nat) (p : Property) (tag : String) (es : Fields) (e : p.toJ = .obj es)
    (h : Fits (TextJ n) R es tag p) : EveryF32 Back p.toS := by
  cases h with
  | array h =>
    cases e
    exact ⟨trivial, array_step hP _ [_] (by simp) h⟩
  | map h =>
    cases e
    exact ⟨trivial, map_step hP _ [_] (by simp) h⟩
  | float h =>
    cases e
    exact ⟨trivial, has_float h rfl, trivial⟩
  | set _ _ h =>
    cases e
    rw [has_iff rfl] at h
    exact ⟨trivial, trivial, trivial, props_step hP _ h, trivial⟩
  | @struct g t v _ _ h =>
    cases e
    refine ⟨trivial, (members_append _ _).mpr ⟨guidES_every _, trivial, ?_, trivial⟩⟩
    obtain ⟨pre, k, j, post, h1, -, h⟩ := h
    have hk := variant_name h
    have hm : (k, j) ∈ ("type", J.str "StructProperty") :: (guidE g ++
        [("type_name", .str t), v.entry]) := by rw [h1]; simp
    simp only [List.mem_cons, List.mem_append, List.not_mem_nil, or_false] at hm
    rcases hm with hm | hm | hm | hm
    · cases hm; exact absurd hk (by decide)
    · have := guidE_names _ hm
      simp only at this
      subst this
      exact absurd hk (by decide)
    · cases hm; exact absurd hk (by decide)
    · exact variant_step hP v k (by rw [← hm]; exact h)
  | @structValue k j v h1 h =>
    cases e
    have hk : (v.entry.1 != "type") = true := by cases v <;> simp [StructPropertyValue.entry]
    rw [List.filter_cons_of_neg (by decide), List.filter_cons_of_pos (p := fun e : String × J => e.1 != "type") hk] at h1
    have h2 : v.entry = (k, j) := (List.cons.inj h1).1
    exact ⟨trivial, variant_step hP v k (by rw [h2]; exact h), trivial⟩
  | text h =>
    cases e
    exact ⟨trivial, texts_back n _ [_] (by simp) h⟩
  | @byte _ v _ _ =>
    refine ⟨trivial, (members_append _ _).mpr ⟨optES_every _ _, ?_⟩⟩
    cases v <;> exact ⟨trivial, trivial⟩
  | enum _ _ => exact ⟨trivial, (members_append _ _).mpr ⟨optES_every _ _, trivial, trivial⟩⟩
  | name _ _ =>
    exact ⟨trivial, (members_append _ _).mpr ⟨nonzeroES_every _ _, optES_every _ _⟩⟩
  | multicastInlineDelegate _ =>
    exact ⟨trivial, ⟨(items_map _ _).mpr fun _ _ => ⟨trivial, trivial, trivial⟩, trivial⟩, trivial⟩
  | multicastSparseDelegate _ =>
    exact ⟨trivial, ⟨(items_map _ _).mpr fun _ _ => ⟨trivial, trivial, trivial⟩, trivial⟩, trivial⟩
  | fieldPath _ =>
    exact ⟨trivial, ⟨(items_map _ _).mpr fun _ _ => trivial, trivial, trivial⟩, trivial⟩
  | str _ => exact ⟨trivial, optES_every _ _⟩
  | unknown _ _ => exact ⟨trivial, trivial, (items_map _ _).mpr fun _ _ => trivial, trivial⟩
  | _ => simp [Property.toS, EveryF32, EveryF32Members, F64.toS, Delegate.toS]

theorem tagged_step (n : Nat) (T : J → String → Prop) (p : Property)
    (h : Tagged "type" T typeForms (fun tag es => Fits (TextJ n) R es tag) p.toJ p) :
    EveryF32 Back p.toS := by
  rcases h with ⟨es, tag, e, _, h⟩ | ⟨t, l, tag, names, e, _⟩
  · exact fits_step hP n p tag es e h
  · cases p <;> cases e

end step

theorem property_back (n : Nat) : ∀ p : Property, PropJ n p.toJ p → EveryF32 Back p.toS := by
  induction n with
  | zero => intro p h; exact h.elim
  | succ n ih => exact fun p h => tagged_step ih (n + 1) _ p h

/-- If a file comes back from its JSON, so does every float. -/
theorem file_floats (f : GvasFile) (h : FileJ f.toJson f) : EveryF32 Back f.toSerde := by
  obtain ⟨es, he, -, -, h⟩ := h
  obtain rfl := obj_fields he
  have h1 : ∀ n, ∀ p : Property, PropertyJ n p.toJ p → EveryF32 Back p.toS := by
    intro n p h
    cases n with
    | zero => exact h.elim
    | succ n => exact tagged_step (property_back n) (n + 1) _ p h
  have h2 := (has_iff (j := .obj (strPropsJ f.properties)) (by
    rw [lookup_behind]
    · rfl
    · intro e he
      split at he
      · simp at he
      · simp only [List.mem_singleton] at he
        subst he
        simp)).mp h
  have h3 := values_step (h1 _) _ h2
  refine (members_append _ _).mpr ⟨?_, ?_, h3, trivial⟩
  · split
    · trivial
    · exact ⟨⟨trivial, trivial⟩, trivial⟩
  · cases f.header <;> simp [GvasHeader.toS, EveryF32, EveryF32Members, FEngineVersion.toS,
      customVersionsS, members_map]

end Gvas.Kept
