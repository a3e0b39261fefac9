import Verif.Lemmas.Layout

/-! # Reading JSON does not depend on the bound for its nesting -/

namespace Gvas.Layout

open Spec

variable {α β κ : Type}

theorem mem_depthEntries {es : Fields} {e : String × J} (h : e ∈ es) :
    e.2.depth ≤ depthEntries es := by
  induction es with
  | nil => simp at h
  | cons x es ih =>
    obtain ⟨k', j'⟩ := x
    simp only [depthEntries]
    rcases List.mem_cons.mp h with rfl | h
    · simp only; omega
    · have := ih h; omega

theorem mem_depthList {l : List J} {j : J} (h : j ∈ l) : j.depth ≤ depthList l := by
  induction l with
  | nil => simp at h
  | cons x l ih =>
    simp only [depthList]
    rcases List.mem_cons.mp h with rfl | h
    · omega
    · have := ih h; omega

theorem lookup_depth {es : Fields} {k : String} {j : J} (h : es.lookup k = some j) :
    j.depth ≤ depthEntries es := mem_depthEntries (mem_of_lookup h)

section

variable [FieldJ] [FieldIn]

/-- The readers agree on JSON of depth up to `n`. -/
def Agree (n : Nat) (d d' : J → Option α) : Prop := ∀ j, j.depth ≤ n → d j = d' j

theorem field_congr {n : Nat} {es : Fields} {k : String} {d d' : J → Option α} (h : Agree n d d')
    (hn : depthEntries es ≤ n) : field es k d = field es k d' := by
  unfold field
  match hl : FieldJ.get es k with
  | none => rfl
  | some none => rfl
  | some (some j) => exact h j (Nat.le_trans (mem_depthEntries (FieldIn.mem hl)) hn)

omit [FieldJ] [FieldIn] in
theorem mapM_congr {γ : Type} {d d' : γ → Option α} {l : List γ} (h : ∀ j ∈ l, d j = d' j) :
    l.mapM d = l.mapM d' := by
  induction l with
  | nil => rfl
  | cons j l ih =>
    simp only [List.mapM_cons, h j (by simp), ih fun j hj => h j (by simp [hj])]

omit [FieldJ] [FieldIn] in
theorem agree_arr {n : Nat} {d d' : J → Option α} (h : Agree n d d') :
    Agree n (J.getArr d) (J.getArr d') := by
  intro j hj
  cases j with
  | arr l =>
    simp only [J.depth] at hj
    exact mapM_congr fun x hx => h x (by have := mem_depthList hx; omega)
  | _ => rfl

omit [FieldJ] [FieldIn] in
theorem agree_strMap {n : Nat} {d d' : J → Option α} (h : Agree n d d') :
    Agree n (J.getStrMap d) (J.getStrMap d') := by
  intro j hj
  cases j with
  | obj l =>
    simp only [J.depth] at hj
    unfold J.getStrMap J.getMap
    have : l.mapM (fun e => do return ((← some e.1 : String), ← d e.2)) =
        l.mapM (fun e => do return (← some e.1, ← d' e.2)) :=
      mapM_congr fun x hx => by rw [h x.2 (by have := mem_depthEntries hx; omega)]
    simp only [this]
  | _ => rfl

omit [FieldJ] [FieldIn] in
theorem agree_pair {n : Nat} {d d' : J → Option α} (h : Agree n d d') :
    Agree n (J.getPair d) (J.getPair d') := by
  intro j hj
  unfold J.getPair
  split
  · simp only [J.depth, depthList] at hj
    rw [h _ (by omega), h _ (by omega)]
  · rfl

omit [FieldJ] [FieldIn] in
theorem agree_arg {n : Nat} {d d' : J → Option FText} (h : Agree n d d') :
    Agree n (FormatArgumentValue.ofJ d) (FormatArgumentValue.ofJ d') := by
  intro j hj
  unfold FormatArgumentValue.ofJ
  split
  · simp only [J.depth, depthEntries] at hj
    rw [h _ (by omega)]
  · rfl

theorem history_congr {n : Nat} {d d' : J → Option FText} (h : Agree n d d') {es : Fields}
    (hn : depthEntries es ≤ n) :
    FTextHistory.ofEntries d es = FTextHistory.ofEntries d' es := by
  unfold FTextHistory.ofEntries
  refine congrArg _ (funext fun tag => ?_)
  simp only [FTextHistory.ofTag, field_congr h hn, field_congr (agree_arg h) hn,
    field_congr (agree_arr (agree_arg h)) hn, field_congr (agree_strMap (agree_arg h)) hn]

theorem text_enough : ∀ n m es, depthEntries es < n → depthEntries es < m →
    FText.ofEntries n es = FText.ofEntries m es
  | 0, _, _, h, _ => absurd h (by omega)
  | _ + 1, 0, _, _, h => absurd h (by omega)
  | n + 1, m + 1, es, h1, h2 => by
    unfold FText.ofEntries
    have : Agree (min n m) (fun j => j.getEntries.bind (FText.ofEntries n))
        (fun j => j.getEntries.bind (FText.ofEntries m)) := by
      intro j hj
      cases j with
      | obj es' =>
        simp only [J.depth] at hj
        exact text_enough n m es' (by omega) (by omega)
      | _ => rfl
    rw [history_congr this (by omega)]

theorem agree_variant {n : Nat} {d d' : J → Option Property} (h : Agree n d d') (k : String) :
    Agree n (StructPropertyValue.ofVariant d k) (StructPropertyValue.ofVariant d' k) := by
  intro j hj
  unfold StructPropertyValue.ofVariant
  rw [agree_strMap (agree_arr h) j hj]

theorem agree_struct {n : Nat} {d d' : J → Option Property} (h : Agree n d d') :
    Agree n (StructPropertyValue.ofJ d) (StructPropertyValue.ofJ d') := by
  intro j hj
  unfold StructPropertyValue.ofJ
  split
  · simp only [J.depth, depthEntries] at hj
    exact agree_variant h _ _ (by omega)
  · rfl

omit [FieldJ] [FieldIn] in
theorem depth_filter (p : String × J → Bool) (es : Fields) :
    depthEntries (es.filter p) ≤ depthEntries es := by
  induction es with
  | nil => simp
  | cons e es ih =>
    simp only [List.filter_cons]
    split
    · simp only [depthEntries]; omega
    · simp only [depthEntries]; omega

omit [FieldJ] [FieldIn] in
theorem depth_zip (names : List String) (l : List J) :
    depthEntries (names.zip l) ≤ depthList l := by
  induction names generalizing l with
  | nil => simp [depthEntries]
  | cons k names ih =>
    cases l with
    | nil => simp [depthEntries]
    | cons j l =>
      have := ih l
      simp only [List.zip_cons_cons, depthEntries, depthList]
      omega

theorem tagged_depth {key : String} {tagOf : J → Option String}
    {names : String → Option (List String)} {j : J} {r : String × Fields}
    (h : j.getTagged key tagOf names = some r) : depthEntries r.2 < j.depth := by
  unfold J.getTagged at h
  split at h
  · obtain ⟨o, -, h⟩ := Option.bind_eq_some_iff.mp h
    obtain ⟨t, -, h⟩ := Option.bind_eq_some_iff.mp h
    obtain ⟨tag, -, rfl⟩ := Option.map_eq_some_iff.mp h
    simp only [J.depth]
    omega
  · rename_i t l
    obtain ⟨tag, -, h⟩ := Option.bind_eq_some_iff.mp h
    obtain ⟨ns, -, h⟩ := Option.bind_eq_some_iff.mp h
    obtain ⟨es, h', rfl⟩ := Option.map_eq_some_iff.mp h
    simp only [J.getFields, Option.ite_none_right_eq_some, Option.some.injEq] at h'
    obtain ⟨-, rfl⟩ := h'
    have := depth_zip ns l
    simp only [J.depth, depthList]
    omega
  · cases h

theorem step_congr {n m : Nat} {tagOf : J → Option String} {j : J}
    (hr : Agree (min n m) (Property.ofJ n) (Property.ofJ m)) (h1 : j.depth ≤ n + 1)
    (h2 : j.depth ≤ m + 1) :
    Property.ofJStep tagOf (FText.ofEntries (n + 1)) (Property.ofJ n) j =
      Property.ofJStep tagOf (FText.ofEntries (m + 1)) (Property.ofJ m) j := by
  unfold Property.ofJStep
  cases hg : j.getTagged "type" tagOf propertyFields with
  | none => rfl
  | some r =>
    obtain ⟨tag, es⟩ := r
    have hd := tagged_depth hg
    simp only at hd
    have hn : depthEntries es ≤ min n m := by omega
    simp only [Option.bind_some]
    have ha : ArrayProperty.ofEntries (Property.ofJ n) es =
        ArrayProperty.ofEntries (Property.ofJ m) es := by
      simp only [ArrayProperty.ofEntries, field_congr (agree_arr hr) hn,
        field_congr (agree_arr (agree_struct hr)) hn]
    have hm : MapProperty.ofEntries (Property.ofJ n) es =
        MapProperty.ofEntries (Property.ofJ m) es := by
      simp only [MapProperty.ofEntries, field_congr (agree_strMap hr) hn,
        field_congr (agree_arr (agree_pair hr)) hn]
    have hf : StructPropertyValue.ofFlat (Property.ofJ n) es =
        StructPropertyValue.ofFlat (Property.ofJ m) es := by
      unfold StructPropertyValue.ofFlat
      cases hl : es.find? fun e => structVariants.contains e.1 with
      | none => rfl
      | some e =>
        have := mem_depthEntries (List.mem_of_find?_eq_some hl)
        exact agree_variant hr _ _ (by omega)
    have hv : StructPropertyValue.ofJ (Property.ofJ n) (.obj (es.filter fun e => e.1 != "type")) =
        StructPropertyValue.ofJ (Property.ofJ m) (.obj (es.filter fun e => e.1 != "type")) := by
      unfold StructPropertyValue.ofJ
      split
      · rename_i e
        injection e with e
        have := depth_filter (fun e => e.1 != "type") es
        rw [e] at this
        simp only [depthEntries] at this
        exact agree_variant hr _ _ (by omega)
      · rfl
    simp only [Property.ofTag, ha, hm, hf, hv, field_congr (agree_arr hr) hn,
      text_enough (n + 1) (m + 1) es (by omega) (by omega)]

theorem depth_pos {j : J} {p : Property} {tagOf : J → Option String}
    {text : Fields → Option FText} {rec : J → Option Property} (h : j.depth = 0) :
    Property.ofJStep tagOf text rec j ≠ some p := by
  intro h1
  unfold Property.ofJStep at h1
  obtain ⟨r, hg, -⟩ := Option.bind_eq_some_iff.mp h1
  have := tagged_depth hg
  omega

theorem property_enough : ∀ n m j, j.depth ≤ n → j.depth ≤ m →
    Property.ofJ n j = Property.ofJ m j
  | 0, 0, _, _, _ => rfl
  | 0, m + 1, j, h, _ => (Option.eq_none_iff_forall_ne_some.mpr fun _ => depth_pos (by omega)).symm
  | n + 1, 0, j, _, h => Option.eq_none_iff_forall_ne_some.mpr fun _ => depth_pos (by omega)
  | n + 1, m + 1, j, h1, h2 =>
    step_congr (fun j _ => property_enough n m j (by omega) (by omega)) h1 h2

theorem property_json_enough : ∀ n m j, j.depth ≤ n → j.depth ≤ m →
    Property.ofJson n j = Property.ofJson m j
  | 0, 0, _, _, _ => rfl
  | 0, m + 1, j, h, _ => (Option.eq_none_iff_forall_ne_some.mpr fun _ => depth_pos (by omega)).symm
  | n + 1, 0, j, _, h => Option.eq_none_iff_forall_ne_some.mpr fun _ => depth_pos (by omega)
  | n + 1, m + 1, j, h1, h2 =>
    step_congr (fun j _ => property_enough n m j (by omega) (by omega)) h1 h2

end

theorem propJ_enough {n : Nat} {j : J} {p : Property} (h : j.depth ≤ n) :
    PropJ n j p ↔ PropJ j.depth j p := by
  rw [← gets_property, ← gets_property, property_enough n j.depth j h (Nat.le_refl _)]

theorem propertyJ_enough {n : Nat} {j : J} {p : Property} (h : j.depth ≤ n) :
    PropertyJ n j p ↔ PropertyJ j.depth j p := by
  rw [← gets_property_json, ← gets_property_json,
    property_json_enough n j.depth j h (Nat.le_refl _)]

end Gvas.Layout
