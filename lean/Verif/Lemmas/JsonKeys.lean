import Verif.Lemmas.Json
import Verif.Lemmas.Ens

/-! # Values read from JSON have distinct keys in all their maps -/

namespace Gvas.Js

open Spec

variable {α β κ : Type}

theorem mapM_mem {d : β → Option α} (l : List β) (r : List α) (h : l.mapM d = some r) :
    ∀ a ∈ r, ∃ b, d b = some a := by
  induction l generalizing r with
  | nil =>
    simp only [List.mapM_nil, Option.pure_def, Option.some.injEq] at h
    subst h; simp
  | cons b l ih =>
    simp only [List.mapM_cons, Option.bind_eq_bind, Option.bind_eq_some_iff, Option.pure_def,
      Option.some.injEq] at h
    obtain ⟨x, hx, r', hr, rfl⟩ := h
    intro a ha
    rcases List.mem_cons.1 ha with rfl | ha
    · exact ⟨b, hx⟩
    · exact ih r' hr a ha

theorem getArr_mem {d : J → Option α} {j : J} {l : List α} (h : J.getArr d j = some l) :
    ∀ a ∈ l, ∃ j, d j = some a := by
  cases j with
  | arr js => exact mapM_mem js l h
  | _ => simp [J.getArr] at h

theorem getMap_some {same : κ → κ → Bool} {dk : String → Option κ} {d : J → Option α} {j : J}
    {m : List (κ × α)} (h : J.getMap same dk d j = some m) :
    (m.map Prod.fst).Pairwise (fun a b => same a b = false) ∧
      ∀ e ∈ m, ∃ j, d j = some e.2 := by
  cases j with
  | obj l =>
    simp only [J.getMap, Option.bind_eq_bind, Option.bind_eq_some_iff] at h
    obtain ⟨es, h1, h2⟩ := h
    simp only [Option.pure_def, Option.some.injEq] at h2
    subst h2
    refine ⟨imExtend_distinct es [] (by simp), fun e he => ?_⟩
    refine (imExtend_forall (Pk := fun _ => True) (Pv := fun v => ∃ j, d j = some v) es []
      (by simp) (fun e he => ⟨trivial, ?_⟩) e he).2
    obtain ⟨b, hb⟩ := mapM_mem l es h1 e he
    simp only [Option.bind_eq_some_iff] at hb
    obtain ⟨x, _, y, hy, hxy⟩ := hb
    cases hxy
    exact ⟨b.2, hy⟩
  | _ => simp [J.getMap] at h

theorem getStrMap_distinct {d : J → Option α} {j : J} {m : List (String × α)}
    (h : J.getStrMap d j = some m) : KeysDistinct m ∧ ∀ e ∈ m, ∃ j, d j = some e.2 := by
  have h' := getMap_some h
  exact ⟨h'.1.imp fun h => by simpa using h, h'.2⟩

theorem field_some {es : List (String × J)} {k : String} {d : J → Option α} {a : α}
    (h : field es k d = some a) : ∃ j, d j = some a := by
  simp only [field_eq, Option.bind_eq_some_iff] at h
  obtain ⟨j, _, hj⟩ := h
  exact ⟨j, hj⟩

theorem ite_some {c : Prop} [Decidable c] {a b : Option α} {x : α}
    (h : (if c then a else b) = some x) : a = some x ∨ b = some x := by
  split at h
  · exact .inl h
  · exact .inr h

/-- What `rec` returns has distinct keys. -/
def TextGood (rec : J → Option FText) : Prop := ∀ j t, rec j = some t → TextMaps t

theorem arg_good {rec : J → Option FText} (hr : TextGood rec) (j : J) (v : FormatArgumentValue)
    (h : FormatArgumentValue.ofJ rec j = some v) : ArgMaps v := by
  unfold FormatArgumentValue.ofJ at h
  split at h
  · rename_i k j
    split at h
    · simp only [Option.map_eq_some_iff] at h; obtain ⟨x, _, rfl⟩ := h; simp only [ArgMaps]
    split at h
    · simp only [Option.map_eq_some_iff] at h; obtain ⟨x, _, rfl⟩ := h; simp only [ArgMaps]
    split at h
    · simp only [Option.map_eq_some_iff] at h; obtain ⟨x, _, rfl⟩ := h; simp only [ArgMaps]
    split at h
    · simp only [Option.map_eq_some_iff] at h; obtain ⟨x, _, rfl⟩ := h; simp only [ArgMaps]
    split at h
    · simp only [Option.map_eq_some_iff] at h; obtain ⟨x, hx, rfl⟩ := h; simp only [ArgMaps]
      exact hr _ _ hx
    split at h
    · simp only [Option.map_eq_some_iff] at h; obtain ⟨x, _, rfl⟩ := h; simp only [ArgMaps]
    split at h
    · simp only [Option.map_eq_some_iff] at h; obtain ⟨x, _, rfl⟩ := h; simp only [ArgMaps]
    exact absurd h (by simp)
  · exact absurd h (by simp)

theorem history_good {rec : J → Option FText} (hr : TextGood rec) (es : List (String × J))
    (tag : String) (h : FTextHistory) (he : FTextHistory.ofTag rec es tag = some h) :
    HistoryMaps h := by
  have hsrc : ∀ k t, field es k rec = some t → TextMaps t := fun k t ht => by
    obtain ⟨j, hj⟩ := field_some ht; exact hr j t hj
  have harg : ∀ k t, field es k (FormatArgumentValue.ofJ rec) = some t → ArgMaps t :=
    fun k t ht => by obtain ⟨j, hj⟩ := field_some ht; exact arg_good hr j t hj
  have hargs : ∀ k t, field es k (J.getArr (FormatArgumentValue.ofJ rec)) = some t →
      ArgsMaps t := fun k t ht => by
    obtain ⟨j, hj⟩ := field_some ht
    rw [ArgsMaps_iff]
    intro v hv
    obtain ⟨j', hj'⟩ := getArr_mem hj v hv
    exact arg_good hr j' v hj'
  have hnamed : ∀ k t, field es k (J.getStrMap (FormatArgumentValue.ofJ rec)) = some t →
      KeysDistinct t ∧ NamedArgsMaps t := fun k t ht => by
    obtain ⟨j, hj⟩ := field_some ht
    obtain ⟨h1, h2⟩ := getStrMap_distinct hj
    refine ⟨h1, ?_⟩
    rw [NamedArgsMaps_iff]
    intro e he
    obtain ⟨j', hj'⟩ := h2 e he
    exact arg_good hr j' e.2 hj'
  unfold FTextHistory.ofTag at he
  rcases ite_some he with he | he
  · simp only [Option.bind_eq_bind, Option.pure_def, Option.bind_eq_some_iff, Option.some.injEq] at he
    subst he; simp only [HistoryMaps]
  rcases ite_some he with he | he
  · simp only [Option.bind_eq_bind, Option.pure_def, Option.bind_eq_some_iff, Option.some.injEq] at he
    obtain ⟨_, _, rfl⟩ := he; simp only [HistoryMaps]
  rcases ite_some he with he | he
  · simp only [Option.bind_eq_bind, Option.pure_def, Option.bind_eq_some_iff, Option.some.injEq] at he
    obtain ⟨_, _, _, _, _, _, rfl⟩ := he; simp only [HistoryMaps]
  rcases ite_some he with he | he
  · simp only [Option.bind_eq_bind, Option.pure_def, Option.bind_eq_some_iff, Option.some.injEq] at he
    obtain ⟨_, h1, _, h2, rfl⟩ := he; simp only [HistoryMaps]
    exact ⟨hsrc _ _ h1, hnamed _ _ h2⟩
  rcases ite_some he with he | he
  · simp only [Option.bind_eq_bind, Option.pure_def, Option.bind_eq_some_iff, Option.some.injEq] at he
    obtain ⟨_, h1, _, h2, rfl⟩ := he; simp only [HistoryMaps]
    exact ⟨hsrc _ _ h1, hargs _ _ h2⟩
  rcases ite_some he with he | he
  · simp only [Option.bind_eq_bind, Option.pure_def, Option.bind_eq_some_iff, Option.some.injEq] at he
    obtain ⟨_, h1, _, h2, rfl⟩ := he; simp only [HistoryMaps]
    exact ⟨hsrc _ _ h1, hnamed _ _ h2⟩
  rcases ite_some he with he | he
  · simp only [Option.bind_eq_bind, Option.pure_def, Option.bind_eq_some_iff, Option.some.injEq] at he
    obtain ⟨_, h1, _, _, _, _, rfl⟩ := he; simp only [HistoryMaps]
    exact harg _ _ h1
  rcases ite_some he with he | he
  · simp only [Option.bind_eq_bind, Option.pure_def, Option.bind_eq_some_iff, Option.some.injEq] at he
    obtain ⟨_, h1, _, _, _, _, rfl⟩ := he; simp only [HistoryMaps]
    exact harg _ _ h1
  rcases ite_some he with he | he
  · simp only [Option.bind_eq_bind, Option.pure_def, Option.bind_eq_some_iff, Option.some.injEq] at he
    obtain ⟨_, _, _, h1, _, _, _, _, rfl⟩ := he; simp only [HistoryMaps]
    exact harg _ _ h1
  rcases ite_some he with he | he
  · simp only [Option.bind_eq_bind, Option.pure_def, Option.bind_eq_some_iff, Option.some.injEq] at he
    obtain ⟨_, _, _, _, _, _, rfl⟩ := he; simp only [HistoryMaps]
  rcases ite_some he with he | he
  · simp only [Option.bind_eq_bind, Option.pure_def, Option.bind_eq_some_iff, Option.some.injEq] at he
    obtain ⟨_, _, _, _, _, _, _, _, rfl⟩ := he; simp only [HistoryMaps]
  rcases ite_some he with he | he
  · simp only [Option.bind_eq_bind, Option.pure_def, Option.bind_eq_some_iff, Option.some.injEq] at he
    obtain ⟨_, _, _, _, _, _, _, _, _, _, rfl⟩ := he; simp only [HistoryMaps]
  rcases ite_some he with he | he
  · simp only [Option.bind_eq_bind, Option.pure_def, Option.bind_eq_some_iff, Option.some.injEq] at he
    obtain ⟨_, h1, _, _, rfl⟩ := he; simp only [HistoryMaps]
    exact hsrc _ _ h1
  rcases ite_some he with he | he
  · simp only [Option.bind_eq_bind, Option.pure_def, Option.bind_eq_some_iff, Option.some.injEq] at he
    obtain ⟨_, _, _, _, rfl⟩ := he; simp only [HistoryMaps]
  exact absurd he (by simp)

theorem text_good : ∀ n es t, FText.ofEntries n es = some t → TextMaps t := by
  intro n
  induction n with
  | zero => intro es t h; simp [FText.ofEntries] at h
  | succ n ih =>
    intro es t h
    simp only [FText.ofEntries, Option.bind_eq_bind, Option.pure_def, Option.bind_eq_some_iff,
      Option.some.injEq] at h
    obtain ⟨_, _, hs, h1, rfl⟩ := h
    simp only [TextMaps]
    simp only [FTextHistory.ofEntries, Option.bind_eq_some_iff] at h1
    obtain ⟨tag, _, h2⟩ := h1
    refine history_good (fun j t ht => ?_) es tag hs h2
    simp only [Option.bind_eq_some_iff] at ht
    obtain ⟨es', _, h3⟩ := ht
    exact ih es' t h3

/-- What `rec` returns has distinct keys. -/
def PropGood (rec : J → Option Property) : Prop := ∀ j p, rec j = some p → MapsDistinct p

variable {rec : J → Option Property}

theorem props_good (hr : PropGood rec) {es : List (String × J)} {k : String} {ps : List Property}
    (h : field es k (J.getArr rec) = some ps) : PropsMaps ps := by
  obtain ⟨j, hj⟩ := field_some h
  rw [PropsMaps_iff]
  intro p hp
  obtain ⟨j', hj'⟩ := getArr_mem hj p hp
  exact hr j' p hj'

theorem values_good (hr : PropGood rec) {es : List (String × J)} {k : String}
    {m : List (String × Property)} (h : field es k (J.getStrMap rec) = some m) :
    KeysDistinct m ∧ ValuesMaps m := by
  obtain ⟨j, hj⟩ := field_some h
  obtain ⟨h1, h2⟩ := getStrMap_distinct hj
  refine ⟨h1, ?_⟩
  rw [ValuesMaps_iff]
  intro e he
  obtain ⟨j', hj'⟩ := h2 e he
  exact hr j' e.2 hj'

theorem get2_some {d : J → Option α} {a b : String} {f : α → α → β} {j : J} {r : β}
    (h : J.get2 d a b f j = some r) : ∃ x y, r = f x y := by
  simp only [J.get2, Option.bind_eq_bind, Option.pure_def, Option.bind_eq_some_iff,
    Option.some.injEq] at h
  obtain ⟨_, _, x, _, y, _, rfl⟩ := h
  exact ⟨x, y, rfl⟩

theorem get3_some {d : J → Option α} {a b c : String} {f : α → α → α → β} {j : J} {r : β}
    (h : J.get3 d a b c f j = some r) : ∃ x y z, r = f x y z := by
  simp only [J.get3, Option.bind_eq_bind, Option.pure_def, Option.bind_eq_some_iff,
    Option.some.injEq] at h
  obtain ⟨_, _, x, _, y, _, z, _, rfl⟩ := h
  exact ⟨x, y, z, rfl⟩

theorem get4_some {d : J → Option α} {a b c e : String} {f : α → α → α → α → β} {j : J} {r : β}
    (h : J.get4 d a b c e f j = some r) : ∃ x y z w, r = f x y z w := by
  simp only [J.get4, Option.bind_eq_bind, Option.pure_def, Option.bind_eq_some_iff,
    Option.some.injEq] at h
  obtain ⟨_, _, x, _, y, _, z, _, w, _, rfl⟩ := h
  exact ⟨x, y, z, w, rfl⟩

theorem struct_good (hr : PropGood rec) {k : String} {j : J} {v : StructPropertyValue}
    (h : StructPropertyValue.ofVariant rec k j = some v) : StructMaps v := by
  unfold StructPropertyValue.ofVariant at h
  rcases ite_some h with h | h
  · obtain ⟨_, _, rfl⟩ := get2_some h; simp only [StructMaps]
  rcases ite_some h with h | h
  · obtain ⟨_, _, rfl⟩ := get2_some h; simp only [StructMaps]
  rcases ite_some h with h | h
  · obtain ⟨_, _, _, rfl⟩ := get3_some h; simp only [StructMaps]
  rcases ite_some h with h | h
  · obtain ⟨_, _, _, rfl⟩ := get3_some h; simp only [StructMaps]
  rcases ite_some h with h | h
  · obtain ⟨_, _, _, rfl⟩ := get3_some h; simp only [StructMaps]
  rcases ite_some h with h | h
  · obtain ⟨_, _, _, rfl⟩ := get3_some h; simp only [StructMaps]
  rcases ite_some h with h | h
  · obtain ⟨_, _, _, _, rfl⟩ := get4_some h; simp only [StructMaps]
  rcases ite_some h with h | h
  · obtain ⟨_, _, _, _, rfl⟩ := get4_some h; simp only [StructMaps]
  rcases ite_some h with h | h
  · simp only [Option.map_eq_some_iff] at h; obtain ⟨_, _, rfl⟩ := h; simp only [StructMaps]
  rcases ite_some h with h | h
  · simp only [Option.map_eq_some_iff] at h; obtain ⟨_, _, rfl⟩ := h; simp only [StructMaps]
  rcases ite_some h with h | h
  · simp only [Option.map_eq_some_iff] at h; obtain ⟨_, _, rfl⟩ := h; simp only [StructMaps]
  rcases ite_some h with h | h
  · obtain ⟨_, _, _, _, rfl⟩ := get4_some h; simp only [StructMaps]
  rcases ite_some h with h | h
  · obtain ⟨_, _, rfl⟩ := get2_some h; simp only [StructMaps]
  rcases ite_some h with h | h
  · simp only [Option.map_eq_some_iff] at h; obtain ⟨_, _, rfl⟩ := h; simp only [StructMaps]
  rcases ite_some h with h | h
  · simp only [Option.map_eq_some_iff] at h
    obtain ⟨fs, hf, rfl⟩ := h
    simp only [StructMaps]
    obtain ⟨h1, h2⟩ := getStrMap_distinct hf
    refine ⟨h1, ?_⟩
    rw [FieldsMaps_iff]
    intro e he p hp
    obtain ⟨j', hj'⟩ := h2 e he
    obtain ⟨j'', hj''⟩ := getArr_mem hj' p hp
    exact hr j'' p hj''
  · exact absurd h (by simp)

theorem structOfJ_good (hr : PropGood rec) {j : J} {v : StructPropertyValue}
    (h : StructPropertyValue.ofJ rec j = some v) : StructMaps v := by
  unfold StructPropertyValue.ofJ at h
  split at h
  · exact struct_good hr h
  · exact absurd h (by simp)

theorem orElse_some {a b : Option α} {x : α} (h : (a <|> b) = some x) :
    a = some x ∨ b = some x := by
  cases a with
  | none => exact .inr h
  | some y => exact .inl h

theorem array_good (hr : PropGood rec) {es : List (String × J)} {v : ArrayProperty}
    (h : ArrayProperty.ofEntries rec es = some v) : ArrayMaps v := by
  unfold ArrayProperty.ofEntries at h
  rcases orElse_some h with h | h
  · simp only [Option.map_eq_some_iff] at h; obtain ⟨_, _, rfl⟩ := h; simp only [ArrayMaps]
  rcases orElse_some h with h | h
  · simp only [Option.map_eq_some_iff] at h; obtain ⟨_, _, rfl⟩ := h; simp only [ArrayMaps]
  rcases orElse_some h with h | h
  · simp only [Option.map_eq_some_iff] at h; obtain ⟨_, _, rfl⟩ := h; simp only [ArrayMaps]
  rcases orElse_some h with h | h
  · simp only [Option.map_eq_some_iff] at h; obtain ⟨_, _, rfl⟩ := h; simp only [ArrayMaps]
  rcases orElse_some h with h | h
  · simp only [Option.map_eq_some_iff] at h; obtain ⟨_, _, rfl⟩ := h; simp only [ArrayMaps]
  rcases orElse_some h with h | h
  · simp only [Option.map_eq_some_iff] at h; obtain ⟨_, _, rfl⟩ := h; simp only [ArrayMaps]
  rcases orElse_some h with h | h
  · simp only [Option.map_eq_some_iff] at h; obtain ⟨_, _, rfl⟩ := h; simp only [ArrayMaps]
  rcases orElse_some h with h | h
  · simp only [Option.bind_eq_bind, Option.pure_def, Option.bind_eq_some_iff,
      Option.some.injEq] at h
    obtain ⟨_, _, _, _, _, _, l, hl, rfl⟩ := h
    simp only [ArrayMaps]
    rw [StructsMaps_iff]
    intro v hv
    obtain ⟨j, hj⟩ := field_some hl
    obtain ⟨j', hj'⟩ := getArr_mem hj v hv
    exact structOfJ_good hr hj'
  · simp only [Option.bind_eq_bind, Option.pure_def, Option.bind_eq_some_iff,
      Option.some.injEq] at h
    obtain ⟨_, _, l, hl, rfl⟩ := h
    simp only [ArrayMaps]
    exact props_good hr hl

theorem map_good (hr : PropGood rec) {es : List (String × J)} {v : MapProperty}
    (h : MapProperty.ofEntries rec es = some v) : MapMaps v := by
  have hk : ∀ {α : Type} {k : String} {d : J → Option α} {m : List (String × α)},
      field es k (J.getStrMap d) = some m → KeysDistinct m := fun h => by
    obtain ⟨j, hj⟩ := field_some h
    exact (getStrMap_distinct hj).1
  unfold MapProperty.ofEntries at h
  rcases orElse_some h with h | h
  · simp only [Option.map_eq_some_iff] at h; obtain ⟨_, hx, rfl⟩ := h; simp only [MapMaps]
    exact hk hx
  rcases orElse_some h with h | h
  · simp only [Option.map_eq_some_iff] at h; obtain ⟨_, hx, rfl⟩ := h; simp only [MapMaps]
    exact hk hx
  rcases orElse_some h with h | h
  · simp only [Option.bind_eq_bind, Option.pure_def, Option.bind_eq_some_iff,
      Option.some.injEq] at h
    obtain ⟨_, _, _, hx, rfl⟩ := h
    simp only [MapMaps]; exact values_good hr hx
  rcases orElse_some h with h | h
  · simp only [Option.map_eq_some_iff] at h; obtain ⟨_, hx, rfl⟩ := h; simp only [MapMaps]
    exact hk hx
  rcases orElse_some h with h | h
  · simp only [Option.map_eq_some_iff] at h; obtain ⟨_, hx, rfl⟩ := h; simp only [MapMaps]
    exact hk hx
  rcases orElse_some h with h | h
  · simp only [Option.bind_eq_bind, Option.pure_def, Option.bind_eq_some_iff,
      Option.some.injEq] at h
    obtain ⟨_, _, _, hx, rfl⟩ := h
    simp only [MapMaps]; exact values_good hr hx
  rcases orElse_some h with h | h
  · simp only [Option.bind_eq_bind, Option.pure_def, Option.bind_eq_some_iff,
      Option.some.injEq] at h
    obtain ⟨_, _, _, _, _, _, l, hl, rfl⟩ := h
    simp only [MapMaps]
    refine ⟨imExtend_distinct l [] (by simp), ?_⟩
    rw [EntriesMaps_iff]
    refine imExtend_forall (Pk := MapsDistinct) (Pv := MapsDistinct) l [] (by simp) ?_
    intro e he
    obtain ⟨j, hj⟩ := field_some hl
    obtain ⟨j', hj'⟩ := getArr_mem hj e he
    unfold J.getPair at hj'
    split at hj'
    · simp only [Option.bind_eq_bind, Option.pure_def, Option.bind_eq_some_iff,
        Option.some.injEq] at hj'
      obtain ⟨a, ha, b, hb, rfl⟩ := hj'
      exact ⟨hr _ _ ha, hr _ _ hb⟩
    · exact absurd hj' (by simp)
  rcases orElse_some h with h | h
  · simp only [Option.map_eq_some_iff] at h; obtain ⟨_, hx, rfl⟩ := h; simp only [MapMaps]
    exact hk hx
  rcases orElse_some h with h | h
  · simp only [Option.map_eq_some_iff] at h; obtain ⟨_, hx, rfl⟩ := h; simp only [MapMaps]
    exact hk hx
  rcases orElse_some h with h | h
  · simp only [Option.bind_eq_bind, Option.pure_def, Option.bind_eq_some_iff,
      Option.some.injEq] at h
    obtain ⟨_, _, _, hx, rfl⟩ := h
    simp only [MapMaps]; exact values_good hr hx
  · simp only [Option.map_eq_some_iff] at h; obtain ⟨_, hx, rfl⟩ := h; simp only [MapMaps]
    exact hk hx

theorem step_good {text : List (String × J) → Option FText}
    (ht : ∀ es t, text es = some t → TextMaps t) (hr : PropGood rec) {es : List (String × J)}
    {tag : String} {p : Property} (h : Property.ofTag text rec es tag = some p) :
    MapsDistinct p := by
  unfold Property.ofTag at h
  rcases ite_some h with h | h
  · simp only [Option.bind_eq_bind, Option.pure_def, Option.bind_eq_some_iff, Option.some.injEq] at h
    obtain ⟨_, hx, rfl⟩ := h; simp only [MapsDistinct]; exact array_good hr hx
  rcases ite_some h with h | h
  · simp only [Option.bind_eq_bind, Option.pure_def, Option.bind_eq_some_iff, Option.some.injEq] at h
    obtain ⟨_, hx, rfl⟩ := h; simp only [MapsDistinct]
  rcases ite_some h with h | h
  · simp only [Option.bind_eq_bind, Option.pure_def, Option.bind_eq_some_iff, Option.some.injEq] at h
    obtain ⟨_, _, _, _, rfl⟩ := h; simp only [MapsDistinct]
  rcases ite_some h with h | h
  · simp only [Option.bind_eq_bind, Option.pure_def, Option.bind_eq_some_iff, Option.some.injEq] at h
    obtain ⟨_, hx, rfl⟩ := h; simp only [MapsDistinct]
  rcases ite_some h with h | h
  · simp only [Option.bind_eq_bind, Option.pure_def, Option.bind_eq_some_iff, Option.some.injEq] at h
    obtain ⟨_, _, _, _, rfl⟩ := h; simp only [MapsDistinct]
  rcases ite_some h with h | h
  · simp only [Option.bind_eq_bind, Option.pure_def, Option.bind_eq_some_iff, Option.some.injEq] at h
    obtain ⟨_, hx, rfl⟩ := h; simp only [MapsDistinct]
  rcases ite_some h with h | h
  · simp only [Option.bind_eq_bind, Option.pure_def, Option.bind_eq_some_iff, Option.some.injEq] at h
    obtain ⟨_, hx, rfl⟩ := h; simp only [MapsDistinct]
  rcases ite_some h with h | h
  · simp only [Option.bind_eq_bind, Option.pure_def, Option.bind_eq_some_iff, Option.some.injEq] at h
    obtain ⟨_, hx, rfl⟩ := h; simp only [MapsDistinct]
  rcases ite_some h with h | h
  · simp only [Option.bind_eq_bind, Option.pure_def, Option.bind_eq_some_iff, Option.some.injEq] at h
    obtain ⟨_, hx, rfl⟩ := h; simp only [MapsDistinct]
  rcases ite_some h with h | h
  · simp only [Option.bind_eq_bind, Option.pure_def, Option.bind_eq_some_iff, Option.some.injEq] at h
    obtain ⟨_, hx, rfl⟩ := h; simp only [MapsDistinct]
  rcases ite_some h with h | h
  · simp only [Option.bind_eq_bind, Option.pure_def, Option.bind_eq_some_iff, Option.some.injEq] at h
    obtain ⟨_, hx, rfl⟩ := h; simp only [MapsDistinct]; exact map_good hr hx
  rcases ite_some h with h | h
  · simp only [Option.bind_eq_bind, Option.pure_def, Option.bind_eq_some_iff, Option.some.injEq] at h
    obtain ⟨_, _, _, _, rfl⟩ := h; simp only [MapsDistinct]
  rcases ite_some h with h | h
  · simp only [Option.bind_eq_bind, Option.pure_def, Option.bind_eq_some_iff, Option.some.injEq] at h
    obtain ⟨_, hx, rfl⟩ := h; simp only [MapsDistinct]
  rcases ite_some h with h | h
  · simp only [Option.bind_eq_bind, Option.pure_def, Option.bind_eq_some_iff, Option.some.injEq] at h
    obtain ⟨_, hx, rfl⟩ := h; simp only [MapsDistinct]
  rcases ite_some h with h | h
  · simp only [Option.bind_eq_bind, Option.pure_def, Option.bind_eq_some_iff, Option.some.injEq] at h
    obtain ⟨_, hx, rfl⟩ := h; simp only [MapsDistinct]
  rcases ite_some h with h | h
  · simp only [Option.bind_eq_bind, Option.pure_def, Option.bind_eq_some_iff, Option.some.injEq] at h
    obtain ⟨_, hx, rfl⟩ := h; simp only [MapsDistinct]
  rcases ite_some h with h | h
  · simp only [Option.bind_eq_bind, Option.pure_def, Option.bind_eq_some_iff, Option.some.injEq] at h
    obtain ⟨_, hx, rfl⟩ := h; simp only [MapsDistinct]
  rcases ite_some h with h | h
  · simp only [Option.bind_eq_bind, Option.pure_def, Option.bind_eq_some_iff, Option.some.injEq] at h
    obtain ⟨_, _, _, _, _, hx, rfl⟩ := h; simp only [MapsDistinct]; exact props_good hr hx
  rcases ite_some h with h | h
  · simp only [Option.bind_eq_bind, Option.pure_def, Option.bind_eq_some_iff, Option.some.injEq] at h
    obtain ⟨_, hx, rfl⟩ := h; simp only [MapsDistinct]
  rcases ite_some h with h | h
  · simp only [Option.bind_eq_bind, Option.pure_def, Option.bind_eq_some_iff, Option.some.injEq] at h
    obtain ⟨_, _, _, _, _, hx, rfl⟩ := h; simp only [MapsDistinct]
    simp only [StructPropertyValue.ofFlat, Option.bind_eq_bind, Option.bind_eq_some_iff] at hx
    obtain ⟨_, _, hx⟩ := hx
    exact struct_good hr hx
  rcases ite_some h with h | h
  · simp only [Option.bind_eq_bind, Option.pure_def, Option.bind_eq_some_iff, Option.some.injEq] at h
    obtain ⟨_, hx, rfl⟩ := h; simp only [MapsDistinct]; exact structOfJ_good hr hx
  rcases ite_some h with h | h
  · simp only [Option.bind_eq_bind, Option.pure_def, Option.bind_eq_some_iff, Option.some.injEq] at h
    obtain ⟨_, hx, rfl⟩ := h; simp only [MapsDistinct]; exact ht _ _ hx
  rcases ite_some h with h | h
  · simp only [Option.bind_eq_bind, Option.pure_def, Option.bind_eq_some_iff, Option.some.injEq] at h
    obtain ⟨_, hx, rfl⟩ := h; simp only [MapsDistinct]
  rcases ite_some h with h | h
  · simp only [Option.bind_eq_bind, Option.pure_def, Option.bind_eq_some_iff, Option.some.injEq] at h
    obtain ⟨_, hx, rfl⟩ := h; simp only [MapsDistinct]
  rcases ite_some h with h | h
  · simp only [Option.bind_eq_bind, Option.pure_def, Option.bind_eq_some_iff, Option.some.injEq] at h
    obtain ⟨_, hx, rfl⟩ := h; simp only [MapsDistinct]
  rcases ite_some h with h | h
  · simp only [Option.bind_eq_bind, Option.pure_def, Option.bind_eq_some_iff, Option.some.injEq] at h
    obtain ⟨_, _, _, _, rfl⟩ := h; simp only [MapsDistinct]
  exact absurd h (by simp)

theorem property_good : ∀ n, PropGood (Property.ofJ n) := by
  intro n
  induction n with
  | zero => intro j p h; simp [Property.ofJ] at h
  | succ n ih =>
    intro j p h
    simp only [Property.ofJ, Property.ofJStep, Option.bind_eq_some_iff] at h
    obtain ⟨r, _, h⟩ := h
    exact step_good (text_good (n + 1)) ih h

theorem property_good_json : ∀ n, PropGood (Property.ofJson n)
  | 0 => fun j p h => by simp [Property.ofJson] at h
  | n + 1 => fun j p h => by
    simp only [Property.ofJson, Property.ofJStep, Option.bind_eq_some_iff] at h
    obtain ⟨r, _, h⟩ := h
    exact step_good (text_good (n + 1)) (property_good n) h

theorem customVersions_good {es : List (String × J)} {k : String} {cv : List (Guid × UInt32)}
    (h : field es k J.getCustomVersions = some cv) : (cv.map Prod.fst).Nodup := by
  obtain ⟨j, hj⟩ := field_some h
  exact (getMap_some hj).1.imp fun h => by simpa using h

theorem header_good {j : J} {hd : GvasHeader} (h : GvasHeader.ofJ j = some hd) :
    (hd.customVersions.map Prod.fst).Nodup := by
  simp only [GvasHeader.ofJ, Option.bind_eq_some_iff] at h
  obtain ⟨⟨tag, es⟩, _, h⟩ := h
  unfold GvasHeader.ofTag at h
  rcases ite_some h with h | h
  · simp only [Option.bind_eq_bind, Option.pure_def, Option.bind_eq_some_iff, Option.some.injEq] at h
    obtain ⟨_, _, _, _, _, _, _, hx, _, _, rfl⟩ := h
    exact customVersions_good hx
  rcases ite_some h with h | h
  · simp only [Option.bind_eq_bind, Option.pure_def, Option.bind_eq_some_iff, Option.some.injEq] at h
    obtain ⟨_, _, _, _, _, _, _, _, _, hx, _, _, rfl⟩ := h
    exact customVersions_good hx
  exact absurd h (by simp)

theorem file_good {j : J} {f : GvasFile} (h : GvasFile.ofJson j = some f) : FileMaps f := by
  simp only [GvasFile.ofJson, Option.bind_eq_bind, Option.pure_def, Option.bind_eq_some_iff,
    Option.some.injEq] at h
  obtain ⟨_, _, _, _, _, h1, _, h2, rfl⟩ := h
  obtain ⟨_, h1⟩ := field_some h1
  obtain ⟨h3, h4⟩ := values_good (property_good_json _) h2
  exact ⟨header_good h1, h3, (ValuesMaps_iff _).1 h4⟩

end Gvas.Js
