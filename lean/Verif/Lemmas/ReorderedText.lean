import Verif.Lemmas.Reordered

/-! # Reading texts and small values with the entries of objects in another order -/

namespace Gvas.Reord

open Spec Js

variable {α β : Type}

/-! ## Objects that are read by the names of their entries -/

/-- What is read depends only on which value has which name. -/
def ByName (d : J → Option α) : Prop :=
  ∀ es es' : List (String × J), (∀ k, es'.lookup k = es.lookup k) → d (.obj es') = d (.obj es)

theorem byName_rigid {d : J → Option α} (hd : ByName d) {es : List (String × J)}
    (hn : (es.map Prod.fst).Nodup) (hr : ∀ m, ReorderedValues es m → m = es) {j : J}
    (hj : Reordered (.obj es) j) : d j = d (.obj es) := by
  obtain ⟨m, l', rfl, hm, hp⟩ := obj_iff.mp hj
  cases hr m hm
  exact hd _ _ (lookup_perm hp hn)

theorem options_byName : ByName J.getOptions := fun es es' h => by
  simp only [J.getOptions, J.getEntries, Option.bind_eq_bind, Option.bind_some, field_eq, h]

theorem ticks_byName : ByName J.getTicks := fun es es' h => by
  simp only [J.getTicks, J.getFields, Option.bind_eq_bind, Option.bind_some, field_eq, h]

theorem delegate_byName : ByName J.getDelegate := fun es es' h => by
  simp only [J.getDelegate, J.getFields, Option.bind_eq_bind, Option.bind_some, field_eq, h]

theorem fieldPath_byName : ByName J.getFieldPath := fun es es' h => by
  simp only [J.getFieldPath, J.getFields, Option.bind_eq_bind, Option.bind_some, field_eq, h]

theorem engine_byName : ByName J.getEngineVersion := fun es es' h => by
  simp only [getEngineVersion_obj, field_eq, h]

theorem get2_byName (d : J → Option α) (a b : String) (f : α → α → β) :
    ByName (J.get2 d a b f) := fun es es' h => by
  simp only [J.get2, J.getFields, Option.bind_eq_bind, Option.bind_some, field_eq, h]

theorem get3_byName (d : J → Option α) (a b c : String) (f : α → α → α → β) :
    ByName (J.get3 d a b c f) := fun es es' h => by
  simp only [J.get3, J.getFields, Option.bind_eq_bind, Option.bind_some, field_eq, h]

theorem get4_byName (d : J → Option α) (a b c e : String) (f : α → α → α → α → β) :
    ByName (J.get4 d a b c e f) := fun es es' h => by
  simp only [J.get4, J.getFields, Option.bind_eq_bind, Option.bind_some, field_eq, h]

theorem options_back {o : NumberFormattingOptions} {j : J} (h : Reordered o.toJ j) :
    J.getOptions j = some o := by
  rw [← getOptions_toJ o]
  exact byName_rigid options_byName (by simp) (fun m hm => by
    simpa [values_cons, values_nil, bool_iff, str_iff, int_iff] using hm) h

theorem ticks_back {t : UInt64} {j : J} (h : Reordered (ticksJ t) j) : J.getTicks j = some t := by
  rw [← getTicks_ticksJ t]
  exact byName_rigid ticks_byName (by simp) (fun m hm => by
    simpa [values_cons, values_nil, int_iff] using hm) h

theorem delegate_back {v : Delegate} {j : J} (h : Reordered v.toJ j) : J.getDelegate j = some v := by
  rw [← getDelegate_toJ v]
  exact byName_rigid delegate_byName (by simp) (fun m hm => by
    simpa [values_cons, values_nil, str_iff] using hm) h

theorem fieldPath_back {v : FieldPath} {j : J} (h : Reordered v.toJ j) :
    J.getFieldPath j = some v := by
  rw [← getFieldPath_toJ v]
  refine byName_rigid fieldPath_byName (by simp) (fun m hm => ?_) h
  simp only [values_cons, values_nil, str_iff] at hm
  obtain ⟨b, _, rfl, h1, _, _, rfl, rfl, rfl⟩ := hm
  rw [arr_map (fun _ _ => str_iff.mp) h1]

theorem engine_back {v : FEngineVersion} {j : J} (h : Reordered v.toJ j) :
    J.getEngineVersion j = some v := by
  rw [← getEngineVersion_toJ v]
  exact byName_rigid engine_byName (by simp) (fun m hm => by
    simpa [values_cons, values_nil, str_iff, int_iff] using hm) h

theorem all_eq {l m : List α} (h : Pairs (fun a b => b = a) l m) : m = l := by
  induction h with
  | nil => rfl
  | cons h _ ih => rw [h, ih]

theorem multicast_back {ds : List Delegate} {j : J} (h : Reordered (multicastJ ds) j) :
    J.getMulticast j = some ds := by
  obtain ⟨m, l', rfl, hm, hp⟩ := obj_iff.mp h
  simp only [values_cons, values_nil] at hm
  obtain ⟨b, _, rfl, h1, rfl⟩ := hm
  rw [(List.singleton_perm.mp hp).symm]
  obtain ⟨xs, h2, h3⟩ := getArr_pairs (d := J.getDelegate) (R := fun a b => b = a) ds
    (fun v _ j hj => ⟨v, delegate_back hj, rfl⟩) h1
  rw [all_eq h3] at h2
  show (Option.some [("delegates", b)]).bind
    (fun es => field es "delegates" (J.getArr J.getDelegate)) = _
  rw [Option.bind_some, field_head, h2]

/-! ## Texts -/

/-- What is read for a text: an equal one, and the same if there are no maps in it. -/
def TextLike (t t' : FText) : Prop :=
  t.tree.eqv t'.tree = true ∧ TextMaps t' ∧ (TextMapless t → t' = t)
/-- What is read for a history. -/
def HistoryLike (t t' : FTextHistory) : Prop :=
  t.tree.eqv t'.tree = true ∧ HistoryMaps t' ∧ (HistoryMapless t → t' = t)
/-- What is read for an argument. -/
def ArgLike (t t' : FormatArgumentValue) : Prop :=
  t.tree.eqv t'.tree = true ∧ ArgMaps t' ∧ (ArgMapless t → t' = t)

theorem historyLike_refl {h : FTextHistory} (hm : HistoryMaps h) : HistoryLike h h :=
  ⟨Tree.eqv_refl _ (history_distinct h hm), hm, fun _ => rfl⟩
theorem argLike_refl {v : FormatArgumentValue} (hm : ArgMaps v) : ArgLike v v :=
  ⟨Tree.eqv_refl _ (arg_distinct v hm), hm, fun _ => rfl⟩

/-- `rec` reads texts less deep than `n`. -/
def TextRead [FloatJ] (n : Nat) (rec : J → Option FText) : Prop :=
  ∀ t : FText, depthEntries t.entries < n → TextMaps t → textFinite t = true →
    ∀ j, Reordered (.obj t.entries) j → ∃ t', rec j = some t' ∧ TextLike t t'

theorem arg_read [FloatJ] [FloatBack] {n : Nat} {rec : J → Option FText} (hr : TextRead n rec)
    (v : FormatArgumentValue) (hd : v.toJ.depth ≤ n) (hm : ArgMaps v) (hf : argFinite v = true)
    (j : J) (hj : Reordered v.toJ j) :
    ∃ v', FormatArgumentValue.ofJ rec j = some v' ∧ ArgLike v v' := by
  cases v with
  | text t =>
    simp only [FormatArgumentValue.toJ, J.depth, depthEntries] at hd
    simp only [FormatArgumentValue.toJ] at hj
    obtain ⟨m, l', rfl, h1, hp⟩ := obj_iff.mp hj
    simp only [values_cons, values_nil] at h1
    obtain ⟨b, _, rfl, h1, rfl⟩ := h1
    rw [(List.singleton_perm.mp hp).symm]
    obtain ⟨t', h2, h3, h4, h5⟩ := hr t (by omega) hm hf b h1
    refine ⟨.text t', by simp [FormatArgumentValue.ofJ, h2], ?_, h4, fun h => by rw [h5 h]⟩
    simp only [FormatArgumentValue.tree, eqv_node_iff, eqvList_cons_iff, eqv_leaf_iff, h3,
      eqvList_nil, and_self]
  | _ =>
    refine ⟨_, ?_, argLike_refl hm⟩
    simp only [FormatArgumentValue.toJ] at hj
    obtain ⟨m, l', rfl, h1, hp⟩ := obj_iff.mp hj
    simp only [values_cons, values_nil, int_iff, f32_iff, f64_iff] at h1
    obtain ⟨b, _, rfl, rfl, rfl⟩ := h1
    rw [(List.singleton_perm.mp hp).symm]
    simp only [argFinite] at hf
    simp [FormatArgumentValue.ofJ, getI32_int, getU32_int, getI64_int,
      getU64_int, getF32_toJ, getF64_toJ, keep_map, keep_true, hf]

theorem args_iff (l m : List FormatArgumentValue) : eqvList (treeArgs l) (treeArgs m) = true ↔
    Pairs (fun a b => a.tree.eqv b.tree = true) l m := by
  induction l generalizing m with
  | nil =>
    cases m with
    | nil => exact ⟨fun _ => .nil, fun _ => rfl⟩
    | cons b m => exact ⟨fun h => by simp [treeArgs, eqvList] at h, fun h => by cases h⟩
  | cons a l ih =>
    cases m with
    | nil => exact ⟨fun h => by simp [treeArgs, eqvList] at h, fun h => by cases h⟩
    | cons b m =>
      rw [treeArgs, treeArgs, eqvList_cons_iff, ih]
      exact ⟨fun h => .cons h.1 h.2, fun h => by cases h with | cons h1 h2 => exact ⟨h1, h2⟩⟩

theorem pairs_right {r : α → β → Prop} {l : List α} {m : List β} (h : Pairs r l m) {P : β → Prop}
    (hr : ∀ a b, r a b → P b) : ∀ b ∈ m, P b := by
  induction h with
  | nil => simp
  | cons h _ ih =>
    intro b hb
    rcases List.mem_cons.mp hb with rfl | hb
    · exact hr _ _ h
    · exact ih b hb

theorem argsMapless_iff (l : List FormatArgumentValue) :
    ArgsMapless l ↔ ∀ v ∈ l, ArgMapless v := by
  induction l with
  | nil => simp [ArgsMapless]
  | cons a l ih => simp [ArgsMapless, ih]

theorem pairs_same {r : α → α → Prop} {l m : List α} (h : Pairs r l m) {P : α → Prop}
    (hr : ∀ a b, r a b → P a → b = a) (hp : ∀ a ∈ l, P a) : m = l := by
  induction h with
  | nil => rfl
  | cons h _ ih =>
    rw [hr _ _ h (hp _ (List.mem_cons_self ..)),
      ih fun a ha => hp a (List.mem_cons_of_mem _ ha)]

theorem args_read [FloatJ] [FloatBack] {n : Nat} {rec : J → Option FText} (hr : TextRead n rec)
    (l : List FormatArgumentValue) (hd : depthList (argsJ l) ≤ n) (hm : ArgsMaps l)
    (hf : argsFinite l = true) {j : J} (hj : Reordered (.arr (argsJ l)) j) :
    ∃ l', J.getArr (FormatArgumentValue.ofJ rec) j = some l' ∧
      eqvList (treeArgs l) (treeArgs l') = true ∧ ArgsMaps l' ∧ (ArgsMapless l → l' = l) := by
  rw [argsJ_eq] at hd hj
  rw [depthList_map] at hd
  rw [ArgsMaps_iff] at hm
  rw [argsFinite_eq, List.all_eq_true] at hf
  obtain ⟨xs, h1, h2⟩ := getArr_pairs (R := ArgLike) l
    (fun v hv j hj => arg_read hr v (hd v hv) (hm v hv) (hf v hv) j hj) hj
  refine ⟨xs, h1, (args_iff _ _).mpr (pairs_imp (fun _ _ h => h.1) h2),
    (ArgsMaps_iff _).mpr (pairs_right h2 fun _ _ h => h.2.1), fun h => ?_⟩
  exact pairs_same h2 (fun _ _ h => h.2.2) ((argsMapless_iff _).mp h)

theorem named_read [FloatJ] [FloatBack] {n : Nat} {rec : J → Option FText} (hr : TextRead n rec)
    (l : List (String × FormatArgumentValue)) (hd : depthEntries (namedArgsJ l) ≤ n)
    (hk : KeysDistinct l) (hm : NamedArgsMaps l) (hf : namedArgsFinite l = true) {j : J}
    (hj : Reordered (.obj (namedArgsJ l)) j) :
    ∃ l', J.getStrMap (FormatArgumentValue.ofJ rec) j = some l' ∧
      (Tree.umap (treeNamedArgs l)).eqv (.umap (treeNamedArgs l')) = true ∧ KeysDistinct l' ∧
      NamedArgsMaps l' := by
  rw [namedArgsJ_eq] at hd hj
  rw [depthEntries_map] at hd
  rw [NamedArgsMaps_iff] at hm
  rw [namedArgsFinite_eq, List.all_eq_true] at hf
  obtain ⟨p, xs, h1, h2, h3, h4⟩ := getStrMap_pairs (R := ArgLike) l hk
    (fun e he j hj => arg_read hr e.2 (hd e he) (hm e he) (hf e he) j hj) hj
  refine ⟨xs, h1, (named_iff hk h3).mpr ⟨p, h2, pairs_imp (fun _ _ h => ⟨h.1, h.2.1⟩) h4⟩, h3,
    (NamedArgsMaps_iff _).mpr fun e he => ?_⟩
  exact pairs_right h4 (P := fun e => ArgMaps e.2) (fun _ _ h => h.2.2.1) e (h2.mem_iff.mpr he)

theorem history_byName (rec : J → Option FText) {es es' : List (String × J)}
    (h : ∀ k, es'.lookup k = es.lookup k) :
    FTextHistory.ofEntries rec es' = FTextHistory.ofEntries rec es := by
  unfold FTextHistory.ofEntries
  rw [field_eq, field_eq, h]
  congr 1
  funext tag
  simp only [FTextHistory.ofTag, field_eq, optField_eq, h]

theorem text_byName (n : Nat) {es es' : List (String × J)}
    (h : ∀ k, es'.lookup k = es.lookup k) : FText.ofEntries n es' = FText.ofEntries n es := by
  cases n with
  | zero => rfl
  | succ n => simp only [FText.ofEntries, history_byName _ h, defaultField_eq, h]

theorem optionsE_values {o : Option NumberFormattingOptions} {m : List (String × J)} :
    ReorderedValues (optionsE o) m → (∀ es, es.lookup "format_options" = none →
      optField (m ++ es) "format_options" J.getOptions = some o) ∧
      ∀ k, k ≠ "format_options" → ∀ es : List (String × J), (m ++ es).lookup k = es.lookup k := by
  intro h
  cases o with
  | none =>
    rw [optionsE, values_nil] at h
    subst h
    exact ⟨fun es he => by simp [optField_eq, he], fun k _ es => rfl⟩
  | some o =>
    simp only [optionsE, values_cons, values_nil] at h
    obtain ⟨b, _, rfl, h1, rfl⟩ := h
    have hb := options_back h1
    refine ⟨fun es _ => ?_, fun k hk es => lookup_skip k _ _ _ hk⟩
    rw [List.cons_append, optField_head]
    cases b <;> first | (simp only [J.getOpt, hb]; rfl) | (cases hb)

theorem ticks_iff {t : UInt64} {j : J} : Reordered (ticksJ t) j ↔ j = ticksJ t := by
  refine ⟨fun h => ?_, fun h => h ▸ refl _⟩
  obtain ⟨m, l', rfl, hm, hp⟩ := obj_iff.mp h
  simp only [values_cons, values_nil, int_iff] at hm
  obtain ⟨b, _, rfl, rfl, rfl⟩ := hm
  rw [(List.singleton_perm.mp hp).symm, ticksJ]

theorem history_read [FloatJ] [FloatBack] {n : Nat} {rec : J → Option FText} (hr : TextRead n rec)
    (hb : TextBack n rec) (h : FTextHistory) (hd : depthEntries h.entries ≤ n) (hm : HistoryMaps h)
    (hf : historyFinite h = true) {m : List (String × J)} (hv : ReorderedValues h.entries m) :
    ∃ h', FTextHistory.ofEntries rec m = some h' ∧ HistoryLike h h' := by
  cases h with
  | namedFormat src args =>
    simp only [FTextHistory.entries, depthEntries, J.depth, HistoryMaps, Nat.max_le] at hd hm
    simp only [historyFinite, Bool.and_eq_true] at hf
    simp only [FTextHistory.entries, values_cons, values_nil, str_iff] at hv
    obtain ⟨_, _, rfl, rfl, b, _, rfl, h1, c, _, rfl, h2, rfl⟩ := hv
    obtain ⟨t', h3, h4, h5, -⟩ := hr src (by omega) hm.1 hf.1 b h1
    obtain ⟨a', h6, h7, h8, h9⟩ := named_read hr args (by omega) hm.2.1 hm.2.2 hf.2 h2
    refine ⟨.namedFormat t' a', ?_, ?_, ⟨h5, h8, h9⟩, fun h => h.elim⟩
    · simp only [history_of_tag, FTextHistory.ofTag, reduceIte, field_skip, field_head, ne_eq,
        not_false_eq_true, String.reduceEq, h3, h6]
      rfl
    · simp only [FTextHistory.tree, eqv_node_iff, eqvList_cons_iff, eqv_leaf_iff, h4, h7,
        eqvList_nil, and_self]
  | argumentFormat src args =>
    simp only [FTextHistory.entries, depthEntries, J.depth, HistoryMaps, Nat.max_le] at hd hm
    simp only [historyFinite, Bool.and_eq_true] at hf
    simp only [FTextHistory.entries, values_cons, values_nil, str_iff] at hv
    obtain ⟨_, _, rfl, rfl, b, _, rfl, h1, c, _, rfl, h2, rfl⟩ := hv
    obtain ⟨t', h3, h4, h5, -⟩ := hr src (by omega) hm.1 hf.1 b h1
    obtain ⟨a', h6, h7, h8, h9⟩ := named_read hr args (by omega) hm.2.1 hm.2.2 hf.2 h2
    refine ⟨.argumentFormat t' a', ?_, ?_, ⟨h5, h8, h9⟩, fun h => h.elim⟩
    · simp only [history_of_tag, FTextHistory.ofTag, reduceIte, field_skip, field_head, ne_eq,
        not_false_eq_true, String.reduceEq, h3, h6]
      rfl
    · simp only [FTextHistory.tree, eqv_node_iff, eqvList_cons_iff, eqv_leaf_iff, h4, h7,
        eqvList_nil, and_self]
  | orderedFormat src args =>
    simp only [FTextHistory.entries, depthEntries, J.depth, HistoryMaps, Nat.max_le] at hd hm
    simp only [historyFinite, Bool.and_eq_true] at hf
    simp only [FTextHistory.entries, values_cons, values_nil, str_iff] at hv
    obtain ⟨_, _, rfl, rfl, b, _, rfl, h1, c, _, rfl, h2, rfl⟩ := hv
    obtain ⟨t', h3, h4, h5, h5'⟩ := hr src (by omega) hm.1 hf.1 b h1
    obtain ⟨a', h6, h7, h8, h8'⟩ := args_read hr args (by omega) hm.2 hf.2 h2
    refine ⟨.orderedFormat t' a', ?_, ?_, ⟨h5, h8⟩, fun h => by rw [h5' h.1, h8' h.2]⟩
    · simp only [history_of_tag, FTextHistory.ofTag, reduceIte, field_skip, field_head, ne_eq,
        not_false_eq_true, String.reduceEq, h3, h6]
      rfl
    · simp only [FTextHistory.tree, eqv_node_iff, eqv_list_iff, eqvList_cons_iff, eqv_leaf_iff, h4,
        h7, eqvList_nil, and_self]
  | asNumber v o c =>
    simp only [FTextHistory.entries, depthEntries, HistoryMaps, Nat.max_le] at hd hm
    simp only [historyFinite] at hf
    simp only [FTextHistory.entries, values_cons, values_append, optE_iff, str_iff] at hv
    obtain ⟨_, _, rfl, rfl, b, _, rfl, h1, x, _, rfl, h2, rfl⟩ := hv
    obtain ⟨v', h3, h4, h5, h5'⟩ := arg_read hr v (by omega) hm hf b h1
    obtain ⟨h6, h7⟩ := optionsE_values h2
    have h8 := h6 (optE "target_culture" c) (optE_lookup _ _ _ (by decide))
    have h9 : optField (x ++ optE "target_culture" c) "target_culture" J.getStr = some c := by
      rw [optField_eq, h7 _ (by decide), ← optField_eq, optField_optE']
    refine ⟨.asNumber v' o c, ?_, ?_, h5, fun h => by rw [h5' h]⟩
    · simp only [history_of_tag, FTextHistory.ofTag, reduceIte, field_skip, field_head,
        optField_skip, ne_eq, not_false_eq_true, String.reduceEq, h3, h8, h9]
      rfl
    · simp only [FTextHistory.tree, eqv_node_iff, eqvList_cons_iff, eqv_leaf_iff, h4,
        eqvList_nil, and_self]
  | asPercent v o c =>
    simp only [FTextHistory.entries, depthEntries, HistoryMaps, Nat.max_le] at hd hm
    simp only [historyFinite] at hf
    simp only [FTextHistory.entries, values_cons, values_append, optE_iff, str_iff] at hv
    obtain ⟨_, _, rfl, rfl, b, _, rfl, h1, x, _, rfl, h2, rfl⟩ := hv
    obtain ⟨v', h3, h4, h5, h5'⟩ := arg_read hr v (by omega) hm hf b h1
    obtain ⟨h6, h7⟩ := optionsE_values h2
    have h8 := h6 (optE "target_culture" c) (optE_lookup _ _ _ (by decide))
    have h9 : optField (x ++ optE "target_culture" c) "target_culture" J.getStr = some c := by
      rw [optField_eq, h7 _ (by decide), ← optField_eq, optField_optE']
    refine ⟨.asPercent v' o c, ?_, ?_, h5, fun h => by rw [h5' h]⟩
    · simp only [history_of_tag, FTextHistory.ofTag, reduceIte, field_skip, field_head,
        optField_skip, ne_eq, not_false_eq_true, String.reduceEq, h3, h8, h9]
      rfl
    · simp only [FTextHistory.tree, eqv_node_iff, eqvList_cons_iff, eqv_leaf_iff, h4,
        eqvList_nil, and_self]
  | asCurrency a v o c =>
    simp only [FTextHistory.entries, depthEntries, depthEntries_append, HistoryMaps,
      Nat.max_le] at hd hm
    simp only [historyFinite] at hf
    simp only [FTextHistory.entries, values_cons, values_append, optE_iff, str_iff] at hv
    obtain ⟨_, _, rfl, rfl, _, _, rfl, rfl, b, _, rfl, h1, x, _, rfl, h2, rfl⟩ := hv
    obtain ⟨v', h3, h4, h5, h5'⟩ := arg_read hr v (by omega) hm hf b h1
    obtain ⟨h6, h7⟩ := optionsE_values h2
    have h8 := h6 (optE "target_culture" c) (optE_lookup _ _ _ (by decide))
    have h9 : optField (x ++ optE "target_culture" c) "target_culture" J.getStr = some c := by
      rw [optField_eq, h7 _ (by decide), ← optField_eq, optField_optE']
    have h10 : (x ++ optE "target_culture" c).lookup "currency_code" = none := by
      rw [h7 _ (by decide), optE_lookup _ _ _ (by decide)]
    refine ⟨.asCurrency a v' o c, ?_, ?_, h5, fun h => by rw [h5' h]⟩
    · simp only [history_of_tag, FTextHistory.ofTag, reduceIte, field_skip, field_head,
        field_optE_skip, optField_optE, optField_optE_skip, lookup_skip, h10,
        optField_skip, ne_eq, not_false_eq_true, String.reduceEq, h3, h8, h9]
      rfl
    · simp only [FTextHistory.tree, eqv_node_iff, eqvList_cons_iff, eqv_leaf_iff, h4,
        eqvList_nil, and_self]
  | transform src tt =>
    simp only [FTextHistory.entries, depthEntries, J.depth, HistoryMaps, Nat.max_le] at hd hm
    simp only [historyFinite] at hf
    simp only [FTextHistory.entries, values_cons, values_nil, str_iff] at hv
    obtain ⟨_, _, rfl, rfl, b, _, rfl, h1, _, _, rfl, rfl, rfl⟩ := hv
    obtain ⟨t', h3, h4, h5, h5'⟩ := hr src (by omega) hm hf b h1
    refine ⟨.transform t' tt, ?_, ?_, h5, fun h => by rw [h5' h]⟩
    · simp only [history_of_tag, FTextHistory.ofTag, reduceIte, field_skip, field_head, ne_eq,
        not_false_eq_true, String.reduceEq, h3, getTransform_json]
      rfl
    · simp only [FTextHistory.tree, eqv_node_iff, eqvList_cons_iff, eqv_leaf_iff, h4,
        eqvList_nil, and_self]
  | _ =>
    refine ⟨_, ?_, historyLike_refl hm⟩
    have e := history_back hb _ hd hm
    rw [hf] at e
    refine Eq.trans (congrArg _ ?_) e
    simpa [FTextHistory.entries, values_cons, values_append, values_nil, optE_iff, str_iff,
      ticks_iff] using hv

theorem lookup_names {l m : List (String × J)} (h : m.map Prod.fst = l.map Prod.fst) {k : String}
    (hl : l.lookup k = none) : m.lookup k = none := by
  induction l generalizing m with
  | nil => cases m with
    | nil => rfl
    | cons e m => simp at h
  | cons e l ih => cases m with
    | nil => simp at h
    | cons e' m =>
      obtain ⟨k1, j1⟩ := e
      obtain ⟨k2, j2⟩ := e'
      simp only [List.map_cons, List.cons.injEq] at h
      simp only [List.lookup_cons, h.1] at hl ⊢
      split at hl
      · cases hl
      · exact ih h.2 hl

theorem text_values [FloatJ] [FloatBack] (n : Nat)
    (hr : TextRead n fun j => j.getEntries.bind (FText.ofEntries n)) (t : FText)
    (hd : depthEntries t.entries < n + 1) (hm : TextMaps t) (hf : textFinite t = true)
    {m : List (String × J)} (hv : ReorderedValues t.entries m) :
    ∃ t', FText.ofEntries (n + 1) m = some t' ∧ TextLike t t' := by
  obtain ⟨flags, h⟩ := t
  simp only [FText.entries, depthEntries_append] at hd
  simp only [FText.entries, values_append, nonzeroE_iff] at hv
  obtain ⟨_, m, rfl, rfl, hv⟩ := hv
  obtain ⟨h', h1, h2, h3, h4⟩ := history_read hr (fun t h1 h2 => text_back n t h1 h2) h (by omega)
    (by simpa only [TextMaps] using hm) (by simpa only [textFinite] using hf) hv
  have hfl : m.lookup "flags" = none := by
    refine lookup_names (values_names hv) ?_
    cases h <;> simp only [FTextHistory.entries, lookup_skip, optE_lookup_append, optE_lookup,
        optionsE_lookup_append, List.append_assoc, ne_eq, not_false_eq_true, String.reduceEq,
        List.lookup_nil]
  refine ⟨.mk flags h', ?_, ?_, h3, fun h => by rw [h4 h]⟩
  · by_cases hz : flags = 0
    · subst hz
      simp only [nonzeroE, if_true, List.nil_append, FText.ofEntries, h1, defaultField_eq, hfl]
      rfl
    · simp only [nonzeroE, if_neg hz, List.cons_append, List.nil_append, FText.ofEntries, h1,
        defaultField_eq, List.lookup_cons_self, getU32_int,
        history_skip _ "flags" _ _ (Or.inl rfl)]
      rfl
  · simp only [FText.tree, eqv_node_iff, eqvList_cons_iff, eqv_leaf_iff, h2, eqvList_nil,
      and_self]

theorem property_names [FloatJ] {p : Property} (hm : MapsDistinct p) {es : List (String × J)}
    (h : p.toJ = .obj es) : (es.map Prod.fst).Nodup := by
  have := Text.toJ_once FloatJ.num p.toS (Sd.property_fine p hm)
  rw [Sd.property_toJ, h] at this
  exact this.1

theorem text_read [FloatJ] [FloatBack] :
    ∀ n, TextRead n fun j => j.getEntries.bind (FText.ofEntries n) := by
  intro n
  induction n with
  | zero => intro t h; omega
  | succ n ih =>
    intro t hd hm hf j hj
    obtain ⟨m, l', rfl, hv, hp⟩ := obj_iff.mp hj
    obtain ⟨t', h1, h2⟩ := text_values n ih t hd hm hf hv
    refine ⟨t', ?_, h2⟩
    have hn := property_names (p := .text t) hm rfl
    rw [List.map_cons, List.nodup_cons] at hn
    rw [← h1]
    exact text_byName _ (lookup_perm hp (values_names hv ▸ hn.2))

end Gvas.Reord
