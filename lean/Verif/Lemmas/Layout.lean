import Verif.Spec.Layout
import Verif.Lemmas.LastWins
import Verif.Lemmas.JsonKeys
import Verif.Props.Duplicates

/-! # Reading JSON is what the layout says -/

namespace Gvas.Layout

open Spec

variable {α β κ : Type}

/-- `d` reads exactly what `R` relates. -/
def Gets (d : J → Option α) (R : J → α → Prop) : Prop := ∀ j a, d j = some a ↔ R j a

theorem gets_bool : Gets J.getBool IsBool := by
  intro j a; cases j <;> simp [J.getBool, IsBool]

theorem gets_str : Gets J.getStr IsStr := by
  intro j a; cases j <;> simp [J.getStr, IsStr]

theorem gets_u8 : Gets J.getU8 IsU8 := fun j => (C71_unsigned j).1
theorem gets_u16 : Gets J.getU16 IsU16 := fun j => (C71_unsigned j).2.1
theorem gets_u32 : Gets J.getU32 IsU32 := fun j => (C71_unsigned j).2.2.1
theorem gets_u64 : Gets J.getU64 IsU64 := fun j => (C71_unsigned j).2.2.2
theorem gets_i8 : Gets J.getI8 IsI8 := fun j => (C71_signed j).1
theorem gets_i16 : Gets J.getI16 IsI16 := fun j => (C71_signed j).2.1
theorem gets_i32 : Gets J.getI32 IsI32 := fun j => (C71_signed j).2.2.1
theorem gets_i64 : Gets J.getI64 IsI64 := fun j => (C71_signed j).2.2.2
theorem gets_hex : Gets J.getHex IsHex := C71_bytes

theorem gets_f32 : Gets J.getF32 IsF32 := by
  intro j a
  constructor
  · intro h
    cases j with
    | int n => cases h; exact .int n
    | float d => cases h; exact .float d
    | _ => simp [J.getF32] at h
  · intro h; cases h <;> rfl

theorem gets_f64 : Gets J.getF64 IsF64 := by
  intro j a
  constructor
  · intro h
    cases j with
    | int n => cases h; exact .int n
    | float d => cases h; exact .float _
    | _ => simp [J.getF64] at h
  · intro h; cases h <;> rfl

theorem guidOfStr_iff (s : String) (g : Guid) : guidOfStr s = some g ↔ GuidText s g := by
  obtain ⟨core, h1, h2, -⟩ := C11_parse_exact_partial s.toList
  have : guidOfStr s = some g ↔ Guid.parse s.toList = .ok (some g) := by
    unfold guidOfStr
    cases Guid.parse s.toList with
    | ok x => simp
    | bad f => simp
  rw [this, h2]
  constructor
  · intro h; exact ⟨core, (h1 core).mpr rfl, h⟩
  · rintro ⟨c, hc, h⟩
    rw [(h1 c).mp hc] at h
    exact h

theorem gets_guid : Gets J.getGuid IsGuid := by
  intro j a
  cases j <;> simp [J.getGuid, J.getStr, IsGuid, guidOfStr_iff]

theorem field_iff {es : Fields} {k : String} {d : J → Option α} {R : J → α → Prop} {a : α}
    (h : Gets d R) : field es k d = some a ↔ Has es k R a := by
  simp only [field_eq, Option.bind_eq_some_iff, Has, h _ _]

theorem optField_iff {es : Fields} {k : String} {d : J → Option α} {R : J → α → Prop}
    {a : Option α} (h : Gets d R) : optField es k d = some a ↔ Maybe es k R a := by
  rw [optField_eq]
  constructor
  · intro h1
    split at h1
    · cases h1; exact .missing ‹_›
    · rename_i j hj
      unfold J.getOpt at h1
      split at h1
      · cases h1; exact .null hj
      · rename_i hn
        obtain ⟨x, hx, rfl⟩ := Option.map_eq_some_iff.mp h1
        exact .there hj (fun e => hn e) ((h _ _).mp hx)
  · intro h1
    cases h1 with
    | missing e => rw [e]
    | null e => rw [e]; rfl
    | there e hn hr =>
      rw [e]
      simp only [J.getOpt, (h _ _).mpr hr, Option.map_some]

theorem defaultField_iff {es : Fields} {k : String} {d : J → Option α} {R : J → α → Prop}
    {a₀ a : α} (h : Gets d R) : defaultField es k a₀ d = some a ↔ OrElse es k a₀ R a := by
  rw [defaultField_eq]
  constructor
  · intro h1
    split at h1
    · cases h1; exact .missing ‹_›
    · exact .there ‹_› ((h _ _).mp h1)
  · intro h1
    cases h1 with
    | missing e => rw [e]
    | there e hr => rw [e]; exact (h _ _).mpr hr

theorem gets_nullable {d : J → Option α} {R : J → α → Prop} (h : Gets d R) :
    Gets (J.getOpt d) (Nullable R) := by
  intro j a
  constructor
  · intro h1
    unfold J.getOpt at h1
    split at h1
    · cases h1; exact .null
    · rename_i hn
      obtain ⟨x, hx, rfl⟩ := Option.map_eq_some_iff.mp h1
      exact .some (fun e => hn e) ((h _ _).mp hx)
  · intro h1
    cases h1 with
    | null => rfl
    | some hn hr =>
      unfold J.getOpt
      split
      · exact absurd rfl hn
      · rw [(h _ _).mpr hr]; rfl

theorem mapM_iff {γ : Type} {d : γ → Option α} {R : γ → α → Prop} (h : ∀ j a, d j = some a ↔ R j a)
    (js : List γ) (l : List α) : js.mapM d = some l ↔ Each R js l := by
  induction js generalizing l with
  | nil =>
    simp only [List.mapM_nil, Option.pure_def, Option.some.injEq]
    constructor
    · rintro rfl; exact .nil
    · intro h; cases h; rfl
  | cons j js ih =>
    simp only [List.mapM_cons, Option.bind_eq_bind, Option.bind_eq_some_iff, Option.pure_def,
      Option.some.injEq]
    constructor
    · rintro ⟨a, ha, as, has, rfl⟩
      exact .cons ((h _ _).mp ha) ((ih _).mp has)
    · intro e
      cases e with
      | cons h1 h2 => exact ⟨_, (h _ _).mpr h1, _, (ih _).mpr h2, rfl⟩

theorem gets_arr {d : J → Option α} {R : J → α → Prop} (h : Gets d R) :
    Gets (J.getArr d) (Arr R) := by
  intro j l
  cases j <;> simp [J.getArr, Arr, mapM_iff h]

theorem gets_obj {d : Fields → Option α} {R : Fields → α → Prop}
    (h : ∀ es a, d es = some a ↔ R es a) : Gets (fun j => j.getEntries.bind d) (Obj R) := by
  intro j a
  cases j <;> simp [J.getEntries, Obj, h]

theorem getFields_iff {names : List String} {j : J} {es : Fields} :
    j.getFields names = some es ↔ FieldsOf names j es := by
  cases j <;> simp [J.getFields, FieldsOf, eq_comm]

theorem gets_rec {names : List String} {d : Fields → Option α} {R : Fields → α → Prop}
    (h : ∀ es a, d es = some a ↔ R es a) :
    Gets (fun j => (j.getFields names).bind d) (Rec names R) := by
  intro j a
  simp only [Option.bind_eq_some_iff, getFields_iff, h, Rec]

theorem gets_tag (kinds : List String) : Gets (J.getTag kinds) (IsTag kinds) := by
  intro j tag
  cases j with
  | int n =>
    cases n with
    | ofNat n =>
      simp only [J.getTag, IsTag, reduceCtorEq, J.int.injEq, false_or, Int.ofNat_eq_natCast,
        Int.ofNat_inj]
      exact ⟨fun h => ⟨n, rfl, h⟩, fun ⟨_, e, h⟩ => e ▸ h⟩
    | negSucc n =>
      simp only [J.getTag, IsTag, reduceCtorEq, J.int.injEq, false_or, false_iff, not_exists,
        not_and]
      intro m e
      exact absurd e (by simp)
  | _ => simp [J.getTag, IsTag]

theorem gets_tagged {key : String} {tagOf : J → Option String} {T : J → String → Prop}
    {names : String → Option (List String)} {forms : List (String × List String)}
    {d : String → Fields → Option α} {R : String → Fields → α → Prop} (ht : Gets tagOf T)
    (hn : ∀ tag es a, R tag es a → ∀ ns, names tag = some ns ↔ (tag, ns) ∈ forms)
    (hd : ∀ tag es a, d tag es = some a ↔ R tag es a) :
    Gets (fun j => (j.getTagged key tagOf names).bind fun r => d r.1 r.2)
      (Tagged key T forms R) := by
  intro j a
  cases j with
  | obj es =>
    simp only [getTagged_obj, Option.bind_eq_some_iff, Option.map_eq_some_iff, Tagged, Has, hd,
      ht _ _, J.obj.injEq, reduceCtorEq, false_and, exists_false, or_false]
    constructor
    · rintro ⟨_, ⟨t, h1, tag, h2, rfl⟩, h3⟩; exact ⟨es, tag, rfl, ⟨t, h1, h2⟩, h3⟩
    · rintro ⟨_, tag, rfl, ⟨t, h1, h2⟩, h3⟩; exact ⟨_, ⟨t, h1, tag, h2, rfl⟩, h3⟩
  | arr l =>
    cases l with
    | nil => simp [J.getTagged, Tagged]
    | cons t l =>
      simp only [J.getTagged, Option.bind_eq_some_iff, Option.map_eq_some_iff, Tagged, hd,
        ht _ _, J.arr.injEq, reduceCtorEq, false_and, exists_const, false_or, J.getFields,
        List.cons.injEq, Option.ite_none_right_eq_some, Option.some.injEq]
      constructor
      · rintro ⟨_, ⟨tag, h1, ns, h2, _, ⟨h3, rfl⟩, rfl⟩, h4⟩
        exact ⟨t, l, tag, ns, ⟨rfl, rfl⟩, h1, (hn _ _ _ h4 _).mp h2, h3, h4⟩
      · rintro ⟨_, _, tag, ns, ⟨rfl, rfl⟩, h1, h2, h3, h4⟩
        exact ⟨_, ⟨tag, h1, ns, (hn _ _ _ h4 _).mpr h2, _, ⟨h3, rfl⟩, rfl⟩, h4⟩
  | _ => simp [J.getTagged, Tagged]

theorem imExtend_iff {ν : Type} {same : κ → κ → Bool} (h : Equiv same) (es m : List (κ × ν)) :
    imExtend same [] es = m ↔ LastWins same es m :=
  ⟨fun e => e ▸ lastWins_imExtend h es, fun e => lastWins_unique (lastWins_imExtend h es) e⟩

theorem gets_map [BEq κ] [LawfulBEq κ] {dk : String → Option κ} {K : String → κ → Prop}
    {d : J → Option α} {R : J → α → Prop} (hk : ∀ s k, dk s = some k ↔ K s k) (h : Gets d R) :
    Gets (J.getMap (· == ·) dk d) (MapOf K R) := by
  intro j m
  have hd : ∀ (e : String × J) (x : κ × α),
      (do return (← dk e.1, ← d e.2) : Option (κ × α)) = some x ↔ K e.1 x.1 ∧ R e.2 x.2 := by
    intro e x
    simp only [Option.bind_eq_bind, Option.bind_eq_some_iff, Option.pure_def, Option.some.injEq, hk,
      h _ _]
    constructor
    · rintro ⟨a, ha, b, hb, rfl⟩; exact ⟨ha, hb⟩
    · rintro ⟨ha, hb⟩; exact ⟨_, ha, _, hb, rfl⟩
  cases j with
  | obj js =>
    simp only [J.getMap, Option.bind_eq_bind, Option.bind_eq_some_iff, Option.pure_def,
      Option.some.injEq, MapOf, J.obj.injEq]
    simp only [Option.bind_eq_bind, Option.pure_def] at hd
    constructor
    · rintro ⟨es, h1, h2⟩
      exact ⟨js, es, rfl, (mapM_iff hd js es).mp h1, (imExtend_iff equiv_beq _ _).mp h2⟩
    · rintro ⟨_, es, rfl, h1, h2⟩
      exact ⟨es, (mapM_iff hd _ es).mpr h1, (imExtend_iff equiv_beq _ _).mpr h2⟩
  | _ => simp [J.getMap, MapOf]

theorem gets_strMap {d : J → Option α} {R : J → α → Prop} (h : Gets d R) :
    Gets (J.getStrMap d) (StrMap R) :=
  gets_map (fun s k => by simp) h

theorem gets_pair {d : J → Option α} {R : J → α → Prop} (h : Gets d R) :
    Gets (J.getPair d) (Two R) := by
  intro j e
  constructor
  · intro h1
    unfold J.getPair at h1
    split at h1
    · simp only [Option.bind_eq_bind, Option.bind_eq_some_iff, Option.pure_def,
        Option.some.injEq, h _ _] at h1
      obtain ⟨x, hx, y, hy, rfl⟩ := h1
      exact ⟨_, _, rfl, hx, hy⟩
    · cases h1
  · rintro ⟨a, b, rfl, h1, h2⟩
    simp only [J.getPair, (h _ _).mpr h1, (h _ _).mpr h2]
    rfl

theorem variantOf_iff {l : List α} {name : α → String} {r : List (String × α)}
    (h : r = l.map fun a => (name a, a)) (hn : (l.map name).Nodup) (s : String) (a : α) :
    variantOf l name s = some a ↔ (s, a) ∈ r := by
  subst h
  unfold variantOf
  induction l with
  | nil => simp
  | cons x l ih =>
    simp only [List.map_cons, List.nodup_cons] at hn
    have ih := ih hn.2
    simp only [List.find?_cons]
    split
    · rename_i he
      simp only [beq_iff_eq] at he
      simp only [Option.some.injEq, List.map_cons, List.mem_cons, Prod.mk.injEq]
      constructor
      · rintro rfl; exact .inl ⟨he.symm, rfl⟩
      · rintro (⟨_, rfl⟩ | h)
        · rfl
        · obtain ⟨y, hy, e⟩ := List.mem_map.mp h
          cases e
          exact absurd (List.mem_map.mpr ⟨_, hy, he.symm⟩) hn.1
    · rename_i he
      simp only [beq_eq_false_iff_ne] at he
      rw [ih]
      simp only [List.map_cons, List.mem_cons, Prod.mk.injEq]
      constructor
      · exact .inr
      · rintro (⟨e, _⟩ | h)
        · exact absurd e.symm he
        · exact h

theorem gets_variant {b : Bool} {l : List α} {name : α → String} {r : List (String × α)}
    (h : r = l.map fun a => (name a, a)) (hn : (l.map name).Nodup) :
    Gets (J.getVariant b l name) (Named (if b then [.obj []] else []) r) := by
  intro j a
  have hv := variantOf_iff h hn
  constructor
  · intro h1
    unfold J.getVariant at h1
    split at h1
    · exact ⟨_, (hv _ _).mp h1, .inl rfl⟩
    · exact ⟨_, (hv _ _).mp h1, .inr (.inl rfl)⟩
    · cases b with
      | true => exact ⟨_, (hv _ _).mp h1, .inr (.inr ⟨_, by simp, rfl⟩)⟩
      | false => cases h1
    · cases h1
  · rintro ⟨s, h1, rfl | rfl | ⟨e, he, rfl⟩⟩
    · exact (hv _ _).mpr h1
    · exact (hv _ _).mpr h1
    · cases b with
      | true =>
        simp only [if_true, List.mem_singleton] at he
        subst he
        exact (hv _ _).mpr h1
      | false => simp at he

theorem gets_tagVariant {l : List α} {name : α → String} {r : List (String × α)}
    (h : r = l.map fun a => (name a, a)) (hn : (l.map name).Nodup) :
    Gets (J.getTagVariant l name) (Listed r) := by
  intro j a
  have hm : l.map name = r.map Prod.fst := by subst h; simp
  simp only [J.getTagVariant, Option.bind_eq_some_iff, gets_tag _ _ _, variantOf_iff h hn, Listed,
    hm]

theorem gets_rounding :
    Gets (J.getTagVariant RoundingMode.all RoundingMode.json) (Listed roundings) :=
  gets_tagVariant (by decide) (by decide)
theorem gets_style : Gets J.getStyle (Named [.obj []] styles) :=
  gets_variant (b := true) (by decide) (by decide)
theorem gets_transform : Gets (J.getTagVariant [.toLower, .toUpper] TransformType.json)
    (Listed transforms) := gets_tagVariant (by decide) (by decide)
theorem gets_compression : Gets (J.getVariant false [.none, .zlib, .zlibTwice]
    PalworldCompressionType.json) (Named [] compressions) :=
  gets_variant (b := false) (by decide) (by decide)

theorem gets_ticks : Gets J.getTicks IsTicks :=
  gets_rec fun _ _ => field_iff gets_u64

theorem gets_options : Gets J.getOptions IsOptions := by
  refine gets_obj (d := fun es => _) fun es o => ?_
  simp only [Option.bind_eq_bind, Option.bind_eq_some_iff, Option.pure_def, Option.some.injEq,
    field_iff gets_bool, field_iff gets_rounding, field_iff gets_i32]
  constructor
  · rintro ⟨a, ha, b, hb, c, hc, d, hd, e, he, f, hf, g, hg, rfl⟩
    exact ⟨ha, hb, hc, hd, he, hf, hg⟩
  · rintro ⟨ha, hb, hc, hd, he, hf, hg⟩
    exact ⟨_, ha, _, hb, _, hc, _, hd, _, he, _, hf, _, hg, rfl⟩

theorem gets_delegate : Gets J.getDelegate IsDelegate := by
  refine gets_rec (d := fun es => _) fun es o => ?_
  simp only [Option.bind_eq_bind, Option.bind_eq_some_iff, Option.pure_def, Option.some.injEq,
    field_iff gets_str]
  constructor
  · rintro ⟨a, ha, b, hb, rfl⟩; exact ⟨ha, hb⟩
  · rintro ⟨ha, hb⟩; exact ⟨_, ha, _, hb, rfl⟩

theorem gets_delegates : Gets J.getMulticast IsDelegates :=
  gets_rec fun _ _ => field_iff (gets_arr gets_delegate)

theorem gets_fieldPath : Gets J.getFieldPath IsFieldPath := by
  refine gets_rec (d := fun es => _) fun es o => ?_
  simp only [Option.bind_eq_bind, Option.bind_eq_some_iff, Option.pure_def, Option.some.injEq,
    field_iff gets_str, field_iff (gets_arr gets_str)]
  constructor
  · rintro ⟨a, ha, b, hb, rfl⟩; exact ⟨ha, hb⟩
  · rintro ⟨ha, hb⟩; exact ⟨_, ha, _, hb, rfl⟩

theorem gets_engineVersion : Gets J.getEngineVersion IsEngineVersion := by
  refine gets_rec (d := fun es => _) fun es o => ?_
  simp only [Option.bind_eq_bind, Option.bind_eq_some_iff, Option.pure_def, Option.some.injEq,
    field_iff gets_str, field_iff gets_u16, field_iff gets_u32]
  constructor
  · rintro ⟨a, ha, b, hb, c, hc, d, hd, e, he, rfl⟩; exact ⟨ha, hb, hc, hd, he⟩
  · rintro ⟨ha, hb, hc, hd, he⟩; exact ⟨_, ha, _, hb, _, hc, _, hd, _, he, rfl⟩

theorem ite_iff {c : Prop} [Decidable c] {a b : Option α} {x : α} :
    (if c then a else b) = some x ↔ (c ∧ a = some x) ∨ (¬ c ∧ b = some x) := by
  split <;> simp_all

/-! ## Texts -/

theorem gets_arg {rec : J → Option FText} {T : J → FText → Prop} (h : Gets rec T) :
    Gets (FormatArgumentValue.ofJ rec) (ArgJ T) := by
  intro j v
  constructor
  · intro h1
    unfold FormatArgumentValue.ofJ at h1
    split at h1
    · rename_i k j
      repeat' split at h1
      all_goals first
        | (cases h1; done)
        | (subst_vars; obtain ⟨x, hx, rfl⟩ := Option.map_eq_some_iff.mp h1
           first
             | exact .int ((gets_i32 _ _).mp hx)
             | exact .uint ((gets_u32 _ _).mp hx)
             | exact .float ((gets_f32 _ _).mp hx)
             | exact .double ((gets_f64 _ _).mp hx)
             | exact .text ((h _ _).mp hx)
             | exact .int64 ((gets_i64 _ _).mp hx)
             | exact .uint64 ((gets_u64 _ _).mp hx))
    · cases h1
  · intro h1
    cases h1 with
    | int hx => simp [FormatArgumentValue.ofJ, (gets_i32 _ _).mpr hx]
    | uint hx => simp [FormatArgumentValue.ofJ, (gets_u32 _ _).mpr hx]
    | float hx => simp [FormatArgumentValue.ofJ, (gets_f32 _ _).mpr hx]
    | double hx => simp [FormatArgumentValue.ofJ, (gets_f64 _ _).mpr hx]
    | text hx => simp [FormatArgumentValue.ofJ, (h _ _).mpr hx]
    | int64 hx => simp [FormatArgumentValue.ofJ, (gets_i64 _ _).mpr hx]
    | uint64 hx => simp [FormatArgumentValue.ofJ, (gets_u64 _ _).mpr hx]

theorem history_iff {rec : J → Option FText} {T : J → FText → Prop} (h : Gets rec T)
    (es : Fields) (v : FTextHistory) : FTextHistory.ofEntries rec es = some v ↔ HistoryJ T es v := by
  have ha := gets_arg h
  unfold FTextHistory.ofEntries
  rw [Option.bind_eq_some_iff]
  simp only [field_iff (gets_tag historyTags)]
  constructor
  · rintro ⟨tag, ht, h1⟩
    unfold FTextHistory.ofTag at h1
    simp only [ite_iff, Option.bind_eq_bind, Option.bind_eq_some_iff, Option.pure_def,
      Option.some.injEq, field_iff gets_str, optField_iff gets_str, field_iff h, field_iff ha,
      field_iff (gets_strMap ha), field_iff (gets_arr ha), optField_iff gets_options,
      field_iff gets_ticks, field_iff gets_style, field_iff gets_transform] at h1
    rcases h1 with ⟨rfl, h1⟩ | ⟨-, h1⟩
    · subst h1; exact .empty ht
    rcases h1 with ⟨rfl, h1⟩ | ⟨-, h1⟩
    · obtain ⟨_, h1, rfl⟩ := h1; exact .none ht h1
    rcases h1 with ⟨rfl, h1⟩ | ⟨-, h1⟩
    · obtain ⟨_, h1, _, h2, _, h3, rfl⟩ := h1; exact .base ht h1 h2 h3
    rcases h1 with ⟨rfl, h1⟩ | ⟨-, h1⟩
    · obtain ⟨_, h1, _, h2, rfl⟩ := h1; exact .namedFormat ht h1 h2
    rcases h1 with ⟨rfl, h1⟩ | ⟨-, h1⟩
    · obtain ⟨_, h1, _, h2, rfl⟩ := h1; exact .orderedFormat ht h1 h2
    rcases h1 with ⟨rfl, h1⟩ | ⟨-, h1⟩
    · obtain ⟨_, h1, _, h2, rfl⟩ := h1; exact .argumentFormat ht h1 h2
    rcases h1 with ⟨rfl, h1⟩ | ⟨-, h1⟩
    · obtain ⟨_, h1, _, h2, _, h3, rfl⟩ := h1; exact .asNumber ht h1 h2 h3
    rcases h1 with ⟨rfl, h1⟩ | ⟨-, h1⟩
    · obtain ⟨_, h1, _, h2, _, h3, rfl⟩ := h1; exact .asPercent ht h1 h2 h3
    rcases h1 with ⟨rfl, h1⟩ | ⟨-, h1⟩
    · obtain ⟨_, h1, _, h2, _, h3, _, h4, rfl⟩ := h1; exact .asCurrency ht h1 h2 h3 h4
    rcases h1 with ⟨rfl, h1⟩ | ⟨-, h1⟩
    · obtain ⟨_, h1, _, h2, _, h3, rfl⟩ := h1; exact .asDate ht h1 h2 h3
    rcases h1 with ⟨rfl, h1⟩ | ⟨-, h1⟩
    · obtain ⟨_, h1, _, h2, _, h3, _, h4, rfl⟩ := h1; exact .asTime ht h1 h2 h3 h4
    rcases h1 with ⟨rfl, h1⟩ | ⟨-, h1⟩
    · obtain ⟨_, h1, _, h2, _, h3, _, h4, _, h5, rfl⟩ := h1; exact .asDateTime ht h1 h2 h3 h4 h5
    rcases h1 with ⟨rfl, h1⟩ | ⟨-, h1⟩
    · obtain ⟨_, h1, _, h2, rfl⟩ := h1; exact .transform ht h1 h2
    rcases h1 with ⟨rfl, h1⟩ | ⟨-, h1⟩
    · obtain ⟨_, h1, _, h2, rfl⟩ := h1; exact .stringTableEntry ht h1 h2
    cases h1
  · intro h1
    cases h1
    all_goals
      refine ⟨_, ‹Kind es _›, ?_⟩
      simp only [FTextHistory.ofTag, String.reduceEq, if_true, if_false, Option.bind_eq_bind,
        Option.bind_eq_some_iff, Option.pure_def, Option.some.injEq,
        field_iff gets_str, optField_iff gets_str, field_iff h, field_iff ha,
        field_iff (gets_strMap ha), field_iff (gets_arr ha), optField_iff gets_options,
        field_iff gets_ticks, field_iff gets_style, field_iff gets_transform]
    all_goals first
      | rfl
      | exact ⟨_, ‹_›, rfl⟩
      | exact ⟨_, ‹_›, _, ‹_›, rfl⟩
      | exact ⟨_, ‹_›, _, ‹_›, _, ‹_›, rfl⟩
      | exact ⟨_, ‹_›, _, ‹_›, _, ‹_›, _, ‹_›, rfl⟩
      | exact ⟨_, ‹_›, _, ‹_›, _, ‹_›, _, ‹_›, _, ‹_›, rfl⟩

theorem text_iff : ∀ n es t, FText.ofEntries n es = some t ↔ TextJ n es t
  | 0, es, t => by simp [FText.ofEntries, TextJ]
  | n + 1, es, t => by
    have hr : Gets (fun j => j.getEntries.bind (FText.ofEntries n)) (Obj (TextJ n)) :=
      gets_obj fun es t => text_iff n es t
    simp only [FText.ofEntries, TextJ, Option.bind_eq_bind, Option.bind_eq_some_iff,
      Option.pure_def, Option.some.injEq, defaultField_iff gets_u32, history_iff hr]
    constructor
    · rintro ⟨f, hf, h, hh, rfl⟩; exact .mk hf hh
    · intro h
      cases h with
      | mk hf hh => exact ⟨_, hf, _, hh, rfl⟩

/-! ## Properties -/

section props

variable {rec : J → Option Property} {P : J → Property → Prop}

theorem get2_iff {d : J → Option α} {R : J → α → Prop} (h : Gets d R) {a b : String}
    {f : α → α → β} {j : J} {v : β} : j.get2 d a b f = some v ↔
      ∃ es x y, FieldsOf [a, b] j es ∧ v = f x y ∧ Has es a R x ∧ Has es b R y := by
  simp only [J.get2, Option.bind_eq_bind, Option.bind_eq_some_iff,
    Option.pure_def, Option.some.injEq, field_iff h, getFields_iff]
  constructor
  · rintro ⟨es, he, x, hx, y, hy, rfl⟩; exact ⟨_, _, _, he, rfl, hx, hy⟩
  · rintro ⟨_, x, y, he, rfl, hx, hy⟩; exact ⟨_, he, _, hx, _, hy, rfl⟩

theorem get3_iff {d : J → Option α} {R : J → α → Prop} (h : Gets d R) {a b c : String}
    {f : α → α → α → β} {j : J} {v : β} : j.get3 d a b c f = some v ↔
      ∃ es x y z, FieldsOf [a, b, c] j es ∧ v = f x y z ∧ Has es a R x ∧ Has es b R y ∧ Has es c R z := by
  simp only [J.get3, Option.bind_eq_bind, Option.bind_eq_some_iff,
    Option.pure_def, Option.some.injEq, field_iff h, getFields_iff]
  constructor
  · rintro ⟨es, he, x, hx, y, hy, z, hz, rfl⟩; exact ⟨_, _, _, _, he, rfl, hx, hy, hz⟩
  · rintro ⟨_, x, y, z, he, rfl, hx, hy, hz⟩; exact ⟨_, he, _, hx, _, hy, _, hz, rfl⟩

theorem get4_iff {d : J → Option α} {R : J → α → Prop} (h : Gets d R) {a b c e : String}
    {f : α → α → α → α → β} {j : J} {v : β} : j.get4 d a b c e f = some v ↔
      ∃ es x y z w, FieldsOf [a, b, c, e] j es ∧ v = f x y z w ∧ Has es a R x ∧ Has es b R y ∧ Has es c R z ∧
        Has es e R w := by
  simp only [J.get4, Option.bind_eq_bind, Option.bind_eq_some_iff,
    Option.pure_def, Option.some.injEq, field_iff h, getFields_iff]
  constructor
  · rintro ⟨es, he, x, hx, y, hy, z, hz, w, hw, rfl⟩; exact ⟨_, _, _, _, _, he, rfl, hx, hy, hz, hw⟩
  · rintro ⟨_, x, y, z, w, he, rfl, hx, hy, hz, hw⟩
    exact ⟨_, he, _, hx, _, hy, _, hz, _, hw, rfl⟩

theorem variant_iff (h : Gets rec P) (k : String) (j : J) (v : StructPropertyValue) :
    StructPropertyValue.ofVariant rec k j = some v ↔ Variant P k j v := by
  unfold StructPropertyValue.ofVariant
  simp only [ite_iff, Option.map_eq_some_iff, get2_iff gets_f32, get2_iff gets_f64,
    get2_iff gets_i32, get3_iff gets_f32, get3_iff gets_f64, get4_iff gets_f32, get4_iff gets_f64,
    gets_ticks _ _, gets_guid _ _, gets_arr gets_str _ _, gets_strMap (gets_arr h) _ _]
  constructor
  · intro h1
    rcases h1 with ⟨rfl, _, _, _, he, rfl, h1, h2⟩ | ⟨-, h1⟩
    · exact .vector2F he h1 h2
    rcases h1 with ⟨rfl, _, _, _, he, rfl, h1, h2⟩ | ⟨-, h1⟩
    · exact .vector2D he h1 h2
    rcases h1 with ⟨rfl, _, _, _, _, he, rfl, h1, h2, h3⟩ | ⟨-, h1⟩
    · exact .vectorF he h1 h2 h3
    rcases h1 with ⟨rfl, _, _, _, _, he, rfl, h1, h2, h3⟩ | ⟨-, h1⟩
    · exact .vectorD he h1 h2 h3
    rcases h1 with ⟨rfl, _, _, _, _, he, rfl, h1, h2, h3⟩ | ⟨-, h1⟩
    · exact .rotatorF he h1 h2 h3
    rcases h1 with ⟨rfl, _, _, _, _, he, rfl, h1, h2, h3⟩ | ⟨-, h1⟩
    · exact .rotatorD he h1 h2 h3
    rcases h1 with ⟨rfl, _, _, _, _, _, he, rfl, h1, h2, h3, h4⟩ | ⟨-, h1⟩
    · exact .quatF he h1 h2 h3 h4
    rcases h1 with ⟨rfl, _, _, _, _, _, he, rfl, h1, h2, h3, h4⟩ | ⟨-, h1⟩
    · exact .quatD he h1 h2 h3 h4
    rcases h1 with ⟨rfl, _, h1, rfl⟩ | ⟨-, h1⟩
    · exact .dateTime h1
    rcases h1 with ⟨rfl, _, h1, rfl⟩ | ⟨-, h1⟩
    · exact .timespan h1
    rcases h1 with ⟨rfl, _, h1, rfl⟩ | ⟨-, h1⟩
    · exact .guid h1
    rcases h1 with ⟨rfl, _, _, _, _, _, he, rfl, h1, h2, h3, h4⟩ | ⟨-, h1⟩
    · exact .linearColor he h1 h2 h3 h4
    rcases h1 with ⟨rfl, _, _, _, he, rfl, h1, h2⟩ | ⟨-, h1⟩
    · exact .intPoint he h1 h2
    rcases h1 with ⟨rfl, _, h1, rfl⟩ | ⟨-, h1⟩
    · exact .gameplayTagContainer h1
    rcases h1 with ⟨rfl, _, h1, rfl⟩ | ⟨-, h1⟩
    · exact .customStruct h1
    cases h1
  · intro h1
    cases h1
    all_goals simp only [String.reduceEq, false_and, true_and, false_or, or_false, not_true,
      not_false_eq_true]
    all_goals first
      | exact ⟨_, ‹_›, rfl⟩
      | exact ⟨_, _, _, ‹_›, rfl, ‹_›, ‹_›⟩
      | exact ⟨_, _, _, _, ‹_›, rfl, ‹_›, ‹_›, ‹_›⟩
      | exact ⟨_, _, _, _, _, ‹_›, rfl, ‹_›, ‹_›, ‹_›, ‹_›⟩

theorem gets_struct (h : Gets rec P) : Gets (StructPropertyValue.ofJ rec) (StructJ P) := by
  intro j v
  constructor
  · intro h1
    unfold StructPropertyValue.ofJ at h1
    split at h1
    · exact .mk ((variant_iff h _ _ _).mp h1)
    · cases h1
  · rintro ⟨h1⟩
    exact (variant_iff h _ _ _).mpr h1

theorem variant_name {k : String} {j : J} {v : StructPropertyValue} (h : Variant P k j v) :
    k ∈ variants := by
  cases h <;> decide

theorem find_iff {p : String × J → Bool} {es : Fields} {e : String × J} :
    es.find? p = some e ↔ ∃ pre post, es = pre ++ e :: post ∧ (∀ x ∈ pre, p x = false) ∧ p e := by
  rw [List.find?_eq_some_iff_append]
  constructor
  · rintro ⟨h, as, bs, rfl, h2⟩
    exact ⟨as, bs, rfl, fun x hx => by simpa using h2 x hx, h⟩
  · rintro ⟨as, bs, rfl, h2, h⟩
    exact ⟨h, as, bs, rfl, fun x hx => by simp [h2 x hx]⟩

theorem flat_iff (h : Gets rec P) (es : Fields) (v : StructPropertyValue) :
    StructPropertyValue.ofFlat rec es = some v ↔ StructAmong P es v := by
  unfold StructPropertyValue.ofFlat StructAmong
  simp only [Option.bind_eq_bind, Option.bind_eq_some_iff, find_iff, variant_iff h]
  constructor
  · rintro ⟨⟨k, j⟩, ⟨pre, post, rfl, h1, h2⟩, h3⟩
    refine ⟨pre, k, j, post, rfl, fun e he hm => ?_, h3⟩
    have := h1 e he
    rw [List.contains_eq_mem, decide_eq_false_iff_not] at this
    exact this hm
  · rintro ⟨pre, k, j, post, rfl, h1, h3⟩
    refine ⟨(k, j), ⟨pre, post, rfl, fun e he => ?_, ?_⟩, h3⟩
    · rw [List.contains_eq_mem, decide_eq_false_iff_not]
      exact h1 e he
    · rw [List.contains_eq_mem, decide_eq_true_eq]
      exact variant_name h3

theorem byteFlat_iff (es : Fields) (v : BytePropertyValue) :
    BytePropertyValue.ofFlat es = some v ↔ ByteAmong es v := by
  unfold BytePropertyValue.ofFlat
  simp only [Option.bind_eq_bind, Option.bind_eq_some_iff, find_iff, ite_iff,
    Option.map_eq_some_iff, gets_u8 _ _, gets_str _ _, List.contains_eq_mem, List.mem_cons,
    List.not_mem_nil, or_false, decide_eq_true_eq, decide_eq_false_iff_not, not_or]
  constructor
  · rintro ⟨⟨k, j⟩, ⟨pre, post, rfl, h1, h2⟩, ⟨rfl, a, ha, rfl⟩ | ⟨hk, a, ha, rfl⟩⟩
    · exact .byte rfl h1 ha
    · have hk' : k = "Namespaced" := h2.resolve_left hk
      subst hk'
      exact .namespaced rfl h1 ha
  · intro h
    cases h with
    | byte e h1 h2 => exact ⟨_, ⟨_, _, e, h1, .inl rfl⟩, .inl ⟨rfl, _, h2, rfl⟩⟩
    | namespaced e h1 h2 =>
      exact ⟨_, ⟨_, _, e, h1, .inr rfl⟩, .inr ⟨by simp, _, h2, rfl⟩⟩

theorem first_iff {x y : Option α} {R : α → Prop} {l : List (α → Prop)} {a : α}
    (h1 : ∀ a, x = some a ↔ R a) (h2 : ∀ a, y = some a ↔ First l a) :
    (x <|> y) = some a ↔ First (R :: l) a := by
  simp only [First, ← h1, ← h2]
  cases x <;> simp

theorem last_iff {x : Option α} {R : α → Prop} {a : α} (h1 : ∀ a, x = some a ↔ R a) :
    x = some a ↔ First [R] a := by
  simp only [First, ← h1, and_false, or_false]

theorem one_iff {es : Fields} {k : String} {d : J → Option α} {R : J → α → Prop} (h : Gets d R)
    (f : α → β) (v : β) : (field es k d).map f = some v ↔ ∃ l, v = f l ∧ Has es k R l := by
  simp only [Option.map_eq_some_iff, field_iff h]
  exact ⟨fun ⟨a, h1, h2⟩ => ⟨a, h2.symm, h1⟩, fun ⟨a, h1, h2⟩ => ⟨a, h2, h1.symm⟩⟩

theorem two_iff {es : Fields} {k k' : String} {d : J → Option α} {R : J → α → Prop} (h : Gets d R)
    (f : String → α → β) (v : β) :
    (do return f (← field es k J.getStr) (← field es k' d) : Option β) = some v ↔
      ∃ t l, v = f t l ∧ Has es k IsStr t ∧ Has es k' R l := by
  simp only [Option.bind_eq_bind, Option.bind_eq_some_iff, Option.pure_def, Option.some.injEq,
    field_iff h, field_iff gets_str]
  constructor
  · rintro ⟨a, h1, b, h2, rfl⟩; exact ⟨a, b, rfl, h1, h2⟩
  · rintro ⟨a, b, rfl, h1, h2⟩; exact ⟨a, h1, b, h2, rfl⟩

theorem array_iff (h : Gets rec P) (es : Fields) (v : ArrayProperty) :
    ArrayProperty.ofEntries rec es = some v ↔ ArrayJ P es v := by
  unfold ArrayProperty.ofEntries ArrayJ
  refine first_iff (one_iff (gets_arr gets_bool) _) fun v => ?_
  refine first_iff (one_iff gets_hex _) fun v => ?_
  refine first_iff (one_iff (gets_arr gets_str) _) fun v => ?_
  refine first_iff (one_iff (gets_arr gets_f32) _) fun v => ?_
  refine first_iff (one_iff (gets_arr gets_i32) _) fun v => ?_
  refine first_iff (one_iff (gets_arr (gets_nullable gets_str)) _) fun v => ?_
  refine first_iff (one_iff (gets_arr (gets_nullable gets_str)) _) fun v => ?_
  refine first_iff (fun v => ?_) fun v => ?_
  · simp only [Option.bind_eq_bind, Option.bind_eq_some_iff, Option.pure_def, Option.some.injEq,
      field_iff gets_str, defaultField_iff gets_guid, field_iff (gets_arr (gets_struct h))]
    constructor
    · rintro ⟨a, h1, b, h2, c, h3, d, h4, rfl⟩; exact ⟨a, b, c, d, rfl, h1, h2, h3, h4⟩
    · rintro ⟨a, b, c, d, rfl, h1, h2, h3, h4⟩; exact ⟨a, h1, b, h2, c, h3, d, h4, rfl⟩
  · exact last_iff (two_iff (gets_arr h) _)

theorem map_iff (h : Gets rec P) (es : Fields) (v : MapProperty) :
    MapProperty.ofEntries rec es = some v ↔ MapJ P es v := by
  unfold MapProperty.ofEntries MapJ
  refine first_iff (one_iff (gets_strMap gets_bool) _) fun v => ?_
  refine first_iff (one_iff (gets_strMap gets_i32) _) fun v => ?_
  refine first_iff (two_iff (gets_strMap h) _) fun v => ?_
  refine first_iff (one_iff (gets_strMap gets_bool) _) fun v => ?_
  refine first_iff (one_iff (gets_strMap gets_i32) _) fun v => ?_
  refine first_iff (two_iff (gets_strMap h) _) fun v => ?_
  refine first_iff (fun v => ?_) fun v => ?_
  · simp only [Option.bind_eq_bind, Option.bind_eq_some_iff, Option.pure_def, Option.some.injEq,
      field_iff gets_str, field_iff gets_u32, field_iff (gets_arr (gets_pair h))]
    constructor
    · rintro ⟨a, h1, b, h2, c, h3, d, h4, rfl⟩
      exact ⟨a, b, c, d, _, rfl, h1, h2, h3, h4, lastWins_imExtend sameKey_equiv _⟩
    · rintro ⟨a, b, c, d, m, rfl, h1, h2, h3, h4, h5⟩
      exact ⟨a, h1, b, h2, c, h3, d, h4, by rw [(imExtend_iff sameKey_equiv _ _).mpr h5]⟩
  refine first_iff (one_iff (gets_strMap gets_bool) _) fun v => ?_
  refine first_iff (one_iff (gets_strMap gets_i32) _) fun v => ?_
  refine first_iff (two_iff (gets_strMap h) _) fun v => ?_
  exact last_iff (one_iff (gets_strMap (gets_nullable gets_str)) _)

theorem value_iff (h : Gets rec P) (es : Fields) (v : StructPropertyValue) :
    StructPropertyValue.ofJ rec (.obj (es.filter fun e => e.1 != "type")) = some v ↔
      ∃ k j, es.filter (fun e => e.1 != "type") = [(k, j)] ∧ Variant P k j v := by
  rw [gets_struct h]
  constructor
  · intro h1
    generalize hg : es.filter (fun e => e.1 != "type") = l at h1
    cases h1 with
    | mk h2 => exact ⟨_, _, rfl, h2⟩
  · rintro ⟨k, j, e, h2⟩
    rw [e]; exact .mk h2

theorem fits_iff {text : Fields → Option FText} {T : Fields → FText → Prop} (h : Gets rec P)
    (ht : ∀ es t, text es = some t ↔ T es t) (tag : String) (es : Fields) (p : Property) :
    Property.ofTag text rec es tag = some p ↔ Fits T P es tag p := by
  unfold Property.ofTag
  simp only [ite_iff, Option.bind_eq_bind, Option.bind_eq_some_iff, Option.pure_def,
    Option.some.injEq, field_iff gets_str, optField_iff gets_str, array_iff h, map_iff h,
    field_iff gets_bool, byteFlat_iff, field_iff gets_f64, field_iff gets_f32,
    field_iff gets_i16, field_iff gets_i64, field_iff gets_i8, field_iff gets_i32,
    field_iff gets_u32, field_iff gets_u16, field_iff gets_u64, defaultField_iff gets_u32,
    field_iff gets_delegate, field_iff gets_delegates, field_iff gets_fieldPath,
    field_iff (gets_arr h), defaultField_iff gets_guid, flat_iff h, value_iff h, ht,
    field_iff (gets_arr gets_u8)]
  constructor
  · intro h1
    rcases h1 with ⟨rfl, _, h1, rfl⟩ | ⟨-, h1⟩
    · exact .array h1
    rcases h1 with ⟨rfl, _, h1, rfl⟩ | ⟨-, h1⟩
    · exact .bool h1
    rcases h1 with ⟨rfl, _, h1, _, h2, rfl⟩ | ⟨-, h1⟩
    · exact .byte h1 h2
    rcases h1 with ⟨rfl, _, h1, rfl⟩ | ⟨-, h1⟩
    · exact .double h1
    rcases h1 with ⟨rfl, _, h1, _, h2, rfl⟩ | ⟨-, h1⟩
    · exact .enum h1 h2
    rcases h1 with ⟨rfl, _, h1, rfl⟩ | ⟨-, h1⟩
    · exact .float h1
    rcases h1 with ⟨rfl, _, h1, rfl⟩ | ⟨-, h1⟩
    · exact .int16 h1
    rcases h1 with ⟨rfl, _, h1, rfl⟩ | ⟨-, h1⟩
    · exact .int64 h1
    rcases h1 with ⟨rfl, _, h1, rfl⟩ | ⟨-, h1⟩
    · exact .int8 h1
    rcases h1 with ⟨rfl, _, h1, rfl⟩ | ⟨-, h1⟩
    · exact .int h1
    rcases h1 with ⟨rfl, _, h1, rfl⟩ | ⟨-, h1⟩
    · exact .map h1
    rcases h1 with ⟨rfl, _, h1, _, h2, rfl⟩ | ⟨-, h1⟩
    · exact .name h1 h2
    rcases h1 with ⟨rfl, _, h1, rfl⟩ | ⟨-, h1⟩
    · exact .object h1
    rcases h1 with ⟨rfl, _, h1, rfl⟩ | ⟨-, h1⟩
    · exact .delegate h1
    rcases h1 with ⟨rfl, _, h1, rfl⟩ | ⟨-, h1⟩
    · exact .multicastInlineDelegate h1
    rcases h1 with ⟨rfl, _, h1, rfl⟩ | ⟨-, h1⟩
    · exact .multicastSparseDelegate h1
    rcases h1 with ⟨rfl, _, h1, rfl⟩ | ⟨-, h1⟩
    · exact .fieldPath h1
    rcases h1 with ⟨rfl, _, h1, _, h2, _, h3, rfl⟩ | ⟨-, h1⟩
    · exact .set h1 h2 h3
    rcases h1 with ⟨rfl, _, h1, rfl⟩ | ⟨-, h1⟩
    · exact .str h1
    rcases h1 with ⟨rfl, _, h1, _, h2, _, h3, rfl⟩ | ⟨-, h1⟩
    · exact .struct h1 h2 h3
    rcases h1 with ⟨rfl, _, ⟨_, _, h1, h2⟩, rfl⟩ | ⟨-, h1⟩
    · exact .structValue h1 h2
    rcases h1 with ⟨rfl, _, h1, rfl⟩ | ⟨-, h1⟩
    · exact .text h1
    rcases h1 with ⟨rfl, _, h1, rfl⟩ | ⟨-, h1⟩
    · exact .uint16 h1
    rcases h1 with ⟨rfl, _, h1, rfl⟩ | ⟨-, h1⟩
    · exact .uint32 h1
    rcases h1 with ⟨rfl, _, h1, rfl⟩ | ⟨-, h1⟩
    · exact .uint64 h1
    rcases h1 with ⟨rfl, _, h1, _, h2, rfl⟩ | ⟨-, h1⟩
    · exact .unknown h1 h2
    cases h1
  · intro h1
    cases h1
    all_goals
      simp only [String.reduceEq, false_and, true_and, false_or, or_false, not_true,
        not_false_eq_true]
    all_goals first
      | exact ⟨_, ‹_›, rfl⟩
      | exact ⟨_, ‹_›, _, ‹_›, rfl⟩
      | exact ⟨_, ‹_›, _, ‹_›, _, ‹_›, rfl⟩
      | exact ⟨_, ⟨_, _, ‹_›, ‹_›⟩, rfl⟩

theorem form_iff {T : Fields → FText → Prop} {tag : String} {es : Fields} {p : Property}
    (h : Fits T P es tag p) (ns : List String) :
    propertyFields tag = some ns ↔ (tag, ns) ∈ typeForms := by
  cases h <;> simp [propertyFields, typeForms, eq_comm]

theorem step_iff {text : Fields → Option FText} {T : Fields → FText → Prop}
    {tagOf : J → Option String} {K : J → String → Prop} (hk : Gets tagOf K) (h : Gets rec P)
    (ht : ∀ es t, text es = some t ↔ T es t) :
    Gets (Property.ofJStep tagOf text rec)
      (Tagged "type" K typeForms fun tag es => Fits T P es tag) :=
  gets_tagged (d := fun tag es => Property.ofTag text rec es tag) hk (fun _ _ _ h => form_iff h)
    (fits_iff h ht)

theorem gets_property : ∀ n, Gets (Property.ofJ n) (PropJ n)
  | 0 => fun j p => by simp [Property.ofJ, PropJ]
  | n + 1 => step_iff (gets_tag propertyTags) (gets_property n) (text_iff (n + 1))

theorem gets_property_json : ∀ n, Gets (Property.ofJson n) (PropertyJ n)
  | 0 => fun j p => by simp [Property.ofJson, PropertyJ]
  | n + 1 => step_iff gets_str (gets_property n) (text_iff (n + 1))

end props

/-! ## Files -/

theorem gets_header : Gets GvasHeader.ofJ HeaderJ := by
  refine gets_tagged (d := fun tag es => GvasHeader.ofTag es tag) gets_str (fun tag es v h ns => ?_)
    fun tag es v => ?_
  · cases h <;> simp [headerFields, headerForms, eq_comm]
  have hm : Gets J.getCustomVersions (MapOf GuidText IsU32) := gets_map guidOfStr_iff gets_u32
  simp only [GvasHeader.ofTag, ite_iff, Option.bind_eq_bind, Option.bind_eq_some_iff,
    Option.pure_def, Option.some.injEq, field_iff gets_str, field_iff gets_u32,
    field_iff gets_engineVersion, field_iff hm]
  constructor
  · intro h1
    rcases h1 with ⟨rfl, _, h1, _, h2, _, h3, _, h4, _, h5, rfl⟩ | ⟨-, h1⟩
    · exact .version2 h1 h2 h3 h4 h5
    rcases h1 with ⟨rfl, _, h1, _, h2, _, h3, _, h4, _, h5, _, h6, rfl⟩ | ⟨-, h1⟩
    · exact .version3 h1 h2 h3 h4 h5 h6
    cases h1
  · intro h
    cases h with
    | version2 h1 h2 h3 h4 h5 =>
      exact .inl ⟨rfl, _, h1, _, h2, _, h3, _, h4, _, h5, rfl⟩
    | version3 h1 h2 h3 h4 h5 h6 =>
      exact .inr ⟨by decide, .inl ⟨rfl, _, h1, _, h2, _, h3, _, h4, _, h5, _, h6, rfl⟩⟩

theorem gets_game : Gets J.getGameVersion GameJ := by
  intro j v
  constructor
  · intro h
    unfold J.getGameVersion at h
    split at h
    · cases h; exact .default
    · cases h; exact .nothing
    · obtain ⟨c, hc, rfl⟩ := Option.map_eq_some_iff.mp h
      exact .palworld ((gets_compression _ _).mp hc)
    · cases h
  · intro h
    cases h with
    | default => rfl
    | nothing => rfl
    | palworld h1 =>
      show Option.map _ (J.getVariant _ _ _ _) = _
      rw [(gets_compression _ _).mpr h1]; rfl

theorem file_iff (j : J) (f : GvasFile) : GvasFile.ofJson j = some f ↔ FileJ j f := by
  unfold GvasFile.ofJson FileJ
  refine gets_rec (d := fun es => _) (fun es f => ?_) j f
  simp only [Option.bind_eq_bind, Option.bind_eq_some_iff, Option.pure_def, Option.some.injEq,
    defaultField_iff gets_game, field_iff gets_header, field_iff (gets_strMap (gets_property_json _))]
  constructor
  · rintro ⟨a, ha, b, hb, c, hc, rfl⟩; exact ⟨ha, hb, hc⟩
  · rintro ⟨ha, hb, hc⟩; exact ⟨_, ha, _, hb, _, hc, rfl⟩

end Gvas.Layout
