import Verif.Lemmas.JsonField
import Verif.Spec.Json
import Verif.Lemmas.Float
import Verif.Lemmas.IndexMap
import Verif.Props.Guid

/-! # From values to JSON and back -/

namespace Gvas.Js

open Spec

variable {α β κ : Type}

/-- The value if the condition holds. -/
def keep (b : Bool) (a : α) : Option α := if b then some a else none

theorem keep_true (a : α) : keep true a = some a := rfl
theorem keep_false (a : α) : keep false a = none := rfl

theorem keep_map (b : Bool) (a : α) (f : α → β) : (keep b a).map f = keep b (f a) := by
  cases b <;> rfl

theorem keep_bind_some (b : Bool) (a : α) (f : α → β) :
    ((keep b a).bind fun x => some (f x)) = keep b (f a) := by
  cases b <;> rfl

theorem keep_bind_keep (b : Bool) (a : α) (c : α → Bool) (f : α → β) :
    ((keep b a).bind fun x => keep (c x) (f x)) = keep (b && c a) (f a) := by
  cases b <;> rfl

theorem keep_orElse_none (b : Bool) (a : α) (r : Option α) (h : r = none) :
    (keep b a).or r = keep b a := by
  subst h; cases b <;> rfl

/-! ## Lists -/

theorem mapM_keep {d : β → Option α} {f : α → β} {c : α → Bool} (l : List α)
    (h : ∀ a ∈ l, d (f a) = keep (c a) a) : (l.map f).mapM d = keep (l.all c) l := by
  induction l with
  | nil => rfl
  | cons a l ih =>
    simp only [List.map_cons, List.mapM_cons, h a (by simp), ih fun x hx => h x (by simp [hx])]
    cases h1 : c a <;> cases h2 : l.all c <;> simp [h1, h2, keep]

theorem mapM_some {d : β → Option α} {f : α → β} (l : List α)
    (h : ∀ a ∈ l, d (f a) = some a) : (l.map f).mapM d = some l := by
  rw [mapM_keep (c := fun _ => true) l h]; simp [keep]

theorem getArr_keep {d : J → Option α} {f : α → J} {c : α → Bool} (l : List α)
    (h : ∀ a ∈ l, d (f a) = keep (c a) a) : J.getArr d (.arr (l.map f)) = keep (l.all c) l :=
  mapM_keep l h

theorem getArr_some {d : J → Option α} {f : α → J} (l : List α)
    (h : ∀ a ∈ l, d (f a) = some a) : J.getArr d (.arr (l.map f)) = some l :=
  mapM_some l h

theorem getMap_keep {same : κ → κ → Bool} {dk : String → Option κ} {fk : κ → String}
    {d : J → Option α} {f : α → J} {c : α → Bool} (l : List (κ × α))
    (hk : ∀ e ∈ l, dk (fk e.1) = some e.1) (h : ∀ e ∈ l, d (f e.2) = keep (c e.2) e.2)
    (hd : (l.map Prod.fst).Pairwise (fun a b => same a b = false)) :
    J.getMap same dk d (.obj (l.map fun e => (fk e.1, f e.2))) = keep (l.all fun e => c e.2) l := by
  have : (l.map fun e => (fk e.1, f e.2)).mapM
      (fun e : String × J => do return ((← dk e.1, ← d e.2) : κ × α)) =
      keep (l.all fun e => c e.2) l := by
    apply mapM_keep
    intro e he
    simp only [hk e he, h e he]
    cases hc : c e.2 <;> simp [keep]
  simp only [J.getMap]
  rw [this]
  cases l.all fun e => c e.2
  · rfl
  · simp [keep, imExtend_nil_fresh l hd]

theorem beq_distinct {m : List (String × α)} (h : KeysDistinct m) :
    (m.map Prod.fst).Pairwise (fun a b => (a == b) = false) :=
  List.Pairwise.imp (fun h => by simpa using h) h

theorem getStrMap_keep {d : J → Option α} {f : α → J} {c : α → Bool} (l : List (String × α))
    (h : ∀ e ∈ l, d (f e.2) = keep (c e.2) e.2) (hd : KeysDistinct l) :
    J.getStrMap d (.obj (l.map fun e => (e.1, f e.2))) = keep (l.all fun e => c e.2) l :=
  getMap_keep (fk := id) l (fun _ _ => rfl) h (beq_distinct hd)

theorem getStrMap_some {d : J → Option α} {f : α → J} (l : List (String × α))
    (h : ∀ e ∈ l, d (f e.2) = some e.2) (hd : KeysDistinct l) :
    J.getStrMap d (.obj (l.map fun e => (e.1, f e.2))) = some l := by
  rw [getStrMap_keep (c := fun _ => true) l h hd]; simp [keep]

/-! ## Depth -/

theorem depthList_map (f : α → J) (l : List α) (n : Nat) :
    depthList (l.map f) ≤ n ↔ ∀ a ∈ l, (f a).depth ≤ n := by
  induction l with
  | nil => simp [depthList]
  | cons a l ih => simp [depthList, ih, Nat.max_le]

theorem depthEntries_map (f : α → String × J) (l : List α) (n : Nat) :
    depthEntries (l.map f) ≤ n ↔ ∀ a ∈ l, (f a).2.depth ≤ n := by
  induction l with
  | nil => simp [depthEntries]
  | cons a l ih => simp [depthEntries, ih, Nat.max_le]

theorem depthEntries_append (a b : List (String × J)) :
    depthEntries (a ++ b) = max (depthEntries a) (depthEntries b) := by
  induction a with
  | nil => simp [depthEntries]
  | cons e a ih =>
    obtain ⟨k, j⟩ := e
    simp [depthEntries, ih, Nat.max_assoc]

/-! ## Scalars -/

theorem finite32_eq (f : F32) : finite32 f = f.isFinite := rfl
theorem finite64_eq (f : F64) : finite64 f = f.isFinite := rfl

/-- The number a float becomes is nearest to this float. -/
class FloatBack [FloatJ] : Prop where
  back : ∀ f : F32, f.isFinite = true → (FloatJ.num f).toF32 = f

instance : FloatBack := ⟨toF32_toF64⟩

theorem getF32_toJ [FloatJ] [FloatBack] (f : F32) : J.getF32 f.toJ = keep (finite32 f) f := by
  rw [finite32_eq]
  unfold F32.toJ
  cases h : f.isFinite
  · rfl
  · simp [J.getF32, keep, FloatBack.back f h]

theorem getF64_toJ (f : F64) : J.getF64 f.toJ = keep (finite64 f) f := by
  rw [finite64_eq]
  unfold F64.toJ
  cases h : f.isFinite <;> rfl

theorem getU8_int (v : UInt8) : J.getU8 (.int v.toNat) = some v := by
  have := v.toNat_lt
  simp only [J.getU8, J.getInt]
  rw [if_pos ⟨by omega, by omega⟩]
  simp
theorem getU16_int (v : UInt16) : J.getU16 (.int v.toNat) = some v := by
  have := v.toNat_lt
  simp only [J.getU16, J.getInt]
  rw [if_pos ⟨by omega, by omega⟩]
  simp
theorem getU32_int (v : UInt32) : J.getU32 (.int v.toNat) = some v := by
  have := v.toNat_lt
  simp only [J.getU32, J.getInt]
  rw [if_pos ⟨by omega, by omega⟩]
  simp
theorem getU64_int (v : UInt64) : J.getU64 (.int v.toNat) = some v := by
  have := v.toNat_lt
  simp only [J.getU64, J.getInt]
  rw [if_pos ⟨by omega, by omega⟩]
  simp
theorem getI8_int (v : Int8) : J.getI8 (.int v.toInt) = some v := by
  have := v.toInt_lt; have := v.le_toInt
  simp only [J.getI8, J.getInt]
  rw [if_pos ⟨by omega, by omega⟩]
  simp
theorem getI16_int (v : Int16) : J.getI16 (.int v.toInt) = some v := by
  have := v.toInt_lt; have := v.le_toInt
  simp only [J.getI16, J.getInt]
  rw [if_pos ⟨by omega, by omega⟩]
  simp
theorem getI32_int (v : Int32) : J.getI32 (.int v.toInt) = some v := by
  have := v.toInt_lt; have := v.le_toInt
  simp only [J.getI32, J.getInt]
  rw [if_pos ⟨by omega, by omega⟩]
  simp
theorem getI64_int (v : Int64) : J.getI64 (.int v.toInt) = some v := by
  have := v.toInt_lt; have := v.le_toInt
  simp only [J.getI64, J.getInt]
  rw [if_pos ⟨by omega, by omega⟩]
  simp

theorem getOpt_optJ (s : Option String) : J.getOpt J.getStr (optJ s) = some s := by
  cases s <;> rfl

theorem guidOfStr_display (g : Guid) : guidOfStr (String.ofList g.display) = some g := by
  simp [guidOfStr, C10_guid_display_roundtrip]

theorem getGuid_toJ (g : Guid) : J.getGuid g.toJ = some g := by
  simp [J.getGuid, Guid.toJ, J.getStr, guidOfStr_display]

theorem hexCharVal_lower (n : Nat) (h : n < 16) : hexCharVal (hexLower n) = some n := by
  have : ∀ n < 16, hexCharVal (hexLower n) = some n := by decide
  exact this n h

theorem unhex_flatMap (bs : Bytes) :
    unhex (bs.flatMap fun b => [hexLower (b.toNat / 16), hexLower (b.toNat % 16)]) = some bs := by
  induction bs with
  | nil => rfl
  | cons b bs ih =>
    have := b.toNat_lt
    simp only [List.flatMap_cons, List.cons_append, List.nil_append, unhex, ih,
      hexCharVal_lower _ (show b.toNat / 16 < 16 by omega),
      hexCharVal_lower _ (show b.toNat % 16 < 16 by omega)]
    simp only [Option.bind_eq_bind, Option.bind_some, Option.pure_def]
    rw [show b.toNat / 16 * 16 + b.toNat % 16 = b.toNat by omega, UInt8.ofNat_toNat]

theorem getHex_hexText (bs : Bytes) : J.getHex (.str (hexText bs)) = some bs := by
  simp [J.getHex, J.getStr, hexText, unhex_flatMap]

theorem getStyle_json (s : DateTimeStyle) : J.getStyle (.str s.json) = some s := by
  cases s <;> decide

theorem getRounding_json (s : RoundingMode) :
    J.getTagVariant RoundingMode.all RoundingMode.json (.str s.json) = some s := by
  cases s <;> decide

theorem getTransform_json (s : TransformType) :
    J.getTagVariant [.toLower, .toUpper] TransformType.json (.str s.json) = some s := by
  cases s <;> decide

theorem field_head (k : String) (j : J) (es : List (String × J)) (d : J → Option α) :
    field ((k, j) :: es) k d = d j := by
  simp [field_eq]

theorem field_skip (k k' : String) (j : J) (es : List (String × J)) (d : J → Option α)
    (h : k ≠ k') : field ((k', j) :: es) k d = field es k d := by
  simp [field_eq, List.lookup, beq_false_of_ne h]

theorem getOptions_toJ (o : NumberFormattingOptions) : J.getOptions o.toJ = some o := by
  simp only [J.getOptions, NumberFormattingOptions.toJ, J.getEntries, Option.bind_eq_bind,
    Option.bind_some, field_head, field_skip, ne_eq, String.reduceEq, not_false_eq_true,
    getRounding_json, getI32_int]
  rfl

theorem getTicks_ticksJ (t : UInt64) : J.getTicks (ticksJ t) = some t := by
  have h : J.getTicks (ticksJ t) = J.getU64 (.int t.toNat) := by
    show (Option.some [("ticks", J.int t.toNat)]).bind (fun es => field es "ticks" J.getU64) = _
    rw [Option.bind_some, field_head]
  rw [h, getU64_int]

theorem getOptions_opt (o : NumberFormattingOptions) :
    J.getOpt J.getOptions o.toJ = some (some o) := by
  have : J.getOpt J.getOptions o.toJ = (J.getOptions o.toJ).map some := rfl
  rw [this, getOptions_toJ]; rfl

/-! ## Texts -/

theorem argsJ_eq [FloatJ] (l : List FormatArgumentValue) : argsJ l = l.map FormatArgumentValue.toJ := by
  induction l with
  | nil => rfl
  | cons a l ih => simp [argsJ, ih]

theorem namedArgsJ_eq [FloatJ] (l : List (String × FormatArgumentValue)) :
    namedArgsJ l = l.map fun e => (e.1, e.2.toJ) := by
  induction l with
  | nil => rfl
  | cons a l ih => obtain ⟨k, v⟩ := a; simp [namedArgsJ, ih]

theorem argsFinite_eq (l : List FormatArgumentValue) : argsFinite l = l.all argFinite := by
  induction l with
  | nil => rfl
  | cons a l ih => simp [argsFinite, ih]

theorem namedArgsFinite_eq (l : List (String × FormatArgumentValue)) :
    namedArgsFinite l = l.all fun e => argFinite e.2 := by
  induction l with
  | nil => rfl
  | cons a l ih => obtain ⟨k, v⟩ := a; simp [namedArgsFinite, ih]

theorem ArgsMaps_iff (l : List FormatArgumentValue) : ArgsMaps l ↔ ∀ v ∈ l, ArgMaps v := by
  induction l with
  | nil => simp [ArgsMaps]
  | cons a l ih => simp [ArgsMaps, ih]

theorem NamedArgsMaps_iff (l : List (String × FormatArgumentValue)) :
    NamedArgsMaps l ↔ ∀ e ∈ l, ArgMaps e.2 := by
  induction l with
  | nil => simp [NamedArgsMaps]
  | cons a l ih => obtain ⟨k, v⟩ := a; simp [NamedArgsMaps, ih]

/-- `rec` reads back texts less deep than `n`. -/
def TextBack [FloatJ] (n : Nat) (rec : J → Option FText) : Prop :=
  ∀ t : FText, depthEntries t.entries < n → TextMaps t →
    rec (.obj t.entries) = keep (textFinite t) t

theorem arg_back [FloatJ] [FloatBack] {n : Nat} {rec : J → Option FText} (hr : TextBack n rec)
    (v : FormatArgumentValue) (hd : v.toJ.depth ≤ n) (hm : ArgMaps v) :
    FormatArgumentValue.ofJ rec v.toJ = keep (argFinite v) v := by
  cases v with
  | text t =>
    simp only [FormatArgumentValue.toJ, J.depth, depthEntries] at hd
    simp only [ArgMaps] at hm
    simp [FormatArgumentValue.ofJ, FormatArgumentValue.toJ, hr t (by omega) hm, keep_map, argFinite]
  | _ =>
    simp [FormatArgumentValue.ofJ, FormatArgumentValue.toJ, getI32_int, getU32_int, getI64_int,
      getU64_int, getF32_toJ, getF64_toJ, keep_map, argFinite, keep_true]

theorem optField_skip (k k' : String) (j : J) (es : List (String × J)) (d : J → Option α)
    (h : k ≠ k') : optField ((k', j) :: es) k d = optField es k d := by
  simp [optField_eq, List.lookup, beq_false_of_ne h]

theorem defaultField_skip (k k' : String) (j : J) (es : List (String × J)) (a : α)
    (d : J → Option α) (h : k ≠ k') :
    defaultField ((k', j) :: es) k a d = defaultField es k a d := by
  simp [defaultField_eq, List.lookup, beq_false_of_ne h]

theorem optField_head (k : String) (j : J) (es : List (String × J)) (d : J → Option α) :
    optField ((k, j) :: es) k d = j.getOpt d := by
  simp [optField_eq]

theorem optField_nil (k : String) (d : J → Option α) : optField [] k d = some none := rfl

theorem optField_optE_skip (k k' : String) (s : Option String) (es : List (String × J))
    (d : J → Option α) (h : k ≠ k') :
    optField (optE k' s ++ es) k d = optField es k d := by
  cases s
  · rfl
  · exact optField_skip k k' _ es d h

theorem field_optE_skip (k k' : String) (s : Option String) (es : List (String × J))
    (d : J → Option α) (h : k ≠ k') :
    field (optE k' s ++ es) k d = field es k d := by
  cases s
  · rfl
  · exact field_skip k k' _ es d h

theorem optField_optE (k : String) (s : Option String) (es : List (String × J))
    (h : es.lookup k = none) : optField (optE k s ++ es) k J.getStr = some s := by
  cases s <;> simp [optE, optField_eq, h, J.getOpt, J.getStr]

theorem optField_optE' (k : String) (s : Option String) :
    optField (optE k s) k J.getStr = some s := by
  cases s <;> simp [optE, optField_eq, J.getOpt, J.getStr]

theorem optField_optE_skip' (k k' : String) (s : Option String)
    (d : J → Option α) (h : k ≠ k') :
    optField (optE k' s) k d = some none := by
  cases s
  · rfl
  · exact optField_skip k k' _ [] d h

theorem optField_optionsE_skip (k : String) (o : Option NumberFormattingOptions)
    (es : List (String × J)) (d : J → Option α) (h : k ≠ "format_options") :
    optField (optionsE o ++ es) k d = optField es k d := by
  cases o
  · rfl
  · exact optField_skip k _ _ es d h

theorem optField_optionsE (o : Option NumberFormattingOptions) (es : List (String × J))
    (h : es.lookup "format_options" = none) :
    optField (optionsE o ++ es) "format_options" J.getOptions = some o := by
  cases o <;> simp [optionsE, optField_eq, h, getOptions_opt]

theorem optE_lookup (k k' : String) (s : Option String) (h : k ≠ k') :
    (optE k' s).lookup k = none := by
  cases s <;> simp [optE, List.lookup, beq_false_of_ne h]

theorem optE_lookup_append (k k' : String) (s : Option String) (es : List (String × J))
    (h : k ≠ k') : (optE k' s ++ es).lookup k = es.lookup k := by
  cases s <;> simp [optE, List.lookup, beq_false_of_ne h]

theorem optionsE_lookup_append (k : String) (o : Option NumberFormattingOptions)
    (es : List (String × J)) (h : k ≠ "format_options") :
    (optionsE o ++ es).lookup k = es.lookup k := by
  cases o <;> simp [optionsE, List.lookup, beq_false_of_ne h]

theorem lookup_skip (k k' : String) (j : J) (es : List (String × J)) (h : k ≠ k') :
    ((k', j) :: es).lookup k = es.lookup k := by
  simp [List.lookup, beq_false_of_ne h]

theorem history_skip (rec : J → Option FText) (k : String) (j : J) (es : List (String × J))
    (h : k = "flags" ∨ k = "type") :
    FTextHistory.ofEntries rec ((k, j) :: es) = FTextHistory.ofEntries rec es := by
  have ht : ∀ tag, FTextHistory.ofTag rec ((k, j) :: es) tag = FTextHistory.ofTag rec es tag := by
    intro tag
    unfold FTextHistory.ofTag
    rcases h with rfl | rfl <;>
      simp only [field_skip, optField_skip, ne_eq, not_false_eq_true, String.reduceEq]
  unfold FTextHistory.ofEntries
  have : FTextHistory.ofTag rec ((k, j) :: es) = FTextHistory.ofTag rec es := funext ht
  rw [this]
  rcases h with rfl | rfl <;> rw [field_skip _ _ _ _ _ (by decide)]

theorem namedArgs_back [FloatJ] [FloatBack] {n : Nat} {rec : J → Option FText} (hr : TextBack n rec)
    (args : List (String × FormatArgumentValue)) (hd : depthEntries (namedArgsJ args) ≤ n)
    (hk : KeysDistinct args) (hm : NamedArgsMaps args) :
    J.getStrMap (FormatArgumentValue.ofJ rec) (.obj (namedArgsJ args)) =
      keep (namedArgsFinite args) args := by
  rw [namedArgsJ_eq] at hd ⊢
  rw [namedArgsFinite_eq]
  rw [depthEntries_map] at hd
  rw [NamedArgsMaps_iff] at hm
  exact getStrMap_keep args (fun e he => arg_back hr e.2 (hd e he) (hm e he)) hk

theorem args_back [FloatJ] [FloatBack] {n : Nat} {rec : J → Option FText} (hr : TextBack n rec)
    (args : List FormatArgumentValue) (hd : depthList (argsJ args) ≤ n) (hm : ArgsMaps args) :
    J.getArr (FormatArgumentValue.ofJ rec) (.arr (argsJ args)) =
      keep (argsFinite args) args := by
  rw [argsJ_eq] at hd ⊢
  rw [argsFinite_eq]
  rw [depthList_map] at hd
  rw [ArgsMaps_iff] at hm
  exact getArr_keep args fun v hv => arg_back hr v (hd v hv) (hm v hv)

theorem history_of_tag (rec : J → Option FText) (tag : String) (es : List (String × J)) :
    FTextHistory.ofEntries rec (("history", .str tag) :: es) =
      FTextHistory.ofTag rec (("history", .str tag) :: es) tag := by
  unfold FTextHistory.ofEntries
  rw [field_head]; rfl

theorem history_back [FloatJ] [FloatBack] {n : Nat} {rec : J → Option FText} (hr : TextBack n rec)
    (h : FTextHistory) (hd : depthEntries h.entries ≤ n) (hm : HistoryMaps h) :
    FTextHistory.ofEntries rec h.entries = keep (historyFinite h) h := by
  cases h with
  | empty => rfl
  | none s =>
    simp only [FTextHistory.entries, history_of_tag, FTextHistory.ofTag, reduceIte,
      optField_skip, ne_eq, not_false_eq_true, String.reduceEq, optField_optE', historyFinite]
    rfl
  | base a b c =>
    simp only [FTextHistory.entries, history_of_tag, FTextHistory.ofTag, reduceIte,
      optField_skip, optField_optE, optField_optE_skip, optField_optE', optE_lookup_append,
      optE_lookup, ne_eq, not_false_eq_true, String.reduceEq, List.append_assoc, historyFinite]
    rfl
  | namedFormat src args =>
    simp only [FTextHistory.entries, depthEntries, J.depth, HistoryMaps, Nat.max_le] at hd hm
    have h1 := hr src (by omega) hm.1
    have h2 := namedArgs_back hr args (by omega) hm.2.1 hm.2.2
    simp only [FTextHistory.entries, history_of_tag, FTextHistory.ofTag, reduceIte,
      field_skip, field_head, ne_eq, not_false_eq_true, String.reduceEq, historyFinite, h1, h2]
    cases textFinite src <;> cases namedArgsFinite args <;> rfl
  | orderedFormat src args =>
    simp only [FTextHistory.entries, depthEntries, J.depth, HistoryMaps, Nat.max_le] at hd hm
    have h1 := hr src (by omega) hm.1
    have h2 := args_back hr args (by omega) hm.2
    simp only [FTextHistory.entries, history_of_tag, FTextHistory.ofTag, reduceIte,
      field_skip, field_head, ne_eq, not_false_eq_true, String.reduceEq, historyFinite, h1, h2]
    cases textFinite src <;> cases argsFinite args <;> rfl
  | argumentFormat src args =>
    simp only [FTextHistory.entries, depthEntries, J.depth, HistoryMaps, Nat.max_le] at hd hm
    have h1 := hr src (by omega) hm.1
    have h2 := namedArgs_back hr args (by omega) hm.2.1 hm.2.2
    simp only [FTextHistory.entries, history_of_tag, FTextHistory.ofTag, reduceIte,
      field_skip, field_head, ne_eq, not_false_eq_true, String.reduceEq, historyFinite, h1, h2]
    cases textFinite src <;> cases namedArgsFinite args <;> rfl
  | asNumber v o c =>
    simp only [FTextHistory.entries, depthEntries, HistoryMaps, Nat.max_le] at hd hm
    have h1 := arg_back hr v (by omega) hm
    simp only [FTextHistory.entries, history_of_tag, FTextHistory.ofTag, reduceIte,
      field_skip, field_head, optField_skip, optField_optionsE_skip, optField_optionsE, optE_lookup, optField_optE', ne_eq, not_false_eq_true, String.reduceEq, historyFinite, h1]
    cases argFinite v <;> rfl
  | asPercent v o c =>
    simp only [FTextHistory.entries, depthEntries, HistoryMaps, Nat.max_le] at hd hm
    have h1 := arg_back hr v (by omega) hm
    simp only [FTextHistory.entries, history_of_tag, FTextHistory.ofTag, reduceIte,
      field_skip, field_head, optField_skip, optField_optionsE_skip, optField_optionsE, optE_lookup, optField_optE', ne_eq, not_false_eq_true, String.reduceEq, historyFinite, h1]
    cases argFinite v <;> rfl
  | asCurrency a v o c =>
    simp only [FTextHistory.entries, depthEntries, depthEntries_append, HistoryMaps, Nat.max_le] at hd hm
    have h1 := arg_back hr v (by omega) hm
    simp only [FTextHistory.entries, history_of_tag, FTextHistory.ofTag, reduceIte,
      field_skip, field_head, field_optE_skip, optField_optE, optE_lookup_append, optionsE_lookup_append, lookup_skip, optField_optE_skip, optField_skip, optField_optionsE_skip, optField_optionsE, optE_lookup, optField_optE', ne_eq, not_false_eq_true, String.reduceEq, historyFinite, h1]
    cases argFinite v <;> rfl
  | asDate t st c =>
    simp only [FTextHistory.entries, history_of_tag, FTextHistory.ofTag, reduceIte,
      field_skip, field_head, ne_eq, not_false_eq_true, String.reduceEq, historyFinite, getTicks_ticksJ, getStyle_json]
    rfl
  | asTime t st z c =>
    simp only [FTextHistory.entries, history_of_tag, FTextHistory.ofTag, reduceIte,
      field_skip, field_head, ne_eq, not_false_eq_true, String.reduceEq, historyFinite, getTicks_ticksJ, getStyle_json]
    rfl
  | asDateTime t ds ts z c =>
    simp only [FTextHistory.entries, history_of_tag, FTextHistory.ofTag, reduceIte,
      field_skip, field_head, ne_eq, not_false_eq_true, String.reduceEq, historyFinite, getTicks_ticksJ, getStyle_json]
    rfl
  | transform src tt =>
    simp only [FTextHistory.entries, depthEntries, J.depth, HistoryMaps, Nat.max_le] at hd hm
    have h1 := hr src (by omega) hm
    simp only [FTextHistory.entries, history_of_tag, FTextHistory.ofTag, reduceIte,
      field_skip, field_head, ne_eq, not_false_eq_true, String.reduceEq, historyFinite, h1, getTransform_json]
    cases textFinite src <;> rfl
  | stringTableEntry a b =>
    simp only [FTextHistory.entries, history_of_tag, FTextHistory.ofTag, reduceIte,
      field_skip, field_head, ne_eq, not_false_eq_true, String.reduceEq, historyFinite]
    rfl

theorem text_back [FloatJ] [FloatBack] : ∀ n t, depthEntries (FText.entries t) < n → TextMaps t →
    FText.ofEntries n t.entries = keep (textFinite t) t := by
  intro n
  induction n with
  | zero => intro t h; omega
  | succ n ih =>
    intro t hd hm
    obtain ⟨flags, h⟩ := t
    simp only [FText.entries, depthEntries_append] at hd
    have hr : TextBack n (fun j => j.getEntries.bind (FText.ofEntries n)) := fun t h1 h2 => ih t h1 h2
    have hh := history_back hr h (by omega) (by simpa only [TextMaps] using hm)
    have hfl : h.entries.lookup "flags" = none := by
      cases h <;> simp only [FTextHistory.entries, lookup_skip, optE_lookup_append, optE_lookup,
        optionsE_lookup_append, List.append_assoc, ne_eq, not_false_eq_true, String.reduceEq,
        List.lookup_nil]
    by_cases hz : flags = 0
    · subst hz
      simp only [FText.entries, nonzeroE, if_true, List.nil_append, FText.ofEntries, hh, defaultField_eq, hfl, textFinite]
      cases hf : historyFinite h <;> simp [keep]
    · simp only [FText.entries, nonzeroE, if_neg hz, List.cons_append, List.nil_append, FText.ofEntries, hh, defaultField_eq, textFinite, List.lookup_cons_self, getU32_int, history_skip _ "flags" _ _ (Or.inl rfl)]
      cases hf : historyFinite h <;> simp [keep]

theorem text_skip (n : Nat) (j : J) (es : List (String × J)) :
    FText.ofEntries n (("type", j) :: es) = FText.ofEntries n es := by
  cases n with
  | zero => rfl
  | succ n =>
    simp only [FText.ofEntries, history_skip _ "type" _ _ (Or.inr rfl), defaultField_skip, ne_eq,
      not_false_eq_true, String.reduceEq]

/-! ## Properties -/

theorem field_nil (k : String) (d : J → Option α) : field [] k d = none := rfl

theorem guid_zero (g : Guid) (h : g.isZero = true) : g = Guid.fromU128 0 := by
  have h1 := C10_guid_display_roundtrip g
  have h2 := C10_guid_display_roundtrip (Guid.fromU128 0)
  have hz : (Guid.fromU128 0).isZero = true := by decide
  have e1 : g.display = ['0'] := by simp [Guid.display, h]
  have e2 : (Guid.fromU128 0).display = ['0'] := by simp [Guid.display, hz]
  rw [e1] at h1
  rw [e2] at h2
  rw [h1] at h2
  simpa using h2

theorem field_guidE_skip (k : String) (g : Guid) (es : List (String × J)) (d : J → Option α)
    (h : k ≠ "guid") : field (guidE g ++ es) k d = field es k d := by
  unfold guidE
  cases g.isZero
  · exact field_skip k _ _ es d h
  · rfl

theorem defaultField_guidE (g : Guid) (es : List (String × J)) (h : es.lookup "guid" = none) :
    defaultField (guidE g ++ es) "guid" (Guid.fromU128 0) J.getGuid = some g := by
  unfold guidE
  cases hz : g.isZero
  · simp [defaultField_eq, getGuid_toJ]
  · simp [defaultField_eq, h, ← guid_zero g hz]

theorem propsJ_eq [FloatJ] (l : List Property) : propsJ l = l.map Property.toJ := by
  induction l with
  | nil => rfl
  | cons a l ih => simp [propsJ, ih]

theorem structsJ_eq [FloatJ] (l : List StructPropertyValue) :
    structsJ l = l.map fun v => .obj [v.entry] := by
  induction l with
  | nil => rfl
  | cons a l ih => simp [structsJ, ih]

theorem strPropsJ_eq [FloatJ] (l : List (String × Property)) :
    strPropsJ l = l.map fun e => (e.1, e.2.toJ) := by
  induction l with
  | nil => rfl
  | cons a l ih => obtain ⟨k, v⟩ := a; simp [strPropsJ, ih]

theorem pairsJ_eq [FloatJ] (l : List (Property × Property)) :
    pairsJ l = l.map fun e => .arr [e.1.toJ, e.2.toJ] := by
  induction l with
  | nil => rfl
  | cons a l ih => obtain ⟨k, v⟩ := a; simp [pairsJ, ih]

theorem fieldsJ_eq [FloatJ] (l : List (String × List Property)) :
    fieldsJ l = l.map fun e => (e.1, .arr (e.2.map Property.toJ)) := by
  induction l with
  | nil => rfl
  | cons a l ih => obtain ⟨k, v⟩ := a; simp [fieldsJ, ih, propsJ_eq]

theorem propsFinite_eq (l : List Property) : propsFinite l = l.all allFinite := by
  induction l with
  | nil => rfl
  | cons a l ih => simp [propsFinite, ih]

theorem structsFinite_eq (l : List StructPropertyValue) :
    structsFinite l = l.all structFinite := by
  induction l with
  | nil => rfl
  | cons a l ih => simp [structsFinite, ih]

theorem valuesFinite_eq (l : List (String × Property)) :
    valuesFinite l = l.all fun e => allFinite e.2 := by
  induction l with
  | nil => rfl
  | cons a l ih => obtain ⟨k, v⟩ := a; simp [valuesFinite, ih]

theorem entriesFinite_eq (l : List (Property × Property)) :
    entriesFinite l = l.all fun e => allFinite e.1 && allFinite e.2 := by
  induction l with
  | nil => rfl
  | cons a l ih => obtain ⟨k, v⟩ := a; simp [entriesFinite, ih]

theorem fieldsFinite_eq (l : List (String × List Property)) :
    fieldsFinite l = l.all fun e => e.2.all allFinite := by
  induction l with
  | nil => rfl
  | cons a l ih => obtain ⟨k, v⟩ := a; simp [fieldsFinite, ih, propsFinite_eq]

theorem PropsMaps_iff (l : List Property) : PropsMaps l ↔ ∀ p ∈ l, MapsDistinct p := by
  induction l with
  | nil => simp [PropsMaps]
  | cons a l ih => simp [PropsMaps, ih]

theorem StructsMaps_iff (l : List StructPropertyValue) :
    StructsMaps l ↔ ∀ v ∈ l, StructMaps v := by
  induction l with
  | nil => simp [StructsMaps]
  | cons a l ih => simp [StructsMaps, ih]

theorem ValuesMaps_iff (l : List (String × Property)) :
    ValuesMaps l ↔ ∀ e ∈ l, MapsDistinct e.2 := by
  induction l with
  | nil => simp [ValuesMaps]
  | cons a l ih => obtain ⟨k, v⟩ := a; simp [ValuesMaps, ih]

theorem EntriesMaps_iff (l : List (Property × Property)) :
    EntriesMaps l ↔ ∀ e ∈ l, MapsDistinct e.1 ∧ MapsDistinct e.2 := by
  induction l with
  | nil => simp [EntriesMaps]
  | cons a l ih => obtain ⟨k, v⟩ := a; simp [EntriesMaps, ih, and_assoc]

theorem FieldsMaps_iff (l : List (String × List Property)) :
    FieldsMaps l ↔ ∀ e ∈ l, ∀ p ∈ e.2, MapsDistinct p := by
  induction l with
  | nil => simp [FieldsMaps]
  | cons a l ih => obtain ⟨k, v⟩ := a; simp [FieldsMaps, ih, PropsMaps_iff]

/-- `rec` reads back properties at most `n` deep. -/
def PropBack [FloatJ] (n : Nat) (rec : J → Option Property) : Prop :=
  ∀ p : Property, p.toJ.depth ≤ n → MapsDistinct p → rec p.toJ = keep (allFinite p) p

variable {n : Nat} {rec : J → Option Property}

theorem props_back [FloatJ] [FloatBack] (hr : PropBack n rec) (ps : List Property) (hd : depthList (propsJ ps) ≤ n)
    (hm : PropsMaps ps) : J.getArr rec (.arr (propsJ ps)) = keep (propsFinite ps) ps := by
  rw [propsJ_eq] at hd ⊢
  rw [depthList_map] at hd
  rw [PropsMaps_iff] at hm
  rw [propsFinite_eq]
  exact getArr_keep ps fun p hp => hr p (hd p hp) (hm p hp)

theorem values_back [FloatJ] [FloatBack] (hr : PropBack n rec) (m : List (String × Property))
    (hd : depthEntries (strPropsJ m) ≤ n) (hk : KeysDistinct m) (hm : ValuesMaps m) :
    J.getStrMap rec (.obj (strPropsJ m)) = keep (valuesFinite m) m := by
  rw [strPropsJ_eq] at hd ⊢
  rw [depthEntries_map] at hd
  rw [ValuesMaps_iff] at hm
  rw [valuesFinite_eq]
  exact getStrMap_keep m (fun e he => hr e.2 (hd e he) (hm e he)) hk

theorem pairs_back [FloatJ] [FloatBack] (hr : PropBack n rec) (m : List (Property × Property))
    (hd : depthList (pairsJ m) ≤ n) (hm : EntriesMaps m) :
    J.getArr (J.getPair rec) (.arr (pairsJ m)) = keep (entriesFinite m) m := by
  rw [pairsJ_eq] at hd ⊢
  rw [depthList_map] at hd
  rw [EntriesMaps_iff] at hm
  rw [entriesFinite_eq]
  apply getArr_keep
  intro e he
  have h := hd e he
  simp only [J.depth, depthList] at h
  simp only [J.getPair, hr e.1 (by omega) (hm e he).1, hr e.2 (by omega) (hm e he).2]
  cases allFinite e.1 <;> cases allFinite e.2 <;> rfl

theorem fields_back [FloatJ] [FloatBack] (hr : PropBack n rec) (m : List (String × List Property))
    (hd : depthEntries (fieldsJ m) ≤ n) (hk : KeysDistinct m) (hm : FieldsMaps m) :
    J.getStrMap (J.getArr rec) (.obj (fieldsJ m)) = keep (fieldsFinite m) m := by
  rw [fieldsJ_eq] at hd ⊢
  rw [depthEntries_map] at hd
  rw [FieldsMaps_iff] at hm
  rw [fieldsFinite_eq]
  refine getStrMap_keep (f := fun ps => .arr (ps.map Property.toJ))
    (c := fun ps => ps.all allFinite) m (fun e he => ?_) hk
  have h := hd e he
  simp only [J.depth] at h
  have h' := (depthList_map Property.toJ e.2 n).1 (by omega)
  exact getArr_keep e.2 fun p hp => hr p (h' p hp) (hm e he p hp)

theorem get2_back {d : J → Option α} {f : α → J} {c : α → Bool} (h : ∀ a, d (f a) = keep (c a) a)
    (k1 k2 : String) (g : α → α → β) (x y : α) (h12 : k2 ≠ k1) :
    J.get2 d k1 k2 g (.obj [(k1, f x), (k2, f y)]) = keep (c x && c y) (g x y) := by
  simp only [J.get2, J.getFields, Option.bind_eq_bind, Option.bind_some, field_head,
    field_skip _ _ _ _ _ h12, h]
  cases c x <;> cases c y <;> rfl

theorem get3_back {d : J → Option α} {f : α → J} {c : α → Bool} (h : ∀ a, d (f a) = keep (c a) a)
    (k1 k2 k3 : String) (g : α → α → α → β) (x y z : α) (h12 : k2 ≠ k1) (h13 : k3 ≠ k1)
    (h23 : k3 ≠ k2) :
    J.get3 d k1 k2 k3 g (.obj [(k1, f x), (k2, f y), (k3, f z)]) =
      keep (c x && c y && c z) (g x y z) := by
  simp only [J.get3, J.getFields, Option.bind_eq_bind, Option.bind_some, field_head,
    field_skip _ _ _ _ _ h12, field_skip _ _ _ _ _ h13, field_skip _ _ _ _ _ h23, h]
  cases c x <;> cases c y <;> cases c z <;> rfl

theorem get4_back {d : J → Option α} {f : α → J} {c : α → Bool} (h : ∀ a, d (f a) = keep (c a) a)
    (k1 k2 k3 k4 : String) (g : α → α → α → α → β) (x y z w : α) (h12 : k2 ≠ k1) (h13 : k3 ≠ k1)
    (h23 : k3 ≠ k2) (h14 : k4 ≠ k1) (h24 : k4 ≠ k2) (h34 : k4 ≠ k3) :
    J.get4 d k1 k2 k3 k4 g (.obj [(k1, f x), (k2, f y), (k3, f z), (k4, f w)]) =
      keep (c x && c y && c z && c w) (g x y z w) := by
  simp only [J.get4, J.getFields, Option.bind_eq_bind, Option.bind_some, field_head,
    field_skip _ _ _ _ _ h12, field_skip _ _ _ _ _ h13, field_skip _ _ _ _ _ h23,
    field_skip _ _ _ _ _ h14, field_skip _ _ _ _ _ h24, field_skip _ _ _ _ _ h34, h]
  cases c x <;> cases c y <;> cases c z <;> cases c w <;> rfl

theorem getI32_keep (v : Int32) : J.getI32 (.int v.toInt) = keep true v := getI32_int v

theorem struct_back [FloatJ] [FloatBack] (hr : PropBack n rec) (v : StructPropertyValue) (hd : v.entry.2.depth ≤ n)
    (hm : StructMaps v) :
    StructPropertyValue.ofVariant rec v.entry.1 v.entry.2 = keep (structFinite v) v := by
  cases v with
  | customStruct fs =>
    simp only [StructPropertyValue.entry, J.depth] at hd
    simp only [StructMaps] at hm
    simp only [StructPropertyValue.entry, StructPropertyValue.ofVariant, reduceIte,
      String.reduceEq, fields_back hr fs (by omega) hm.1 hm.2, keep_map, structFinite]
  | gameplayTagContainer tags =>
    simp only [StructPropertyValue.entry, StructPropertyValue.ofVariant, reduceIte,
      String.reduceEq, getArr_some (d := J.getStr) (f := J.str) tags (fun _ _ => rfl), structFinite]
    rfl
  | intPoint x y =>
    simp only [StructPropertyValue.entry, StructPropertyValue.ofVariant, reduceIte,
      String.reduceEq, get2_back getI32_keep "x" "y" _ x y (by decide), structFinite]
    rfl
  | _ =>
    simp only [StructPropertyValue.entry, StructPropertyValue.ofVariant, reduceIte,
      String.reduceEq, get2_back getF32_toJ, get2_back getF64_toJ, get3_back getF32_toJ,
      get3_back getF64_toJ, get4_back getF32_toJ, get4_back getF64_toJ, getTicks_ticksJ,
      getGuid_toJ, Option.map_some, structFinite, ne_eq, not_false_eq_true, keep_true]

theorem structs_back [FloatJ] [FloatBack] (hr : PropBack n rec) (l : List StructPropertyValue)
    (hd : depthList (structsJ l) ≤ n) (hm : StructsMaps l) :
    J.getArr (StructPropertyValue.ofJ rec) (.arr (structsJ l)) = keep (structsFinite l) l := by
  rw [structsJ_eq] at hd ⊢
  rw [depthList_map] at hd
  rw [StructsMaps_iff] at hm
  rw [structsFinite_eq]
  refine getArr_keep l fun v hv => ?_
  have h := hd v hv
  simp only [J.depth, depthEntries] at h
  exact struct_back hr v (by omega) (hm v hv)

theorem array_back [FloatJ] [FloatBack] (hr : PropBack n rec) (v : ArrayProperty) (hd : depthEntries v.entries ≤ n)
    (hm : ArrayMaps v) (j : J) :
    ArrayProperty.ofEntries rec (("type", j) :: v.entries) = keep (arrayFinite v) v := by
  cases v with
  | structs field ty g l =>
    simp only [ArrayProperty.entries, depthEntries_append, depthEntries, J.depth] at hd
    simp only [ArrayMaps] at hm
    have h := structs_back hr l (by omega) hm
    simp only [ArrayProperty.entries, ArrayProperty.ofEntries, field_skip, field_head, field_nil,
      defaultField_skip, defaultField_guidE, field_guidE_skip, lookup_skip, List.lookup_nil,
      List.cons_append, List.nil_append,
      ne_eq, not_false_eq_true, String.reduceEq, Option.map_none, h, arrayFinite]
    cases structsFinite l <;> rfl
  | properties ty ps =>
    simp only [ArrayProperty.entries, depthEntries, J.depth] at hd
    simp only [ArrayMaps] at hm
    have h := props_back hr ps (by omega) hm
    simp only [ArrayProperty.entries, ArrayProperty.ofEntries, field_skip, field_head, field_nil,
      ne_eq, not_false_eq_true, String.reduceEq, Option.map_none, h, arrayFinite]
    cases propsFinite ps <;> rfl
  | floats l =>
    simp only [ArrayProperty.entries, ArrayProperty.ofEntries, field_skip, field_head, field_nil,
      getArr_keep l (fun a _ => getF32_toJ a),
      ne_eq, not_false_eq_true, String.reduceEq, Option.map_none, arrayFinite]
    cases l.all finite32 <;> rfl
  | bools l =>
    simp only [ArrayProperty.entries, ArrayProperty.ofEntries, field_skip, field_head, field_nil,
      getArr_some (d := J.getBool) (f := J.bool) l (fun _ _ => rfl),
      ne_eq, not_false_eq_true, String.reduceEq, Option.map_none, arrayFinite]
    rfl
  | bytes l =>
    simp only [ArrayProperty.entries, ArrayProperty.ofEntries, field_skip, field_head, field_nil,
      getHex_hexText,
      ne_eq, not_false_eq_true, String.reduceEq, Option.map_none, arrayFinite]
    rfl
  | enums l =>
    simp only [ArrayProperty.entries, ArrayProperty.ofEntries, field_skip, field_head, field_nil,
      getArr_some (d := J.getStr) (f := J.str) l (fun _ _ => rfl),
      ne_eq, not_false_eq_true, String.reduceEq, Option.map_none, arrayFinite]
    rfl
  | ints l =>
    simp only [ArrayProperty.entries, ArrayProperty.ofEntries, field_skip, field_head, field_nil,
      getArr_some l (fun a _ => getI32_int a),
      ne_eq, not_false_eq_true, String.reduceEq, Option.map_none, arrayFinite]
    rfl
  | names l =>
    simp only [ArrayProperty.entries, ArrayProperty.ofEntries, field_skip, field_head, field_nil,
      getArr_some l (fun a _ => getOpt_optJ a),
      ne_eq, not_false_eq_true, String.reduceEq, Option.map_none, arrayFinite]
    rfl
  | strings l =>
    simp only [ArrayProperty.entries, ArrayProperty.ofEntries, field_skip, field_head, field_nil,
      getArr_some l (fun a _ => getOpt_optJ a),
      ne_eq, not_false_eq_true, String.reduceEq, Option.map_none, arrayFinite]
    rfl

theorem map_back [FloatJ] [FloatBack] (hr : PropBack n rec) (v : MapProperty) (hd : depthEntries v.entries ≤ n)
    (hm : MapMaps v) (j : J) :
    MapProperty.ofEntries rec (("type", j) :: v.entries) = keep (mapFinite v) v := by
  cases v with
  | enumBool l =>
    simp only [MapProperty.entries, MapProperty.ofEntries, field_skip, field_head, field_nil,
      getStrMap_some (d := J.getBool) (f := J.bool) l (fun e _ => rfl) (by simpa only [MapMaps] using hm),
      ne_eq, not_false_eq_true, String.reduceEq, Option.map_none, mapFinite]
    rfl
  | enumInt l =>
    simp only [MapProperty.entries, MapProperty.ofEntries, field_skip, field_head, field_nil,
      getStrMap_some (f := fun x => J.int x.toInt) l (fun e _ => getI32_int e.2) (by simpa only [MapMaps] using hm),
      ne_eq, not_false_eq_true, String.reduceEq, Option.map_none, mapFinite]
    rfl
  | enumProperty t l =>
    simp only [MapProperty.entries, depthEntries, J.depth] at hd
    simp only [MapMaps] at hm
    have h := values_back hr l (by omega) hm.1 hm.2
    simp only [MapProperty.entries, MapProperty.ofEntries, field_skip, field_head, field_nil,
      ne_eq, not_false_eq_true, String.reduceEq, Option.map_none, h, mapFinite]
    cases valuesFinite l <;> rfl
  | nameBool l =>
    simp only [MapProperty.entries, MapProperty.ofEntries, field_skip, field_head, field_nil,
      getStrMap_some (d := J.getBool) (f := J.bool) l (fun e _ => rfl) (by simpa only [MapMaps] using hm),
      ne_eq, not_false_eq_true, String.reduceEq, Option.map_none, mapFinite]
    rfl
  | nameInt l =>
    simp only [MapProperty.entries, MapProperty.ofEntries, field_skip, field_head, field_nil,
      getStrMap_some (f := fun x => J.int x.toInt) l (fun e _ => getI32_int e.2) (by simpa only [MapMaps] using hm),
      ne_eq, not_false_eq_true, String.reduceEq, Option.map_none, mapFinite]
    rfl
  | nameProperty t l =>
    simp only [MapProperty.entries, depthEntries, J.depth] at hd
    simp only [MapMaps] at hm
    have h := values_back hr l (by omega) hm.1 hm.2
    simp only [MapProperty.entries, MapProperty.ofEntries, field_skip, field_head, field_nil,
      ne_eq, not_false_eq_true, String.reduceEq, Option.map_none, h, mapFinite]
    cases valuesFinite l <;> rfl
  | strBool l =>
    simp only [MapProperty.entries, MapProperty.ofEntries, field_skip, field_head, field_nil,
      getStrMap_some (d := J.getBool) (f := J.bool) l (fun e _ => rfl) (by simpa only [MapMaps] using hm),
      ne_eq, not_false_eq_true, String.reduceEq, Option.map_none, mapFinite]
    rfl
  | strInt l =>
    simp only [MapProperty.entries, MapProperty.ofEntries, field_skip, field_head, field_nil,
      getStrMap_some (f := fun x => J.int x.toInt) l (fun e _ => getI32_int e.2) (by simpa only [MapMaps] using hm),
      ne_eq, not_false_eq_true, String.reduceEq, Option.map_none, mapFinite]
    rfl
  | strProperty t l =>
    simp only [MapProperty.entries, depthEntries, J.depth] at hd
    simp only [MapMaps] at hm
    have h := values_back hr l (by omega) hm.1 hm.2
    simp only [MapProperty.entries, MapProperty.ofEntries, field_skip, field_head, field_nil,
      ne_eq, not_false_eq_true, String.reduceEq, Option.map_none, h, mapFinite]
    cases valuesFinite l <;> rfl
  | strStr l =>
    simp only [MapProperty.entries, MapProperty.ofEntries, field_skip, field_head, field_nil,
      getStrMap_some (f := optJ) l (fun e _ => getOpt_optJ e.2) (by simpa only [MapMaps] using hm),
      ne_eq, not_false_eq_true, String.reduceEq, Option.map_none, mapFinite]
    rfl
  | properties kt vt fl l =>
    simp only [MapProperty.entries, depthEntries, J.depth] at hd
    simp only [MapMaps] at hm
    have h := pairs_back hr l (by omega) hm.2
    simp only [MapProperty.entries, MapProperty.ofEntries, field_skip, field_head, field_nil,
      ne_eq, not_false_eq_true, String.reduceEq, Option.map_none, h, getU32_int, mapFinite]
    have hi := imExtend_nil_fresh l hm.1
    cases entriesFinite l
    · rfl
    · simp [keep, J.getStr, hi]

theorem getDelegate_toJ (d : Delegate) : J.getDelegate d.toJ = some d := by
  simp only [J.getDelegate, Delegate.toJ, J.getFields, Option.bind_eq_bind, Option.bind_some,
    field_head, field_skip, ne_eq, not_false_eq_true, String.reduceEq]
  rfl

theorem getMulticast_toJ (ds : List Delegate) : J.getMulticast (multicastJ ds) = some ds := by
  simp only [J.getMulticast, multicastJ, J.getFields, Option.bind_eq_bind, Option.bind_some,
    field_head, getArr_some ds fun d _ => getDelegate_toJ d]

theorem getFieldPath_toJ (p : FieldPath) : J.getFieldPath p.toJ = some p := by
  simp only [J.getFieldPath, FieldPath.toJ, J.getFields, Option.bind_eq_bind, Option.bind_some,
    field_head, field_skip, ne_eq, not_false_eq_true, String.reduceEq,
    getArr_some (d := J.getStr) (f := J.str) p.path (fun _ _ => rfl)]
  rfl

theorem property_of_tag {tagOf : J → Option String} (ht : ∀ s, tagOf (.str s) = some s)
    (text : List (String × J) → Option FText) (tag : String) (es : List (String × J)) :
    Property.ofJStep tagOf text rec (.obj (("type", .str tag) :: es)) =
      Property.ofTag text rec (("type", .str tag) :: es) tag := by
  unfold Property.ofJStep
  simp only [getTagged_obj, List.lookup_cons_self, Option.bind_some, ht, Option.map_some]

theorem structFlat_skip (k : String) (j : J) (es : List (String × J))
    (h : structVariants.contains k = false) :
    StructPropertyValue.ofFlat rec ((k, j) :: es) = StructPropertyValue.ofFlat rec es := by
  unfold StructPropertyValue.ofFlat
  rw [List.find?_cons]
  simp only [h]

theorem structFlat_guidE [FloatJ] (g : Guid) (es : List (String × J)) :
    StructPropertyValue.ofFlat rec (guidE g ++ es) = StructPropertyValue.ofFlat rec es := by
  unfold guidE
  cases g.isZero
  · exact structFlat_skip _ _ _ (by decide)
  · rfl

theorem entry_variant [FloatJ] (v : StructPropertyValue) : structVariants.contains v.entry.1 = true := by
  cases v <;> (simp only [StructPropertyValue.entry]; decide)

theorem structFlat_entry [FloatJ] [FloatBack] (v : StructPropertyValue) (es : List (String × J)) :
    StructPropertyValue.ofFlat rec (v.entry :: es) =
      StructPropertyValue.ofVariant rec v.entry.1 v.entry.2 := by
  unfold StructPropertyValue.ofFlat
  rw [List.find?_cons]
  simp only [entry_variant]
  rfl

theorem byteFlat_back (name : Option String) (v : BytePropertyValue) (j : J) :
    BytePropertyValue.ofFlat (("type", j) :: (optE "name" name ++ [v.entry])) = some v := by
  have h1 : (["Byte", "Namespaced"].contains "type") = false := by decide
  have h2 : (["Byte", "Namespaced"].contains "name") = false := by decide
  have h3 : (["Byte", "Namespaced"].contains "Byte") = true := by decide
  have h4 : (["Byte", "Namespaced"].contains "Namespaced") = true := by decide
  cases name <;> cases v <;>
    simp only [BytePropertyValue.ofFlat, BytePropertyValue.entry, optE, List.cons_append,
      List.nil_append, List.find?_cons, h1, h2, h3, h4, Option.bind_eq_bind, Option.bind_some,
      getU8_int, Option.map_some, J.getStr, reduceIte, String.reduceEq]

theorem entry_not_type [FloatJ] (v : StructPropertyValue) : (v.entry.1 != "type") = true := by
  cases v <;> (simp only [StructPropertyValue.entry]; decide)

theorem value_filter [FloatJ] (v : StructPropertyValue) (j : J) :
    ([("type", j), v.entry].filter fun e => e.1 != "type") = [v.entry] := by
  rw [List.filter_cons_of_neg (by simp)]
  exact List.filter_cons_of_pos (entry_not_type v)

theorem optField_optE_append (k : String) (s : Option String) (e : String × J) (h : k ≠ e.1) :
    optField (optE k s ++ [e]) k J.getStr = some s := by
  obtain ⟨k', j⟩ := e
  exact optField_optE k s _ (by rw [lookup_skip _ _ _ _ h]; rfl)

theorem property_step [FloatJ] [FloatBack] {n : Nat} {tagOf : J → Option String} (ht : ∀ s, tagOf (.str s) = some s)
    (ih : PropBack n (Property.ofJ n)) :
    PropBack (n + 1) (Property.ofJStep tagOf (FText.ofEntries (n + 1)) (Property.ofJ n)) := by
    intro p hd hm
    cases p with
    | array v =>
      simp only [Property.toJ, J.depth, depthEntries] at hd
      simp only [MapsDistinct] at hm
      simp only [Property.toJ, property_of_tag ht, Property.ofTag, reduceIte, array_back ih v (by omega) hm, allFinite]
      cases arrayFinite v <;> rfl
    | map v =>
      simp only [Property.toJ, J.depth, depthEntries] at hd
      simp only [MapsDistinct] at hm
      simp only [Property.toJ, property_of_tag ht, Property.ofTag, reduceIte, String.reduceEq, map_back ih v (by omega) hm, allFinite]
      cases mapFinite v <;> rfl
    | set t fl ps =>
      simp only [Property.toJ, J.depth, depthEntries] at hd
      simp only [MapsDistinct] at hm
      simp only [Property.toJ, property_of_tag ht, Property.ofTag, reduceIte, String.reduceEq,
        field_skip, field_head, ne_eq, not_false_eq_true, getU32_int, props_back ih ps (by omega) hm, allFinite]
      cases propsFinite ps <;> rfl
    | struct g t v =>
      simp only [Property.toJ, J.depth, depthEntries, depthEntries_append] at hd
      simp only [MapsDistinct] at hm
      have h := struct_back ih v (by omega) hm
      have hl : List.lookup "guid" [("type_name", J.str t), v.entry] = none := by
        cases v <;> simp only [StructPropertyValue.entry, lookup_skip, ne_eq, not_false_eq_true,
          String.reduceEq, List.lookup_nil]
      have hv1 : structVariants.contains "type" = false := by decide
      have hv2 : structVariants.contains "type_name" = false := by decide
      simp only [Property.toJ, property_of_tag ht, Property.ofTag, reduceIte, String.reduceEq,
        field_skip, field_head, ne_eq, not_false_eq_true, defaultField_skip,
        defaultField_guidE g _ hl, field_guidE_skip, structFlat_skip _ _ _ hv1,
        structFlat_guidE, structFlat_skip _ _ _ hv2, structFlat_entry, h, allFinite]
      cases structFinite v <;> rfl
    | structValue v =>
      simp only [Property.toJ, J.depth, depthEntries] at hd
      simp only [MapsDistinct] at hm
      have h := struct_back ih v (by omega) hm
      have h' : StructPropertyValue.ofJ (Property.ofJ n) (.obj [v.entry]) =
        StructPropertyValue.ofVariant (Property.ofJ n) v.entry.1 v.entry.2 := rfl
      simp only [Property.toJ, property_of_tag ht, Property.ofTag, reduceIte, String.reduceEq,
        value_filter, h', h, allFinite]
      cases structFinite v <;> rfl
    | text t =>
      simp only [Property.toJ, J.depth, depthEntries] at hd
      simp only [MapsDistinct] at hm
      simp only [Property.toJ, property_of_tag ht, Property.ofTag, reduceIte, String.reduceEq,
        text_skip, text_back (n + 1) t (by omega) hm, allFinite]
      cases textFinite t <;> rfl
    | float f =>
      simp only [Property.toJ, property_of_tag ht, Property.ofTag, reduceIte, String.reduceEq,
        field_skip, field_head, ne_eq, not_false_eq_true, getF32_toJ, allFinite]
      cases finite32 f <;> rfl
    | double f =>
      simp only [Property.toJ, property_of_tag ht, Property.ofTag, reduceIte, String.reduceEq,
        field_skip, field_head, ne_eq, not_false_eq_true, getF64_toJ, allFinite]
      cases finite64 f <;> rfl
    | byte name v =>
      have hb : "name" ≠ v.entry.1 := by cases v <;> simp [BytePropertyValue.entry]
      simp only [Property.toJ, property_of_tag ht, Property.ofTag, reduceIte, String.reduceEq,
        optField_skip, ne_eq, not_false_eq_true, optField_optE_append _ _ _ hb, byteFlat_back, allFinite]
      rfl
    | enum t v =>
      simp only [Property.toJ, property_of_tag ht, Property.ofTag, reduceIte, String.reduceEq,
        optField_skip, field_skip, field_head, ne_eq, not_false_eq_true, optField_optE, lookup_skip, List.lookup_nil, field_optE_skip, allFinite]
      rfl
    | name i v =>
      simp only [Property.toJ, property_of_tag ht, Property.ofTag, reduceIte, String.reduceEq,
        optField_skip, ne_eq, not_false_eq_true, defaultField_skip, allFinite]
      unfold nonzeroE
      by_cases hz : i = 0
      · subst hz
        simp only [if_true, List.nil_append, optField_optE', defaultField_eq, optE_lookup, ne_eq, not_false_eq_true, String.reduceEq]
        rfl
      · simp only [if_neg hz, List.cons_append, List.nil_append, optField_skip, optField_optE', defaultField_eq, List.lookup_cons_self, getU32_int, ne_eq, not_false_eq_true, String.reduceEq]
        rfl
    | str v =>
      simp only [Property.toJ, property_of_tag ht, Property.ofTag, reduceIte, String.reduceEq,
        optField_skip, ne_eq, not_false_eq_true, optField_optE', allFinite]
      rfl
    | unknown name raw =>
      simp only [Property.toJ, property_of_tag ht, Property.ofTag, reduceIte, String.reduceEq,
        field_skip, field_head, ne_eq, not_false_eq_true, getArr_some raw (fun a _ => getU8_int a), allFinite]
      rfl
    | _ =>
      simp only [Property.toJ, property_of_tag ht, Property.ofTag, reduceIte, String.reduceEq,
        field_skip, field_head, ne_eq, not_false_eq_true, getI8_int, getI16_int, getI32_int,
        getI64_int, getU16_int, getU32_int, getU64_int, getDelegate_toJ, getMulticast_toJ,
        getFieldPath_toJ, J.getStr, J.getBool, allFinite]
      rfl

theorem property_back [FloatJ] [FloatBack] : ∀ n, PropBack n (Property.ofJ n) := by
  intro n
  induction n with
  | zero =>
    intro p hd
    cases p <;> simp [Property.toJ, J.depth] at hd
  | succ n ih => exact property_step (fun _ => rfl) ih

theorem property_back_json [FloatJ] [FloatBack] : ∀ n, PropBack n (Property.ofJson n)
  | 0 => fun p hd => by cases p <;> simp [Property.toJ, J.depth] at hd
  | n + 1 => property_step (fun _ => rfl) (property_back n)

/-! ## Files -/

theorem getEngineVersion_obj (es : List (String × J)) : J.getEngineVersion (.obj es) = (do
    return {
      major := ← field es "major" J.getU16
      minor := ← field es "minor" J.getU16
      patch := ← field es "patch" J.getU16
      changeList := ← field es "change_list" J.getU32
      branch := ← field es "branch" J.getStr }) := rfl

theorem getEngineVersion_toJ (v : FEngineVersion) : J.getEngineVersion v.toJ = some v := by
  unfold FEngineVersion.toJ
  rw [getEngineVersion_obj]
  simp only [field_head, field_skip, ne_eq, not_false_eq_true, String.reduceEq, getU16_int,
    getU32_int]
  rfl

theorem getCustomVersions_back (cv : List (Guid × UInt32)) (h : (cv.map Prod.fst).Nodup) :
    J.getCustomVersions (customVersionsJ cv) = some cv := by
  have := getMap_keep (same := (· == ·)) (dk := guidOfStr) (fk := fun g => String.ofList g.display)
    (d := J.getU32) (f := fun v : UInt32 => J.int v.toNat) (c := fun _ => true) cv
    (fun e _ => guidOfStr_display e.1) (fun e _ => getU32_int e.2)
    (List.Pairwise.imp (fun h => by simpa using h) h)
  unfold J.getCustomVersions customVersionsJ
  rw [this]
  simp [keep]

theorem header_of_tag (tag : String) (es : List (String × J)) :
    GvasHeader.ofJ (.obj (("type", .str tag) :: es)) =
      GvasHeader.ofTag (("type", .str tag) :: es) tag := by
  unfold GvasHeader.ofJ
  simp only [getTagged_obj, List.lookup_cons_self, Option.bind_some, J.getStr, Option.map_some]

theorem header_back (h : GvasHeader) (hc : (h.customVersions.map Prod.fst).Nodup) :
    GvasHeader.ofJ h.toJ = some h := by
  cases h <;>
  · simp only [GvasHeader.customVersions] at hc
    simp only [GvasHeader.toJ, header_of_tag, GvasHeader.ofTag, reduceIte, field_head, field_skip,
      ne_eq, not_false_eq_true, String.reduceEq, getU32_int, getEngineVersion_toJ,
      getCustomVersions_back _ hc]
    rfl

theorem getGameVersion_palworld (c : PalworldCompressionType) :
    J.getGameVersion (.obj [("Palworld", .str c.json)]) = some (.palworld c) := by
  cases c <;> rfl

theorem file_of_obj (es : List (String × J)) (gv : DeserializedGameVersion) (h : GvasHeader)
    (hg : defaultField es "deserialized_game_version" .default J.getGameVersion = some gv)
    (hh : field es "header" GvasHeader.ofJ = some h) :
    GvasFile.ofJson (.obj es) =
      (field es "properties" (J.getStrMap (Property.ofJson (J.obj es).depth))).map (⟨gv, h, ·⟩) := by
  simp only [GvasFile.ofJson, J.getFields, Option.bind_eq_bind, Option.bind_some, hg, hh]
  generalize field es "properties" (J.getStrMap (Property.ofJson (J.obj es).depth)) = o
  cases o <;> rfl

theorem file_back [FloatJ] [FloatBack] (f : GvasFile) (hm : FileMaps f) :
    GvasFile.ofJson f.toJson = keep (fileFinite f) f := by
  obtain ⟨gv, hdr, ps⟩ := f
  obtain ⟨h1, h2, h3⟩ := hm
  have hh := header_back hdr h1
  have hd : depthEntries (strPropsJ ps) ≤ (GvasFile.toJson ⟨gv, hdr, ps⟩).depth := by
    simp only [GvasFile.toJson, J.depth, depthEntries_append, depthEntries]
    omega
  have hp := values_back (property_back_json _) ps hd h2 ((ValuesMaps_iff _).2 h3)
  unfold fileFinite
  rw [← valuesFinite_eq]
  unfold GvasFile.toJson at hp ⊢
  rw [file_of_obj _ gv hdr]
  · cases gv <;>
      simp only [List.nil_append, List.cons_append, field_skip, field_head, ne_eq,
        not_false_eq_true, String.reduceEq] at hp ⊢ <;>
      rw [hp] <;> simp only [keep_map]
  · cases gv
    · simp only [List.nil_append, defaultField_skip, ne_eq, not_false_eq_true, String.reduceEq]
      rfl
    · simp only [List.cons_append, List.nil_append, defaultField_eq, List.lookup_cons_self,
        getGameVersion_palworld]
  · cases gv <;>
      simp only [List.nil_append, List.cons_append, field_skip, field_head, ne_eq,
        not_false_eq_true, String.reduceEq, hh]

end Gvas.Js
