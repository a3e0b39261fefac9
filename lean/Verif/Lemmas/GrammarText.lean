import Verif.Lemmas.Gives
import Verif.Lemmas.Text

/-! # Texts follow the grammar, and texts of the grammar are read -/

namespace Gvas

open Spec Format

variable {cv : List (Guid × UInt32)} {st : List String}

theorem R.bind_assoc {α β γ : Type} (m : R α) (f : α → R β) (g : β → R γ) :
    ((m >>= f) >>= g) = (m >>= fun a => f a >>= g) := by
  funext s
  rw [R.bind_def, R.bind_def, R.bind_def]
  match m s with
  | (.ok a, s1) => rfl
  | (.bad e, s1) => rfl

theorem Format.at_eq {α : Type} {L : Bytes → α → Prop} {b b' : Bytes} {a : α} (h : L b a)
    (e : b' = b) : L b' a := e ▸ h

/-! ## Gates -/

theorem since_iff {g : Guid} {n : Nat} (hn : 0 < n) :
    Since cv g n ↔ supportsVersion cv g n = true := by
  unfold Since supportsVersion getCustomVersion
  cases cv.lookup g with
  | none => simp; omega
  | some v => simp

theorem invariantText_iff : InvariantText cv ↔ cultureInvariant cv = true := since_iff (by omega)
theorem wideArguments_iff : WideArguments cv ↔ text64 cv = true := since_iff (by omega)
theorem largeWorld_iff : LargeWorld cv ↔ lwc cv = true := since_iff (by omega)

/-! ## Numbers for kinds -/

theorem ofI8_style {v : Int8} {t : DateTimeStyle} (h : DateTimeStyle.ofI8 v = some t) :
    v = t.toI8 := by
  unfold DateTimeStyle.ofI8 at h
  repeat' (split at h)
  all_goals (cases h; try assumption)
theorem ofI8_transform {v : Int8} {t : TransformType} (h : TransformType.ofI8 v = some t) :
    v = t.toI8 := by
  unfold TransformType.ofI8 at h
  repeat' (split at h)
  all_goals (cases h; try assumption)
theorem ofI8_rounding {v : Int8} {t : RoundingMode} (h : RoundingMode.ofI8 v = some t) :
    v = t.toI8 := by
  unfold RoundingMode.ofI8 at h
  repeat' (split at h)
  all_goals (cases h; try assumption)
theorem ofI8_argument {v : Int8} {t : FormatArgumentType} (h : FormatArgumentType.ofI8 v = some t) :
    v = t.toI8 := by
  unfold FormatArgumentType.ofI8 at h
  repeat' (split at h)
  all_goals (cases h; try assumption)
theorem ite_some {α : Type} {c : Prop} [Decidable c] {a t : α} {o : Option α}
    (h : (if c then some a else o) = some t) : (c ∧ a = t) ∨ o = some t := by
  split at h
  · exact .inl ⟨‹_›, by simpa using h⟩
  · exact .inr h
theorem ofI8_history {v : Int8} {t : TextHistoryType} (h : TextHistoryType.ofI8 v = some t) :
    v = t.toI8 := by
  unfold TextHistoryType.ofI8 at h
  iterate 15 (rcases ite_some h with ⟨e, rfl⟩ | h; · exact e)
  cases h

theorem gives_style : Gives st (readEnum (textEnumName "DateTimeStyle") DateTimeStyle.ofI8)
    (Choice styles) := by
  refine gives_enum.mono ?_
  rintro b a ⟨v, h, rfl⟩
  rw [ofI8_style h]
  exact ⟨a.ctorIdx, by cases a <;> decide, by cases a <;> rfl, by cases a <;> decide⟩

theorem gives_transform : Gives st (readEnum (textEnumName "TransformType") TransformType.ofI8)
    (Choice transforms) := by
  refine gives_enum.mono ?_
  rintro b a ⟨v, h, rfl⟩
  rw [ofI8_transform h]
  exact ⟨a.ctorIdx, by cases a <;> decide, by cases a <;> rfl, by cases a <;> decide⟩

theorem gives_rounding : Gives st (readEnum (textEnumName "RoundingMode") RoundingMode.ofI8)
    (Choice roundings) := by
  refine gives_enum.mono ?_
  rintro b a ⟨v, h, rfl⟩
  rw [ofI8_rounding h]
  exact ⟨a.ctorIdx, by cases a <;> decide, by cases a <;> rfl, by cases a <;> decide⟩

theorem choice_style {b : Bytes} {a : DateTimeStyle} (h : Choice styles b a) : b = i8B a.toI8 := by
  obtain ⟨n, _, h, rfl⟩ := h
  match n, h with
  | 0, h | 1, h | 2, h | 3, h | 4, h => cases h; decide
  | n + 5, h => simp [styles] at h
theorem choice_transform {b : Bytes} {a : TransformType} (h : Choice transforms b a) :
    b = i8B a.toI8 := by
  obtain ⟨n, _, h, rfl⟩ := h
  match n, h with
  | 0, h | 1, h => cases h; decide
  | n + 2, h => simp [transforms] at h
theorem choice_rounding {b : Bytes} {a : RoundingMode} (h : Choice roundings b a) :
    b = i8B a.toI8 := by
  obtain ⟨n, _, h, rfl⟩ := h
  match n, h with
  | 0, h | 1, h | 2, h | 3, h | 4, h | 5, h | 6, h => cases h; decide
  | n + 7, h => simp [roundings] at h

/-! ## From reads to the grammar -/

theorem gives_formatOptions : Gives st readFormatOptions Options := by
  unfold readFormatOptions
  refine gives_b32.bind fun b v h => ?_
  subst h
  cases v with
  | false => exact Gives.pure (at_eq .none (by simp))
  | true =>
    unfold NumberFormattingOptions.read
    refine Gives.map (M := fun b' o => Options (u32B 1 ++ b') o) (L := fun b' o =>
      Options (u32B 1 ++ b') (some o)) ?_ (fun b a h => h)
    refine gives_b32.bind fun b1 v1 h1 => gives_b32.bind fun b2 v2 h2 =>
      gives_rounding.bind fun b3 v3 h3 => gives_i32.bind fun b4 v4 h4 =>
      gives_i32.bind fun b5 v5 h5 => gives_i32.bind fun b6 v6 h6 =>
      gives_i32.bind fun b7 v7 h7 => Gives.pure ?_
    subst h1 h2 h4 h5 h6 h7
    exact at_eq (.some v1 v2 v4 v5 v6 v7 h3) (by simp only [List.append_assoc, List.append_nil])

theorem gives_count : Gives st (readI32 >>= capacity)
    (fun b n => n < 2 ^ 31 ∧ b = i32B (Int32.ofNat n)) := by
  refine gives_i32.bind fun b c h => ?_
  subst h
  unfold capacity
  split
  · exact Gives.panic
  · rename_i hc
    have hlt := c.toInt_lt
    refine Gives.pure ⟨by omega, ?_⟩
    have : c = Int32.ofNat c.toInt.toNat :=
      Int32.toInt_inj.mp (by rw [i32_ofNat_toInt (by omega)]; omega)
    rw [← this]; simp

theorem gives_argument {rec : R FText} (hr : Gives st rec (Text cv)) :
    Gives st (FormatArgumentValue.readWith cv rec) (Arg cv) := by
  unfold FormatArgumentValue.readWith
  refine gives_enum.bind fun b t h => ?_
  obtain ⟨v, h, rfl⟩ := h
  rw [ofI8_argument h]
  cases t with
  | int =>
    simp only []
    split
    · rename_i hg
      refine gives_i64.map fun b a h => ?_
      subst h; exact .int64 a (wideArguments_iff.mpr hg)
    · rename_i hg
      refine gives_i32.map fun b a h => ?_
      subst h; exact .int a (fun h => hg (wideArguments_iff.mp h))
  | uint =>
    simp only []
    split
    · rename_i hg
      refine gives_u64.map fun b a h => ?_
      subst h; exact .uint64 a (wideArguments_iff.mpr hg)
    · rename_i hg
      refine gives_u32.map fun b a h => ?_
      subst h; exact .uint a (fun h => hg (wideArguments_iff.mp h))
  | float =>
    refine gives_f32.map fun b a h => ?_
    subst h; exact .float a
  | double =>
    refine gives_f64.map fun b a h => ?_
    subst h; exact .double a
  | text => exact hr.map fun b a h => .text h
  | gender => exact Gives.panic

theorem gives_arguments {rec : R FText} (hr : Gives st rec (Text cv)) :
    Gives st (readArguments cv rec) (fun b args => ∃ es bs, NamedArgs cv bs es ∧
      es.length < 2 ^ 31 ∧ LastWins (· == ·) es args ∧
      b = i32B (Int32.ofNat es.length) ++ bs) := by
  unfold readArguments
  have e : ∀ (f : Nat → R (List (String × FormatArgumentValue))),
      (readI32 >>= fun c => capacity c >>= f) = ((readI32 >>= capacity) >>= f) := by
    intro f; exact (R.bind_assoc _ _ _).symm
  rw [e]
  refine gives_count.bind fun b n h => ?_
  obtain ⟨hn, rfl⟩ := h
  refine Gives.map (Gives.replicate (L := fun b e => ∃ b1 b2, Str b1 (some e.1) ∧ Arg cv b2 e.2 ∧
    b = b1 ++ b2) (M := NamedArgs cv) ?_ .nil ?_ n) ?_
  · refine gives_string.bind fun b1 k h1 => (gives_argument hr).map fun b2 v h2 => ?_
    exact ⟨b1, b2, h1, h2, rfl⟩
  · rintro b ⟨k, v⟩ bs as ⟨b1, b2, h1, h2, rfl⟩ hs
    exact .cons h1 h2 hs
  · rintro b es ⟨rfl, hs⟩
    exact ⟨es, b, hs, hn, lastWins_imExtend equiv_beq es, rfl⟩

theorem gives_history {rec : R FText} (hr : Gives st rec (Text cv)) :
    Gives st (FTextHistory.readWith cv rec) (History cv) := by
  unfold FTextHistory.readWith
  refine gives_enum.bind fun b t h => ?_
  obtain ⟨v, h, rfl⟩ := h
  rw [ofI8_history h]
  cases t with
  | none =>
    simp only []
    split
    · rename_i hg
      refine gives_b32.bind fun b1 f h1 => ?_
      subst h1
      cases f with
      | true =>
        refine gives_fstring.map fun b2 s h2 => ?_
        exact at_eq (.invariant (invariantText_iff.mpr hg) h2) (by rw [List.append_assoc]; rfl)
      | false =>
        exact Gives.pure (at_eq (.empty (invariantText_iff.mpr hg)) (by rw [List.append_nil]; rfl))
    · rename_i hg
      exact Gives.pure (at_eq (.old fun h => hg (invariantText_iff.mp h)) rfl)
  | base =>
    refine gives_fstring.bind fun b1 _ h1 => gives_fstring.bind fun b2 _ h2 =>
      gives_fstring.map fun b3 _ h3 => ?_
    exact at_eq (.base h1 h2 h3) (by simp only [List.append_assoc]; rfl)
  | namedFormat =>
    refine hr.bind fun b1 _ h1 => (gives_arguments hr).map fun b2 _ h2 => ?_
    obtain ⟨es, bs, h3, h4, h5, rfl⟩ := h2
    exact at_eq (.namedFormat h1 h3 h4 h5) (by simp only [List.append_assoc]; rfl)
  | orderedFormat =>
    refine hr.bind fun b1 _ h1 => ?_
    have e : ∀ (f : Nat → R FTextHistory),
        (readI32 >>= fun c => capacity c >>= f) = ((readI32 >>= capacity) >>= f) := by
      intro f; exact (R.bind_assoc _ _ _).symm
    simp only [e]
    refine gives_count.bind fun b2 n h2 => ?_
    obtain ⟨hn, rfl⟩ := h2
    refine Gives.map (Gives.replicate (M := Args cv) (gives_argument hr) .nil
      (fun _ _ _ _ => .cons) n) ?_
    rintro b vs ⟨rfl, hs⟩
    exact at_eq (.orderedFormat h1 hs hn) (by simp only [List.append_assoc]; rfl)
  | argumentFormat =>
    refine hr.bind fun b1 _ h1 => (gives_arguments hr).map fun b2 _ h2 => ?_
    obtain ⟨es, bs, h3, h4, h5, rfl⟩ := h2
    exact at_eq (.argumentFormat h1 h3 h4 h5) (by simp only [List.append_assoc]; rfl)
  | asNumber =>
    refine (gives_argument hr).bind fun b1 _ h1 => gives_formatOptions.bind fun b2 _ h2 =>
      gives_fstring.map fun b3 _ h3 => ?_
    exact at_eq (.asNumber h1 h2 h3) (by simp only [List.append_assoc]; rfl)
  | asPercent =>
    refine (gives_argument hr).bind fun b1 _ h1 => gives_formatOptions.bind fun b2 _ h2 =>
      gives_fstring.map fun b3 _ h3 => ?_
    exact at_eq (.asPercent h1 h2 h3) (by simp only [List.append_assoc]; rfl)
  | asCurrency =>
    refine gives_fstring.bind fun b0 _ h0 => (gives_argument hr).bind fun b1 _ h1 =>
      gives_formatOptions.bind fun b2 _ h2 => gives_fstring.map fun b3 _ h3 => ?_
    exact at_eq (.asCurrency h0 h1 h2 h3) (by simp only [List.append_assoc]; rfl)
  | asDate =>
    refine gives_u64.bind fun b0 t h0 => gives_style.bind fun b1 _ h1 =>
      gives_string.map fun b2 _ h2 => ?_
    subst h0
    exact at_eq (.asDate t h1 h2) (by simp only [List.append_assoc]; rfl)
  | asTime =>
    refine gives_u64.bind fun b0 t h0 => gives_style.bind fun b1 _ h1 =>
      gives_string.bind fun b2 _ h2 => gives_string.map fun b3 _ h3 => ?_
    subst h0
    exact at_eq (.asTime t h1 h2 h3) (by simp only [List.append_assoc]; rfl)
  | asDateTime =>
    refine gives_u64.bind fun b0 t h0 => gives_style.bind fun b1 _ h1 =>
      gives_style.bind fun b2 _ h2 =>
      gives_string.bind fun b3 _ h3 => gives_string.map fun b4 _ h4 => ?_
    subst h0
    exact at_eq (.asDateTime t h1 h2 h3 h4) (by simp only [List.append_assoc]; rfl)
  | transform =>
    refine hr.bind fun b1 _ h1 => gives_transform.map fun b2 _ h2 => ?_
    exact at_eq (.transform h1 h2) (by simp only [List.append_assoc]; rfl)
  | stringTableEntry =>
    refine gives_string.bind fun b1 _ h1 => gives_string.map fun b2 _ h2 => ?_
    exact at_eq (.stringTableEntry h1 h2) (by simp only [List.append_assoc]; rfl)
  | textGenerator => exact Gives.panic
  | rawText => exact Gives.panic

theorem gives_text (n : Nat) : Gives st (FText.read cv n) (Text cv) := by
  induction n with
  | zero => exact Gives.outOfFuel
  | succ n ih =>
    unfold FText.read
    refine gives_u32.bind fun b fl h => (gives_history ih).map fun b' hi h' => ?_
    subst h
    exact .mk fl h'

/-! ## From the grammar to reads -/

theorem reads_options {b : Bytes} {o : Option NumberFormattingOptions} (h : Options b o) :
    Reads st readFormatOptions b o := by
  cases h with
  | none => exact (reads_formatOptions none).congr rfl
  | some sign grouping x y z w hr =>
    refine (reads_formatOptions (some _)).congr ?_
    rw [choice_rounding hr]
    simp only [writeFormatOptions, NumberFormattingOptions.write, Out.app_bytes, b32B,
      List.append_assoc, Option.isSome_some, if_true]

/-- With enough fuel. -/
def Eventually (P : Nat → Prop) : Prop := ∃ n0, ∀ n, n0 ≤ n → P n

theorem Eventually.and {P Q : Nat → Prop} (h : Eventually P) (h' : Eventually Q) :
    Eventually fun n => P n ∧ Q n := by
  obtain ⟨a, ha⟩ := h
  obtain ⟨b, hb⟩ := h'
  exact ⟨max a b, fun n hn => ⟨ha n (by omega), hb n (by omega)⟩⟩

theorem Eventually.mono {P Q : Nat → Prop} (h : Eventually P) (hi : ∀ n, P n → Q n) :
    Eventually Q := by
  obtain ⟨a, ha⟩ := h
  exact ⟨a, fun n hn => hi n (ha n hn)⟩

theorem Eventually.of {P : Nat → Prop} (h : ∀ n, P n) : Eventually P := ⟨0, fun n _ => h n⟩

theorem Eventually.step {P : Nat → Prop} (h : Eventually fun n => P (n + 1)) : Eventually P := by
  obtain ⟨a, ha⟩ := h
  refine ⟨a + 1, fun n hn => ?_⟩
  match n, hn with
  | n + 1, hn => exact ha n (by omega)

section

variable (rec : R FText)

/-- A history behind its number. -/
theorem reads_kind {β : Type} {t : TextHistoryType} {f : TextHistoryType → R β} {tag b : Bytes}
    {r : β} (h : Reads st (f t) b r) (e : tag = i8B t.toI8) :
    Reads st (readEnum (textEnumName "TextHistoryType") TextHistoryType.ofI8 >>= f) (tag ++ b) r :=
  e ▸ (reads_tag t).bind h

theorem reads_argKind {β : Type} {t : FormatArgumentType} {f : FormatArgumentType → R β}
    {tag b : Bytes} {r : β} (h : Reads st (f t) b r) (e : tag = i8B t.toI8) :
    Reads st (readEnum (textEnumName "FormatArgumentType") FormatArgumentType.ofI8 >>= f)
      (tag ++ b) r :=
  e ▸ (reads_argType t).bind h

theorem reads_choiceStyle {b : Bytes} {a : DateTimeStyle} (h : Choice styles b a) :
    Reads st (readEnum (textEnumName "DateTimeStyle") DateTimeStyle.ofI8) b a :=
  choice_style h ▸ reads_style a
theorem reads_choiceTransform {b : Bytes} {a : TransformType} (h : Choice transforms b a) :
    Reads st (readEnum (textEnumName "TransformType") TransformType.ofI8) b a :=
  choice_transform h ▸ reads_transform a

end

theorem reads_namedArgs {rec : R FText} {b bs : Bytes}
    {es args : List (String × FormatArgumentValue)}
    (h : Reads st (R.replicate (do
      let key ← readString
      let value ← FormatArgumentValue.readWith cv rec
      return (key, value)) es.length) bs es)
    (hl : es.length < 2 ^ 31) (hw : LastWins (· == ·) es args)
    (e : b = i32B (Int32.ofNat es.length) ++ bs) : Reads st (readArguments cv rec) b args := by
  subst e
  unfold readArguments
  refine reads_count hl ?_
  rw [lastWins_unique hw (lastWins_imExtend equiv_beq es)]
  exact Reads.map (g := imExtend (· == ·) []) h

theorem cons_items {α : Type} {m : R α} {n : Nat} {b bs : Bytes} {a : α} {as : List α}
    (h1 : Reads st m b a) (h2 : Reads st (R.replicate m n) bs as) :
    Reads st (R.replicate m (n + 1)) (b ++ bs) (a :: as) :=
  h1.bind (Reads.map (g := fun l => a :: l) h2)

mutual
theorem reads_text_of {b : Bytes} {t : FText} (h : Text cv b t) :
    Eventually fun n => Reads st (FText.read cv n) b t := by
  match h with
  | .mk flags h =>
    refine Eventually.step ((reads_history_of h).mono fun n hn => ?_)
    exact (reads_u32 flags).bind (Reads.map hn)
termination_by structural h
theorem reads_history_of {b : Bytes} {t : FTextHistory} (h : History cv b t) :
    Eventually fun n => Reads st (FTextHistory.readWith cv (FText.read cv n)) b t := by
  unfold FTextHistory.readWith
  match h with
  | .old hg =>
    refine .of fun n => reads_kind (t := .none) (tag := [0xFF]) (b := []) ?_ (by decide)
    simp only []
    rw [if_neg (fun h => hg (invariantText_iff.mpr h))]
    exact Reads.pure _
  | .empty hg =>
    refine .of fun n => reads_kind (t := .none) ?_ (by decide)
    simp only []
    rw [if_pos (invariantText_iff.mp hg)]
    exact (reads_b32 false).bind' (Reads.pure _) (by rw [List.append_nil]; rfl)
  | .invariant hg hs =>
    refine .of fun n => ?_
    rw [List.append_assoc]
    refine reads_kind (t := .none) ?_ (by decide)
    simp only []
    rw [if_pos (invariantText_iff.mp hg)]
    exact (reads_b32 true).bind (Reads.map (reads_str hs))
  | .base h1 h2 h3 =>
    refine .of fun n => ?_
    simp only [List.append_assoc]
    exact reads_kind (t := .base) ((reads_str h1).bind ((reads_str h2).bind
      (Reads.map (reads_str h3)))) (by decide)
  | .namedFormat h1 h2 h3 h4 =>
    refine ((reads_text_of h1).and (reads_named_of h2)).mono fun n ⟨g1, g2⟩ => ?_
    simp only [List.append_assoc]
    exact reads_kind (t := .namedFormat) (g1.bind (Reads.map (reads_namedArgs g2 h3 h4 rfl)))
      (by decide)
  | .orderedFormat h1 h2 h3 =>
    refine ((reads_text_of h1).and (reads_args_of h2)).mono fun n ⟨g1, g2⟩ => ?_
    simp only [List.append_assoc]
    exact reads_kind (t := .orderedFormat) (g1.bind (reads_count h3 (Reads.map g2)))
      (by decide)
  | .argumentFormat h1 h2 h3 h4 =>
    refine ((reads_text_of h1).and (reads_named_of h2)).mono fun n ⟨g1, g2⟩ => ?_
    simp only [List.append_assoc]
    exact reads_kind (t := .argumentFormat) (g1.bind (Reads.map (reads_namedArgs g2 h3 h4 rfl)))
      (by decide)
  | .asNumber h1 h2 h3 =>
    refine (reads_arg_of h1).mono fun n g1 => ?_
    simp only [List.append_assoc]
    exact reads_kind (t := .asNumber) (g1.bind ((reads_options h2).bind (Reads.map (reads_str h3))))
      (by decide)
  | .asPercent h1 h2 h3 =>
    refine (reads_arg_of h1).mono fun n g1 => ?_
    simp only [List.append_assoc]
    exact reads_kind (t := .asPercent)
      (g1.bind ((reads_options h2).bind (Reads.map (reads_str h3)))) (by decide)
  | .asCurrency h0 h1 h2 h3 =>
    refine (reads_arg_of h1).mono fun n g1 => ?_
    simp only [List.append_assoc]
    exact reads_kind (t := .asCurrency) ((reads_str h0).bind
      (g1.bind ((reads_options h2).bind (Reads.map (reads_str h3))))) (by decide)
  | .asDate t h1 h2 =>
    refine .of fun n => ?_
    simp only [List.append_assoc]
    exact reads_kind (t := .asDate) ((reads_u64 t).bind ((reads_choiceStyle h1).bind
      (Reads.map (reads_str' h2)))) (by decide)
  | .asTime t h1 h2 h3 =>
    refine .of fun n => ?_
    simp only [List.append_assoc]
    exact reads_kind (t := .asTime) ((reads_u64 t).bind ((reads_choiceStyle h1).bind
      ((reads_str' h2).bind (Reads.map (reads_str' h3))))) (by decide)
  | .asDateTime t h0 h1 h2 h3 =>
    refine .of fun n => ?_
    simp only [List.append_assoc]
    exact reads_kind (t := .asDateTime) ((reads_u64 t).bind ((reads_choiceStyle h0).bind
      ((reads_choiceStyle h1).bind
      ((reads_str' h2).bind (Reads.map (reads_str' h3)))))) (by decide)
  | .transform h1 h2 =>
    refine (reads_text_of h1).mono fun n g1 => ?_
    simp only [List.append_assoc]
    exact reads_kind (t := .transform) (g1.bind (Reads.map (reads_choiceTransform h2))) (by decide)
  | .stringTableEntry h1 h2 =>
    refine .of fun n => ?_
    simp only [List.append_assoc]
    exact reads_kind (t := .stringTableEntry) ((reads_str' h1).bind
      (Reads.map (reads_str' h2))) (by decide)
termination_by structural h
theorem reads_arg_of {b : Bytes} {t : FormatArgumentValue} (h : Arg cv b t) :
    Eventually fun n => Reads st (FormatArgumentValue.readWith cv (FText.read cv n)) b t := by
  unfold FormatArgumentValue.readWith
  match h with
  | .int v hg =>
    refine .of fun n => reads_argKind (t := .int) ?_ (by decide)
    simp only []
    rw [if_neg (fun h => hg (wideArguments_iff.mpr h))]
    exact Reads.map (reads_i32 v)
  | .int64 v hg =>
    refine .of fun n => reads_argKind (t := .int) ?_ (by decide)
    simp only []
    rw [if_pos (wideArguments_iff.mp hg)]
    exact Reads.map (reads_i64 v)
  | .uint v hg =>
    refine .of fun n => reads_argKind (t := .uint) ?_ (by decide)
    simp only []
    rw [if_neg (fun h => hg (wideArguments_iff.mpr h))]
    exact Reads.map (reads_u32 v)
  | .uint64 v hg =>
    refine .of fun n => reads_argKind (t := .uint) ?_ (by decide)
    simp only []
    rw [if_pos (wideArguments_iff.mp hg)]
    exact Reads.map (reads_u64 v)
  | .float v => exact .of fun n => reads_argKind (t := .float) (Reads.map (reads_f32 v)) (by decide)
  | .double v =>
    exact .of fun n => reads_argKind (t := .double) (Reads.map (reads_f64 v)) (by decide)
  | .text h =>
    exact (reads_text_of h).mono fun n g => reads_argKind (t := .text) (Reads.map g) (by decide)
termination_by structural h
theorem reads_args_of {b : Bytes} {t : List FormatArgumentValue} (h : Args cv b t) :
    Eventually fun n =>
      Reads st (R.replicate (FormatArgumentValue.readWith cv (FText.read cv n)) t.length) b t := by
  match h with
  | .nil => exact .of fun n => Reads.rpure _
  | .cons h1 h2 =>
    exact ((reads_arg_of h1).and (reads_args_of h2)).mono fun n ⟨g1, g2⟩ => cons_items g1 g2
termination_by structural h
theorem reads_named_of {b : Bytes} {t : List (String × FormatArgumentValue)}
    (h : NamedArgs cv b t) :
    Eventually fun n => Reads st (R.replicate (do
      let key ← readString
      let value ← FormatArgumentValue.readWith cv (FText.read cv n)
      return (key, value)) t.length) b t := by
  match h with
  | .nil => exact .of fun n => Reads.rpure _
  | .cons h0 h1 h2 =>
    exact ((reads_arg_of h1).and (reads_named_of h2)).mono fun n ⟨g1, g2⟩ =>
      cons_items ((reads_str' h0).bind (Reads.map g1)) g2
termination_by structural h
end

end Gvas
