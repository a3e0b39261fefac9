import Verif.Spec.Written
import Verif.Lemmas.GrammarText
import Verif.Lemmas.Str

/-! # What the writers write follows the grammar of written files, and they write all of it -/

namespace Gvas

open Spec Format

variable {cv : List (Guid × UInt32)}

/-! ## Strings -/

theorem ascii_utf8 (cs : List Char) (h : ∀ c ∈ cs, c.toNat < 128) :
    utf8Encode cs = cs.map fun c => UInt8.ofNat c.toNat := by
  induction cs with
  | nil => rfl
  | cons c cs ih =>
    have hc := h c (by simp)
    have : utf8Encode (c :: cs) = String.utf8EncodeChar c ++ utf8Encode cs := rfl
    rw [this, ih fun d hd => h d (by simp [hd])]
    unfold String.utf8EncodeChar
    have e : c.val.toNat = c.toNat := rfl
    simp only [e]
    rw [if_pos (by omega)]
    rfl

theorem own_fstring (s : Option String) : Own.Str (writeFString s).bytes s := by
  cases s with
  | none => exact .null
  | some t =>
    by_cases h : isAscii t.toList = true
    · refine at_eq (.bytes t ((isAscii_iff _).mp h)) ?_
      rw [← ascii_utf8 _ ((isAscii_iff _).mp h)]
      simp only [writeFString, writeString, if_pos h]
    · have h' := h
      rw [isAscii_iff] at h'
      simp only [Classical.not_forall] at h'
      obtain ⟨c, hc, h'⟩ := h'
      refine at_eq (.words t c hc (by omega)) ?_
      simp only [writeFString, writeString, if_neg h]
      rfl

theorem own_string (s : String) : Own.Str (writeString s).bytes (some s) := own_fstring (some s)

theorem own_fstring_eq {b : Bytes} {s : Option String} (h : Own.Str b s) :
    b = (writeFString s).bytes := by
  cases h with
  | null => rfl
  | bytes t h =>
    have h' := (isAscii_iff _).mpr h
    rw [← ascii_utf8 _ h]
    simp only [writeFString, writeString, if_pos h']
  | words t c hc h =>
    have h' : ¬ isAscii t.toList = true := by
      rw [isAscii_iff]; intro h''; have := h'' c hc; omega
    simp only [writeFString, writeString, if_neg h']
    rfl

theorem own_string_eq {b : Bytes} {s : String} (h : Own.Str b (some s)) :
    b = (writeString s).bytes := own_fstring_eq h

/-! ## Sequences -/

theorem own_seq {α : Type} {L : Bytes → α → Prop} {f : α → Out} (hf : ∀ a, L (f a).bytes a)
    (l : List α) : Seq L (concatOut f l).bytes l := by
  induction l with
  | nil => exact .nil
  | cons a l ih => exact .cons (hf a) ih

theorem own_seq_eq {α : Type} {L : Bytes → α → Prop} {f : α → Out}
    (hf : ∀ b a, L b a → b = (f a).bytes) {b : Bytes} {l : List α} (h : Seq L b l) :
    b = (concatOut f l).bytes := by
  induction h with
  | nil => rfl
  | cons h1 _ ih => rw [hf _ _ h1, ih]; rfl

theorem own_counted {α : Type} {L : Bytes → α → Prop} {f : α → Out} (hf : ∀ a, L (f a).bytes a)
    (l : List α) : Own.Counted L (u32O (UInt32.ofNat l.length) ++ concatOut f l).bytes l :=
  .mk (own_seq hf l)

theorem own_counted_eq {α : Type} {L : Bytes → α → Prop} {f : α → Out}
    (hf : ∀ b a, L b a → b = (f a).bytes) {b : Bytes} {l : List α} (h : Own.Counted L b l) :
    b = (u32O (UInt32.ofNat l.length) ++ concatOut f l).bytes := by
  cases h with
  | mk h => rw [own_seq_eq hf h]; rfl

/-! ## Choices -/

theorem own_style (a : DateTimeStyle) : Choice styles (i8B a.toI8) a :=
  ⟨a.ctorIdx, by cases a <;> decide, by cases a <;> rfl, by cases a <;> decide⟩
theorem own_transform (a : TransformType) : Choice transforms (i8B a.toI8) a :=
  ⟨a.ctorIdx, by cases a <;> decide, by cases a <;> rfl, by cases a <;> decide⟩
theorem own_rounding (a : RoundingMode) : Choice roundings (i8B a.toI8) a :=
  ⟨a.ctorIdx, by cases a <;> decide, by cases a <;> rfl, by cases a <;> decide⟩

theorem own_options (o : Option NumberFormattingOptions) : Options (writeFormatOptions o).bytes o := by
  cases o with
  | none => exact .none
  | some o =>
    obtain ⟨sign, grouping, r, x, y, z, w⟩ := o
    refine at_eq (.some sign grouping x y z w (own_rounding r)) ?_
    simp only [writeFormatOptions, NumberFormattingOptions.write, Out.app_bytes, b32B,
      List.append_assoc, Option.isSome_some, if_true]

theorem own_options_eq {b : Bytes} {o : Option NumberFormattingOptions} (h : Options b o) :
    b = (writeFormatOptions o).bytes := by
  cases h with
  | none => rfl
  | some sign grouping x y z w hr =>
    rw [choice_rounding hr]
    simp only [writeFormatOptions, NumberFormattingOptions.write, Out.app_bytes, b32B,
      List.append_assoc, Option.isSome_some, if_true]

/-! ## Texts -/

/-- `r` is a success that wrote `b`. -/
def Wrote (r : Res Out) (b : Bytes) : Prop := ∃ o, r = .ok o ∧ o.bytes = b

theorem Wrote.ok {o : Out} {b : Bytes} (h : o.bytes = b) : Wrote (.ok o) b := ⟨o, rfl, h⟩

theorem Wrote.map {r : Res Out} {b b' : Bytes} {g : Out → Out} (h : Wrote r b)
    (hg : ∀ o : Out, o.bytes = b → (g o).bytes = b') :
    Wrote (r >>= fun o => Pure.pure (g o)) b' := by
  obtain ⟨o, rfl, ho⟩ := h
  exact ⟨_, rfl, hg o ho⟩

theorem Wrote.bind {r : Res Out} {b b' : Bytes} {g : Out → Res Out} (h : Wrote r b)
    (hg : ∀ o : Out, o.bytes = b → Wrote (g o) b') : Wrote (r >>= g) b' := by
  obtain ⟨o, rfl, ho⟩ := h
  exact hg o ho

/-- Take a successful write apart. -/
macro "wr_tac" h:ident : tactic => `(tactic|
  ((try simp only [Res.ok.injEq, Pure.pure] at $h:ident); subst $h:ident))

/-- The bytes of a write made of others. -/
macro "by_tac" : tactic => `(tactic|
  (first | rfl | (simp only [Out.app_bytes, List.append_assoc, historyTag]; rfl)))

mutual
theorem own_text (t : FText) (o : Out) (h : FText.write cv t = .ok o) : Own.Text cv o.bytes t := by
  match t with
  | .mk fl hi =>
    rw [FText.write] at h
    obtain ⟨a, h1, h⟩ := Res.bind_inv h
    wr_tac h
    exact .mk fl (own_history hi a h1)
theorem own_history (t : FTextHistory) (o : Out) (h : FTextHistory.write cv t = .ok o) :
    Own.History cv o.bytes t := by
  match t with
  | .empty =>
    rw [FTextHistory.write] at h
    wr_tac h
    split
    · next hc => exact .empty (invariantText_iff.mpr hc)
    · next hc => exact .old fun h => hc (invariantText_iff.mp h)
  | .none s =>
    rw [FTextHistory.write] at h
    wr_tac h
    split
    · next hc =>
      exact at_eq (.invariant (invariantText_iff.mpr hc) (own_fstring s)) (by by_tac)
    · next hc => exact .lost s fun h => hc (invariantText_iff.mp h)
  | .base ns key src =>
    rw [FTextHistory.write] at h
    wr_tac h
    exact at_eq (.base (own_fstring ns) (own_fstring key) (own_fstring src)) (by by_tac)
  | .namedFormat src args =>
    rw [FTextHistory.write] at h
    obtain ⟨a, h1, h⟩ := Res.bind_inv h
    obtain ⟨b, h2, h⟩ := Res.bind_inv h
    wr_tac h
    exact at_eq (.namedFormat (own_text src a h1) (own_named args b h2)) (by by_tac)
  | .orderedFormat src args =>
    rw [FTextHistory.write] at h
    obtain ⟨a, h1, h⟩ := Res.bind_inv h
    obtain ⟨b, h2, h⟩ := Res.bind_inv h
    wr_tac h
    exact at_eq (.orderedFormat (own_text src a h1) (own_args args b h2)) (by by_tac)
  | .argumentFormat src args =>
    rw [FTextHistory.write] at h
    obtain ⟨a, h1, h⟩ := Res.bind_inv h
    obtain ⟨b, h2, h⟩ := Res.bind_inv h
    wr_tac h
    exact at_eq (.argumentFormat (own_text src a h1) (own_named args b h2)) (by by_tac)
  | .asNumber v op c =>
    rw [FTextHistory.write] at h
    obtain ⟨a, h1, h⟩ := Res.bind_inv h
    wr_tac h
    exact at_eq (.asNumber (own_arg v a h1) (own_options op) (own_fstring c)) (by by_tac)
  | .asPercent v op c =>
    rw [FTextHistory.write] at h
    obtain ⟨a, h1, h⟩ := Res.bind_inv h
    wr_tac h
    exact at_eq (.asPercent (own_arg v a h1) (own_options op) (own_fstring c)) (by by_tac)
  | .asCurrency code v op c =>
    rw [FTextHistory.write] at h
    obtain ⟨a, h1, h⟩ := Res.bind_inv h
    wr_tac h
    exact at_eq (.asCurrency (own_fstring code) (own_arg v a h1) (own_options op) (own_fstring c))
      (by by_tac)
  | .asDate t st c =>
    rw [FTextHistory.write] at h
    wr_tac h
    exact at_eq (.asDate t (own_style st) (own_string c)) (by by_tac)
  | .asTime t st z c =>
    rw [FTextHistory.write] at h
    wr_tac h
    exact at_eq (.asTime t (own_style st) (own_string z) (own_string c)) (by by_tac)
  | .asDateTime t ds ts z c =>
    rw [FTextHistory.write] at h
    wr_tac h
    exact at_eq (.asDateTime t (own_style ds) (own_style ts) (own_string z) (own_string c))
      (by by_tac)
  | .transform src tt =>
    rw [FTextHistory.write] at h
    obtain ⟨a, h1, h⟩ := Res.bind_inv h
    wr_tac h
    exact at_eq (.transform (own_text src a h1) (own_transform tt)) (by by_tac)
  | .stringTableEntry tid key =>
    rw [FTextHistory.write] at h
    wr_tac h
    exact at_eq (.stringTableEntry (own_string tid) (own_string key)) (by by_tac)
theorem own_arg (v : FormatArgumentValue) (o : Out) (h : FormatArgumentValue.write cv v = .ok o) :
    Own.Arg cv o.bytes v := by
  match v with
  | .int v =>
    rw [FormatArgumentValue.write] at h
    split at h
    · cases h
    · next hc => wr_tac h; exact .int v fun h => hc (wideArguments_iff.mp h)
  | .int64 v =>
    rw [FormatArgumentValue.write] at h
    split at h
    · next hc => wr_tac h; exact .int64 v (wideArguments_iff.mpr hc)
    · cases h
  | .uint v =>
    rw [FormatArgumentValue.write] at h
    split at h
    · cases h
    · next hc => wr_tac h; exact .uint v fun h => hc (wideArguments_iff.mp h)
  | .uint64 v =>
    rw [FormatArgumentValue.write] at h
    split at h
    · next hc => wr_tac h; exact .uint64 v (wideArguments_iff.mpr hc)
    · cases h
  | .float v => rw [FormatArgumentValue.write] at h; wr_tac h; exact .float v
  | .double v => rw [FormatArgumentValue.write] at h; wr_tac h; exact .double v
  | .text t =>
    rw [FormatArgumentValue.write] at h
    obtain ⟨a, h1, h⟩ := Res.bind_inv h
    wr_tac h
    exact .text (own_text t a h1)
theorem own_args (l : List FormatArgumentValue) (o : Out) (h : writeArgs cv l = .ok o) :
    Own.Args cv o.bytes l := by
  match l with
  | [] => rw [writeArgs] at h; wr_tac h; exact .nil
  | v :: l =>
    rw [writeArgs] at h
    obtain ⟨a, h1, h⟩ := Res.bind_inv h
    obtain ⟨b, h2, h⟩ := Res.bind_inv h
    wr_tac h
    exact .cons (own_arg v a h1) (own_args l b h2)
theorem own_named (l : List (String × FormatArgumentValue)) (o : Out)
    (h : writeNamedArgs cv l = .ok o) : Own.NamedArgs cv o.bytes l := by
  match l with
  | [] => rw [writeNamedArgs] at h; wr_tac h; exact .nil
  | (k, v) :: l =>
    rw [writeNamedArgs] at h
    obtain ⟨a, h1, h⟩ := Res.bind_inv h
    obtain ⟨b, h2, h⟩ := Res.bind_inv h
    wr_tac h
    exact at_eq (.cons (own_string k) (own_arg v a h1) (own_named l b h2)) (by by_tac)
end


mutual
theorem wrote_text {b : Bytes} {t : FText} (h : Own.Text cv b t) : Wrote (FText.write cv t) b := by
  match h with
  | .mk fl h1 =>
    rw [FText.write]
    exact (wrote_history h1).map fun o ho => by simp only [Out.app_bytes, ho]
theorem wrote_history {b : Bytes} {t : FTextHistory} (h : Own.History cv b t) :
    Wrote (FTextHistory.write cv t) b := by
  match h with
  | .old hc =>
    rw [FTextHistory.write, if_neg fun h => hc (invariantText_iff.mpr h)]
    exact .ok rfl
  | .lost s hc =>
    rw [FTextHistory.write, if_neg fun h => hc (invariantText_iff.mpr h)]
    exact .ok rfl
  | .empty hc =>
    rw [FTextHistory.write, if_pos (invariantText_iff.mp hc)]
    exact .ok rfl
  | .invariant hc h1 =>
    rw [FTextHistory.write, if_pos (invariantText_iff.mp hc), own_fstring_eq h1]
    exact .ok (by by_tac)
  | .base h1 h2 h3 =>
    rw [FTextHistory.write, own_fstring_eq h1, own_fstring_eq h2, own_fstring_eq h3]
    exact .ok (by by_tac)
  | .namedFormat h1 h2 =>
    rw [FTextHistory.write]
    exact (wrote_text h1).bind fun o ho => (wrote_named h2).map fun o' ho' => by
      rw [← ho, ← ho']; by_tac
  | .orderedFormat h1 h2 =>
    rw [FTextHistory.write]
    exact (wrote_text h1).bind fun o ho => (wrote_args h2).map fun o' ho' => by
      rw [← ho, ← ho']; by_tac
  | .argumentFormat h1 h2 =>
    rw [FTextHistory.write]
    exact (wrote_text h1).bind fun o ho => (wrote_named h2).map fun o' ho' => by
      rw [← ho, ← ho']; by_tac
  | .asNumber h1 h2 h3 =>
    rw [FTextHistory.write, own_options_eq h2, own_fstring_eq h3]
    exact (wrote_arg h1).map fun o ho => by rw [← ho]; by_tac
  | .asPercent h1 h2 h3 =>
    rw [FTextHistory.write, own_options_eq h2, own_fstring_eq h3]
    exact (wrote_arg h1).map fun o ho => by rw [← ho]; by_tac
  | .asCurrency h0 h1 h2 h3 =>
    rw [FTextHistory.write, own_fstring_eq h0, own_options_eq h2, own_fstring_eq h3]
    exact (wrote_arg h1).map fun o ho => by rw [← ho]; by_tac
  | .asDate t h1 h2 =>
    rw [FTextHistory.write, choice_style h1, own_string_eq h2]
    exact .ok (by by_tac)
  | .asTime t h1 h2 h3 =>
    rw [FTextHistory.write, choice_style h1, own_string_eq h2, own_string_eq h3]
    exact .ok (by by_tac)
  | .asDateTime t h0 h1 h2 h3 =>
    rw [FTextHistory.write, choice_style h0, choice_style h1, own_string_eq h2, own_string_eq h3]
    exact .ok (by by_tac)
  | .transform h1 h2 =>
    rw [FTextHistory.write, choice_transform h2]
    exact (wrote_text h1).map fun o ho => by rw [← ho]; by_tac
  | .stringTableEntry h1 h2 =>
    rw [FTextHistory.write, own_string_eq h1, own_string_eq h2]
    exact .ok (by by_tac)
theorem wrote_arg {b : Bytes} {v : FormatArgumentValue} (h : Own.Arg cv b v) :
    Wrote (FormatArgumentValue.write cv v) b := by
  match h with
  | .int v hc =>
    rw [FormatArgumentValue.write, if_neg fun h => hc (wideArguments_iff.mpr h)]
    exact .ok rfl
  | .int64 v hc =>
    rw [FormatArgumentValue.write, if_pos (wideArguments_iff.mp hc)]
    exact .ok rfl
  | .uint v hc =>
    rw [FormatArgumentValue.write, if_neg fun h => hc (wideArguments_iff.mpr h)]
    exact .ok rfl
  | .uint64 v hc =>
    rw [FormatArgumentValue.write, if_pos (wideArguments_iff.mp hc)]
    exact .ok rfl
  | .float v => rw [FormatArgumentValue.write]; exact .ok rfl
  | .double v => rw [FormatArgumentValue.write]; exact .ok rfl
  | .text h1 =>
    rw [FormatArgumentValue.write]
    exact (wrote_text h1).map fun o ho => by rw [← ho]; by_tac
theorem wrote_args {b : Bytes} {l : List FormatArgumentValue} (h : Own.Args cv b l) :
    Wrote (writeArgs cv l) b := by
  match h with
  | .nil => rw [writeArgs]; exact .ok rfl
  | .cons h1 h2 =>
    rw [writeArgs]
    exact (wrote_arg h1).bind fun o ho => (wrote_args h2).map fun o' ho' => by
      rw [← ho, ← ho']; by_tac
theorem wrote_named {b : Bytes} {l : List (String × FormatArgumentValue)}
    (h : Own.NamedArgs cv b l) : Wrote (writeNamedArgs cv l) b := by
  match h with
  | .nil => rw [writeNamedArgs]; exact .ok rfl
  | .cons h0 h1 h2 =>
    rw [writeNamedArgs, own_string_eq h0]
    exact (wrote_arg h1).bind fun o ho => (wrote_named h2).map fun o' ho' => by
      rw [← ho, ← ho']; by_tac
end

end Gvas
