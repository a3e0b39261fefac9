import Verif.Spec.Text
import Verif.Lemmas.Header
import Verif.Lemmas.IndexMap
import Verif.Lemmas.Inv

/-! # Texts: writing succeeds, reading gives the text back -/

namespace Gvas

open Spec

/-- Inversion of `do` for outcomes. -/
theorem Res.bind_inv {α β : Type} {m : Res α} {f : α → Res β} {b : β} (h : (m >>= f) = .ok b) :
    ∃ a, m = .ok a ∧ f a = .ok b := by
  cases m with
  | ok a => exact ⟨a, rfl, h⟩
  | bad e => cases h

theorem Res.bind_ok {α β : Type} {m : Res α} {f : α → Res β} {a : α} (h : m = .ok a) :
    (m >>= f) = f a := by rw [h]; rfl

theorem Res.pure_inj {α : Type} {a b : α} (h : (pure a : Res α) = .ok b) : a = b := by
  cases h; rfl

/-! ## When writing succeeds -/

/-- An outcome that is a value, or a panic. -/
def OkOrPanic {α : Type} (c : Prop) (r : Res α) : Prop :=
  (c ∧ ∃ a, r = .ok a) ∨ (¬ c ∧ ∃ msg, r = .panic msg)

theorem OkOrPanic.ok {α : Type} {a : α} : OkOrPanic True (.ok a) := .inl ⟨trivial, a, rfl⟩

theorem OkOrPanic.map {α β : Type} {c : Prop} {m : Res α} {g : α → β} (h : OkOrPanic c m) :
    OkOrPanic c (m >>= fun a => Pure.pure (g a)) := by
  rcases h with ⟨hc, a, rfl⟩ | ⟨hc, msg, rfl⟩
  · exact .inl ⟨hc, _, rfl⟩
  · exact .inr ⟨hc, msg, rfl⟩

theorem OkOrPanic.bind {α β : Type} {c c' : Prop} {m : Res α} {f : α → Res β} (h : OkOrPanic c m)
    (h' : ∀ a, OkOrPanic c' (f a)) : OkOrPanic (c ∧ c') (m >>= f) := by
  rcases h with ⟨hc, a, rfl⟩ | ⟨hc, msg, rfl⟩
  · rcases h' a with ⟨hc', b, hb⟩ | ⟨hc', msg, hb⟩
    · exact .inl ⟨⟨hc, hc'⟩, b, hb⟩
    · exact .inr ⟨fun h => hc' h.2, msg, hb⟩
  · exact .inr ⟨fun h => hc h.1, msg, rfl⟩

mutual
theorem write_text (cv : List (Guid × UInt32)) (t : FText) :
    OkOrPanic (WidthsOK cv t) (FText.write cv t) := by
  match t with
  | .mk fl h =>
    simp only [WidthsOK, FText.write]
    exact (write_history cv h).map
theorem write_history (cv : List (Guid × UInt32)) (h : FTextHistory) :
    OkOrPanic (HistoryWidthsOK cv h) (FTextHistory.write cv h) := by
  match h with
  | .empty => simp only [HistoryWidthsOK, FTextHistory.write]; exact .ok
  | .none _ => simp only [HistoryWidthsOK, FTextHistory.write]; exact .ok
  | .base _ _ _ => simp only [HistoryWidthsOK, FTextHistory.write]; exact .ok
  | .namedFormat t args =>
    simp only [HistoryWidthsOK, FTextHistory.write]
    exact (write_text cv t).bind fun _ => (write_named cv args).map
  | .orderedFormat t args =>
    simp only [HistoryWidthsOK, FTextHistory.write]
    exact (write_text cv t).bind fun _ => (write_args cv args).map
  | .argumentFormat t args =>
    simp only [HistoryWidthsOK, FTextHistory.write]
    exact (write_text cv t).bind fun _ => (write_named cv args).map
  | .asNumber v _ _ => simp only [HistoryWidthsOK, FTextHistory.write]; exact (write_arg cv v).map
  | .asPercent v _ _ => simp only [HistoryWidthsOK, FTextHistory.write]; exact (write_arg cv v).map
  | .asCurrency _ v _ _ =>
    simp only [HistoryWidthsOK, FTextHistory.write]; exact (write_arg cv v).map
  | .asDate _ _ _ => simp only [HistoryWidthsOK, FTextHistory.write]; exact .ok
  | .asTime _ _ _ _ => simp only [HistoryWidthsOK, FTextHistory.write]; exact .ok
  | .asDateTime _ _ _ _ _ => simp only [HistoryWidthsOK, FTextHistory.write]; exact .ok
  | .transform t _ => simp only [HistoryWidthsOK, FTextHistory.write]; exact (write_text cv t).map
  | .stringTableEntry _ _ => simp only [HistoryWidthsOK, FTextHistory.write]; exact .ok
theorem write_arg (cv : List (Guid × UInt32)) (v : FormatArgumentValue) :
    OkOrPanic (ArgWidthsOK cv v) (FormatArgumentValue.write cv v) := by
  match v with
  | .int _ =>
    simp only [ArgWidthsOK, FormatArgumentValue.write]
    cases h : text64 cv
    · exact .inl ⟨rfl, _, rfl⟩
    · exact .inr ⟨by simp, _, rfl⟩
  | .uint _ =>
    simp only [ArgWidthsOK, FormatArgumentValue.write]
    cases h : text64 cv
    · exact .inl ⟨rfl, _, rfl⟩
    · exact .inr ⟨by simp, _, rfl⟩
  | .int64 _ =>
    simp only [ArgWidthsOK, FormatArgumentValue.write]
    cases h : text64 cv
    · exact .inr ⟨by simp, _, rfl⟩
    · exact .inl ⟨rfl, _, rfl⟩
  | .uint64 _ =>
    simp only [ArgWidthsOK, FormatArgumentValue.write]
    cases h : text64 cv
    · exact .inr ⟨by simp, _, rfl⟩
    · exact .inl ⟨rfl, _, rfl⟩
  | .float _ => simp only [ArgWidthsOK, FormatArgumentValue.write]; exact .ok
  | .double _ => simp only [ArgWidthsOK, FormatArgumentValue.write]; exact .ok
  | .text t => simp only [ArgWidthsOK, FormatArgumentValue.write]; exact (write_text cv t).map
theorem write_args (cv : List (Guid × UInt32)) (l : List FormatArgumentValue) :
    OkOrPanic (ArgsWidthsOK cv l) (writeArgs cv l) := by
  match l with
  | [] => simp only [ArgsWidthsOK, writeArgs]; exact .ok
  | v :: l =>
    simp only [ArgsWidthsOK, writeArgs]
    exact (write_arg cv v).bind fun _ => (write_args cv l).map
theorem write_named (cv : List (Guid × UInt32)) (l : List (String × FormatArgumentValue)) :
    OkOrPanic (NamedWidthsOK cv l) (writeNamedArgs cv l) := by
  match l with
  | [] => simp only [NamedWidthsOK, writeNamedArgs]; exact .ok
  | (k, v) :: l =>
    simp only [NamedWidthsOK, writeNamedArgs]
    exact (write_arg cv v).bind fun _ => (write_named cv l).map
end

/-! ## Reading back -/

section
variable {st : List String} {cv : List (Guid × UInt32)}

theorem reads_formattingOptions (o : NumberFormattingOptions) :
    Reads st NumberFormattingOptions.read o.write.bytes o := by
  unfold NumberFormattingOptions.read NumberFormattingOptions.write
  simp only [List.append_assoc]
  refine (reads_b32 _).bind ((reads_b32 _).bind ((reads_enum _ _ _ o.roundingMode ?_).bind
    ((reads_i32 _).bind ((reads_i32 _).bind ((reads_i32 _).bind (Reads.map (reads_i32 _)))))))
  cases o.roundingMode <;> decide

theorem reads_formatOptions (o : Option NumberFormattingOptions) :
    Reads st readFormatOptions (writeFormatOptions o).bytes o := by
  unfold readFormatOptions writeFormatOptions
  cases o with
  | none => exact (reads_b32 false).bind (by simpa using Reads.pure _)
  | some o => exact (reads_b32 true).bind (by simpa using Reads.map (reads_formattingOptions o))

theorem reads_tag (t : TextHistoryType) :
    Reads st (readEnum (textEnumName "TextHistoryType") TextHistoryType.ofI8)
      (historyTag t).bytes t :=
  reads_enum _ _ _ _ (by cases t <;> decide)

theorem reads_style (t : DateTimeStyle) :
    Reads st (readEnum (textEnumName "DateTimeStyle") DateTimeStyle.ofI8) (i8B t.toI8) t :=
  reads_enum _ _ _ _ (by cases t <;> decide)

theorem reads_transform (t : TransformType) :
    Reads st (readEnum (textEnumName "TransformType") TransformType.ofI8) (i8B t.toI8) t :=
  reads_enum _ _ _ _ (by cases t <;> decide)

theorem reads_argType (t : FormatArgumentType) :
    Reads st (readEnum (textEnumName "FormatArgumentType") FormatArgumentType.ofI8) (i8B t.toI8) t :=
  reads_enum _ _ _ _ (by cases t <;> decide)

theorem reads_count {n : Nat} (h : n < 2 ^ 31) {β : Type} {f : Nat → R β} {bs : Bytes} {b : β}
    (hf : Reads st (f n) bs b) :
    Reads st (do let n ← capacity (← readI32); f n) (i32B (Int32.ofNat n) ++ bs) b := by
  refine (reads_i32 _).bind (Reads.bind0 (a := n) ?_ hf)
  unfold capacity
  rw [i32_ofNat_toInt h, if_neg (by omega)]
  exact Reads.rpure _

/-- `rec` reads back all texts that take fewer than `n` bytes. -/
def TextRec (st : List String) (cv : List (Guid × UInt32)) (n : Nat) (rec : R FText) : Prop :=
  ∀ t out, TextShapeOK cv t → FText.write cv t = .ok out → out.bytes.length < n →
    Reads st rec out.bytes t

theorem reads_argument {n : Nat} {rec : R FText} (hr : TextRec st cv n rec)
    (v : FormatArgumentValue) (out : Out) (hs : ArgShapeOK cv v)
    (hw : FormatArgumentValue.write cv v = .ok out) (hn : out.bytes.length ≤ n) :
    Reads st (FormatArgumentValue.readWith cv rec) out.bytes v := by
  unfold FormatArgumentValue.readWith
  cases v with
  | int v =>
    simp only [FormatArgumentValue.write] at hw
    split at hw
    · simp at hw
    · rename_i h
      cases hw
      exact (reads_argType .int).bind (by simpa [h] using Reads.map (reads_i32 v))
  | uint v =>
    simp only [FormatArgumentValue.write] at hw
    split at hw
    · simp at hw
    · rename_i h
      cases hw
      exact (reads_argType .uint).bind (by simpa [h] using Reads.map (reads_u32 v))
  | int64 v =>
    simp only [FormatArgumentValue.write] at hw
    split at hw
    · rename_i h
      cases hw
      exact (reads_argType .int).bind (by simpa [h] using Reads.map (reads_i64 v))
    · simp at hw
  | uint64 v =>
    simp only [FormatArgumentValue.write] at hw
    split at hw
    · rename_i h
      cases hw
      exact (reads_argType .uint).bind (by simpa [h] using Reads.map (reads_u64 v))
    · simp at hw
  | float v =>
    simp only [FormatArgumentValue.write] at hw
    cases hw
    exact (reads_argType .float).bind (Reads.map (reads_f32 v))
  | double v =>
    simp only [FormatArgumentValue.write] at hw
    cases hw
    exact (reads_argType .double).bind (Reads.map (reads_f64 v))
  | text t =>
    simp only [FormatArgumentValue.write] at hw
    obtain ⟨a, ha, hw⟩ := Res.bind_inv hw
    cases hw
    simp only [ArgShapeOK] at hs
    refine (reads_argType .text).bind (Reads.map (hr t a hs ha ?_))
    simp only [Out.app_bytes, List.length_append, i8B_length] at hn
    omega

theorem reads_args {n : Nat} {rec : R FText} (hr : TextRec st cv n rec)
    (l : List FormatArgumentValue) (out : Out) (hs : ArgsShapeOK cv l)
    (hw : writeArgs cv l = .ok out) (hn : out.bytes.length ≤ n) :
    Reads st (R.replicate (FormatArgumentValue.readWith cv rec) l.length) out.bytes l := by
  induction l generalizing out with
  | nil => simp only [writeArgs] at hw; cases hw; exact Reads.rpure _
  | cons v l ih =>
    simp only [writeArgs] at hw
    obtain ⟨a, ha, hw⟩ := Res.bind_inv hw
    obtain ⟨b, hb, hw⟩ := Res.bind_inv hw
    cases hw
    simp only [ArgsShapeOK] at hs
    simp only [Out.app_bytes, List.length_append] at hn
    exact (reads_argument hr v a hs.1 ha (by omega)).bind
      (Reads.map (ih b hs.2 hb (by omega)))

theorem reads_named {n : Nat} {rec : R FText} (hr : TextRec st cv n rec)
    (l : List (String × FormatArgumentValue)) (out : Out) (hs : NamedShapeOK cv l)
    (hw : writeNamedArgs cv l = .ok out) (hn : out.bytes.length ≤ n) :
    Reads st (R.replicate (do
      let key ← readString
      let value ← FormatArgumentValue.readWith cv rec
      return (key, value)) l.length) out.bytes l := by
  induction l generalizing out with
  | nil => simp only [writeNamedArgs] at hw; cases hw; exact Reads.rpure _
  | cons e l ih =>
    obtain ⟨k, v⟩ := e
    simp only [writeNamedArgs] at hw
    obtain ⟨a, ha, hw⟩ := Res.bind_inv hw
    obtain ⟨b, hb, hw⟩ := Res.bind_inv hw
    cases hw
    simp only [NamedShapeOK] at hs
    simp only [Out.app_bytes, List.length_append] at hn
    exact Reads.bind ((reads_string hs.1).bind (Reads.map (reads_argument hr v a hs.2.1 ha (by omega))))
      (Reads.map (ih b hs.2.2 hb (by omega)))

theorem imExtend_nodup {ν : Type} {es : List (String × ν)} (h : (es.map Prod.fst).Nodup) :
    imExtend (· == ·) [] es = es := by
  refine imExtend_nil_fresh es (List.Pairwise.imp ?_ h)
  intro a b h
  simpa using h

theorem reads_arguments {n : Nat} {rec : R FText} (hr : TextRec st cv n rec)
    (l : List (String × FormatArgumentValue)) (out : Out) (hs : NamedShapeOK cv l)
    (hd : (l.map Prod.fst).Nodup) (hl : l.length < 2 ^ 31)
    (hw : writeNamedArgs cv l = .ok out) (hn : out.bytes.length ≤ n) :
    Reads st (readArguments cv rec) (i32B (Int32.ofNat l.length) ++ out.bytes) l := by
  unfold readArguments
  have := Reads.map (g := imExtend (· == ·) []) (reads_named hr l out hs hw hn)
  rw [imExtend_nodup hd] at this
  exact reads_count hl this

theorem historyTag_length (t : TextHistoryType) : (historyTag t).bytes.length = 1 := by
  simp [historyTag]

theorem reads_history {n : Nat} {rec : R FText} (hr : TextRec st cv n rec) (h : FTextHistory)
    (out : Out) (hs : HistoryShapeOK cv h) (hw : FTextHistory.write cv h = .ok out)
    (hn : out.bytes.length ≤ n) :
    Reads st (FTextHistory.readWith cv rec) out.bytes h := by
  unfold FTextHistory.readWith
  cases h with
  | empty =>
    simp only [FTextHistory.write] at hw
    cases hw
    refine (reads_tag .none).bind ?_
    cases hc : cultureInvariant cv
    · exact Reads.pure _
    · exact (reads_b32 false).bind' (b2 := []) (Reads.pure _) (by simp)
  | none s =>
    simp only [FTextHistory.write] at hw
    cases hw
    simp only [HistoryShapeOK] at hs
    refine (reads_tag .none).bind ?_
    simp only [hs.1, if_true]
    exact (reads_b32 true).bind (by simpa using Reads.map (reads_fstring hs.2))
  | base a b c =>
    simp only [FTextHistory.write] at hw
    cases hw
    simp only [HistoryShapeOK] at hs
    simp only [Out.app_bytes, List.append_assoc]
    exact (reads_tag .base).bind ((reads_fstring hs.1).bind ((reads_fstring hs.2.1).bind
      (Reads.map (reads_fstring hs.2.2))))
  | namedFormat t args =>
    simp only [FTextHistory.write] at hw
    obtain ⟨a, ha, hw⟩ := Res.bind_inv hw
    obtain ⟨b, hb, hw⟩ := Res.bind_inv hw
    cases hw
    simp only [HistoryShapeOK] at hs
    simp only [Out.app_bytes, List.length_append, historyTag_length] at hn
    simp only [Out.app_bytes, List.append_assoc]
    exact (reads_tag .namedFormat).bind ((hr t a hs.1 ha (by omega)).bind
      (Reads.map (reads_arguments hr args b hs.2.1 hs.2.2.1 hs.2.2.2 hb (by omega))))
  | orderedFormat t args =>
    simp only [FTextHistory.write] at hw
    obtain ⟨a, ha, hw⟩ := Res.bind_inv hw
    obtain ⟨b, hb, hw⟩ := Res.bind_inv hw
    cases hw
    simp only [HistoryShapeOK] at hs
    simp only [Out.app_bytes, List.length_append, historyTag_length] at hn
    simp only [Out.app_bytes, List.append_assoc]
    exact (reads_tag .orderedFormat).bind ((hr t a hs.1 ha (by omega)).bind
      (reads_count hs.2.2 (Reads.map (reads_args hr args b hs.2.1 hb (by omega)))))
  | argumentFormat t args =>
    simp only [FTextHistory.write] at hw
    obtain ⟨a, ha, hw⟩ := Res.bind_inv hw
    obtain ⟨b, hb, hw⟩ := Res.bind_inv hw
    cases hw
    simp only [HistoryShapeOK] at hs
    simp only [Out.app_bytes, List.length_append, historyTag_length] at hn
    simp only [Out.app_bytes, List.append_assoc]
    exact (reads_tag .argumentFormat).bind ((hr t a hs.1 ha (by omega)).bind
      (Reads.map (reads_arguments hr args b hs.2.1 hs.2.2.1 hs.2.2.2 hb (by omega))))
  | asNumber v o c =>
    simp only [FTextHistory.write] at hw
    obtain ⟨a, ha, hw⟩ := Res.bind_inv hw
    cases hw
    simp only [HistoryShapeOK] at hs
    simp only [Out.app_bytes, List.length_append, historyTag_length] at hn
    simp only [Out.app_bytes, List.append_assoc]
    exact (reads_tag .asNumber).bind ((reads_argument hr v a hs.1 ha (by omega)).bind
      ((reads_formatOptions o).bind (Reads.map (reads_fstring hs.2))))
  | asPercent v o c =>
    simp only [FTextHistory.write] at hw
    obtain ⟨a, ha, hw⟩ := Res.bind_inv hw
    cases hw
    simp only [HistoryShapeOK] at hs
    simp only [Out.app_bytes, List.length_append, historyTag_length] at hn
    simp only [Out.app_bytes, List.append_assoc]
    exact (reads_tag .asPercent).bind ((reads_argument hr v a hs.1 ha (by omega)).bind
      ((reads_formatOptions o).bind (Reads.map (reads_fstring hs.2))))
  | asCurrency code v o c =>
    simp only [FTextHistory.write] at hw
    obtain ⟨a, ha, hw⟩ := Res.bind_inv hw
    cases hw
    simp only [HistoryShapeOK] at hs
    simp only [Out.app_bytes, List.length_append, historyTag_length] at hn
    simp only [Out.app_bytes, List.append_assoc]
    exact (reads_tag .asCurrency).bind ((reads_fstring hs.1).bind
      ((reads_argument hr v a hs.2.1 ha (by omega)).bind
      ((reads_formatOptions o).bind (Reads.map (reads_fstring hs.2.2)))))
  | asDate t s c =>
    simp only [FTextHistory.write] at hw
    cases hw
    simp only [HistoryShapeOK] at hs
    simp only [Out.app_bytes, List.append_assoc]
    exact (reads_tag .asDate).bind ((reads_u64 t).bind ((reads_style s).bind
      (Reads.map (reads_string hs))))
  | asTime t s z c =>
    simp only [FTextHistory.write] at hw
    cases hw
    simp only [HistoryShapeOK] at hs
    simp only [Out.app_bytes, List.append_assoc]
    exact (reads_tag .asTime).bind ((reads_u64 t).bind ((reads_style s).bind
      ((reads_string hs.1).bind (Reads.map (reads_string hs.2)))))
  | asDateTime t d s z c =>
    simp only [FTextHistory.write] at hw
    cases hw
    simp only [HistoryShapeOK] at hs
    simp only [Out.app_bytes, List.append_assoc]
    exact (reads_tag .asDateTime).bind ((reads_u64 t).bind ((reads_style d).bind
      ((reads_style s).bind ((reads_string hs.1).bind (Reads.map (reads_string hs.2))))))
  | transform t tt =>
    simp only [FTextHistory.write] at hw
    obtain ⟨a, ha, hw⟩ := Res.bind_inv hw
    cases hw
    simp only [HistoryShapeOK] at hs
    simp only [Out.app_bytes, List.length_append, historyTag_length] at hn
    simp only [Out.app_bytes, List.append_assoc]
    exact (reads_tag .transform).bind ((hr t a hs ha (by omega)).bind
      (Reads.map (reads_transform tt)))
  | stringTableEntry a b =>
    simp only [FTextHistory.write] at hw
    cases hw
    simp only [HistoryShapeOK] at hs
    simp only [Out.app_bytes, List.append_assoc]
    exact (reads_tag .stringTableEntry).bind ((reads_string hs.1).bind
      (Reads.map (reads_string hs.2)))

theorem reads_text (n : Nat) : TextRec st cv n (FText.read cv n) := by
  induction n with
  | zero => intro t out _ _ hn; omega
  | succ n ih =>
    intro t out hs hw hn
    obtain ⟨fl, h⟩ := t
    simp only [FText.write] at hw
    obtain ⟨a, ha, hw⟩ := Res.bind_inv hw
    cases hw
    simp only [TextShapeOK] at hs
    simp only [Out.app_bytes, List.length_append, u32B_length] at hn
    unfold FText.read
    exact (reads_u32 fl).bind (Reads.map (reads_history ih h a hs ha (by omega)))

end

end Gvas
