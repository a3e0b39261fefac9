import Verif.Lemmas.Ens
import Verif.Spec.Text

/-! # Texts that were read are representable -/

namespace Gvas

open Spec

variable {cv : List (Guid × UInt32)} {st : List String}

theorem ens_formatOptions : Ens st readFormatOptions
    (fun o k => (writeFormatOptions o).bytes.length ≤ 2 * k) := by
  unfold readFormatOptions
  refine ens_b32.bind fun b k hk => ?_
  cases b
  · exact Ens.pure (by simp [writeFormatOptions]; omega)
  · refine Ens.bind (P := fun _ k => k = 25) ?_ fun o k' hk' =>
      Ens.pure (by simp [writeFormatOptions, NumberFormattingOptions.write]; omega)
    unfold NumberFormattingOptions.read
    refine ens_b32.bind fun _ _ _ => ens_b32.bind fun _ _ _ => ens_enum.bind fun _ _ _ => ?_
    refine ens_i32.bind fun _ _ _ => ens_i32.bind fun _ _ _ => ens_i32.bind fun _ _ _ => ?_
    exact ens_i32.bind fun _ _ _ => Ens.pure (by omega)

theorem ens_argument {rec : R FText}
    (hrec : Ens st rec (fun t k => TextOK cv t ∧ outLen (t.write cv) ≤ 2 * k)) :
    Ens st (FormatArgumentValue.readWith cv rec)
      (fun v k => (ArgWidthsOK cv v ∧ ArgShapeOK cv v) ∧ outLen (v.write cv) ≤ 2 * k) := by
  unfold FormatArgumentValue.readWith
  refine ens_enum.bind fun ty k hk => ?_
  cases ty
  · simp only []
    by_cases h : text64 cv = true
    · rw [if_pos h]
      exact ens_i64.bind fun v k' hk' =>
        Ens.pure (by simp [ArgWidthsOK, ArgShapeOK, FormatArgumentValue.write, h, outLen]; omega)
    · rw [if_neg h]
      exact ens_i32.bind fun v k' hk' =>
        Ens.pure (by simp [ArgWidthsOK, ArgShapeOK, FormatArgumentValue.write, h, outLen]; omega)
  · simp only []
    by_cases h : text64 cv = true
    · rw [if_pos h]
      exact ens_u64.bind fun v k' hk' =>
        Ens.pure (by simp [ArgWidthsOK, ArgShapeOK, FormatArgumentValue.write, h, outLen]; omega)
    · rw [if_neg h]
      exact ens_u32.bind fun v k' hk' =>
        Ens.pure (by simp [ArgWidthsOK, ArgShapeOK, FormatArgumentValue.write, h, outLen]; omega)
  · exact ens_f32.bind fun v k' hk' =>
      Ens.pure (by simp [ArgWidthsOK, ArgShapeOK, FormatArgumentValue.write, outLen]; omega)
  · exact ens_f64.bind fun v k' hk' =>
      Ens.pure (by simp [ArgWidthsOK, ArgShapeOK, FormatArgumentValue.write, outLen]; omega)
  · refine hrec.bind fun t k' hk' => Ens.pure ?_
    refine ⟨⟨by simpa [ArgWidthsOK] using hk'.1.1, by simpa [ArgShapeOK] using hk'.1.2⟩, ?_⟩
    simp only [FormatArgumentValue.write]
    refine outLen_map hk'.2 fun o ho => ?_
    simp
    omega
  · exact Ens.panic

theorem argsWidths_iff {l : List FormatArgumentValue} :
    ArgsWidthsOK cv l ↔ ∀ v ∈ l, ArgWidthsOK cv v := by
  induction l with
  | nil => simp [ArgsWidthsOK]
  | cons v l ih => simp [ArgsWidthsOK, ih]

theorem argsShape_iff {l : List FormatArgumentValue} :
    ArgsShapeOK cv l ↔ ∀ v ∈ l, ArgShapeOK cv v := by
  induction l with
  | nil => simp [ArgsShapeOK]
  | cons v l ih => simp [ArgsShapeOK, ih]

theorem namedWidths_iff {l : List (String × FormatArgumentValue)} :
    NamedWidthsOK cv l ↔ ∀ e ∈ l, ArgWidthsOK cv e.2 := by
  induction l with
  | nil => simp [NamedWidthsOK]
  | cons e l ih => obtain ⟨k, v⟩ := e; simp only [NamedWidthsOK, ih, List.forall_mem_cons]

theorem namedShape_iff {l : List (String × FormatArgumentValue)} :
    NamedShapeOK cv l ↔ ∀ e ∈ l, StrOK e.1 ∧ ArgShapeOK cv e.2 := by
  induction l with
  | nil => simp [NamedShapeOK]
  | cons e l ih =>
    obtain ⟨k, v⟩ := e
    simp only [NamedShapeOK, ih, List.forall_mem_cons, and_assoc]

theorem outLen_args (l : List FormatArgumentValue) :
    outLen (writeArgs cv l) ≤ (l.map (fun v => outLen (v.write cv))).sum := by
  induction l with
  | nil => simp [writeArgs, outLen]
  | cons a l ih =>
    simp only [writeArgs, List.map_cons, List.sum_cons]
    refine outLen_map2 (Nat.le_refl _) ih fun o o' h h' => ?_
    simp only [Out.app_bytes, List.length_append]
    omega

theorem outLen_namedArgs (l : List (String × FormatArgumentValue)) :
    outLen (writeNamedArgs cv l) ≤
      (l.map (fun e => (writeString e.1).bytes.length + outLen (e.2.write cv))).sum := by
  induction l with
  | nil => simp [writeNamedArgs, outLen]
  | cons a l ih =>
    obtain ⟨k, v⟩ := a
    simp only [writeNamedArgs, List.map_cons, List.sum_cons]
    refine outLen_map2 (Nat.le_refl _) ih fun o o' h h' => ?_
    simp only [Out.app_bytes, List.length_append]
    omega

theorem ens_arguments {rec : R FText}
    (hrec : Ens st rec (fun t k => TextOK cv t ∧ outLen (t.write cv) ≤ 2 * k)) :
    Ens st (readArguments cv rec)
      (fun l k => NamedWidthsOK cv l ∧ NamedShapeOK cv l ∧ (l.map Prod.fst).Nodup ∧
        l.length < 2 ^ 31 ∧ 4 + outLen (writeNamedArgs cv l) ≤ 2 * k) := by
  unfold readArguments
  refine ens_i32.bind fun c k hk => ens_capacity.bind fun n k' hk' => ?_
  refine (Ens.replicate (P := fun e : String × FormatArgumentValue =>
      StrOK e.1 ∧ (ArgWidthsOK cv e.2 ∧ ArgShapeOK cv e.2))
    (w := fun e => (writeString e.1).bytes.length + outLen (e.2.write cv)) ?_ n).bind
    fun es k2 hk2 => Ens.pure ?_
  · refine ens_string.bind fun s k1 hk1 => (ens_argument hrec).bind fun v k2 hk2 => Ens.pure ?_
    refine ⟨⟨hk1.1, hk2.1⟩, ?_⟩
    simp only
    omega
  · have hall := imExtend_forall (same := (· == ·)) (Pk := StrOK)
      (Pv := fun v => ArgWidthsOK cv v ∧ ArgShapeOK cv v) es [] (by simp) hk2.2.1
    have hlen := imExtend_length (same := (· == ·)) es []
    have hsum := imExtend_sum (same := (· == ·)) (fun s => (writeString s).bytes.length)
      (fun v => outLen (FormatArgumentValue.write cv v)) es []
    have hd := imExtend_distinct (same := (· == ·)) es [] (by simp)
    have h2 := outLen_namedArgs (cv := cv) (imExtend (· == ·) [] es)
    refine ⟨namedWidths_iff.mpr fun e he => (hall e he).2.1,
      namedShape_iff.mpr fun e he => ⟨(hall e he).1, (hall e he).2.2⟩, nodup_of_beq hd, ?_, ?_⟩
    · simp only [List.length_nil] at hlen; omega
    · simp only [List.map_nil, List.sum_nil] at hsum
      omega

theorem ens_history {rec : R FText}
    (hrec : Ens st rec (fun t k => TextOK cv t ∧ outLen (t.write cv) ≤ 2 * k)) :
    Ens st (FTextHistory.readWith cv rec)
      (fun h k => (HistoryWidthsOK cv h ∧ HistoryShapeOK cv h) ∧ outLen (h.write cv) ≤ 2 * k) := by
  unfold FTextHistory.readWith
  refine ens_enum.bind fun ty k hk => ?_
  cases ty
  · simp only []
    by_cases h : cultureInvariant cv = true
    · rw [if_pos h]
      refine ens_b32.bind fun b k1 hk1 => ?_
      cases b
      · refine Ens.pure ?_
        simp [HistoryWidthsOK, HistoryShapeOK, FTextHistory.write, h, outLen, historyTag]; omega
      · refine ens_fstring.bind fun s k2 hk2 => Ens.pure ?_
        simp [HistoryWidthsOK, HistoryShapeOK, FTextHistory.write, h, outLen, historyTag, hk2.1]
        omega
    · rw [if_neg h]
      refine Ens.pure ?_
      simp [HistoryWidthsOK, HistoryShapeOK, FTextHistory.write, h, outLen, historyTag]; omega
  · refine ens_fstring.bind fun a k1 h1 => ens_fstring.bind fun b k2 h2 =>
      ens_fstring.bind fun c k3 h3 => Ens.pure ?_
    simp [HistoryWidthsOK, HistoryShapeOK, FTextHistory.write, outLen, historyTag, h1.1, h2.1,
      h3.1]
    omega
  · refine hrec.bind fun t k1 h1 => (ens_arguments hrec).bind fun l k2 h2 => Ens.pure ?_
    obtain ⟨a1, a2, a3, a4, a5⟩ := h2
    refine ⟨⟨by simp [HistoryWidthsOK, h1.1.1, a1], by simp [HistoryShapeOK, h1.1.2, a2, a3]; omega⟩, ?_⟩
    simp only [FTextHistory.write]
    refine outLen_map2 h1.2 (Nat.le_refl _) fun o o' h h' => ?_
    simp [historyTag]
    omega
  · refine hrec.bind fun t k1 h1 => ens_i32.bind fun c k2 h2 => ens_capacity.bind fun n k3 h3 => ?_
    refine (Ens.replicate (ens_argument hrec) n).bind fun l k4 h4 => Ens.pure ?_
    obtain ⟨a1, a2, a3⟩ := h4
    have := outLen_args (cv := cv) l
    refine ⟨⟨by simp only [HistoryWidthsOK]; exact ⟨h1.1.1, argsWidths_iff.mpr fun v hv => (a2 v hv).1⟩,
      by simp only [HistoryShapeOK]; exact ⟨h1.1.2, argsShape_iff.mpr fun v hv => (a2 v hv).2, by omega⟩⟩, ?_⟩
    simp only [FTextHistory.write]
    refine outLen_map2 h1.2 (Nat.le_refl _) fun o o' h h' => ?_
    simp [historyTag]
    omega
  · refine hrec.bind fun t k1 h1 => (ens_arguments hrec).bind fun l k2 h2 => Ens.pure ?_
    obtain ⟨a1, a2, a3, a4, a5⟩ := h2
    refine ⟨⟨by simp [HistoryWidthsOK, h1.1.1, a1], by simp [HistoryShapeOK, h1.1.2, a2, a3]; omega⟩, ?_⟩
    simp only [FTextHistory.write]
    refine outLen_map2 h1.2 (Nat.le_refl _) fun o o' h h' => ?_
    simp [historyTag]
    omega
  · refine (ens_argument hrec).bind fun v k1 h1 => ens_formatOptions.bind fun o k2 h2 =>
      ens_fstring.bind fun c k3 h3 => Ens.pure ?_
    refine ⟨by simp [HistoryWidthsOK, HistoryShapeOK, h1.1, h3.1], ?_⟩
    simp only [FTextHistory.write]
    refine outLen_map h1.2 fun o h => ?_
    simp [historyTag]
    omega
  · refine (ens_argument hrec).bind fun v k1 h1 => ens_formatOptions.bind fun o k2 h2 =>
      ens_fstring.bind fun c k3 h3 => Ens.pure ?_
    refine ⟨by simp [HistoryWidthsOK, HistoryShapeOK, h1.1, h3.1], ?_⟩
    simp only [FTextHistory.write]
    refine outLen_map h1.2 fun o h => ?_
    simp [historyTag]
    omega
  · refine ens_fstring.bind fun a k0 h0 => (ens_argument hrec).bind fun v k1 h1 =>
      ens_formatOptions.bind fun o k2 h2 => ens_fstring.bind fun c k3 h3 => Ens.pure ?_
    refine ⟨by simp [HistoryWidthsOK, HistoryShapeOK, h0.1, h1.1, h3.1], ?_⟩
    simp only [FTextHistory.write]
    refine outLen_map h1.2 fun o h => ?_
    simp [historyTag]
    omega
  · refine ens_u64.bind fun a k1 h1 => ens_enum.bind fun b k2 h2 => ens_string.bind fun c k3 h3 =>
      Ens.pure ?_
    simp [HistoryWidthsOK, HistoryShapeOK, FTextHistory.write, outLen, h3.1]
    omega
  · refine ens_u64.bind fun a k1 h1 => ens_enum.bind fun b k2 h2 => ens_string.bind fun c k3 h3 =>
      ens_string.bind fun d k4 h4 => Ens.pure ?_
    simp [HistoryWidthsOK, HistoryShapeOK, FTextHistory.write, outLen, h3.1, h4.1]
    omega
  · refine ens_u64.bind fun a k1 h1 => ens_enum.bind fun b k2 h2 => ens_enum.bind fun b' k2' h2' =>
      ens_string.bind fun c k3 h3 => ens_string.bind fun d k4 h4 => Ens.pure ?_
    simp [HistoryWidthsOK, HistoryShapeOK, FTextHistory.write, outLen, h3.1, h4.1]
    omega
  · refine hrec.bind fun t k1 h1 => ens_enum.bind fun b k2 h2 => Ens.pure ?_
    refine ⟨by simp [HistoryWidthsOK, HistoryShapeOK, h1.1.1, h1.1.2], ?_⟩
    simp only [FTextHistory.write]
    refine outLen_map h1.2 fun o h => ?_
    simp [historyTag]
    omega
  · refine ens_string.bind fun a k1 h1 => ens_string.bind fun b k2 h2 => Ens.pure ?_
    simp [HistoryWidthsOK, HistoryShapeOK, FTextHistory.write, outLen, historyTag, h1.1, h2.1]
    omega
  · exact Ens.panic
  · exact Ens.panic

/-- A text that was read is representable, and takes at most twice as many bytes as were read. -/
theorem ens_text (n : Nat) : Ens st (FText.read cv n)
    (fun t k => TextOK cv t ∧ outLen (t.write cv) ≤ 2 * k) := by
  induction n with
  | zero => exact Ens.outOfFuel
  | succ n ih =>
    unfold FText.read
    refine ens_u32.bind fun fl k hk => (ens_history ih).bind fun h k1 h1 => Ens.pure ?_
    refine ⟨⟨by simp [WidthsOK, h1.1.1], by simp [TextShapeOK, h1.1.2]⟩, ?_⟩
    simp only [FText.write]
    refine outLen_map h1.2 fun o h => ?_
    simp
    omega

end Gvas
