import Verif.Model.Key
import Verif.Spec.Norm
import Verif.Lemmas.Text

/-!
# What the hasher is fed determines a value up to the normalisation of floats
-/

namespace Gvas

open Spec

theorem canon32 (f : F32) : f.canon = (norm32 f).bits.toNat := by
  have hlt := f.bits.toNat_lt
  have hn : IsNaN32 f ↔ 0x7F800000 < f.bits.toNat % 0x80000000 := by
    unfold IsNaN32; omega
  unfold F32.canon norm32
  by_cases h : IsNaN32 f
  · rw [if_pos h, if_pos (hn.mp h)]; rfl
  · rw [if_neg h, if_neg (fun h' => h (hn.mpr h'))]
    by_cases hz : f.bits = 0x80000000
    · rw [if_pos hz, hz]; rfl
    · rw [if_neg hz, if_neg (fun h' : f.bits.toNat = 0x80000000 => hz (UInt32.toNat_inj.mp h'))]

theorem canon64 (f : F64) : f.canon = (norm64 f).bits.toNat := by
  have hlt := f.bits.toNat_lt
  have hn : IsNaN64 f ↔ 0x7FF0000000000000 < f.bits.toNat % 0x8000000000000000 := by
    unfold IsNaN64; omega
  unfold F64.canon norm64
  by_cases h : IsNaN64 f
  · rw [if_pos h, if_pos (hn.mp h)]; rfl
  · rw [if_neg h, if_neg (fun h' => h (hn.mpr h'))]
    by_cases hz : f.bits = 0x8000000000000000
    · rw [if_pos hz, hz]; rfl
    · rw [if_neg hz, if_neg (fun h' : f.bits.toNat = 0x8000000000000000 => hz (UInt64.toNat_inj.mp h'))]

theorem canon32_eq {a b : F32} : a.canon = b.canon ↔ norm32 a = norm32 b := by
  rw [canon32, canon32, UInt32.toNat_inj]
  exact ⟨fun h => by
    cases ha : norm32 a; cases hb : norm32 b; rw [ha, hb] at h; exact congrArg _ h, fun h => by rw [h]⟩

theorem canon64_eq {a b : F64} : a.canon = b.canon ↔ norm64 a = norm64 b := by
  rw [canon64, canon64, UInt64.toNat_inj]
  exact ⟨fun h => by
    cases ha : norm64 a; cases hb : norm64 b; rw [ha, hb] at h; exact congrArg _ h, fun h => by rw [h]⟩

theorem norm32_idem (f : F32) : norm32 (norm32 f) = norm32 f := by
  unfold norm32
  split
  · decide
  · split
    · decide
    · simp_all

theorem norm64_idem (f : F64) : norm64 (norm64 f) = norm64 f := by
  unfold norm64
  split
  · decide
  · split
    · decide
    · simp_all

theorem canon32_norm (f : F32) : (norm32 f).canon = f.canon := by
  rw [canon32, canon32, norm32_idem]

theorem canon64_norm (f : F64) : (norm64 f).canon = f.canon := by
  rw [canon64, canon64, norm64_idem]

/-! ## Pieces -/

theorem feedOpt_inj {a b : Option String} {r r' : List Tok} (h : feedOpt a ++ r = feedOpt b ++ r') :
    a = b ∧ r = r' := by
  cases a <;> cases b <;> simp_all [feedOpt]

theorem byteFeed_inj {a b : BytePropertyValue} {r r' : List Tok} (h : a.feed ++ r = b.feed ++ r') :
    a = b ∧ r = r' := by
  cases a <;> cases b <;> simp_all [BytePropertyValue.feed, UInt8.toNat_inj]

theorem delegateFeed_inj {a b : Delegate} {r r' : List Tok} (h : a.feed ++ r = b.feed ++ r') :
    a = b ∧ r = r' := by
  cases a; cases b; simp_all [Delegate.feed]

theorem roundingMode_inj {a b : RoundingMode} (h : a.toI8.toUInt8.toNat = b.toI8.toUInt8.toNat) :
    a = b := by
  revert h; cases a <;> cases b <;> decide

theorem dateStyle_inj {a b : DateTimeStyle} (h : a.toI8.toUInt8.toNat = b.toI8.toUInt8.toNat) :
    a = b := by
  revert h; cases a <;> cases b <;> decide

theorem transform_inj {a b : TransformType} (h : a.toI8.toUInt8.toNat = b.toI8.toUInt8.toNat) :
    a = b := by
  revert h; cases a <;> cases b <;> decide

theorem bool_inj {a b : Bool} (h : a.toNat = b.toNat) : a = b := by
  revert h; cases a <;> cases b <;> decide

theorem i8_inj {a b : Int8} : a.toUInt8.toNat = b.toUInt8.toNat ↔ a = b :=
  ⟨fun h => by
    have := congrArg UInt8.toInt8 (UInt8.toNat_inj.mp h)
    simpa using this, fun h => by rw [h]⟩
theorem i16_inj {a b : Int16} : a.toUInt16.toNat = b.toUInt16.toNat ↔ a = b :=
  ⟨fun h => by
    have := congrArg UInt16.toInt16 (UInt16.toNat_inj.mp h)
    simpa using this, fun h => by rw [h]⟩
theorem i32_inj {a b : Int32} : a.toUInt32.toNat = b.toUInt32.toNat ↔ a = b :=
  ⟨fun h => by
    have := congrArg UInt32.toInt32 (UInt32.toNat_inj.mp h)
    simpa using this, fun h => by rw [h]⟩
theorem i64_inj {a b : Int64} : a.toUInt64.toNat = b.toUInt64.toNat ↔ a = b :=
  ⟨fun h => by
    have := congrArg UInt64.toInt64 (UInt64.toNat_inj.mp h)
    simpa using this, fun h => by rw [h]⟩

theorem formatOptions_inj {a b : Option NumberFormattingOptions} {r r' : List Tok}
    (h : feedFormatOptions a ++ r = feedFormatOptions b ++ r') : a = b ∧ r = r' := by
  cases a <;> cases b
  · simpa [feedFormatOptions] using h
  · simp [feedFormatOptions] at h
  · simp [feedFormatOptions] at h
  · rename_i a b
    cases a; cases b
    simp only [feedFormatOptions, NumberFormattingOptions.feed, List.cons_append, List.nil_append,
      List.cons.injEq, Tok.n.injEq, true_and, i32_inj] at h
    obtain ⟨h1, h2, h3, h4, h5, h6, h7, h8⟩ := h
    rw [bool_inj h1, bool_inj h2, roundingMode_inj h3, h4, h5, h6, h7]
    exact ⟨rfl, h8⟩

/-- Lists of equal length of values fed one after the other. -/
theorem flatFeed_inj {α β : Type} {f : α → List Tok} {g : α → β}
    (hf : ∀ a b r r', f a ++ r = f b ++ r' → g a = g b ∧ r = r') {l l' : List α} {r r' : List Tok}
    (hl : l.length = l'.length) (h : l.flatMap f ++ r = l'.flatMap f ++ r') :
    l.map g = l'.map g ∧ r = r' := by
  induction l generalizing l' with
  | nil => cases l' <;> simp_all
  | cons a l ih =>
    cases l' with
    | nil => simp at hl
    | cons b l' =>
      simp only [List.flatMap_cons, List.append_assoc] at h
      obtain ⟨h1, h2⟩ := hf _ _ _ _ h
      obtain ⟨h3, h4⟩ := ih (by simpa using hl) h2
      exact ⟨by simp [h1, h3], h4⟩

theorem mapFeed_inj {α β : Type} {f : α → Tok} {g : α → β} (hf : ∀ a b, f a = f b → g a = g b)
    {l l' : List α} {r r' : List Tok} (hl : l.length = l'.length)
    (h : l.map f ++ r = l'.map f ++ r') : l.map g = l'.map g ∧ r = r' := by
  induction l generalizing l' with
  | nil => cases l' <;> simp_all
  | cons a l ih =>
    cases l' with
    | nil => simp at hl
    | cons b l' =>
      simp only [List.map_cons, List.cons_append, List.cons.injEq] at h
      obtain ⟨h3, h4⟩ := ih (by simpa using hl) h.2
      exact ⟨by simp [hf _ _ h.1, h3], h4⟩

theorem flatFeed_id {α : Type} {f : α → List Tok}
    (hf : ∀ a b r r', f a ++ r = f b ++ r' → a = b ∧ r = r') {l l' : List α} {r r' : List Tok}
    (hl : l.length = l'.length) (h : l.flatMap f ++ r = l'.flatMap f ++ r') : l = l' ∧ r = r' := by
  simpa using flatFeed_inj (g := id) (by simpa using hf) hl h

theorem mapFeed_id {α : Type} {f : α → Tok} (hf : ∀ a b, f a = f b → a = b)
    {l l' : List α} {r r' : List Tok} (hl : l.length = l'.length)
    (h : l.map f ++ r = l'.map f ++ r') : l = l' ∧ r = r' := by
  simpa using mapFeed_inj (g := id) (by simpa using hf) hl h

theorem bytesFeed_inj {l l' : Bytes} {r r' : List Tok} (hl : l.length = l'.length)
    (h : l.map (fun b => Tok.n b.toNat) ++ r = l'.map (fun b => Tok.n b.toNat) ++ r') :
    l = l' ∧ r = r' :=
  mapFeed_id (fun _ _ h => UInt8.toNat_inj.mp (Tok.n.inj h)) hl h

theorem guidFeed_inj {g g' : Guid} {r r' : List Tok}
    (h : g.bytes.map (fun b => Tok.n b.toNat) ++ r = g'.bytes.map (fun b => Tok.n b.toNat) ++ r') :
    g = g' ∧ r = r' := by
  obtain ⟨h1, h2⟩ := bytesFeed_inj (by rw [g.len, g'.len]) h
  cases g; cases g'
  simp_all

theorem strBool_inj {l l' : List (String × Bool)} {r r' : List Tok} (hl : l.length = l'.length)
    (h : l.flatMap (fun e => [Tok.s e.1, .n e.2.toNat]) ++ r =
      l'.flatMap (fun e => [Tok.s e.1, .n e.2.toNat]) ++ r') : l = l' ∧ r = r' := by
  refine flatFeed_id (fun a b r r' h => ?_) hl h
  cases a; cases b
  simp only [List.cons_append, List.nil_append, List.cons.injEq, Tok.s.injEq, Tok.n.injEq] at h
  exact ⟨by rw [h.1, bool_inj h.2.1], h.2.2⟩

theorem strInt_inj {l l' : List (String × Int32)} {r r' : List Tok} (hl : l.length = l'.length)
    (h : l.flatMap (fun e => [Tok.s e.1, .n e.2.toUInt32.toNat]) ++ r =
      l'.flatMap (fun e => [Tok.s e.1, .n e.2.toUInt32.toNat]) ++ r') : l = l' ∧ r = r' := by
  refine flatFeed_id (fun a b r r' h => ?_) hl h
  cases a; cases b
  simp only [List.cons_append, List.nil_append, List.cons.injEq, Tok.s.injEq, Tok.n.injEq,
    i32_inj] at h
  exact ⟨by rw [h.1, h.2.1], h.2.2⟩

theorem strStr_inj {l l' : List (String × Option String)} {r r' : List Tok}
    (hl : l.length = l'.length)
    (h : l.flatMap (fun e => Tok.s e.1 :: feedOpt e.2) ++ r =
      l'.flatMap (fun e => Tok.s e.1 :: feedOpt e.2) ++ r') : l = l' ∧ r = r' := by
  refine flatFeed_id (fun a b r r' h => ?_) hl h
  cases a; cases b
  simp only [List.cons_append, List.cons.injEq, Tok.s.injEq] at h
  obtain ⟨h1, h2⟩ := h
  obtain ⟨h2, h3⟩ := feedOpt_inj h2
  exact ⟨by rw [h1, h2], h3⟩

/-! ## Texts -/

mutual
theorem FText.feed_inj : ∀ (a b : FText) (r r' : List Tok), a.feed ++ r = b.feed ++ r' →
    normText a = normText b ∧ r = r'
  | .mk f h, .mk f' h', r, r', e => by
    simp only [FText.feed, List.cons_append, List.cons.injEq, Tok.n.injEq, UInt32.toNat_inj] at e
    have := FTextHistory.feed_inj h h' r r' e.2
    exact ⟨by rw [normText, normText, e.1, this.1], this.2⟩
theorem FTextHistory.feed_inj : ∀ (a b : FTextHistory) (r r' : List Tok),
    a.feed ++ r = b.feed ++ r' → normHistory a = normHistory b ∧ r = r'
  | .empty, b, r, r', e => by
    cases b <;> simp [FTextHistory.feed, normHistory] at e ⊢
    exact e
  | .none s, b, r, r', e => by
    cases b <;> simp [FTextHistory.feed, normHistory] at e ⊢
    exact feedOpt_inj e
  | .base x y z, b, r, r', e => by
    cases b <;> simp [FTextHistory.feed, normHistory] at e ⊢
    obtain ⟨h1, e⟩ := feedOpt_inj e
    obtain ⟨h2, e⟩ := feedOpt_inj e
    obtain ⟨h3, e⟩ := feedOpt_inj e
    exact ⟨⟨h1, h2, h3⟩, e⟩
  | .namedFormat x y, b, r, r', e => by
    cases b <;> simp [FTextHistory.feed, normHistory] at e ⊢
    obtain ⟨h1, e⟩ := FText.feed_inj _ _ _ _ e
    simp only [List.cons.injEq, Tok.n.injEq] at e
    obtain ⟨h2, e⟩ := feedNamedArgs_inj y _ _ _ e.1 e.2
    exact ⟨⟨h1, h2⟩, e⟩
  | .orderedFormat x y, b, r, r', e => by
    cases b <;> simp [FTextHistory.feed, normHistory] at e ⊢
    obtain ⟨h1, e⟩ := FText.feed_inj _ _ _ _ e
    simp only [List.cons.injEq, Tok.n.injEq] at e
    obtain ⟨h2, e⟩ := feedArgs_inj y _ _ _ e.1 e.2
    exact ⟨⟨h1, h2⟩, e⟩
  | .argumentFormat x y, b, r, r', e => by
    cases b <;> simp [FTextHistory.feed, normHistory] at e ⊢
    obtain ⟨h1, e⟩ := FText.feed_inj _ _ _ _ e
    simp only [List.cons.injEq, Tok.n.injEq] at e
    obtain ⟨h2, e⟩ := feedNamedArgs_inj y _ _ _ e.1 e.2
    exact ⟨⟨h1, h2⟩, e⟩
  | .asNumber x y z, b, r, r', e => by
    cases b <;> simp [FTextHistory.feed, normHistory] at e ⊢
    obtain ⟨h1, e⟩ := FormatArgumentValue.feed_inj _ _ _ _ e
    obtain ⟨h2, e⟩ := formatOptions_inj e
    obtain ⟨h3, e⟩ := feedOpt_inj e
    exact ⟨⟨h1, h2, h3⟩, e⟩
  | .asPercent x y z, b, r, r', e => by
    cases b <;> simp [FTextHistory.feed, normHistory] at e ⊢
    obtain ⟨h1, e⟩ := FormatArgumentValue.feed_inj _ _ _ _ e
    obtain ⟨h2, e⟩ := formatOptions_inj e
    obtain ⟨h3, e⟩ := feedOpt_inj e
    exact ⟨⟨h1, h2, h3⟩, e⟩
  | .asCurrency w x y z, b, r, r', e => by
    cases b <;> simp [FTextHistory.feed, normHistory] at e ⊢
    obtain ⟨h0, e⟩ := feedOpt_inj e
    obtain ⟨h1, e⟩ := FormatArgumentValue.feed_inj _ _ _ _ e
    obtain ⟨h2, e⟩ := formatOptions_inj e
    obtain ⟨h3, e⟩ := feedOpt_inj e
    exact ⟨⟨h0, h1, h2, h3⟩, e⟩
  | .asDate x y z, b, r, r', e => by
    cases b <;> simp [FTextHistory.feed, normHistory] at e ⊢
    obtain ⟨h1, h2, h3, e⟩ := e
    exact ⟨⟨UInt64.toNat_inj.mp h1, dateStyle_inj h2, h3⟩, e⟩
  | .asTime x y z w, b, r, r', e => by
    cases b <;> simp [FTextHistory.feed, normHistory] at e ⊢
    obtain ⟨h1, h2, h3, h4, e⟩ := e
    exact ⟨⟨UInt64.toNat_inj.mp h1, dateStyle_inj h2, h3, h4⟩, e⟩
  | .asDateTime x y z w u, b, r, r', e => by
    cases b <;> simp [FTextHistory.feed, normHistory] at e ⊢
    obtain ⟨h1, h2, h3, h4, h5, e⟩ := e
    exact ⟨⟨UInt64.toNat_inj.mp h1, dateStyle_inj h2, dateStyle_inj h3, h4, h5⟩, e⟩
  | .transform x y, b, r, r', e => by
    cases b <;> simp [FTextHistory.feed, normHistory] at e ⊢
    obtain ⟨h1, e⟩ := FText.feed_inj _ _ _ _ e
    simp only [List.cons.injEq, Tok.n.injEq] at e
    exact ⟨⟨h1, transform_inj e.1⟩, e.2⟩
  | .stringTableEntry x y, b, r, r', e => by
    cases b <;> simp [FTextHistory.feed, normHistory] at e ⊢
    exact ⟨⟨e.1, e.2.1⟩, e.2.2⟩
theorem FormatArgumentValue.feed_inj : ∀ (a b : FormatArgumentValue) (r r' : List Tok),
    a.feed ++ r = b.feed ++ r' → normArg a = normArg b ∧ r = r'
  | .int x, b, r, r', e => by
    cases b <;> simp only [FormatArgumentValue.feed, List.cons_append, List.nil_append,
      List.cons.injEq, Tok.n.injEq, i32_inj] at e <;> simp [normArg] at e ⊢
    exact e
  | .uint x, b, r, r', e => by
    cases b <;> simp [FormatArgumentValue.feed, normArg] at e ⊢
    exact ⟨UInt32.toNat_inj.mp e.1, e.2⟩
  | .float x, b, r, r', e => by
    cases b <;> simp [FormatArgumentValue.feed, normArg] at e ⊢
    exact ⟨canon32_eq.mp e.1, e.2⟩
  | .double x, b, r, r', e => by
    cases b <;> simp [FormatArgumentValue.feed, normArg] at e ⊢
    exact ⟨canon64_eq.mp e.1, e.2⟩
  | .text x, b, r, r', e => by
    cases b <;> simp [FormatArgumentValue.feed, normArg] at e ⊢
    exact FText.feed_inj _ _ _ _ e
  | .int64 x, b, r, r', e => by
    cases b <;> simp only [FormatArgumentValue.feed, List.cons_append, List.nil_append,
      List.cons.injEq, Tok.n.injEq, i64_inj] at e <;> simp [normArg] at e ⊢
    exact e
  | .uint64 x, b, r, r', e => by
    cases b <;> simp [FormatArgumentValue.feed, normArg] at e ⊢
    exact ⟨UInt64.toNat_inj.mp e.1, e.2⟩
theorem feedArgs_inj : ∀ (a b : List FormatArgumentValue) (r r' : List Tok),
    a.length = b.length → feedArgs a ++ r = feedArgs b ++ r' → normArgs a = normArgs b ∧ r = r'
  | [], b, r, r', hl, e => by
    cases b <;> simp [feedArgs, normArgs] at e hl ⊢
    exact e
  | x :: a, b, r, r', hl, e => by
    cases b <;> simp [feedArgs, normArgs] at e hl ⊢
    obtain ⟨h1, e⟩ := FormatArgumentValue.feed_inj _ _ _ _ e
    obtain ⟨h2, e⟩ := feedArgs_inj a _ _ _ hl e
    exact ⟨⟨h1, h2⟩, e⟩
theorem feedNamedArgs_inj : ∀ (a b : List (String × FormatArgumentValue)) (r r' : List Tok),
    a.length = b.length → feedNamedArgs a ++ r = feedNamedArgs b ++ r' →
    normNamedArgs a = normNamedArgs b ∧ r = r'
  | [], b, r, r', hl, e => by
    cases b <;> simp [feedNamedArgs, normNamedArgs] at e hl ⊢
    exact e
  | (k, x) :: a, b, r, r', hl, e => by
    cases b <;> simp [feedNamedArgs, normNamedArgs] at e hl ⊢
    obtain ⟨h0, e⟩ := e
    obtain ⟨h1, e⟩ := FormatArgumentValue.feed_inj _ _ _ _ e
    obtain ⟨h2, e⟩ := feedNamedArgs_inj a _ _ _ hl e
    exact ⟨⟨⟨h0, h1⟩, h2⟩, e⟩
end

/-! ## Properties -/

set_option maxHeartbeats 1000000 in
mutual
theorem Property.feed_inj : ∀ (a b : Property) (r r' : List Tok), a.feed ++ r = b.feed ++ r' →
    norm a = norm b ∧ r = r'
  | .array v, b, r, r', e => by
    cases b <;> simp [Property.feed, norm] at e ⊢
    exact ArrayProperty.feed_inj _ _ _ _ e
  | .bool v, b, r, r', e => by
    cases b <;> simp [Property.feed, norm, -Bool.toNat_eq_zero, -Bool.toNat_eq_one] at e ⊢
    exact ⟨bool_inj e.1, e.2⟩
  | .byte n v, b, r, r', e => by
    cases b <;> simp [Property.feed, norm] at e ⊢
    obtain ⟨h1, e⟩ := feedOpt_inj e
    obtain ⟨h2, e⟩ := byteFeed_inj e
    exact ⟨⟨h1, h2⟩, e⟩
  | .double v, b, r, r', e => by
    cases b <;> simp [Property.feed, norm] at e ⊢
    exact ⟨canon64_eq.mp e.1, e.2⟩
  | .enum t v, b, r, r', e => by
    cases b <;> simp [Property.feed, norm] at e ⊢
    obtain ⟨h1, e⟩ := feedOpt_inj e
    simp only [List.cons.injEq, Tok.s.injEq] at e
    exact ⟨⟨h1, e.1⟩, e.2⟩
  | .float v, b, r, r', e => by
    cases b <;> simp [Property.feed, norm] at e ⊢
    exact ⟨canon32_eq.mp e.1, e.2⟩
  | .int16 v, b, r, r', e => by
    cases b <;> simp only [Property.feed, List.cons_append, List.nil_append,
      List.cons.injEq, Tok.n.injEq, i16_inj] at e <;> simp [norm] at e ⊢
    exact e
  | .int64 v, b, r, r', e => by
    cases b <;> simp only [Property.feed, List.cons_append, List.nil_append,
      List.cons.injEq, Tok.n.injEq, i64_inj] at e <;> simp [norm] at e ⊢
    exact e
  | .int8 v, b, r, r', e => by
    cases b <;> simp only [Property.feed, List.cons_append, List.nil_append,
      List.cons.injEq, Tok.n.injEq, i8_inj] at e <;> simp [norm] at e ⊢
    exact e
  | .int v, b, r, r', e => by
    cases b <;> simp only [Property.feed, List.cons_append, List.nil_append,
      List.cons.injEq, Tok.n.injEq, i32_inj] at e <;> simp [norm] at e ⊢
    exact e
  | .map v, b, r, r', e => by
    cases b <;> simp [Property.feed, norm] at e ⊢
    exact MapProperty.feed_inj _ _ _ _ e
  | .name i v, b, r, r', e => by
    cases b <;> simp [Property.feed, norm] at e ⊢
    obtain ⟨h1, e⟩ := e
    obtain ⟨h2, e⟩ := feedOpt_inj e
    exact ⟨⟨UInt32.toNat_inj.mp h1, h2⟩, e⟩
  | .object v, b, r, r', e => by
    cases b <;> simp [Property.feed, norm] at e ⊢
    exact e
  | .delegate v, b, r, r', e => by
    cases b <;> simp [Property.feed, norm] at e ⊢
    exact delegateFeed_inj e
  | .multicastInlineDelegate v, b, r, r', e => by
    cases b <;> simp [Property.feed, norm] at e ⊢
    exact flatFeed_id (fun _ _ _ _ => delegateFeed_inj) e.1 e.2
  | .multicastSparseDelegate v, b, r, r', e => by
    cases b <;> simp [Property.feed, norm] at e ⊢
    exact flatFeed_id (fun _ _ _ _ => delegateFeed_inj) e.1 e.2
  | .fieldPath ⟨pa, o⟩, b, r, r', e => by
    cases b <;> simp [Property.feed, norm] at e ⊢
    rename_i w
    cases w
    obtain ⟨h1, e⟩ := mapFeed_id (fun _ _ => Tok.s.inj) e.1 e.2
    simp only [List.cons.injEq, Tok.s.injEq] at e
    simp_all
  | .set t fl ps, b, r, r', e => by
    cases b <;> simp [Property.feed, norm] at e ⊢
    obtain ⟨h1, h2, h3, e⟩ := e
    obtain ⟨h4, e⟩ := feedProps_inj ps _ _ _ h3 e
    exact ⟨⟨h1, UInt32.toNat_inj.mp h2, h4⟩, e⟩
  | .str v, b, r, r', e => by
    cases b <;> simp [Property.feed, norm] at e ⊢
    exact feedOpt_inj e
  | .struct g t v, b, r, r', e => by
    cases b <;> simp [Property.feed, norm] at e ⊢
    obtain ⟨h1, e⟩ := guidFeed_inj e
    simp only [List.cons.injEq, Tok.s.injEq] at e
    obtain ⟨h2, e⟩ := e
    obtain ⟨h3, e⟩ := StructPropertyValue.feed_inj _ _ _ _ e
    exact ⟨⟨h1, h2, h3⟩, e⟩
  | .structValue v, b, r, r', e => by
    cases b <;> simp [Property.feed, norm] at e ⊢
    exact StructPropertyValue.feed_inj _ _ _ _ e
  | .text v, b, r, r', e => by
    cases b <;> simp [Property.feed, norm] at e ⊢
    exact FText.feed_inj _ _ _ _ e
  | .uint16 v, b, r, r', e => by
    cases b <;> simp [Property.feed, norm] at e ⊢
    exact ⟨UInt16.toNat_inj.mp e.1, e.2⟩
  | .uint32 v, b, r, r', e => by
    cases b <;> simp [Property.feed, norm] at e ⊢
    exact ⟨UInt32.toNat_inj.mp e.1, e.2⟩
  | .uint64 v, b, r, r', e => by
    cases b <;> simp [Property.feed, norm] at e ⊢
    exact ⟨UInt64.toNat_inj.mp e.1, e.2⟩
  | .unknown n v, b, r, r', e => by
    cases b <;> simp [Property.feed, norm] at e ⊢
    obtain ⟨h1, h2, e⟩ := e
    obtain ⟨h3, e⟩ := bytesFeed_inj h2 e
    exact ⟨⟨h1, h3⟩, e⟩
theorem ArrayProperty.feed_inj : ∀ (a b : ArrayProperty) (r r' : List Tok),
    a.feed ++ r = b.feed ++ r' → normArray a = normArray b ∧ r = r'
  | .bools v, b, r, r', e => by
    cases b <;> simp [ArrayProperty.feed, normArray] at e ⊢
    exact mapFeed_id (fun _ _ h => bool_inj (Tok.n.inj h)) e.1 e.2
  | .bytes v, b, r, r', e => by
    cases b <;> simp [ArrayProperty.feed, normArray] at e ⊢
    exact bytesFeed_inj e.1 e.2
  | .enums v, b, r, r', e => by
    cases b <;> simp [ArrayProperty.feed, normArray] at e ⊢
    exact mapFeed_id (fun _ _ h => Tok.s.inj h) e.1 e.2
  | .floats v, b, r, r', e => by
    cases b <;> simp [ArrayProperty.feed, normArray, -List.map_inj_left] at e ⊢
    exact mapFeed_inj (fun _ _ h => canon32_eq.mp (Tok.n.inj h)) e.1 e.2
  | .ints v, b, r, r', e => by
    cases b <;> simp [ArrayProperty.feed, normArray] at e ⊢
    exact mapFeed_id (fun _ _ h => i32_inj.mp (Tok.n.inj h)) e.1 e.2
  | .names v, b, r, r', e => by
    cases b <;> simp [ArrayProperty.feed, normArray] at e ⊢
    exact flatFeed_id (fun _ _ _ _ => feedOpt_inj) e.1 e.2
  | .strings v, b, r, r', e => by
    cases b <;> simp [ArrayProperty.feed, normArray] at e ⊢
    exact flatFeed_id (fun _ _ _ _ => feedOpt_inj) e.1 e.2
  | .structs f t g v, b, r, r', e => by
    cases b <;> simp [ArrayProperty.feed, normArray] at e ⊢
    obtain ⟨h1, h2, e⟩ := e
    obtain ⟨h3, e⟩ := guidFeed_inj e
    simp only [List.cons.injEq, Tok.n.injEq] at e
    obtain ⟨h4, e⟩ := feedStructs_inj v _ _ _ e.1 e.2
    exact ⟨⟨h1, h2, h3, h4⟩, e⟩
  | .properties t v, b, r, r', e => by
    cases b <;> simp [ArrayProperty.feed, normArray] at e ⊢
    obtain ⟨h1, h2, e⟩ := e
    obtain ⟨h4, e⟩ := feedProps_inj v _ _ _ h2 e
    exact ⟨⟨h1, h4⟩, e⟩
theorem MapProperty.feed_inj : ∀ (a b : MapProperty) (r r' : List Tok),
    a.feed ++ r = b.feed ++ r' → normMap a = normMap b ∧ r = r'
  | .enumBool v, b, r, r', e => by
    cases b <;> simp [MapProperty.feed, normMap] at e ⊢
    exact strBool_inj e.1 e.2
  | .enumInt v, b, r, r', e => by
    cases b <;> simp [MapProperty.feed, normMap] at e ⊢
    exact strInt_inj e.1 e.2
  | .enumProperty t v, b, r, r', e => by
    cases b <;> simp [MapProperty.feed, normMap] at e ⊢
    obtain ⟨h1, h2, e⟩ := e
    obtain ⟨h4, e⟩ := feedStrProps_inj v _ _ _ h2 e
    exact ⟨⟨h1, h4⟩, e⟩
  | .nameBool v, b, r, r', e => by
    cases b <;> simp [MapProperty.feed, normMap] at e ⊢
    exact strBool_inj e.1 e.2
  | .nameInt v, b, r, r', e => by
    cases b <;> simp [MapProperty.feed, normMap] at e ⊢
    exact strInt_inj e.1 e.2
  | .nameProperty t v, b, r, r', e => by
    cases b <;> simp [MapProperty.feed, normMap] at e ⊢
    obtain ⟨h1, h2, e⟩ := e
    obtain ⟨h4, e⟩ := feedStrProps_inj v _ _ _ h2 e
    exact ⟨⟨h1, h4⟩, e⟩
  | .properties kt vt fl v, b, r, r', e => by
    cases b <;> simp [MapProperty.feed, normMap] at e ⊢
    obtain ⟨h1, h2, h3, h4, e⟩ := e
    obtain ⟨h5, e⟩ := feedPairs_inj v _ _ _ h4 e
    exact ⟨⟨h1, h2, UInt32.toNat_inj.mp h3, h5⟩, e⟩
  | .strBool v, b, r, r', e => by
    cases b <;> simp [MapProperty.feed, normMap] at e ⊢
    exact strBool_inj e.1 e.2
  | .strInt v, b, r, r', e => by
    cases b <;> simp [MapProperty.feed, normMap] at e ⊢
    exact strInt_inj e.1 e.2
  | .strProperty t v, b, r, r', e => by
    cases b <;> simp [MapProperty.feed, normMap] at e ⊢
    obtain ⟨h1, h2, e⟩ := e
    obtain ⟨h4, e⟩ := feedStrProps_inj v _ _ _ h2 e
    exact ⟨⟨h1, h4⟩, e⟩
  | .strStr v, b, r, r', e => by
    cases b <;> simp [MapProperty.feed, normMap] at e ⊢
    exact strStr_inj e.1 e.2
theorem StructPropertyValue.feed_inj : ∀ (a b : StructPropertyValue) (r r' : List Tok),
    a.feed ++ r = b.feed ++ r' → normStruct a = normStruct b ∧ r = r'
  | .vector2F x y, b, r, r', e => by
    cases b <;> simp [StructPropertyValue.feed, normStruct] at e ⊢
    simpa only [canon32_eq, and_assoc] using e
  | .vector2D x y, b, r, r', e => by
    cases b <;> simp [StructPropertyValue.feed, normStruct] at e ⊢
    simpa only [canon64_eq, and_assoc] using e
  | .vectorF x y z, b, r, r', e => by
    cases b <;> simp [StructPropertyValue.feed, normStruct] at e ⊢
    simpa only [canon32_eq, and_assoc] using e
  | .vectorD x y z, b, r, r', e => by
    cases b <;> simp [StructPropertyValue.feed, normStruct] at e ⊢
    simpa only [canon64_eq, and_assoc] using e
  | .rotatorF x y z, b, r, r', e => by
    cases b <;> simp [StructPropertyValue.feed, normStruct] at e ⊢
    simpa only [canon32_eq, and_assoc] using e
  | .rotatorD x y z, b, r, r', e => by
    cases b <;> simp [StructPropertyValue.feed, normStruct] at e ⊢
    simpa only [canon64_eq, and_assoc] using e
  | .quatF x y z w, b, r, r', e => by
    cases b <;> simp [StructPropertyValue.feed, normStruct] at e ⊢
    simpa only [canon32_eq, and_assoc] using e
  | .quatD x y z w, b, r, r', e => by
    cases b <;> simp [StructPropertyValue.feed, normStruct] at e ⊢
    simpa only [canon64_eq, and_assoc] using e
  | .dateTime x, b, r, r', e => by
    cases b <;> simp [StructPropertyValue.feed, normStruct] at e ⊢
    exact ⟨UInt64.toNat_inj.mp e.1, e.2⟩
  | .timespan x, b, r, r', e => by
    cases b <;> simp [StructPropertyValue.feed, normStruct] at e ⊢
    exact ⟨UInt64.toNat_inj.mp e.1, e.2⟩
  | .guid g, b, r, r', e => by
    cases b <;> simp [StructPropertyValue.feed, normStruct] at e ⊢
    exact guidFeed_inj e
  | .linearColor x y z w, b, r, r', e => by
    cases b <;> simp [StructPropertyValue.feed, normStruct] at e ⊢
    simpa only [canon32_eq, and_assoc] using e
  | .intPoint x y, b, r, r', e => by
    cases b <;> simp only [StructPropertyValue.feed, List.cons_append, List.nil_append,
      List.cons.injEq, Tok.n.injEq, i32_inj] at e <;> simp [normStruct] at e ⊢
    exact ⟨⟨e.1, e.2.1⟩, e.2.2⟩
  | .gameplayTagContainer v, b, r, r', e => by
    cases b <;> simp [StructPropertyValue.feed, normStruct] at e ⊢
    exact mapFeed_id (fun _ _ h => Tok.s.inj h) e.1 e.2
  | .customStruct fs, b, r, r', e => by
    cases b <;> simp [StructPropertyValue.feed, normStruct] at e ⊢
    exact feedFields_inj fs _ _ _ e.1 e.2
theorem feedProps_inj : ∀ (a b : List Property) (r r' : List Tok), a.length = b.length →
    feedProps a ++ r = feedProps b ++ r' → normProps a = normProps b ∧ r = r'
  | [], b, r, r', hl, e => by
    cases b <;> simp [feedProps, normProps] at e hl ⊢
    exact e
  | x :: a, b, r, r', hl, e => by
    cases b <;> simp [feedProps, normProps] at e hl ⊢
    obtain ⟨h1, e⟩ := Property.feed_inj _ _ _ _ e
    obtain ⟨h2, e⟩ := feedProps_inj a _ _ _ hl e
    exact ⟨⟨h1, h2⟩, e⟩
theorem feedStructs_inj : ∀ (a b : List StructPropertyValue) (r r' : List Tok),
    a.length = b.length → feedStructs a ++ r = feedStructs b ++ r' →
    normStructs a = normStructs b ∧ r = r'
  | [], b, r, r', hl, e => by
    cases b <;> simp [feedStructs, normStructs] at e hl ⊢
    exact e
  | x :: a, b, r, r', hl, e => by
    cases b <;> simp [feedStructs, normStructs] at e hl ⊢
    obtain ⟨h1, e⟩ := StructPropertyValue.feed_inj _ _ _ _ e
    obtain ⟨h2, e⟩ := feedStructs_inj a _ _ _ hl e
    exact ⟨⟨h1, h2⟩, e⟩
theorem feedStrProps_inj : ∀ (a b : List (String × Property)) (r r' : List Tok),
    a.length = b.length → feedStrProps a ++ r = feedStrProps b ++ r' →
    normStrProps a = normStrProps b ∧ r = r'
  | [], b, r, r', hl, e => by
    cases b <;> simp [feedStrProps, normStrProps] at e hl ⊢
    exact e
  | (k, x) :: a, b, r, r', hl, e => by
    cases b <;> simp [feedStrProps, normStrProps] at e hl ⊢
    obtain ⟨h0, e⟩ := e
    obtain ⟨h1, e⟩ := Property.feed_inj _ _ _ _ e
    obtain ⟨h2, e⟩ := feedStrProps_inj a _ _ _ hl e
    exact ⟨⟨⟨h0, h1⟩, h2⟩, e⟩
theorem feedPairs_inj : ∀ (a b : List (Property × Property)) (r r' : List Tok),
    a.length = b.length → feedPairs a ++ r = feedPairs b ++ r' →
    normPairs a = normPairs b ∧ r = r'
  | [], b, r, r', hl, e => by
    cases b <;> simp [feedPairs, normPairs] at e hl ⊢
    exact e
  | (k, x) :: a, b, r, r', hl, e => by
    cases b <;> simp [feedPairs, normPairs] at e hl ⊢
    obtain ⟨h0, e⟩ := Property.feed_inj _ _ _ _ e
    obtain ⟨h1, e⟩ := Property.feed_inj _ _ _ _ e
    obtain ⟨h2, e⟩ := feedPairs_inj a _ _ _ hl e
    exact ⟨⟨⟨h0, h1⟩, h2⟩, e⟩
theorem feedFields_inj : ∀ (a b : List (String × List Property)) (r r' : List Tok),
    a.length = b.length → feedFields a ++ r = feedFields b ++ r' →
    normFields a = normFields b ∧ r = r'
  | [], b, r, r', hl, e => by
    cases b <;> simp [feedFields, normFields] at e hl ⊢
    exact e
  | (k, x) :: a, b, r, r', hl, e => by
    cases b <;> simp [feedFields, normFields] at e hl ⊢
    obtain ⟨h0, h1, e⟩ := e
    obtain ⟨h1, e⟩ := feedProps_inj x _ _ _ h1 e
    obtain ⟨h2, e⟩ := feedFields_inj a _ _ _ hl e
    exact ⟨⟨⟨h0, h1⟩, h2⟩, e⟩
end

/-! ## Normalising does not change what is fed -/

mutual
theorem FText.feed_norm : ∀ t : FText, (normText t).feed = t.feed
  | .mk f h => by simp only [normText, FText.feed, FTextHistory.feed_norm h]
theorem FTextHistory.feed_norm : ∀ h : FTextHistory, (normHistory h).feed = h.feed
  | .empty => rfl
  | .none s => rfl
  | .base .. => rfl
  | .namedFormat x y => by
    simp only [normHistory, FTextHistory.feed, FText.feed_norm x, (feedNamedArgs_norm y).1,
      (feedNamedArgs_norm y).2]
  | .orderedFormat x y => by
    simp only [normHistory, FTextHistory.feed, FText.feed_norm x, (feedArgs_norm y).1,
      (feedArgs_norm y).2]
  | .argumentFormat x y => by
    simp only [normHistory, FTextHistory.feed, FText.feed_norm x, (feedNamedArgs_norm y).1,
      (feedNamedArgs_norm y).2]
  | .asNumber x y z => by
    simp only [normHistory, FTextHistory.feed, FormatArgumentValue.feed_norm x]
  | .asPercent x y z => by
    simp only [normHistory, FTextHistory.feed, FormatArgumentValue.feed_norm x]
  | .asCurrency w x y z => by
    simp only [normHistory, FTextHistory.feed, FormatArgumentValue.feed_norm x]
  | .asDate .. => rfl
  | .asTime .. => rfl
  | .asDateTime .. => rfl
  | .transform x y => by simp only [normHistory, FTextHistory.feed, FText.feed_norm x]
  | .stringTableEntry .. => rfl
theorem FormatArgumentValue.feed_norm : ∀ v : FormatArgumentValue, (normArg v).feed = v.feed
  | .int x => rfl
  | .uint x => rfl
  | .float x => by simp only [normArg, FormatArgumentValue.feed, canon32_norm]
  | .double x => by simp only [normArg, FormatArgumentValue.feed, canon64_norm]
  | .text x => by simp only [normArg, FormatArgumentValue.feed, FText.feed_norm x]
  | .int64 x => rfl
  | .uint64 x => rfl
theorem feedArgs_norm : ∀ l : List FormatArgumentValue,
    feedArgs (normArgs l) = feedArgs l ∧ (normArgs l).length = l.length
  | [] => ⟨rfl, rfl⟩
  | x :: l => by
    simp [normArgs, feedArgs, FormatArgumentValue.feed_norm x, (feedArgs_norm l).1,
      (feedArgs_norm l).2]
theorem feedNamedArgs_norm : ∀ l : List (String × FormatArgumentValue),
    feedNamedArgs (normNamedArgs l) = feedNamedArgs l ∧ (normNamedArgs l).length = l.length
  | [] => ⟨rfl, rfl⟩
  | (k, x) :: l => by
    simp [normNamedArgs, feedNamedArgs, FormatArgumentValue.feed_norm x, (feedNamedArgs_norm l).1,
      (feedNamedArgs_norm l).2]
end

mutual
theorem Property.feed_norm : ∀ p : Property, (norm p).feed = p.feed
  | .array v => by simp only [norm, Property.feed, ArrayProperty.feed_norm v]
  | .double v => by simp only [norm, Property.feed, canon64_norm]
  | .float v => by simp only [norm, Property.feed, canon32_norm]
  | .map v => by simp only [norm, Property.feed, MapProperty.feed_norm v]
  | .set t fl ps => by
    simp only [norm, Property.feed, (feedProps_norm ps).1, (feedProps_norm ps).2]
  | .struct g t v => by simp only [norm, Property.feed, StructPropertyValue.feed_norm v]
  | .structValue v => by simp only [norm, Property.feed, StructPropertyValue.feed_norm v]
  | .text v => by simp only [norm, Property.feed, FText.feed_norm v]
  | .bool _ | .byte .. | .enum .. | .int16 _ | .int64 _ | .int8 _ | .int _ | .name .. | .object _
  | .delegate _ | .multicastInlineDelegate _ | .multicastSparseDelegate _ | .fieldPath _ | .str _
  | .uint16 _ | .uint32 _ | .uint64 _ | .unknown .. => rfl
theorem ArrayProperty.feed_norm : ∀ a : ArrayProperty, (normArray a).feed = a.feed
  | .floats v => by
    simp only [normArray, ArrayProperty.feed, List.length_map, List.map_map]
    congr 2
    exact List.map_congr_left fun x _ => by simp [canon32_norm]
  | .structs f t g v => by
    simp only [normArray, ArrayProperty.feed, (feedStructs_norm v).1, (feedStructs_norm v).2]
  | .properties t v => by
    simp only [normArray, ArrayProperty.feed, (feedProps_norm v).1, (feedProps_norm v).2]
  | .bools _ | .bytes _ | .enums _ | .ints _ | .names _ | .strings _ => rfl
theorem MapProperty.feed_norm : ∀ m : MapProperty, (normMap m).feed = m.feed
  | .enumProperty t v | .nameProperty t v | .strProperty t v => by
    simp only [normMap, MapProperty.feed, (feedStrProps_norm v).1, (feedStrProps_norm v).2]
  | .properties kt vt fl v => by
    simp only [normMap, MapProperty.feed, (feedPairs_norm v).1, (feedPairs_norm v).2]
  | .enumBool _ | .enumInt _ | .nameBool _ | .nameInt _ | .strBool _ | .strInt _ | .strStr _ => rfl
theorem StructPropertyValue.feed_norm : ∀ v : StructPropertyValue, (normStruct v).feed = v.feed
  | .vector2F .. | .vector2D .. | .vectorF .. | .vectorD .. | .rotatorF .. | .rotatorD ..
  | .quatF .. | .quatD .. | .linearColor .. => by
    simp only [normStruct, StructPropertyValue.feed, canon32_norm, canon64_norm]
  | .customStruct fs => by
    simp only [normStruct, StructPropertyValue.feed, (feedFields_norm fs).1,
      (feedFields_norm fs).2]
  | .dateTime _ | .timespan _ | .guid _ | .intPoint .. | .gameplayTagContainer _ => rfl
theorem feedProps_norm : ∀ l : List Property,
    feedProps (normProps l) = feedProps l ∧ (normProps l).length = l.length
  | [] => ⟨rfl, rfl⟩
  | x :: l => by
    simp [normProps, feedProps, Property.feed_norm x, (feedProps_norm l).1, (feedProps_norm l).2]
theorem feedStructs_norm : ∀ l : List StructPropertyValue,
    feedStructs (normStructs l) = feedStructs l ∧ (normStructs l).length = l.length
  | [] => ⟨rfl, rfl⟩
  | x :: l => by
    simp [normStructs, feedStructs, StructPropertyValue.feed_norm x, (feedStructs_norm l).1,
      (feedStructs_norm l).2]
theorem feedStrProps_norm : ∀ l : List (String × Property),
    feedStrProps (normStrProps l) = feedStrProps l ∧ (normStrProps l).length = l.length
  | [] => ⟨rfl, rfl⟩
  | (k, x) :: l => by
    simp [normStrProps, feedStrProps, Property.feed_norm x, (feedStrProps_norm l).1,
      (feedStrProps_norm l).2]
theorem feedPairs_norm : ∀ l : List (Property × Property),
    feedPairs (normPairs l) = feedPairs l ∧ (normPairs l).length = l.length
  | [] => ⟨rfl, rfl⟩
  | (k, x) :: l => by
    simp [normPairs, feedPairs, Property.feed_norm k, Property.feed_norm x, (feedPairs_norm l).1,
      (feedPairs_norm l).2]
theorem feedFields_norm : ∀ l : List (String × List Property),
    feedFields (normFields l) = feedFields l ∧ (normFields l).length = l.length
  | [] => ⟨rfl, rfl⟩
  | (k, x) :: l => by
    simp [normFields, feedFields, (feedProps_norm x).1, (feedProps_norm x).2, (feedFields_norm l).1,
      (feedFields_norm l).2]
end

/-- Two properties are the same map key iff they agree up to the normalisation of floats. -/
theorem sameKey_iff (a b : Property) : sameKey a b = true ↔ norm a = norm b := by
  unfold sameKey
  rw [beq_iff_eq]
  exact ⟨fun h => (Property.feed_inj a b [] [] (by rw [h])).1,
    fun h => by rw [← Property.feed_norm a, h, Property.feed_norm]⟩

end Gvas
