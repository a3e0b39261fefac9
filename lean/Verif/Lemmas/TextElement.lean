import Verif.Spec.Element
import Verif.Lemmas.Place

/-!
# Replacing a part of a text, a delegate or a field path

No lengths are stored in any of these, so the bytes around the part stay as they are.
-/

namespace Gvas

open Spec

/-- `a` has `x` where `b` has `y`, and otherwise they are the same. -/
def Inside (a b x y : Bytes) : Prop := ∃ pre post, a = pre ++ x ++ post ∧ b = pre ++ y ++ post

theorem Inside.self (x y : Bytes) : Inside x y x y := ⟨[], [], by simp, by simp⟩

theorem Inside.right {a b x y : Bytes} (c : Bytes) (h : Inside a b x y) :
    Inside (c ++ a) (c ++ b) x y := by
  obtain ⟨pre, post, rfl, rfl⟩ := h
  exact ⟨c ++ pre, post, by simp, by simp⟩

theorem Inside.left {a b x y : Bytes} (c : Bytes) (h : Inside a b x y) :
    Inside (a ++ c) (b ++ c) x y := by
  obtain ⟨pre, post, rfl, rfl⟩ := h
  exact ⟨pre, post ++ c, by simp, by simp⟩

theorem inside_concat {α : Type} (f : α → Out) (l r : List α) (a b : α) {x y : Bytes}
    (h : Inside (f a).bytes (f b).bytes x y) :
    Inside (concatOut f (l ++ a :: r)).bytes (concatOut f (l ++ b :: r)).bytes x y := by
  induction l with
  | nil =>
    simp only [List.nil_append, concatOut, Out.app_bytes]
    exact h.left _
  | cons c l ih =>
    simp only [List.cons_append, concatOut, Out.app_bytes]
    exact ih.right _

theorem named_write {cv : List (Guid × UInt32)} {k : String} {v w : FormatArgumentValue}
    {x y : Bytes}
    (h : ∀ o, FormatArgumentValue.write cv v = .ok o →
      ∃ o', FormatArgumentValue.write cv w = .ok o' ∧ Inside o.bytes o'.bytes x y)
    (l r : List (String × FormatArgumentValue)) {o : Out}
    (ho : writeNamedArgs cv (l ++ (k, v) :: r) = .ok o) :
    ∃ o', writeNamedArgs cv (l ++ (k, w) :: r) = .ok o' ∧ Inside o.bytes o'.bytes x y := by
  induction l generalizing o with
  | nil =>
    simp only [List.nil_append, writeNamedArgs] at ho ⊢
    obtain ⟨a, h1, ho⟩ := Res.bind_inv ho
    obtain ⟨c, h2, ho⟩ := Res.bind_inv ho
    cases ho
    obtain ⟨a', h3, h4⟩ := h a h1
    refine ⟨_, by simp only [h3, h2]; rfl, ?_⟩
    simp only [Out.app_bytes]
    exact (h4.right _).left _
  | cons u l ih =>
    simp only [List.cons_append, writeNamedArgs] at ho ⊢
    obtain ⟨a, h1, ho⟩ := Res.bind_inv ho
    obtain ⟨c, h2, ho⟩ := Res.bind_inv ho
    cases ho
    obtain ⟨c', h3, h4⟩ := ih h2
    refine ⟨_, by simp only [h1, h3]; rfl, ?_⟩
    simp only [Out.app_bytes]
    exact h4.right _

theorem args_write {cv : List (Guid × UInt32)} {v w : FormatArgumentValue} {x y : Bytes}
    (h : ∀ o, FormatArgumentValue.write cv v = .ok o →
      ∃ o', FormatArgumentValue.write cv w = .ok o' ∧ Inside o.bytes o'.bytes x y)
    (l r : List FormatArgumentValue) {o : Out}
    (ho : writeArgs cv (l ++ v :: r) = .ok o) :
    ∃ o', writeArgs cv (l ++ w :: r) = .ok o' ∧ Inside o.bytes o'.bytes x y := by
  induction l generalizing o with
  | nil =>
    simp only [List.nil_append, writeArgs] at ho ⊢
    obtain ⟨a, h1, ho⟩ := Res.bind_inv ho
    obtain ⟨c, h2, ho⟩ := Res.bind_inv ho
    cases ho
    obtain ⟨a', h3, h4⟩ := h a h1
    refine ⟨_, by simp only [h3, h2]; rfl, ?_⟩
    simp only [Out.app_bytes]
    exact h4.left _
  | cons u l ih =>
    simp only [List.cons_append, writeArgs] at ho ⊢
    obtain ⟨a, h1, ho⟩ := Res.bind_inv ho
    obtain ⟨c, h2, ho⟩ := Res.bind_inv ho
    cases ho
    obtain ⟨c', h3, h4⟩ := ih h2
    refine ⟨_, by simp only [h1, h3]; rfl, ?_⟩
    simp only [Out.app_bytes]
    exact h4.right _

private theorem len' {α : Type} (l r : List α) (a b : α) :
    (l ++ b :: r).length = (l ++ a :: r).length := by
  simp

/-- Finds the part among pieces put together. -/
macro "inside" : tactic => `(tactic|
  (simp only [Out.app_bytes, writeFormatOptions]
   repeat first
     | exact Inside.self _ _
     | assumption
     | apply Inside.right
     | apply Inside.left))

/-- Wherever the first can be written so can the second, with the part replaced. -/
private def Follows (f g : Res Out) (x y : Bytes) : Prop :=
  ∀ o, f = .ok o → ∃ o', g = .ok o' ∧ Inside o.bytes o'.bytes x y

theorem textPart_write {cv : List (Guid × UInt32)} {t u : FText} {x y : Bytes}
    (h : TextPart cv t u x y) (o : Out) (ho : FText.write cv t = .ok o) :
    ∃ o', FText.write cv u = .ok o' ∧ Inside o.bytes o'.bytes x y := by
  suffices hf : Follows (FText.write cv t) (FText.write cv u) x y from hf o ho
  clear ho
  induction h using TextPart.rec
    (motive_2 := fun t u x y _ => Follows (FTextHistory.write cv t) (FTextHistory.write cv u) x y)
    (motive_3 := fun t u x y _ =>
      Follows (FormatArgumentValue.write cv t) (FormatArgumentValue.write cv u) x y)
  all_goals intro o ho
  case flags a b hi =>
    simp only [FText.write] at ho ⊢
    obtain ⟨c, h1, ho⟩ := Res.bind_inv ho
    cases ho
    exact ⟨_, by simp only [h1]; rfl, by inside⟩
  case history fl _ _ _ _ _ hp =>
    simp only [FText.write] at ho ⊢
    obtain ⟨c, h1, ho⟩ := Res.bind_inv ho
    cases ho
    obtain ⟨c', h2, h3⟩ := hp c h1
    exact ⟨_, by simp only [h2]; rfl, by inside⟩
  case none a b hc hb =>
    simp only [FTextHistory.write, hc, if_true] at ho ⊢
    cases ho
    exact ⟨_, rfl, by inside⟩
  case namedSource hp =>
    simp only [FTextHistory.write] at ho ⊢
    obtain ⟨c, h1, ho⟩ := Res.bind_inv ho
    obtain ⟨d, h4, ho⟩ := Res.bind_inv ho
    cases ho
    obtain ⟨c', h2, h3⟩ := hp c h1
    exact ⟨_, by simp only [h2, h4]; rfl, by inside⟩
  case orderedSource hp =>
    simp only [FTextHistory.write] at ho ⊢
    obtain ⟨c, h1, ho⟩ := Res.bind_inv ho
    obtain ⟨d, h4, ho⟩ := Res.bind_inv ho
    cases ho
    obtain ⟨c', h2, h3⟩ := hp c h1
    exact ⟨_, by simp only [h2, h4]; rfl, by inside⟩
  case argumentSource hp =>
    simp only [FTextHistory.write] at ho ⊢
    obtain ⟨c, h1, ho⟩ := Res.bind_inv ho
    obtain ⟨d, h4, ho⟩ := Res.bind_inv ho
    cases ho
    obtain ⟨c', h2, h3⟩ := hp c h1
    exact ⟨_, by simp only [h2, h4]; rfl, by inside⟩
  case namedArgument hp =>
    simp only [FTextHistory.write] at ho ⊢
    obtain ⟨c, h1, ho⟩ := Res.bind_inv ho
    obtain ⟨d, h4, ho⟩ := Res.bind_inv ho
    cases ho
    obtain ⟨c', h2, h3⟩ := named_write hp _ _ h4
    exact ⟨_, by simp only [h1, h2]; rfl, by rw [len']; inside⟩
  case orderedArgument hp =>
    simp only [FTextHistory.write] at ho ⊢
    obtain ⟨c, h1, ho⟩ := Res.bind_inv ho
    obtain ⟨d, h4, ho⟩ := Res.bind_inv ho
    cases ho
    obtain ⟨c', h2, h3⟩ := args_write hp _ _ h4
    exact ⟨_, by simp only [h1, h2]; rfl, by rw [len']; inside⟩
  case argumentArgument hp =>
    simp only [FTextHistory.write] at ho ⊢
    obtain ⟨c, h1, ho⟩ := Res.bind_inv ho
    obtain ⟨d, h4, ho⟩ := Res.bind_inv ho
    cases ho
    obtain ⟨c', h2, h3⟩ := named_write hp _ _ h4
    exact ⟨_, by simp only [h1, h2]; rfl, by rw [len']; inside⟩
  case numberValue hp =>
    simp only [FTextHistory.write] at ho ⊢
    obtain ⟨c, h1, ho⟩ := Res.bind_inv ho
    cases ho
    obtain ⟨c', h2, h3⟩ := hp c h1
    exact ⟨_, by simp only [h2]; rfl, by inside⟩
  case percentValue hp =>
    simp only [FTextHistory.write] at ho ⊢
    obtain ⟨c, h1, ho⟩ := Res.bind_inv ho
    cases ho
    obtain ⟨c', h2, h3⟩ := hp c h1
    exact ⟨_, by simp only [h2]; rfl, by inside⟩
  case currencyValue hp =>
    simp only [FTextHistory.write] at ho ⊢
    obtain ⟨c, h1, ho⟩ := Res.bind_inv ho
    cases ho
    obtain ⟨c', h2, h3⟩ := hp c h1
    exact ⟨_, by simp only [h2]; rfl, by inside⟩
  case transformSource hp =>
    simp only [FTextHistory.write] at ho ⊢
    obtain ⟨c, h1, ho⟩ := Res.bind_inv ho
    cases ho
    obtain ⟨c', h2, h3⟩ := hp c h1
    exact ⟨_, by simp only [h2]; rfl, by inside⟩
  case text hp =>
    simp only [FormatArgumentValue.write] at ho ⊢
    obtain ⟨c, h1, ho⟩ := Res.bind_inv ho
    cases ho
    obtain ⟨c', h2, h3⟩ := hp c h1
    exact ⟨_, by simp only [h2]; rfl, by inside⟩
  case int | uint | int64 | uint64 =>
    simp only [FormatArgumentValue.write] at ho ⊢
    split at ho
    · rename_i hc
      first
        | cases ho; done
        | cases ho; exact ⟨_, if_pos hc, by inside⟩
    · rename_i hc
      first
        | cases ho; done
        | cases ho; exact ⟨_, if_neg hc, by inside⟩
  all_goals
    simp only [FTextHistory.write, FormatArgumentValue.write] at ho ⊢
    first
    | (cases ho; exact ⟨_, rfl, by inside⟩)
    | (obtain ⟨c, h1, ho⟩ := Res.bind_inv ho
       cases ho
       exact ⟨_, by simp only [h1]; rfl, by inside⟩)

theorem delegatePart_write {a b : Delegate} {x y : Bytes} (h : DelegatePart a b x y) :
    Inside a.write.bytes b.write.bytes x y := by
  cases h <;> (simp only [Delegate.write]; inside)

theorem delegatePart_ok {a b : Delegate} {x y : Bytes} (h : DelegatePart a b x y)
    (ha : DelegateOK a) : DelegateOK b := by
  cases h with
  | object a b f hb => exact ⟨hb, ha.2⟩
  | functionName o a b hb => exact ⟨ha.1, hb⟩

theorem named_ok {cv : List (Guid × UInt32)} {k : String} {v w : FormatArgumentValue}
    (h1 : ArgWidthsOK cv v → ArgWidthsOK cv w) (h2 : ArgShapeOK cv v → ArgShapeOK cv w)
    (l r : List (String × FormatArgumentValue)) :
    (NamedWidthsOK cv (l ++ (k, v) :: r) → NamedWidthsOK cv (l ++ (k, w) :: r)) ∧
      (NamedShapeOK cv (l ++ (k, v) :: r) → NamedShapeOK cv (l ++ (k, w) :: r)) := by
  induction l with
  | nil =>
    exact ⟨fun h => ⟨h1 h.1, h.2⟩, fun h => ⟨h.1, h2 h.2.1, h.2.2⟩⟩
  | cons u l ih =>
    exact ⟨fun h => ⟨h.1, ih.1 h.2⟩, fun h => ⟨h.1, h.2.1, ih.2 h.2.2⟩⟩

theorem args_ok {cv : List (Guid × UInt32)} {v w : FormatArgumentValue}
    (h1 : ArgWidthsOK cv v → ArgWidthsOK cv w) (h2 : ArgShapeOK cv v → ArgShapeOK cv w)
    (l r : List FormatArgumentValue) :
    (ArgsWidthsOK cv (l ++ v :: r) → ArgsWidthsOK cv (l ++ w :: r)) ∧
      (ArgsShapeOK cv (l ++ v :: r) → ArgsShapeOK cv (l ++ w :: r)) := by
  induction l with
  | nil =>
    exact ⟨fun h => ⟨h1 h.1, h.2⟩, fun h => ⟨h2 h.1, h.2⟩⟩
  | cons u l ih =>
    exact ⟨fun h => ⟨h.1, ih.1 h.2⟩, fun h => ⟨h.1, ih.2 h.2⟩⟩

theorem textPart_ok {cv : List (Guid × UInt32)} {t u : FText} {x y : Bytes}
    (h : TextPart cv t u x y) (env : List (Guid × UInt32)) :
    (WidthsOK env t → WidthsOK env u) ∧ (TextShapeOK env t → TextShapeOK env u) := by
  induction h using TextPart.rec
    (motive_2 := fun t u _ _ _ => (HistoryWidthsOK env t → HistoryWidthsOK env u) ∧
      (HistoryShapeOK env t → HistoryShapeOK env u))
    (motive_3 := fun t u _ _ _ => (ArgWidthsOK env t → ArgWidthsOK env u) ∧
      (ArgShapeOK env t → ArgShapeOK env u))
  case history this => exact this
  case namedSource this | orderedSource this | argumentSource this =>
    exact ⟨fun h => ⟨this.1 h.1, h.2⟩, fun h => ⟨this.2 h.1, h.2⟩⟩
  case namedArgument l r k _ _ _ _ _ this | argumentArgument l r k _ _ _ _ _ this =>
    have := named_ok (k := k) this.1 this.2 l r
    exact ⟨fun h => ⟨h.1, this.1 h.2⟩, fun h => ⟨h.1, this.2 h.2.1, by simpa using h.2.2⟩⟩
  case orderedArgument l r _ _ _ _ _ this =>
    have := args_ok this.1 this.2 l r
    exact ⟨fun h => ⟨h.1, this.1 h.2⟩, fun h => ⟨h.1, this.2 h.2.1, by simpa using h.2.2⟩⟩
  case numberValue this | percentValue this =>
    exact ⟨this.1, fun h => ⟨this.2 h.1, h.2⟩⟩
  case currencyValue this =>
    exact ⟨this.1, fun h => ⟨h.1, this.2 h.2.1, h.2.2⟩⟩
  case transformSource this => exact this
  case text this => exact this
  all_goals
    refine ⟨id, ?_⟩
    first
    | exact id
    | (simp only [HistoryShapeOK]; simp_all)

end Gvas
