import Verif.Lemmas.Element
import Verif.Spec.Stretch

/-!
# Replacing a stretch of elements: what happens to the bytes
-/

namespace Gvas

open Spec

/-- Writing in a loop, where every step can fail. -/
def loop {α : Type} (f : α → Res Out) : List α → Res Out
  | [] => .ok Out.nil
  | e :: l => do
    let a ← f e
    let b ← loop f l
    return a ++ b

theorem loop_split {α : Type} {f : α → Res Out} {a b : List α} {o : Out}
    (h : loop f (a ++ b) = .ok o) : ∃ u v, loop f a = .ok u ∧ loop f b = .ok v ∧
      o.bytes = u.bytes ++ v.bytes := by
  induction a generalizing o with
  | nil => exact ⟨Out.nil, o, rfl, h, rfl⟩
  | cons e a ih =>
    simp only [List.cons_append, loop] at h ⊢
    obtain ⟨x, h1, h⟩ := Res.bind_inv h
    obtain ⟨y, h2, h⟩ := Res.bind_inv h
    cases h
    obtain ⟨u, v, h3, h4, h5⟩ := ih h2
    exact ⟨x ++ u, v, by simp only [h1, h3]; rfl, h4,
      by simp only [Out.app_bytes, h5, List.append_assoc]⟩

theorem loop_join {α : Type} {f : α → Res Out} {a b : List α} {u v : Out}
    (h : loop f a = .ok u) (h' : loop f b = .ok v) :
    ∃ o, loop f (a ++ b) = .ok o ∧ o.bytes = u.bytes ++ v.bytes := by
  induction a generalizing u with
  | nil => cases h; exact ⟨v, h', rfl⟩
  | cons e a ih =>
    simp only [List.cons_append, loop] at h ⊢
    obtain ⟨x, h1, h⟩ := Res.bind_inv h
    obtain ⟨y, h2, h⟩ := Res.bind_inv h
    cases h
    obtain ⟨o, h3, h4⟩ := ih h2
    exact ⟨x ++ o, by simp only [h1, h3]; rfl, by simp only [Out.app_bytes, h4, List.append_assoc]⟩

theorem loop_pairs {α : Type} {f : α → Res Out} {R : α → Bytes → Prop}
    (hR : ∀ e x, R e x → ∃ o, f e = .ok o ∧ o.bytes = x) {l : List α} {xs : List Bytes}
    (h : Pairs R l xs) : ∃ o, loop f l = .ok o ∧ o.bytes = xs.flatten := by
  induction h with
  | nil => exact ⟨_, rfl, rfl⟩
  | cons h1 _ ih =>
    obtain ⟨a, h2, h3⟩ := hR _ _ h1
    obtain ⟨b, h4, h5⟩ := ih
    exact ⟨a ++ b, by simp only [loop, h2, h4]; rfl,
      by simp only [Out.app_bytes, h3, h5, List.flatten_cons]⟩

theorem loop_stretch {α : Type} {f : α → Res Out} {R : α → Bytes → Prop}
    (hR : ∀ e x, R e x → ∃ o, f e = .ok o ∧ o.bytes = x) (l r : List α) {old new : List α}
    {xs ys : List Bytes} (hx : Pairs R old xs) (hy : Pairs R new ys) {o : Out}
    (h : loop f (l ++ old ++ r) = .ok o) :
    ∃ o', loop f (l ++ new ++ r) = .ok o' ∧ Inside o.bytes o'.bytes xs.flatten ys.flatten := by
  obtain ⟨u, v, h1, h2, h3⟩ := loop_split h
  obtain ⟨a, b, h4, h5, h6⟩ := loop_split h1
  obtain ⟨b', h7, h8⟩ := loop_pairs hR hx
  rw [h5] at h7
  cases h7
  obtain ⟨c, h9, h10⟩ := loop_pairs hR hy
  obtain ⟨d, i1, i2⟩ := loop_join h4 h9
  obtain ⟨o', i3, i4⟩ := loop_join i1 h2
  exact ⟨o', i3, a.bytes, v.bytes, by rw [h3, h6, h8], by rw [i4, i2, h10]⟩

theorem Spec.Pairs.length_eq {α β : Type} {R : α → β → Prop} {l : List α} {m : List β}
    (h : Pairs R l m) : m.length = l.length := by
  induction h with
  | nil => rfl
  | cons _ _ ih => simp only [List.length_cons, ih]

/-! ## The loops of the writer -/

/-- What is written for an entry of a map with strings for keys. -/
def namedOut (cv : List (Guid × UInt32)) (e : String × Property) : Res Out := do
  let a ← Property.write cv false e.2
  return writeString e.1 ++ a

/-- What is written for an entry of a map. -/
def keyedOut (cv : List (Guid × UInt32)) (e : Property × Property) : Res Out := do
  let a ← Property.write cv false e.1
  let b ← Property.write cv false e.2
  return a ++ b

/-- What is written for a value of a field. -/
def valueOut (cv : List (Guid × UInt32)) (k : String) (p : Property) : Res Out := do
  let a ← Property.write cv true p
  return writeString k ++ a

theorem writeList_loop (cv : List (Guid × UInt32)) (l : List Property) :
    writeList cv l = loop (Property.write cv false) l := by
  induction l with
  | nil => simp only [writeList, loop]
  | cons e l ih => simp only [writeList, loop, ih]

theorem writeStructs_loop (cv : List (Guid × UInt32)) (l : List StructPropertyValue) :
    writeStructs cv l = loop (StructPropertyValue.writeBody cv) l := by
  induction l with
  | nil => simp only [writeStructs, loop]
  | cons e l ih => simp only [writeStructs, loop, ih]

theorem writeStrProps_loop (cv : List (Guid × UInt32)) (l : List (String × Property)) :
    writeStrProps cv l = loop (namedOut cv) l := by
  induction l with
  | nil => simp only [writeStrProps, loop]
  | cons e l ih =>
    obtain ⟨k, p⟩ := e
    simp only [writeStrProps, loop, namedOut, ih]
    cases Property.write cv false p <;> rfl

theorem writePairs_loop (cv : List (Guid × UInt32)) (l : List (Property × Property)) :
    writePairs cv l = loop (keyedOut cv) l := by
  induction l with
  | nil => simp only [writePairs, loop]
  | cons e l ih =>
    obtain ⟨k, p⟩ := e
    simp only [writePairs, loop, keyedOut, ih]
    cases Property.write cv false k <;> cases Property.write cv false p <;> rfl

theorem writeFieldVals_loop (cv : List (Guid × UInt32)) (k : String) (l : List Property) :
    writeFieldVals cv k l = loop (valueOut cv k) l := by
  induction l with
  | nil => simp only [writeFieldVals, loop]
  | cons p l ih =>
    simp only [writeFieldVals, loop, valueOut, ih]
    cases Property.write cv true p <;> rfl

theorem writeFields_loop (cv : List (Guid × UInt32)) (l : List (String × List Property)) :
    writeFields cv l = loop (fun e => loop (valueOut cv e.1) e.2) l := by
  induction l with
  | nil => simp only [writeFields, loop]
  | cons e l ih => simp only [writeFields, loop, ih, writeFieldVals_loop]

theorem bare_out {cv : List (Guid × UInt32)} (p : Property) (x : Bytes) (h : BareBytes cv p x) :
    ∃ o, Property.write cv false p = .ok o ∧ o.bytes = x := by
  obtain ⟨o, h1, h2⟩ := h
  exact ⟨o, h1, h2.symm⟩

theorem body_out {cv : List (Guid × UInt32)} (p : StructPropertyValue) (x : Bytes)
    (h : BodyBytes cv p x) : ∃ o, StructPropertyValue.writeBody cv p = .ok o ∧ o.bytes = x := by
  obtain ⟨o, h1, h2⟩ := h
  exact ⟨o, h1, h2.symm⟩

theorem named_out {cv : List (Guid × UInt32)} (e : String × Property) (x : Bytes)
    (h : NamedEntry cv e x) : ∃ o, namedOut cv e = .ok o ∧ o.bytes = x := by
  obtain ⟨v, ⟨o, h1, rfl⟩, rfl⟩ := h
  exact ⟨writeString e.1 ++ o, by simp only [namedOut, h1]; rfl, rfl⟩

theorem keyed_out {cv : List (Guid × UInt32)} (e : Property × Property) (x : Bytes)
    (h : KeyedEntry cv e x) : ∃ o, keyedOut cv e = .ok o ∧ o.bytes = x := by
  obtain ⟨k, v, ⟨o, h1, rfl⟩, ⟨o', h2, rfl⟩, rfl⟩ := h
  exact ⟨o ++ o', by simp only [keyedOut, h1, h2]; rfl, rfl⟩

theorem value_out {cv : List (Guid × UInt32)} (k : String) (p : Property) (x : Bytes)
    (h : FieldValue cv k p x) : ∃ o, valueOut cv k p = .ok o ∧ o.bytes = x := by
  obtain ⟨o, h1, rfl⟩ := h
  exact ⟨writeString k ++ o, by simp only [valueOut, h1]; rfl, rfl⟩

theorem values_out {cv : List (Guid × UInt32)} (e : String × List Property) (x : Bytes)
    (h : FieldValues cv e x) : ∃ o, loop (valueOut cv e.1) e.2 = .ok o ∧ o.bytes = x := by
  obtain ⟨vs, h1, rfl⟩ := h
  exact loop_pairs (value_out e.1) h1

/-! ## With a count in front -/

/-- What is written with the elements `xs` and `k` others, and what is written with `ys` instead. -/
def Recounted (a b : Bytes) (k : Nat) (xs ys : List Bytes) : Prop :=
  ∃ pre pre' mid mid' post,
    a = pre ++ u32B (UInt32.ofNat (k + xs.length)) ++ mid ++ xs.flatten ++ post ∧
    b = pre' ++ u32B (UInt32.ofNat (k + ys.length)) ++ mid' ++ ys.flatten ++ post ∧
    Grown xs.flatten.length ys.flatten.length pre pre' ∧
    Grown xs.flatten.length ys.flatten.length mid mid'

theorem Recounted.around {a b : Bytes} {k : Nat} {xs ys : List Bytes} (h : Recounted a b k xs ys)
    (front : Nat → Bytes) (back : Bytes) (hl : ∀ m n, Grown m n (front m) (front n)) :
    Recounted (front a.length ++ a ++ back) (front b.length ++ b ++ back) k xs ys := by
  obtain ⟨pre, pre', mid, mid', post, h1, h2, h3, h4⟩ := h
  have ea : pre.length + 4 + mid.length + post.length + xs.flatten.length = a.length := by
    rw [h1]
    simp only [List.length_append, u32B_length]
    omega
  have eb : pre.length + 4 + mid.length + post.length + ys.flatten.length = b.length := by
    rw [h2]
    simp only [List.length_append, u32B_length, h3.length_eq, h4.length_eq]
    omega
  refine ⟨front a.length ++ pre, front b.length ++ pre', mid, mid', post ++ back, ?_, ?_, ?_, h4⟩
  · generalize front a.length = c
    rw [h1]
    simp only [List.append_assoc]
  · generalize front b.length = c
    rw [h2]
    simp only [List.append_assoc]
  · refine Grown.append (Grown.more (pre.length + 4 + mid.length + post.length) ?_) h3
    rw [ea, eb]
    exact hl _ _

theorem Recounted.headed {o o' : Out} {k : Nat} {xs ys : List Bytes}
    (hs : Recounted o.bytes o'.bytes k xs ys) (h : Bool) (ty : String) (parts : Out) :
    Recounted (headed h ty parts o).bytes (headed h ty parts o').bytes k xs ys := by
  cases h with
  | false => exact hs
  | true =>
    have := hs.around (fun n => (writeString ty).bytes ++ u32B (UInt32.ofNat n) ++ u32B 0 ++
      parts.bytes ++ [0]) [] (by
        intro m n
        refine Grown.append (Grown.append (Grown.append (Grown.append (Grown.refl _ _ _) ?_)
          (Grown.refl _ _ _)) (Grown.refl _ _ _)) (Grown.refl _ _ _)
        simpa only [Nat.zero_add, Nat.add_zero] using Grown.count m n 0 0)
    simpa [Gvas.headed, withHeader, List.append_assoc] using this

theorem Inside.recounted {a b : Bytes} {xs ys : List Bytes} {α : Type} {l r old new : List α}
    (h : Inside a b xs.flatten ys.flatten) (hx : xs.length = old.length)
    (hy : ys.length = new.length) (front : Bytes) :
    Recounted (front ++ u32B (UInt32.ofNat (l ++ old ++ r).length) ++ a)
      (front ++ u32B (UInt32.ofNat (l ++ new ++ r).length) ++ b) (l.length + r.length) xs ys := by
  obtain ⟨pre, post, rfl, rfl⟩ := h
  refine ⟨front, front, pre, pre, post, ?_, ?_, Grown.refl _ _ _, Grown.refl _ _ _⟩
  · rw [show (l ++ old ++ r).length = l.length + r.length + xs.length by
      simp only [List.length_append]; omega]
    simp only [List.append_assoc]
  · rw [show (l ++ new ++ r).length = l.length + r.length + ys.length by
      simp only [List.length_append]; omega]
    simp only [List.append_assoc]

theorem concat_stretch {α : Type} (f : α → Out) (g : α → Bytes) (hf : ∀ e, (f e).bytes = g e)
    (l old new r : List α) :
    Inside (concatOut f (l ++ old ++ r)).bytes (concatOut f (l ++ new ++ r)).bytes
      (old.map g).flatten (new.map g).flatten := by
  have h : ∀ l, (concatOut f l).bytes = (l.map g).flatten := by
    intro l
    induction l with
    | nil => rfl
    | cons e l ih => simp only [concatOut, Out.app_bytes, ih, hf, List.map_cons, List.flatten_cons]
  refine ⟨(l.map g).flatten, (r.map g).flatten, ?_, ?_⟩ <;>
    simp only [h, List.map_append, List.flatten_append]

/-! ## Texts -/

theorem i32B_ofNat (n : Nat) : i32B (Int32.ofNat n) = u32B (UInt32.ofNat n) := by
  simp only [i32B]
  rfl

/-- What is written for a named argument. -/
def namedArgOut (cv : List (Guid × UInt32)) (e : String × FormatArgumentValue) : Res Out := do
  let a ← FormatArgumentValue.write cv e.2
  return writeString e.1 ++ a

theorem writeArgs_loop (cv : List (Guid × UInt32)) (l : List FormatArgumentValue) :
    writeArgs cv l = loop (FormatArgumentValue.write cv) l := by
  induction l with
  | nil => simp only [writeArgs, loop]
  | cons e l ih => simp only [writeArgs, loop, ih]

theorem writeNamedArgs_loop (cv : List (Guid × UInt32)) (l : List (String × FormatArgumentValue)) :
    writeNamedArgs cv l = loop (namedArgOut cv) l := by
  induction l with
  | nil => simp only [writeNamedArgs, loop]
  | cons e l ih =>
    obtain ⟨k, v⟩ := e
    simp only [writeNamedArgs, loop, namedArgOut, ih]
    cases FormatArgumentValue.write cv v <;> rfl

theorem argument_out {cv : List (Guid × UInt32)} (v : FormatArgumentValue) (x : Bytes)
    (h : ArgumentBytes cv v x) : ∃ o, FormatArgumentValue.write cv v = .ok o ∧ o.bytes = x := by
  obtain ⟨o, h1, h2⟩ := h
  exact ⟨o, h1, h2.symm⟩

theorem namedArg_out {cv : List (Guid × UInt32)} (e : String × FormatArgumentValue) (x : Bytes)
    (h : NamedArgument cv e x) : ∃ o, namedArgOut cv e = .ok o ∧ o.bytes = x := by
  obtain ⟨v, ⟨o, h1, rfl⟩, rfl⟩ := h
  exact ⟨writeString e.1 ++ o, by simp only [namedArgOut, h1]; rfl, rfl⟩

/-- The count of the elements and what is up to their end. -/
def counted (k : Nat) (mid : Bytes) (xs : List Bytes) : Bytes :=
  u32B (UInt32.ofNat (k + xs.length)) ++ mid ++ xs.flatten

/-- Wherever the first can be written so can the second, with the elements replaced. -/
def Recounts (f g : Res Out) (k : Nat) (xs ys : List Bytes) : Prop :=
  ∃ mid, ∀ o, f = .ok o → ∃ o', g = .ok o' ∧
    Inside o.bytes o'.bytes (counted k mid xs) (counted k mid ys)

theorem counted_args {α : Type} {f : α → Res Out} {R : α → Bytes → Prop}
    (hR : ∀ e x, R e x → ∃ o, f e = .ok o ∧ o.bytes = x) (l r : List α) {old new : List α}
    {xs ys : List Bytes} (hx : Pairs R old xs) (hy : Pairs R new ys) (tag : Out) (src : Res Out) :
    Recounts
      (do let a ← src; let b ← loop f (l ++ old ++ r)
          return tag ++ a ++ ⟨i32B (Int32.ofNat (l ++ old ++ r).length), 4⟩ ++ b)
      (do let a ← src; let b ← loop f (l ++ new ++ r)
          return tag ++ a ++ ⟨i32B (Int32.ofNat (l ++ new ++ r).length), 4⟩ ++ b)
      (l.length + r.length) xs ys := by
  by_cases hb : ∃ b, loop f (l ++ old ++ r) = .ok b
  · obtain ⟨b, hb⟩ := hb
    obtain ⟨b', h1, pre, post, h2, h3⟩ := loop_stretch hR l r hx hy hb
    refine ⟨pre, fun o ho => ?_⟩
    obtain ⟨a, h4, ho⟩ := Res.bind_inv ho
    obtain ⟨c, h5, ho⟩ := Res.bind_inv ho
    rw [hb] at h5
    cases h5
    cases ho
    refine ⟨_, by simp only [h4, h1]; rfl, tag.bytes ++ a.bytes, post, ?_, ?_⟩
    · simp only [Out.app_bytes, h2, i32B_ofNat, counted, List.append_assoc]
      rw [show (l ++ (old ++ r)).length = l.length + r.length + xs.length by
        simp only [List.length_append, hx.length_eq]; omega]
    · simp only [Out.app_bytes, h3, i32B_ofNat, counted, List.append_assoc]
      rw [show (l ++ (new ++ r)).length = l.length + r.length + ys.length by
        simp only [List.length_append, hy.length_eq]; omega]
  · refine ⟨[], fun o ho => ?_⟩
    obtain ⟨a, h4, ho⟩ := Res.bind_inv ho
    obtain ⟨c, h5, ho⟩ := Res.bind_inv ho
    exact absurd ⟨c, h5⟩ hb

private theorem len' {α : Type} (l r : List α) (a b : α) :
    (l ++ b :: r).length = (l ++ a :: r).length := by
  simp

theorem textStretch_write {cv : List (Guid × UInt32)} {t u : FText} {k : Nat} {xs ys : List Bytes}
    (h : TextStretch cv t u k xs ys) : Recounts (FText.write cv t) (FText.write cv u) k xs ys := by
  induction h using TextStretch.rec
    (motive_2 := fun t u k xs ys _ =>
      Recounts (FTextHistory.write cv t) (FTextHistory.write cv u) k xs ys)
    (motive_3 := fun t u k xs ys _ =>
      Recounts (FormatArgumentValue.write cv t) (FormatArgumentValue.write cv u) k xs ys)
  case history fl _ _ _ _ _ _ hp =>
    obtain ⟨mid, hp⟩ := hp
    refine ⟨mid, fun o ho => ?_⟩
    simp only [FText.write] at ho ⊢
    obtain ⟨c, h1, ho⟩ := Res.bind_inv ho
    cases ho
    obtain ⟨c', h2, h3⟩ := hp c h1
    exact ⟨_, by simp only [h2]; rfl, by inside⟩
  case named t l r _ _ _ _ hx hy =>
    simp only [FTextHistory.write, writeNamedArgs_loop]
    exact counted_args namedArg_out l r hx hy _ _
  case ordered t l r _ _ _ _ hx hy =>
    simp only [FTextHistory.write, writeArgs_loop]
    exact counted_args argument_out l r hx hy _ _
  case argument t l r _ _ _ _ hx hy =>
    simp only [FTextHistory.write, writeNamedArgs_loop]
    exact counted_args namedArg_out l r hx hy _ _
  case namedSource hp =>
    obtain ⟨mid, hp⟩ := hp
    refine ⟨mid, fun o ho => ?_⟩
    simp only [FTextHistory.write] at ho ⊢
    obtain ⟨c, h1, ho⟩ := Res.bind_inv ho
    obtain ⟨d, h4, ho⟩ := Res.bind_inv ho
    cases ho
    obtain ⟨c', h2, h3⟩ := hp c h1
    exact ⟨_, by simp only [h2, h4]; rfl, by inside⟩
  case orderedSource hp =>
    obtain ⟨mid, hp⟩ := hp
    refine ⟨mid, fun o ho => ?_⟩
    simp only [FTextHistory.write] at ho ⊢
    obtain ⟨c, h1, ho⟩ := Res.bind_inv ho
    obtain ⟨d, h4, ho⟩ := Res.bind_inv ho
    cases ho
    obtain ⟨c', h2, h3⟩ := hp c h1
    exact ⟨_, by simp only [h2, h4]; rfl, by inside⟩
  case argumentSource hp =>
    obtain ⟨mid, hp⟩ := hp
    refine ⟨mid, fun o ho => ?_⟩
    simp only [FTextHistory.write] at ho ⊢
    obtain ⟨c, h1, ho⟩ := Res.bind_inv ho
    obtain ⟨d, h4, ho⟩ := Res.bind_inv ho
    cases ho
    obtain ⟨c', h2, h3⟩ := hp c h1
    exact ⟨_, by simp only [h2, h4]; rfl, by inside⟩
  case namedArgument hp =>
    obtain ⟨mid, hp⟩ := hp
    refine ⟨mid, fun o ho => ?_⟩
    simp only [FTextHistory.write] at ho ⊢
    obtain ⟨c, h1, ho⟩ := Res.bind_inv ho
    obtain ⟨d, h4, ho⟩ := Res.bind_inv ho
    cases ho
    obtain ⟨c', h2, h3⟩ := named_write hp _ _ h4
    exact ⟨_, by simp only [h1, h2]; rfl, by rw [len']; inside⟩
  case orderedArgument hp =>
    obtain ⟨mid, hp⟩ := hp
    refine ⟨mid, fun o ho => ?_⟩
    simp only [FTextHistory.write] at ho ⊢
    obtain ⟨c, h1, ho⟩ := Res.bind_inv ho
    obtain ⟨d, h4, ho⟩ := Res.bind_inv ho
    cases ho
    obtain ⟨c', h2, h3⟩ := args_write hp _ _ h4
    exact ⟨_, by simp only [h1, h2]; rfl, by rw [len']; inside⟩
  case argumentArgument hp =>
    obtain ⟨mid, hp⟩ := hp
    refine ⟨mid, fun o ho => ?_⟩
    simp only [FTextHistory.write] at ho ⊢
    obtain ⟨c, h1, ho⟩ := Res.bind_inv ho
    obtain ⟨d, h4, ho⟩ := Res.bind_inv ho
    cases ho
    obtain ⟨c', h2, h3⟩ := named_write hp _ _ h4
    exact ⟨_, by simp only [h1, h2]; rfl, by rw [len']; inside⟩
  case numberValue hp =>
    obtain ⟨mid, hp⟩ := hp
    refine ⟨mid, fun o ho => ?_⟩
    simp only [FTextHistory.write] at ho ⊢
    obtain ⟨c, h1, ho⟩ := Res.bind_inv ho
    cases ho
    obtain ⟨c', h2, h3⟩ := hp c h1
    exact ⟨_, by simp only [h2]; rfl, by inside⟩
  case percentValue hp =>
    obtain ⟨mid, hp⟩ := hp
    refine ⟨mid, fun o ho => ?_⟩
    simp only [FTextHistory.write] at ho ⊢
    obtain ⟨c, h1, ho⟩ := Res.bind_inv ho
    cases ho
    obtain ⟨c', h2, h3⟩ := hp c h1
    exact ⟨_, by simp only [h2]; rfl, by inside⟩
  case currencyValue hp =>
    obtain ⟨mid, hp⟩ := hp
    refine ⟨mid, fun o ho => ?_⟩
    simp only [FTextHistory.write] at ho ⊢
    obtain ⟨c, h1, ho⟩ := Res.bind_inv ho
    cases ho
    obtain ⟨c', h2, h3⟩ := hp c h1
    exact ⟨_, by simp only [h2]; rfl, by inside⟩
  case transformSource hp =>
    obtain ⟨mid, hp⟩ := hp
    refine ⟨mid, fun o ho => ?_⟩
    simp only [FTextHistory.write] at ho ⊢
    obtain ⟨c, h1, ho⟩ := Res.bind_inv ho
    cases ho
    obtain ⟨c', h2, h3⟩ := hp c h1
    exact ⟨_, by simp only [h2]; rfl, by inside⟩
  case text hp =>
    obtain ⟨mid, hp⟩ := hp
    refine ⟨mid, fun o ho => ?_⟩
    simp only [FormatArgumentValue.write] at ho ⊢
    obtain ⟨c, h1, ho⟩ := Res.bind_inv ho
    cases ho
    obtain ⟨c', h2, h3⟩ := hp c h1
    exact ⟨_, by simp only [h2]; rfl, by inside⟩

theorem Inside.recount {a b mid : Bytes} {k : Nat} {xs ys : List Bytes}
    (h : Inside a b (counted k mid xs) (counted k mid ys)) : Recounted a b k xs ys := by
  obtain ⟨pre, post, rfl, rfl⟩ := h
  exact ⟨pre, pre, mid, mid, post, by simp only [counted, List.append_assoc],
    by simp only [counted, List.append_assoc], Grown.refl _ _ _, Grown.refl _ _ _⟩

theorem stretch_write {cv : List (Guid × UInt32)} {h : Bool} {s t : Property} {k : Nat}
    {xs ys : List Bytes} (hs : Stretch cv s t k xs ys) {o : Out}
    (ho : Property.write cv h s = .ok o) :
    ∃ o', Property.write cv h t = .ok o' ∧ Recounted o.bytes o'.bytes k xs ys := by
  cases hs
  case array hx hy =>
    simp only [Property.write, ArrayProperty.writeBody, writeList_loop] at ho ⊢
    obtain ⟨b, h1, ho⟩ := Res.bind_inv ho
    cases ho
    obtain ⟨es, h2, h1⟩ := Res.bind_inv h1
    cases h1
    obtain ⟨es', h3, h4⟩ := loop_stretch bare_out _ _ hx hy h2
    refine ⟨_, by simp only [h3]; rfl, Recounted.headed ?_ _ _ _⟩
    exact h4.recounted hx.length_eq hy.length_eq []
  case set fl _ _ _ _ hx hy =>
    simp only [Property.write, writeList_loop] at ho ⊢
    obtain ⟨es, h2, ho⟩ := Res.bind_inv ho
    cases ho
    obtain ⟨es', h3, h4⟩ := loop_stretch bare_out _ _ hx hy h2
    refine ⟨_, by simp only [h3]; rfl, Recounted.headed ?_ _ _ _⟩
    exact h4.recounted hx.length_eq hy.length_eq (u32B fl)
  case structs f ty g l r old new hx hy =>
    simp only [Property.write, ArrayProperty.writeBody, writeStructs_loop] at ho ⊢
    obtain ⟨b, h1, ho⟩ := Res.bind_inv ho
    cases ho
    obtain ⟨es, h2, h1⟩ := Res.bind_inv h1
    cases h1
    obtain ⟨es', h3, h4⟩ := loop_stretch body_out _ _ hx hy h2
    refine ⟨_, by simp only [h3]; rfl, Recounted.headed ?_ _ _ _⟩
    obtain ⟨pre, pre', post, h5, h6, h7⟩ := h4.swapped.around (fun n => (writeString f).bytes ++
      (writeString "StructProperty").bytes ++ [] ++ u64B (UInt64.ofNat n) ++ (writeString ty).bytes ++
      guidB g ++ u8B 0) [] (fun m n => structHead_grown m n _ _ _ _ _)
    refine ⟨[], [], pre, pre', post, ?_, ?_, .nil, h7⟩
    · rw [show l.length + r.length + xs.length = (l ++ old ++ r).length by
        simp only [List.length_append, hx.length_eq]; omega]
      simp only [List.append_nil, List.append_assoc] at h5
      simp only [structArrayBody, List.append_assoc, List.nil_append, h5]
    · rw [show l.length + r.length + ys.length = (l ++ new ++ r).length by
        simp only [List.length_append, hy.length_eq]; omega]
      simp only [List.append_nil, List.append_assoc] at h6
      simp only [structArrayBody, List.append_assoc, List.nil_append, h6]
  case enumMap hx hy | nameMap hx hy | strMap hx hy =>
    simp only [Property.write, MapProperty.writeBody, writeStrProps_loop] at ho ⊢
    obtain ⟨b, h1, ho⟩ := Res.bind_inv ho
    cases ho
    obtain ⟨es, h2, h1⟩ := Res.bind_inv h1
    cases h1
    obtain ⟨es', h3, h4⟩ := loop_stretch named_out _ _ hx hy h2
    refine ⟨_, by simp only [h3]; rfl, Recounted.headed ?_ _ _ _⟩
    exact h4.recounted hx.length_eq hy.length_eq (u32B 0)
  case map fl _ _ _ _ hx hy =>
    simp only [Property.write, MapProperty.writeBody, writePairs_loop] at ho ⊢
    obtain ⟨b, h1, ho⟩ := Res.bind_inv ho
    cases ho
    obtain ⟨es, h2, h1⟩ := Res.bind_inv h1
    cases h1
    obtain ⟨es', h3, h4⟩ := loop_stretch keyed_out _ _ hx hy h2
    refine ⟨_, by simp only [h3]; rfl, Recounted.headed ?_ _ _ _⟩
    exact h4.recounted hx.length_eq hy.length_eq (u32B fl)
  case fieldPath l old new r owner =>
    simp only [Property.write] at ho ⊢
    cases ho
    refine ⟨_, rfl, Recounted.headed ?_ _ _ _⟩
    have := (concat_stretch writeString _ (fun _ => rfl) l old new r).recounted (l := l) (r := r)
      (old := old) (new := new) (by simp) (by simp) []
    simpa [FieldPath.write, Out.app_bytes, u32O] using this.around (fun _ => [])
      (writeString owner).bytes fun _ _ => .nil
  case bareTags l old new r =>
    cases h with
    | true => cases ho
    | false =>
      simp only [Property.write, StructPropertyValue.writeBody, Bool.false_eq_true, if_false] at ho ⊢
      cases ho
      refine ⟨_, rfl, ?_⟩
      exact (concat_stretch writeString _ (fun _ => rfl) l old new r).recounted (by simp) (by simp) []
  case tags g ty l old new r =>
    simp only [Property.write, StructPropertyValue.writeBody] at ho ⊢
    cases ho
    refine ⟨_, rfl, Recounted.headed ?_ _ _ _⟩
    exact (concat_stretch writeString _ (fun _ => rfl) l old new r).recounted (by simp) (by simp) []
  case structTags f ty g before after l old new r =>
    simp only [Property.write, ArrayProperty.writeBody, writeStructs_loop] at ho ⊢
    obtain ⟨b, h1, ho⟩ := Res.bind_inv ho
    cases ho
    obtain ⟨es, h2, h1⟩ := Res.bind_inv h1
    cases h1
    obtain ⟨u, e, h2, h3, h4⟩ := loop_split h2
    simp only [loop, StructPropertyValue.writeBody] at h3
    obtain ⟨a, h5, h3⟩ := Res.bind_inv h3
    obtain ⟨b, h6, h3⟩ := Res.bind_inv h3
    cases h3
    cases h5
    obtain ⟨es', i1, i2⟩ := loop_join h2
      (show loop (StructPropertyValue.writeBody cv) (.gameplayTagContainer (l ++ new ++ r) :: after) = _ by
        simp only [loop, StructPropertyValue.writeBody, h6]; rfl)
    refine ⟨_, by simp only [i1]; rfl, Recounted.headed ?_ _ _ _⟩
    have h7 := ((concat_stretch writeString _ (fun _ => rfl) l old new r).recounted (l := l) (r := r)
      (old := old) (new := new) (by simp) (by simp) []).around (fun _ => u.bytes) b.bytes
      (fun _ _ => Grown.refl _ _ _)
    have h8 : Recounted es.bytes es'.bytes (l.length + r.length)
        (old.map fun s => (writeString s).bytes) (new.map fun s => (writeString s).bytes) := by
      rw [h4, i2]
      simpa only [Out.app_bytes, i32B_ofNat, List.append_assoc, List.nil_append] using h7
    have := h8.around (fun n => u32B (UInt32.ofNat (before ++
      .gameplayTagContainer (l ++ old ++ r) :: after).length) ++ (writeString f).bytes ++
      (writeString "StructProperty").bytes ++ u64B (UInt64.ofNat n) ++ (writeString ty).bytes ++
      guidB g ++ u8B 0) [] (fun m n => structHead_grown m n _ _ _ _ _)
    simpa [structArrayBody, List.append_assoc] using this
  case text ht =>
    simp only [Property.write] at ho ⊢
    obtain ⟨b, h1, ho⟩ := Res.bind_inv ho
    cases ho
    obtain ⟨mid, ht⟩ := textStretch_write ht
    obtain ⟨b', h2, h3⟩ := ht b h1
    exact ⟨_, by simp only [h2]; rfl, Recounted.headed h3.recount _ _ _⟩
  case enumBool | nameBool | strBool | enumInt | nameInt | strInt | strStr =>
    simp only [Property.write, MapProperty.writeBody, MapProperty.keyType, MapProperty.valueType]
      at ho ⊢
    cases ho
    refine ⟨_, rfl, Recounted.headed ?_ _ _ _⟩
    exact (concat_stretch _ _ (fun _ => rfl) _ _ _ _).recounted (by simp) (by simp) (u32B 0)
  all_goals
    simp only [Property.write, ArrayProperty.writeBody, ArrayProperty.propertyType, writeMulticast]
      at ho ⊢
    cases ho
    refine ⟨_, rfl, Recounted.headed ?_ _ _ _⟩
    exact (concat_stretch _ _ (fun _ => rfl) _ _ _ _).recounted (by simp) (by simp) []

theorem fieldStretch_write {cv : List (Guid × UInt32)} {v w : StructPropertyValue}
    {xs ys : List Bytes} (hs : FieldStretch cv v w xs ys) {o : Out}
    (ho : StructPropertyValue.writeBody cv v = .ok o) :
    ∃ o', StructPropertyValue.writeBody cv w = .ok o' ∧
      Inside o.bytes o'.bytes xs.flatten ys.flatten := by
  cases hs with
  | fields l r hx hy =>
    simp only [StructPropertyValue.writeBody, writeFields_loop] at ho ⊢
    obtain ⟨es, h1, ho⟩ := Res.bind_inv ho
    cases ho
    obtain ⟨es', h2, h3⟩ := loop_stretch values_out _ _ hx hy h1
    exact ⟨es' ++ writeString "None", by simp only [h2]; rfl, h3.left _⟩
  | @values fs gs name l r old new _ _ hx hy =>
    simp only [StructPropertyValue.writeBody, writeFields_loop] at ho ⊢
    obtain ⟨es, h1, ho⟩ := Res.bind_inv ho
    cases ho
    obtain ⟨u, e, h2, h3, h4⟩ := loop_split h1
    simp only [loop] at h3
    obtain ⟨a, h5, h3⟩ := Res.bind_inv h3
    obtain ⟨b, h6, h3⟩ := Res.bind_inv h3
    cases h3
    obtain ⟨a', h7, h8⟩ := loop_stretch (value_out name) _ _ hx hy h5
    obtain ⟨es', i1, i2⟩ := loop_join (v := a' ++ b) h2
      (show loop (fun e => loop (valueOut cv e.1) e.2) ((name, l ++ new ++ r) :: gs) = _ by
        simp only [loop, h7, h6]; rfl)
    refine ⟨es' ++ writeString "None", by simp only [i1]; rfl, ?_⟩
    simp only [Out.app_bytes, h4, i2]
    exact ((h8.left _).right _).left _

theorem structStretch_write {cv : List (Guid × UInt32)} {h : Bool} {s t : Property}
    {xs ys : List Bytes} (hs : StructStretch cv s t xs ys) {o : Out}
    (ho : Property.write cv h s = .ok o) :
    ∃ o', Property.write cv h t = .ok o' ∧
      Swapped o.bytes o'.bytes xs.flatten ys.flatten := by
  cases hs with
  | struct g ty hv =>
    simp only [Property.write] at ho ⊢
    obtain ⟨b, h1, ho⟩ := Res.bind_inv ho
    cases ho
    obtain ⟨b', h2, h3⟩ := fieldStretch_write hv h1
    exact ⟨_, by simp only [h2]; rfl, h3.swapped.headed _ _ _⟩
  | structValue hv =>
    simp only [Property.write] at ho ⊢
    cases h with
    | true => cases ho
    | false =>
      obtain ⟨o', h1, h2⟩ := fieldStretch_write hv ho
      exact ⟨o', h1, h2.swapped⟩
  | structs f ty g l r hv =>
    rename_i v w
    simp only [Property.write, ArrayProperty.writeBody, writeStructs_loop] at ho ⊢
    obtain ⟨b, h1, ho⟩ := Res.bind_inv ho
    cases ho
    obtain ⟨es, h2, h1⟩ := Res.bind_inv h1
    cases h1
    obtain ⟨u, e, h2, h3, h4⟩ := loop_split h2
    simp only [loop] at h3
    obtain ⟨a, h5, h3⟩ := Res.bind_inv h3
    obtain ⟨b, h6, h3⟩ := Res.bind_inv h3
    cases h3
    obtain ⟨a', h7, h8⟩ := fieldStretch_write hv h5
    obtain ⟨es', i1, i2⟩ := loop_join (v := a' ++ b) h2
      (show loop (StructPropertyValue.writeBody cv) (w :: r) = _ by
        simp only [loop, h7, h6]; rfl)
    refine ⟨_, by simp only [i1]; rfl, Swapped.headed ?_ _ _ _⟩
    have hsw : Swapped es.bytes es'.bytes xs.flatten ys.flatten := by
      rw [h4, i2]
      exact ((h8.left _).right _).swapped
    have := hsw.around (fun n => u32B (UInt32.ofNat (l ++ v :: r).length) ++ (writeString f).bytes ++
      (writeString "StructProperty").bytes ++ u64B (UInt64.ofNat n) ++ (writeString ty).bytes ++
      guidB g ++ u8B 0) [] (fun m n => structHead_grown m n _ _ _ _ _)
    simpa [structArrayBody, List.append_assoc] using this

/-! ## Lists that fit -/

theorem uniform_subset {ps qs : List Property} (h : ∀ q ∈ qs, q ∈ ps) (hu : Uniform ps) :
    Uniform qs := fun p hp q hq => hu p (h p hp) q (h q hq)

theorem fieldsOK_sublist {env : Env} {st : List String} {fs gs : List (String × List Property)}
    (h : gs.Sublist fs) (hf : FieldsOK env st fs) : FieldsOK env st gs := by
  induction h with
  | slnil => exact hf
  | cons e _ ih =>
    obtain ⟨k, ps⟩ := e
    simp only [FieldsOK] at hf
    exact ih hf.2.2.2.2
  | cons_cons e _ ih =>
    obtain ⟨k, ps⟩ := e
    simp only [FieldsOK] at hf ⊢
    exact ⟨hf.1, hf.2.1, hf.2.2.1, hf.2.2.2.1, ih hf.2.2.2.2⟩

theorem structOK_sublist {env : Env} {st : List String} {ty : String}
    {fs gs : List (String × List Property)} (h : gs.Sublist fs)
    (hf : StructOK env st ty (.customStruct fs)) : StructOK env st ty (.customStruct gs) := by
  simp only [StructOK] at hf ⊢
  exact ⟨hf.1, hf.2.1.sublist (h.map _), fieldsOK_sublist h hf.2.2⟩

theorem valuesOK_copied {env : Env} {st : List String} {ty : String}
    {vs ws : List (String × Property)} (h : ∀ w ∈ ws, ∃ k, (k, w.2) ∈ vs)
    (hv : ValuesOK env st ty vs) : ValuesOK env st ty ws := by
  rw [valuesOK_iff] at hv ⊢
  intro e he
  obtain ⟨k, hk⟩ := h e he
  exact hv (k, e.2) hk

theorem structsOK_swap {env : Env} {st : List String} {ty : String} {v w : StructPropertyValue}
    (h : StructOK env st ty v → StructOK env st ty w) (l r : List StructPropertyValue)
    (hv : StructsOK env st ty (l ++ v :: r)) : StructsOK env st ty (l ++ w :: r) := by
  induction l with
  | nil => exact ⟨h hv.1, hv.2⟩
  | cons u l ih => exact ⟨hv.1, ih hv.2⟩

theorem namedOK_iff {cv : List (Guid × UInt32)} {l : List (String × FormatArgumentValue)} :
    (NamedWidthsOK cv l ↔ ∀ e ∈ l, ArgWidthsOK cv e.2) ∧
    (NamedShapeOK cv l ↔ ∀ e ∈ l, StrOK e.1 ∧ ArgShapeOK cv e.2) := by
  induction l with
  | nil => simp [NamedWidthsOK, NamedShapeOK]
  | cons e l ih =>
    obtain ⟨k, v⟩ := e
    simp [NamedWidthsOK, NamedShapeOK, ih.1, ih.2, and_assoc]

theorem argumentsOK_iff {cv : List (Guid × UInt32)} {l : List FormatArgumentValue} :
    (ArgsWidthsOK cv l ↔ ∀ e ∈ l, ArgWidthsOK cv e) ∧ (ArgsShapeOK cv l ↔ ∀ e ∈ l, ArgShapeOK cv e) := by
  induction l with
  | nil => simp [ArgsWidthsOK, ArgsShapeOK]
  | cons e l ih => simp [ArgsWidthsOK, ArgsShapeOK, ih.1, ih.2]

mutual
theorem relistedText_ok (cv : List (Guid × UInt32)) {t u : FText} (h : RelistedText t u) :
    (WidthsOK cv t → WidthsOK cv u) ∧ (TextShapeOK cv t → TextShapeOK cv u) := by
  match h with
  | .history _ h => exact relistedHistory_ok cv h
theorem relistedHistory_ok (cv : List (Guid × UInt32)) {t u : FTextHistory}
    (h : RelistedHistory t u) :
    (HistoryWidthsOK cv t → HistoryWidthsOK cv u) ∧ (HistoryShapeOK cv t → HistoryShapeOK cv u) := by
  match h with
  | .named t hn hs =>
    simp only [HistoryWidthsOK, HistoryShapeOK, namedOK_iff]
    refine ⟨fun ⟨h1, h2⟩ => ⟨h1, fun e he => ?_⟩,
      fun ⟨h1, h2, _, _⟩ => ⟨h1, fun e he => ⟨hn.2.2 e he, ?_⟩, hn.2.1, hn.1⟩⟩
    · obtain ⟨k, hk⟩ := hs e he
      exact h2 (k, e.2) hk
    · obtain ⟨k, hk⟩ := hs e he
      exact (h2 _ hk).2
  | .argument t hn hs =>
    simp only [HistoryWidthsOK, HistoryShapeOK, namedOK_iff]
    refine ⟨fun ⟨h1, h2⟩ => ⟨h1, fun e he => ?_⟩,
      fun ⟨h1, h2, _, _⟩ => ⟨h1, fun e he => ⟨hn.2.2 e he, ?_⟩, hn.2.1, hn.1⟩⟩
    · obtain ⟨k, hk⟩ := hs e he
      exact h2 (k, e.2) hk
    · obtain ⟨k, hk⟩ := hs e he
      exact (h2 _ hk).2
  | .ordered t hl hs =>
    simp only [HistoryWidthsOK, HistoryShapeOK, argumentsOK_iff]
    exact ⟨fun ⟨h1, h2⟩ => ⟨h1, fun e he => h2 e (hs e he)⟩,
      fun ⟨h1, h2, _⟩ => ⟨h1, fun e he => h2 e (hs e he), hl⟩⟩
  | .namedSource args h | .orderedSource args h | .argumentSource args h =>
    have ih := relistedText_ok cv h
    simp only [HistoryWidthsOK, HistoryShapeOK]
    exact ⟨fun h => ⟨ih.1 h.1, h.2⟩, fun h => ⟨ih.2 h.1, h.2⟩⟩
  | .namedArgument t l r name h | .argumentArgument t l r name h =>
    have ih := relistedText_ok cv h
    simp only [HistoryWidthsOK, HistoryShapeOK, namedOK_iff, List.forall_mem_append,
      List.forall_mem_cons, ArgWidthsOK, ArgShapeOK, List.map_append, List.map_cons,
      List.length_append, List.length_cons]
    exact ⟨fun ⟨h1, h2, h3, h4⟩ => ⟨h1, h2, ih.1 h3, h4⟩,
      fun ⟨h1, ⟨h2, ⟨h3, h4⟩, h5⟩, h6⟩ => ⟨h1, ⟨h2, ⟨h3, ih.2 h4⟩, h5⟩, h6⟩⟩
  | .orderedArgument t l r h =>
    have ih := relistedText_ok cv h
    simp only [HistoryWidthsOK, HistoryShapeOK, argumentsOK_iff, List.forall_mem_append,
      List.forall_mem_cons, ArgWidthsOK, ArgShapeOK, List.length_append, List.length_cons]
    exact ⟨fun ⟨h1, h2, h3, h4⟩ => ⟨h1, h2, ih.1 h3, h4⟩,
      fun ⟨h1, ⟨h2, h4, h5⟩, h6⟩ => ⟨h1, ⟨h2, ih.2 h4, h5⟩, h6⟩⟩
  | .numberValue o c h | .percentValue o c h =>
    have ih := relistedText_ok cv h
    simp only [HistoryWidthsOK, HistoryShapeOK, ArgWidthsOK, ArgShapeOK]
    exact ⟨ih.1, fun h => ⟨ih.2 h.1, h.2⟩⟩
  | .currencyValue d o c h =>
    have ih := relistedText_ok cv h
    simp only [HistoryWidthsOK, HistoryShapeOK, ArgWidthsOK, ArgShapeOK]
    exact ⟨ih.1, fun h => ⟨h.1, ih.2 h.2.1, h.2.2⟩⟩
  | .transformSource tt h =>
    simpa only [HistoryWidthsOK, HistoryShapeOK] using relistedText_ok cv h
end

theorem relisted_similar {p q : Property} (h : Relisted p q) (env : Env) : Similar env p q := by
  cases h
  case array hs hl hn =>
    refine similar_of_head ?_ (by simp [BareOK]) (by simp [storedIndex, sizeClass, isNamespaced])
      (by simp [storedIndex, sizeClass, SizeFree])
    intro st
    simp only [HeadOK, ArrayOK, baresOK_iff]
    exact fun ⟨h1, h2, h3, _, _, h4, h5⟩ =>
      ⟨h1, h2, h3, hn, hl, uniform_subset hs h4, fun p hp => h5 p (hs p hp)⟩
  case set hs hl =>
    refine similar_of_head ?_ (by simp [BareOK]) (by simp [storedIndex, sizeClass, isNamespaced])
      (by simp [storedIndex, sizeClass, SizeFree])
    intro st
    simp only [HeadOK, baresOK_iff]
    exact fun ⟨h1, _, h4, h5⟩ => ⟨h1, hl, uniform_subset hs h4, fun p hp => h5 p (hs p hp)⟩
  case structs hs hl =>
    refine similar_of_head ?_ (by simp [BareOK]) (by simp [storedIndex, sizeClass, isNamespaced])
      (by simp [storedIndex, sizeClass, SizeFree])
    intro st
    simp only [HeadOK, ArrayOK, structsOK_iff]
    exact fun ⟨h1, h2, _, h5⟩ => ⟨h1, h2, hl, fun p hp => h5 p (hs p hp)⟩
  case enumMap hk hs | nameMap hk hs | strMap hk hs =>
    refine similar_of_head ?_ (by simp [BareOK]) (by simp [storedIndex, sizeClass, isNamespaced])
      (by simp [storedIndex, sizeClass, SizeFree])
    intro st
    simp only [HeadOK, MapOK]
    exact fun ⟨h1, h2, _, h5⟩ => ⟨h1, h2, hk, valuesOK_copied hs h5⟩
  case map hs hn =>
    refine similar_of_head ?_ (by simp [BareOK]) (by simp [storedIndex, sizeClass, isNamespaced])
      (by simp [storedIndex, sizeClass, SizeFree])
    intro st
    simp only [HeadOK, MapOK, entriesOK_iff]
    exact fun ⟨h1, h2, h3, h4, h5, _, h6⟩ => ⟨h1, h2, Nat.lt_of_le_of_lt hs.length_le h3,
      h4.sublist (hs.map _), h5, hn, fun e he => h6 e (hs.subset he)⟩
  case inlineDelegates hl hd | sparseDelegates hl hd =>
    refine similar_of_head ?_ ?_ (by simp [storedIndex, sizeClass, isNamespaced])
      (by simp [storedIndex, sizeClass, SizeFree])
    · intro st
      simp only [HeadOK]
      exact fun _ => ⟨hl, hd⟩
    · intro st ty
      simp only [BareOK]
      exact fun h => ⟨h.1, hl, hd⟩
  case fieldPath hl hd =>
    refine similar_of_head ?_ ?_ (by simp [storedIndex, sizeClass, isNamespaced])
      (by simp [storedIndex, sizeClass, SizeFree])
    · intro st
      simp only [HeadOK]
      exact fun h => ⟨hl, hd, h.2.2⟩
    · intro st ty
      simp only [BareOK]
      exact fun h => ⟨h.1, hl, hd, h.2.2.2⟩
  case tags hl hd =>
    refine similar_of_head ?_ (by simp [BareOK]) (by simp [storedIndex, sizeClass, isNamespaced])
      (by simp [storedIndex, sizeClass, SizeFree])
    intro st
    simp only [HeadOK, StructOK]
    exact fun h => ⟨h.1, h.2.1, hl, hd⟩
  case bareTags hl hd =>
    refine similar_of_head (by simp [HeadOK]) ?_ (by simp [storedIndex, sizeClass, isNamespaced])
      (by simp [storedIndex, sizeClass, SizeFree])
    intro st ty
    simp only [BareOK, StructOK]
    exact fun ⟨h1, hint, h2, h3⟩ => ⟨h1, hint, h2, h3.1, hl, hd⟩
  case structTags l r v w hl hd =>
    refine similar_of_head ?_ (by simp [BareOK]) (by simp [storedIndex, sizeClass, isNamespaced])
      (by simp [storedIndex, sizeClass, SizeFree])
    intro st
    simp only [HeadOK, ArrayOK]
    exact fun ⟨h1, h2, h3, h4⟩ => ⟨h1, h2, by simpa using h3,
      structsOK_swap (by simp only [StructOK]; exact fun h => ⟨h.1, hl, hd⟩) l r h4⟩
  case structFields l r fs gs hs =>
    refine similar_of_head ?_ (by simp [BareOK]) (by simp [storedIndex, sizeClass, isNamespaced])
      (by simp [storedIndex, sizeClass, SizeFree])
    intro st
    simp only [HeadOK, ArrayOK]
    exact fun ⟨h1, h2, h3, h4⟩ => ⟨h1, h2, by simpa using h3,
      structsOK_swap (structOK_sublist hs) l r h4⟩
  case fields hs =>
    refine similar_of_head ?_ (by simp [BareOK]) (by simp [storedIndex, sizeClass, isNamespaced])
      (by simp [storedIndex, sizeClass, SizeFree])
    intro st
    simp only [HeadOK]
    exact fun h => ⟨h.1, structOK_sublist hs h.2⟩
  case bareFields hs =>
    refine similar_of_head (by simp [HeadOK]) ?_ (by simp [storedIndex, sizeClass, isNamespaced])
      (by simp [storedIndex, sizeClass, SizeFree])
    intro st ty
    simp only [BareOK]
    exact fun ⟨h1, hint, h2, h3⟩ => ⟨h1, hint, h2, structOK_sublist hs h3⟩
  case text ht =>
    have ih := relistedText_ok env.cv ht
    refine similar_of_head ?_ ?_ (by simp [storedIndex, sizeClass, isNamespaced])
      (by simp [storedIndex, sizeClass, SizeFree])
    · intro st
      simp only [HeadOK, TextOK]
      exact fun h => ⟨ih.1 h.1, ih.2 h.2⟩
    · intro st ty
      simp only [BareOK, TextOK]
      exact fun h => ⟨h.1, ih.1 h.2.1, ih.2 h.2.2⟩
  all_goals
    refine similar_of_head ?_ (by simp [BareOK]) (by simp [storedIndex, sizeClass, isNamespaced])
      (by simp [storedIndex, sizeClass, SizeFree])
    intro st
    simp only [HeadOK, ArrayOK, MapOK]
    intro _
    first
    | assumption
    | exact ⟨by assumption, by assumption⟩

end Gvas
