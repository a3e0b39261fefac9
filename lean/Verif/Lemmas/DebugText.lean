import Verif.Spec.Calm
import Verif.Lemmas.Display

/-!
# `Debug` text can be taken apart again
-/

namespace Gvas.Dt

open Spec

/-! ## What follows a value -/

/-- What follows a value: nothing, a separator or a bracket at the end. -/
def Stop : List Char → Prop
  | [] => True
  | c :: r => c ∈ [',', ')', ']', '}', ':', '\n'] ∨ c = ' ' ∧ r.head? = some '}'

/-- Text that does not go on with a plain character. -/
def Rest (r : List Char) : Prop := ∀ c, r.head? = some c → isMark c = true

theorem Stop.rest {r : List Char} (h : Stop r) : Rest r := by
  cases r with
  | nil => intro c hc; simp at hc
  | cons c r =>
    intro d hd
    obtain rfl : c = d := by simpa using hd
    rcases h with h | ⟨rfl, _⟩
    · revert h
      simp only [List.mem_cons, List.not_mem_nil, or_false]
      rintro (rfl | rfl | rfl | rfl | rfl | rfl) <;> rfl
    · rfl

theorem rest_cons {c : Char} (h : isMark c = true) (r : List Char) : Rest (c :: r) := by
  intro d hd
  obtain rfl : c = d := by simpa using hd
  exact h

/-- The plain text at the beginning. -/
theorem split_plain {s s' a a' : List Char} (hs : ∀ c ∈ s, isMark c = false)
    (hs' : ∀ c ∈ s', isMark c = false) (ha : Rest a) (ha' : Rest a') (h : s ++ a = s' ++ a') :
    s = s' ∧ a = a' := by
  induction s generalizing s' with
  | nil =>
    cases s' with
    | nil => exact ⟨rfl, h⟩
    | cons c s' =>
      have := ha c (by rw [show a = _ from h]; rfl)
      rw [hs' c (by simp)] at this
      cases this
  | cons c s ih =>
    cases s' with
    | nil =>
      have := ha' c (by rw [← show _ = a' from h]; rfl)
      rw [hs c (by simp)] at this
      cases this
    | cons d s' =>
      simp only [List.cons_append, List.cons.injEq] at h
      obtain ⟨e1, e2⟩ := ih (fun c hc => hs c (List.mem_cons_of_mem _ hc))
        (fun c hc => hs' c (List.mem_cons_of_mem _ hc)) h.2
      exact ⟨by rw [h.1, e1], e2⟩

/-! ## Strings -/

theorem hexDigits_plain (n : Nat) : '}' ∉ Nat.toDigits 16 n := by
  intro h
  obtain ⟨d, hd, e⟩ := mem_toDigits (by omega) n h
  have : ∀ d : Fin 16, '}' ≠ Nat.digitChar d.val := by decide
  exact this ⟨d, hd⟩ e

theorem char_of_toNat {c d : Char} (h : c.toNat = d.toNat) : c = d := Char.toNat_inj.mp h

/-- A printed character does not begin with the quote, and begins with a backslash unless it is
printed as it is. -/
theorem escape_cases (t : Fmt) (c : Char) :
    (∃ x, t.escape c = ['\\', x] ∧ (x = '0' ∧ c.toNat = 0 ∨ x = 't' ∧ c = '\t' ∨ x = 'r' ∧ c = '\r' ∨
      x = 'n' ∧ c = '\n' ∨ x = '\\' ∧ c = '\\' ∨ x = '"' ∧ c = '"')) ∨
    t.escape c = '\\' :: 'u' :: '{' :: (Nat.toDigits 16 c.toNat ++ ['}']) ∨
    t.escape c = [c] ∧ c ≠ '\\' ∧ c ≠ '"' := by
  unfold Fmt.escape
  split
  · next h => exact .inl ⟨_, rfl, .inl ⟨rfl, h⟩⟩
  split
  · next h => exact .inl ⟨_, rfl, .inr (.inl ⟨rfl, h⟩)⟩
  split
  · next h => exact .inl ⟨_, rfl, .inr (.inr (.inl ⟨rfl, h⟩))⟩
  split
  · next h => exact .inl ⟨_, rfl, .inr (.inr (.inr (.inl ⟨rfl, h⟩)))⟩
  split
  · next h => exact .inl ⟨_, rfl, .inr (.inr (.inr (.inr (.inl ⟨rfl, h⟩))))⟩
  split
  · next h => exact .inl ⟨_, rfl, .inr (.inr (.inr (.inr (.inr ⟨rfl, h⟩))))⟩
  split
  · exact .inr (.inl rfl)
  · next h1 h2 _ => exact .inr (.inr ⟨rfl, h1, h2⟩)

theorem escape_ne (t : Fmt) (c : Char) (r r' : List Char) : t.escape c ++ r ≠ '"' :: r' := by
  rcases escape_cases t c with ⟨x, e, _⟩ | e | ⟨e, _, h⟩ <;> rw [e] <;> simp
  intro h'
  exact absurd h' h

theorem escape_inj (t : Fmt) {c d : Char} {r r' : List Char} (h : t.escape c ++ r = t.escape d ++ r') :
    c = d ∧ r = r' := by
  rcases escape_cases t c with ⟨x, e, hx⟩ | e | ⟨e, n1, n2⟩ <;>
    rcases escape_cases t d with ⟨y, e', hy⟩ | e' | ⟨e', m1, m2⟩ <;> rw [e, e'] at h
  · simp only [List.cons_append, List.nil_append, List.cons.injEq, true_and] at h
    obtain ⟨rfl, rfl⟩ := h
    refine ⟨?_, rfl⟩
    rcases hx with ⟨rfl, hx⟩ | ⟨rfl, hx⟩ | ⟨rfl, hx⟩ | ⟨rfl, hx⟩ | ⟨rfl, hx⟩ | ⟨rfl, hx⟩ <;>
      rcases hy with ⟨h1, hy⟩ | ⟨h1, hy⟩ | ⟨h1, hy⟩ | ⟨h1, hy⟩ | ⟨h1, hy⟩ | ⟨h1, hy⟩ <;>
      first
        | (exfalso; revert h1; decide)
        | exact char_of_toNat (hx.trans hy.symm)
        | exact hx.trans hy.symm
  · exfalso
    simp only [List.cons_append, List.nil_append, List.cons.injEq, true_and] at h
    obtain ⟨rfl, _⟩ := h
    rcases hx with ⟨h1, _⟩ | ⟨h1, _⟩ | ⟨h1, _⟩ | ⟨h1, _⟩ | ⟨h1, _⟩ | ⟨h1, _⟩ <;> revert h1 <;> decide
  · exfalso
    simp only [List.cons_append, List.nil_append, List.cons.injEq] at h
    exact m1 h.1.symm
  · exfalso
    simp only [List.cons_append, List.nil_append, List.cons.injEq, true_and] at h
    obtain ⟨rfl, _⟩ := h
    rcases hy with ⟨h1, _⟩ | ⟨h1, _⟩ | ⟨h1, _⟩ | ⟨h1, _⟩ | ⟨h1, _⟩ | ⟨h1, _⟩ <;> revert h1 <;> decide
  · simp only [List.cons_append, List.cons.injEq, true_and, List.append_assoc, List.nil_append] at h
    obtain ⟨e1, e2⟩ := split_first (hexDigits_plain _) (hexDigits_plain _) h
    exact ⟨char_of_toNat (toDigits_inj (by omega) (by omega) _ _ e1), e2⟩
  · exfalso
    simp only [List.cons_append, List.nil_append, List.cons.injEq] at h
    exact m1 h.1.symm
  · exfalso
    simp only [List.cons_append, List.nil_append, List.cons.injEq] at h
    exact n1 h.1
  · exfalso
    simp only [List.cons_append, List.nil_append, List.cons.injEq] at h
    exact n1 h.1
  · simpa using h

theorem chars_inj (t : Fmt) {s s' r r' : List Char}
    (h : s.flatMap t.escape ++ '"' :: r = s'.flatMap t.escape ++ '"' :: r') : s = s' ∧ r = r' := by
  induction s generalizing s' with
  | nil =>
    cases s' with
    | nil => simpa using h
    | cons d s' =>
      simp only [List.flatMap_nil, List.nil_append, List.flatMap_cons, List.append_assoc] at h
      exact absurd h.symm (escape_ne t d _ _)
  | cons c s ih =>
    cases s' with
    | nil =>
      simp only [List.flatMap_nil, List.nil_append, List.flatMap_cons, List.append_assoc] at h
      exact absurd h (escape_ne t c _ _)
    | cons d s' =>
      simp only [List.flatMap_cons, List.append_assoc] at h
      obtain ⟨rfl, e⟩ := escape_inj t h
      obtain ⟨rfl, e'⟩ := ih e
      exact ⟨rfl, e'⟩

theorem str_inj (t : Fmt) {s s' : String} {r r' : List Char} (h : t.str s ++ r = t.str s' ++ r') :
    s = s' ∧ r = r' := by
  simp only [Fmt.str, List.cons_append, List.append_assoc, List.nil_append, List.cons.injEq,
    true_and] at h
  obtain ⟨e, e'⟩ := chars_inj t h
  exact ⟨String.toList_inj.mp e, e'⟩

/-! ## Sequences -/

/-- The beginning of a value. -/
def Begin (s : List Char) : Prop :=
  ∃ c r, s = c :: r ∧ (isMark c = false ∨ c = '"' ∨ c = '[' ∨ c = '{')

theorem Begin.append {s : List Char} (h : Begin s) (r : List Char) : Begin (s ++ r) := by
  obtain ⟨c, r', rfl, h⟩ := h
  exact ⟨c, r' ++ r, rfl, h⟩

theorem Begin.ne {s : List Char} (h : Begin s) {c : Char} (hc : isMark c = true) (h1 : c ≠ '"')
    (h2 : c ≠ '[') (h3 : c ≠ '{') (r : List Char) : s ≠ c :: r := by
  rintro rfl
  obtain ⟨d, r', e, h⟩ := h
  obtain ⟨rfl, rfl⟩ := List.cons.inj e
  rcases h with h | h | h | h
  · rw [hc] at h; cases h
  · exact h1 h
  · exact h2 h
  · exact h3 h

theorem Plain.begin {s : List Char} (h : Plain s) : Begin s := by
  cases s with
  | nil => exact absurd rfl h.1
  | cons c s => exact ⟨c, s, rfl, .inl (h.2 c (by simp))⟩

/-- Items one after another. -/
def seq {α : Type} (f : α → List Char) (pretty : Bool) (n : Nat) (first : Bool) : List α → List Char
  | [] => []
  | a :: l => leadIn pretty n first ++ f a ++ leadOut pretty ++ seq f pretty n false l

theorem newLine_inj {m k : Nat} {x y : List Char} (hx : x.head? ≠ some ' ') (hy : y.head? ≠ some ' ')
    (h : newLine m ++ x = newLine k ++ y) : m = k ∧ x = y := by
  have blanks : ∀ (a b : Nat), List.replicate a ' ' ++ x = List.replicate b ' ' ++ y →
      a = b ∧ x = y := by
    intro a
    induction a with
    | zero =>
      intro b h
      cases b with
      | zero => exact ⟨rfl, by simpa using h⟩
      | succ b =>
        rw [show x = _ by simpa using h, List.replicate_succ] at hx
        simp at hx
    | succ a ih =>
      intro b h
      cases b with
      | zero =>
        rw [show y = _ by simpa using h.symm, List.replicate_succ] at hy
        simp at hy
      | succ b =>
        simp only [List.replicate_succ, List.cons_append, List.cons.injEq, true_and] at h
        obtain ⟨rfl, e⟩ := ih b h
        exact ⟨rfl, e⟩
  simp only [newLine, List.cons_append, List.cons.injEq, true_and] at h
  obtain ⟨e, e'⟩ := blanks _ _ h
  exact ⟨by omega, e'⟩

theorem Begin.head_ne {s : List Char} (h : Begin s) : s.head? ≠ some ' ' := by
  intro e
  cases s with
  | nil => simp at e
  | cons c s =>
    obtain rfl : c = ' ' := by simpa using e
    exact h.ne rfl (by decide) (by decide) (by decide) s rfl

/-- What follows an item. -/
theorem stop_after {α : Type} (f : α → List Char) (pretty : Bool) (n m : Nat) (blank : List Char)
    (hb : blank = [] ∨ blank = [' ']) {c : Char} (hc : c = ']' ∨ c = '}') (hbc : blank = [' '] → c = '}')
    (l : List α) (r : List Char) :
    Stop (leadOut pretty ++ (seq f pretty n false l ++ (lastLine pretty m blank ++ c :: r))) := by
  cases pretty with
  | true => exact .inl (by simp)
  | false =>
    cases l with
    | cons a l => exact .inl (by simp)
    | nil =>
      rcases hb with rfl | rfl
      · rcases hc with rfl | rfl <;> exact .inl (by simp)
      · obtain rfl := hbc rfl
        exact .inr ⟨rfl, rfl⟩

theorem seq_inj {α : Type} {f : α → List Char} {pretty : Bool} {n m : Nat} (hm : m < n)
    {blank : List Char} (hb : blank = [] ∨ blank = [' ']) {c : Char} (hc : c = ']' ∨ c = '}')
    (hbc : blank = [' '] → c = '}') (first : Bool) {l l' : List α}
    (hl : ∀ a ∈ l, Begin (f a)) (hl' : ∀ a ∈ l', Begin (f a))
    (hf : ∀ a ∈ l, ∀ b ∈ l', ∀ r r', Stop r → Stop r' → f a ++ r = f b ++ r' → a = b ∧ r = r')
    {r r' : List Char} (h : seq f pretty n first l ++ (lastLine pretty m blank ++ c :: r) =
      seq f pretty n first l' ++ (lastLine pretty m blank ++ c :: r')) : l = l' ∧ r = r' := by
  have hcs : ∀ r : List Char, (c :: r).head? ≠ some ' ' := by
    intro r
    rcases hc with rfl | rfl <;> simp
  have mixed : ∀ (first : Bool) (a : α) (x r : List Char), Begin (f a) →
      leadIn pretty n first ++ (f a ++ x) ≠ lastLine pretty m blank ++ c :: r := by
    intro first a x r ha e
    cases pretty with
    | true =>
      have := (newLine_inj (ha.append x).head_ne (hcs r) e).1
      omega
    | false =>
      cases first with
      | true =>
        simp only [leadIn, lastLine, Bool.false_eq_true, if_false, if_true, List.nil_append] at e
        rcases hb with rfl | rfl
        · rcases hc with rfl | rfl <;>
            exact (ha.append x).ne rfl (by decide) (by decide) (by decide) _ e
        · exact (ha.append x).ne rfl (by decide) (by decide) (by decide) _ e
      | false =>
        simp only [leadIn, lastLine, Bool.false_eq_true, if_false] at e
        rcases hb with rfl | rfl
        · rcases hc with rfl | rfl <;> simp at e
        · simp at e
  induction l generalizing l' first with
  | nil =>
    cases l' with
    | nil =>
      simp only [seq, List.nil_append] at h
      exact ⟨rfl, (List.cons.inj (List.append_cancel_left h)).2⟩
    | cons b l' =>
      simp only [seq, List.nil_append, List.append_assoc] at h
      exact absurd h.symm (mixed first b _ _ (hl' b (by simp)))
  | cons a l ih =>
    cases l' with
    | nil =>
      simp only [seq, List.nil_append, List.append_assoc] at h
      exact absurd h (mixed first a _ _ (hl a (by simp)))
    | cons b l' =>
      simp only [seq, List.append_assoc] at h
      obtain ⟨rfl, e⟩ := hf a (by simp) b (by simp) _ _ (stop_after f pretty n m blank hb hc hbc l r)
        (stop_after f pretty n m blank hb hc hbc l' r') (List.append_cancel_left h)
      obtain ⟨rfl, e'⟩ := ih false (fun x hx => hl x (List.mem_cons_of_mem _ hx))
        (fun x hx => hl' x (List.mem_cons_of_mem _ hx))
        (fun x hx y hy => hf x (List.mem_cons_of_mem _ hx) y (List.mem_cons_of_mem _ hy))
        (List.append_cancel_left e)
      exact ⟨rfl, e'⟩

/-! ## Trees -/

mutual
/-- Trees whose names and texts are plain.  A tuple is called `Guid` only around a GUID. -/
def Ok : Dbg → Prop
  | .atom s => Plain s
  | .guid s => Plain s ∧ s.head? ≠ some 'G'
  | .str _ => True
  | .list l => OkItems l
  | .map l => OkEntries l
  | .tuple name d => Plain name.toList ∧ (name = "Guid" → ∃ s, d = .guid s) ∧ Ok d
  | .struct name l => Plain name.toList ∧ OkFields l
/-- All items. -/
def OkItems : List Dbg → Prop
  | [] => True
  | d :: l => Ok d ∧ OkItems l
/-- All entries. -/
def OkEntries : List (Dbg × Dbg) → Prop
  | [] => True
  | (k, d) :: l => Ok k ∧ Ok d ∧ OkEntries l
/-- All fields. -/
def OkFields : List (String × Dbg) → Prop
  | [] => True
  | (k, d) :: l => Plain k.toList ∧ Ok d ∧ OkFields l
end

theorem okItems {l : List Dbg} : OkItems l ↔ ∀ d ∈ l, Ok d := by
  induction l with
  | nil => simp [OkItems]
  | cons d l ih => simp [OkItems, ih]

theorem okEntries {l : List (Dbg × Dbg)} : OkEntries l ↔ ∀ e ∈ l, Ok e.1 ∧ Ok e.2 := by
  induction l with
  | nil => simp [OkEntries]
  | cons d l ih => simp [OkEntries, ih, and_assoc]

theorem okFields {l : List (String × Dbg)} : OkFields l ↔ ∀ e ∈ l, Plain e.1.toList ∧ Ok e.2 := by
  induction l with
  | nil => simp [OkFields]
  | cons d l ih => simp [OkFields, ih, and_assoc]

variable (t : Fmt) (pretty : Bool)

/-- An entry of a map. -/
def entry (n : Nat) (e : Dbg × Dbg) : List Char :=
  e.1.show t pretty n ++ ':' :: ' ' :: e.2.show t pretty n

/-- A field of a struct. -/
def fieldText (n : Nat) (e : String × Dbg) : List Char :=
  e.1.toList ++ ':' :: ' ' :: e.2.show t pretty n

theorem items_seq (n : Nat) (first : Bool) (l : List Dbg) :
    showItems t pretty n first l = seq (Dbg.show t pretty n) pretty n first l := by
  induction l generalizing first with
  | nil => rfl
  | cons d l ih => rw [showItems, seq, ih]

theorem entries_seq (n : Nat) (first : Bool) (l : List (Dbg × Dbg)) :
    showEntries t pretty n first l = seq (entry t pretty n) pretty n first l := by
  induction l generalizing first with
  | nil => rfl
  | cons d l ih => rw [showEntries, seq, ih]; simp [entry]

theorem fields_seq (n : Nat) (first : Bool) (l : List (String × Dbg)) :
    showFields t pretty n first l = seq (fieldText t pretty n) pretty n first l := by
  induction l generalizing first with
  | nil => rfl
  | cons d l ih => rw [showFields, seq, ih]; simp [fieldText]

theorem show_begin (n : Nat) (d : Dbg) (h : Ok d) : Begin (d.show t pretty n) := by
  cases d with
  | atom s => exact Plain.begin h
  | guid s => exact ⟨_, _, rfl, .inl (by decide)⟩
  | str s => exact ⟨_, _, rfl, .inr (.inl rfl)⟩
  | list l => exact ⟨_, _, rfl, .inr (.inr (.inl rfl))⟩
  | map l => exact ⟨_, _, rfl, .inr (.inr (.inr rfl))⟩
  | tuple name d =>
    simp only [Dbg.show, List.append_assoc]
    exact (Plain.begin h.1).append _
  | struct name l =>
    simp only [Dbg.show, List.append_assoc]
    exact (Plain.begin h.1).append _

/-- Values can be told apart, whatever follows. -/
def Apart (d : Dbg) : Prop := ∀ (d' : Dbg) (n : Nat) (r r' : List Char), Ok d → Ok d' → Stop r →
  Stop r' → d.show t pretty n ++ r = d'.show t pretty n ++ r' → d = d' ∧ r = r'

/-- The part of a value before the first character that is not plain, and what it goes on with. -/
theorem show_word (n : Nat) (d : Dbg) (h : Ok d) (r : List Char) (hr : Stop r) :
    ∃ w a, (∀ c ∈ w, isMark c = false) ∧ Rest a ∧ d.show t pretty n ++ r = w ++ a ∧
      (match d with
        | .atom s => w = s ∧ a = r
        | .guid s => w = ['G', 'u', 'i', 'd'] ∧ a = '(' :: (s ++ ')' :: r)
        | .str s => w = [] ∧ a = t.str s ++ r
        | .list l => w = [] ∧ a = '[' :: (showItems t pretty (n + 1) true l ++
            ((if l.isEmpty then [] else lastLine pretty n []) ++ ']' :: r))
        | .map l => w = [] ∧ a = '{' :: (showEntries t pretty (n + 1) true l ++
            ((if l.isEmpty then [] else lastLine pretty n []) ++ '}' :: r))
        | .tuple name d => w = name.toList ∧ a = '(' :: (leadIn pretty (n + 1) true ++
            (d.show t pretty (n + 1) ++ (leadOut pretty ++ (lastLine pretty n [] ++ ')' :: r))))
        | .struct name l => w = name.toList ∧ a = ' ' :: '{' :: ((if pretty then [] else [' ']) ++
            (showFields t pretty (n + 1) true l ++ (lastLine pretty n [' '] ++ '}' :: r)))) := by
  cases d with
  | atom s => exact ⟨s, r, h.2, hr.rest, rfl, rfl, rfl⟩
  | guid s =>
    exact ⟨['G', 'u', 'i', 'd'], _, by decide, rest_cons rfl _, by simp [Dbg.show], rfl, rfl⟩
  | str s => exact ⟨[], _, by simp, rest_cons rfl _, rfl, rfl, rfl⟩
  | list l => exact ⟨[], _, by simp, rest_cons rfl _, by simp [Dbg.show], rfl, rfl⟩
  | map l => exact ⟨[], _, by simp, rest_cons rfl _, by simp [Dbg.show], rfl, rfl⟩
  | tuple name d => exact ⟨name.toList, _, h.1.2, rest_cons rfl _, by simp [Dbg.show], rfl, rfl⟩
  | struct name l => exact ⟨name.toList, _, h.1.2, rest_cons rfl _, by simp [Dbg.show], rfl, rfl⟩

theorem stop_tuple (n : Nat) (r : List Char) :
    Stop (leadOut pretty ++ (lastLine pretty n [] ++ ')' :: r)) := by
  cases pretty <;> exact .inl (by simp)

theorem stop_field (x : List Char) : Stop (':' :: x) := .inl (by simp)

/-- The items of two lists, of which one may be empty. -/
theorem list_inj {α : Type} {f : α → List Char} {n m : Nat} (hm : m < n) {c : Char}
    (hc : c = ']' ∨ c = '}') {l l' : List α}
    (hl : ∀ a ∈ l, Begin (f a)) (hl' : ∀ a ∈ l', Begin (f a))
    (hf : ∀ a ∈ l, ∀ b ∈ l', ∀ r r', Stop r → Stop r' → f a ++ r = f b ++ r' → a = b ∧ r = r')
    {r r' : List Char}
    (h : seq f pretty n true l ++ ((if l.isEmpty then [] else lastLine pretty m []) ++ c :: r) =
      seq f pretty n true l' ++ ((if l'.isEmpty then [] else lastLine pretty m []) ++ c :: r')) :
    l = l' ∧ r = r' := by
  have mixed : ∀ (a : α) (x r : List Char), Begin (f a) →
      leadIn pretty n true ++ (f a ++ x) ≠ c :: r := by
    intro a x r ha e
    cases pretty with
    | true =>
      rcases hc with rfl | rfl <;> simp [leadIn, newLine] at e
    | false =>
      rcases hc with rfl | rfl <;>
        exact (ha.append x).ne rfl (by decide) (by decide) (by decide) _ e
  cases l with
  | nil =>
    cases l' with
    | nil => exact ⟨rfl, (List.cons.inj h).2⟩
    | cons b l' =>
      simp only [seq, List.nil_append, List.append_assoc, List.isEmpty_nil, if_true] at h
      exact absurd h.symm (mixed b _ _ (hl' b (by simp)))
  | cons a l =>
    cases l' with
    | nil =>
      simp only [seq, List.nil_append, List.append_assoc, List.isEmpty_nil, if_true] at h
      exact absurd h (mixed a _ _ (hl a (by simp)))
    | cons b l' =>
      exact seq_inj hm (.inl rfl) hc (by simp) true hl hl' hf h

theorem plain_begin {d : List Char} {c : Char} (hd : Plain d) (hc : isMark c = true) (x r : List Char) :
    d ++ x ≠ c :: r := by
  cases d with
  | nil => exact absurd rfl hd.1
  | cons a d =>
    intro e
    obtain rfl : a = c := (List.cons.inj e).1
    rw [hd.2 a (by simp)] at hc
    cases hc

/-- A tuple called `Guid` is not taken for a GUID. -/
theorem guid_tuple (n : Nat) {s : List Char} {d : Dbg} (hs : Plain s ∧ s.head? ≠ some 'G')
    (hd : ∃ s, d = .guid s) (r x : List Char) :
    s ++ ')' :: r ≠ leadIn pretty (n + 1) true ++ (d.show t pretty (n + 1) ++ x) := by
  obtain ⟨s', rfl⟩ := hd
  intro e
  cases pretty with
  | true => exact plain_begin hs.1 rfl _ _ e
  | false =>
    cases s with
    | nil => exact hs.1.1 rfl
    | cons c s =>
      simp only [leadIn, Bool.false_eq_true, if_false, if_true, List.nil_append, Dbg.show,
        List.cons_append, List.cons.injEq] at e
      exact hs.2 (by rw [e.1]; rfl)

theorem stop_not_open {r x : List Char} (h : Stop r) {c : Char}
    (hc : c = '(' ∨ c = '[' ∨ c = '{' ∨ c = '"') : r ≠ c :: x := by
  rintro rfl
  rcases hc with rfl | rfl | rfl | rfl <;> simp [Stop] at h

theorem stop_not_struct {r x : List Char} (h : Stop r) : r ≠ ' ' :: '{' :: x := by
  rintro rfl
  simp [Stop] at h

/-- The parts of a value can be told apart. -/
def Parts : Dbg → Prop
  | .list l => ∀ d ∈ l, Apart t pretty d
  | .map l => ∀ e ∈ l, Apart t pretty e.1 ∧ Apart t pretty e.2
  | .tuple _ d => Apart t pretty d
  | .struct _ l => ∀ e ∈ l, Apart t pretty e.2
  | _ => True

/-- Values can be told apart if their parts can. -/
theorem apart_of (d : Dbg) (ih : Parts t pretty d) : Apart t pretty d := by
  intro d' n r r' hd hd' hr hr' h
  obtain ⟨w, a, hw, ha, e, hm⟩ := show_word t pretty n d hd r hr
  obtain ⟨w', a', hw', ha', e', hm'⟩ := show_word t pretty n d' hd' r' hr'
  rw [e, e'] at h
  obtain ⟨rfl, rfl⟩ := split_plain hw hw' ha ha' h
  clear e e' h ha ha' hw hw'
  match d, hd, hm, ih with
  | .atom s, hd, hm, _ =>
    obtain ⟨rfl, rfl⟩ := hm
    cases d' with
    | atom s' => exact ⟨by rw [hm'.1], hm'.2⟩
    | guid s' => exact absurd hm'.2 (stop_not_open hr (.inl rfl))
    | str s' => exact absurd hm'.1 hd.1
    | list l' => exact absurd hm'.1 hd.1
    | map l' => exact absurd hm'.1 hd.1
    | tuple k d' => exact absurd hm'.2 (stop_not_open hr (.inl rfl))
    | struct k l' => exact absurd hm'.2 (stop_not_struct hr)
  | .guid s, hd, hm, _ =>
    obtain ⟨rfl, rfl⟩ := hm
    cases d' with
    | atom s' => exact absurd hm'.2.symm (stop_not_open hr' (.inl rfl))
    | guid s' =>
      obtain ⟨e1, e2⟩ := split_plain hd.1.2 hd'.1.2 (rest_cons rfl _) (rest_cons rfl _)
        (List.cons.inj hm'.2).2
      exact ⟨by rw [e1], (List.cons.inj e2).2⟩
    | str s' => exact absurd hm'.1 (by simp)
    | list l' => exact absurd hm'.1 (by simp)
    | map l' => exact absurd hm'.1 (by simp)
    | tuple k d' =>
      have hk : k = "Guid" := String.toList_inj.mp hm'.1.symm
      exact absurd (List.cons.inj hm'.2).2 (guid_tuple t pretty n hd (hd'.2.1 hk) _ _)
    | struct k l' => exact absurd (List.cons.inj hm'.2).1 (by decide)
  | .str s, hd, hm, _ =>
    obtain ⟨rfl, rfl⟩ := hm
    cases d' with
    | atom s' => exact absurd hm'.1.symm hd'.1
    | guid s' => exact absurd hm'.1 (by simp)
    | str s' =>
      obtain ⟨rfl, e⟩ := str_inj t hm'.2
      exact ⟨rfl, e⟩
    | list l' => exact absurd (List.cons.inj hm'.2).1 (by decide)
    | map l' => exact absurd (List.cons.inj hm'.2).1 (by decide)
    | tuple k d' => exact absurd hm'.1.symm hd'.1.1
    | struct k l' => exact absurd hm'.1.symm hd'.1.1
  | .list l, hd, hm, ih =>
    obtain ⟨rfl, rfl⟩ := hm
    cases d' with
    | atom s' => exact absurd hm'.1.symm hd'.1
    | guid s' => exact absurd hm'.1 (by simp)
    | str s' => exact absurd (List.cons.inj hm'.2).1 (by decide)
    | list l' =>
      have e := (List.cons.inj hm'.2).2
      rw [items_seq, items_seq] at e
      have hl := okItems.mp hd
      have hl' := okItems.mp hd'
      obtain ⟨rfl, e'⟩ := list_inj pretty (Nat.lt_succ_self n) (.inl rfl)
        (fun a ha => show_begin t pretty _ a (hl a ha))
        (fun a ha => show_begin t pretty _ a (hl' a ha))
        (fun a ha b hb x y hx hy e => ih a ha b _ x y (hl a ha) (hl' b hb) hx hy e) e
      exact ⟨rfl, e'⟩
    | map l' => exact absurd (List.cons.inj hm'.2).1 (by decide)
    | tuple k d' => exact absurd hm'.1.symm hd'.1.1
    | struct k l' => exact absurd hm'.1.symm hd'.1.1
  | .map l, hd, hm, ih =>
    obtain ⟨rfl, rfl⟩ := hm
    cases d' with
    | atom s' => exact absurd hm'.1.symm hd'.1
    | guid s' => exact absurd hm'.1 (by simp)
    | str s' => exact absurd (List.cons.inj hm'.2).1 (by decide)
    | list l' => exact absurd (List.cons.inj hm'.2).1 (by decide)
    | map l' =>
      have e := (List.cons.inj hm'.2).2
      rw [entries_seq, entries_seq] at e
      have hl := okEntries.mp hd
      have hl' := okEntries.mp hd'
      obtain ⟨rfl, e'⟩ := list_inj pretty (Nat.lt_succ_self n) (.inr rfl)
        (fun a ha => (show_begin t pretty _ a.1 (hl a ha).1).append _)
        (fun a ha => (show_begin t pretty _ a.1 (hl' a ha).1).append _)
        (fun a ha b hb x y hx hy e => by
          obtain ⟨a1, a2⟩ := a
          obtain ⟨b1, b2⟩ := b
          simp only [entry, List.append_assoc, List.cons_append] at e
          obtain ⟨i1, i2⟩ := ih (a1, a2) ha
          obtain ⟨rfl, e1⟩ := i1 b1 _ _ _ (hl _ ha).1 (hl' _ hb).1 (stop_field _) (stop_field _) e
          simp only [List.cons.injEq, true_and] at e1
          obtain ⟨rfl, e2⟩ := i2 b2 _ _ _ (hl _ ha).2 (hl' _ hb).2 hx hy e1
          exact ⟨rfl, e2⟩) e
      exact ⟨rfl, e'⟩
    | tuple k d' => exact absurd hm'.1.symm hd'.1.1
    | struct k l' => exact absurd hm'.1.symm hd'.1.1
  | .tuple k d, hd, hm, ih =>
    obtain ⟨rfl, rfl⟩ := hm
    cases d' with
    | atom s' => exact absurd hm'.2.symm (stop_not_open hr' (.inl rfl))
    | guid s' =>
      have hk : k = "Guid" := String.toList_inj.mp hm'.1
      exact absurd (List.cons.inj hm'.2).2.symm (guid_tuple t pretty n hd' (hd.2.1 hk) _ _)
    | str s' => exact absurd hm'.1 hd.1.1
    | list l' => exact absurd hm'.1 hd.1.1
    | map l' => exact absurd hm'.1 hd.1.1
    | tuple k' d' =>
      have hk : k = k' := String.toList_inj.mp hm'.1
      obtain ⟨e1, e2⟩ := ih d' _ _ _ hd.2.2 hd'.2.2 (stop_tuple pretty n _) (stop_tuple pretty n _)
        (List.append_cancel_left (List.cons.inj hm'.2).2)
      have e3 := List.append_cancel_left (List.append_cancel_left e2)
      exact ⟨by rw [hk, e1], (List.cons.inj e3).2⟩
    | struct k' l' => exact absurd (List.cons.inj hm'.2).1 (by decide)
  | .struct k l, hd, hm, ih =>
    obtain ⟨rfl, rfl⟩ := hm
    cases d' with
    | atom s' => exact absurd hm'.2.symm (stop_not_struct hr')
    | guid s' => exact absurd (List.cons.inj hm'.2).1 (by decide)
    | str s' => exact absurd hm'.1 hd.1.1
    | list l' => exact absurd hm'.1 hd.1.1
    | map l' => exact absurd hm'.1 hd.1.1
    | tuple k' d' => exact absurd (List.cons.inj hm'.2).1 (by decide)
    | struct k' l' =>
      have hk : k = k' := String.toList_inj.mp hm'.1
      have e := List.append_cancel_left (List.cons.inj (List.cons.inj hm'.2).2).2
      rw [fields_seq, fields_seq] at e
      have hl := okFields.mp hd.2
      have hl' := okFields.mp hd'.2
      obtain ⟨rfl, e'⟩ := seq_inj (Nat.lt_succ_self n) (.inr rfl) (.inr rfl) (fun _ => rfl) true
        (fun a ha => (Plain.begin (hl a ha).1).append _)
        (fun a ha => (Plain.begin (hl' a ha).1).append _)
        (fun a ha b hb x y hx hy e => by
          obtain ⟨a1, a2⟩ := a
          obtain ⟨b1, b2⟩ := b
          simp only [fieldText, List.append_assoc, List.cons_append] at e
          obtain ⟨e1, e2⟩ := split_plain (hl _ ha).1.2 (hl' _ hb).1.2 (rest_cons rfl _)
            (rest_cons rfl _) e
          obtain rfl := String.toList_inj.mp e1
          simp only [List.cons.injEq, true_and] at e2
          obtain ⟨rfl, e3⟩ := ih (a1, a2) ha b2 _ _ _ (hl _ ha).2 (hl' _ hb).2 hx hy e2
          exact ⟨rfl, e3⟩) e
      exact ⟨by rw [hk], e'⟩

mutual
/-- Values can be told apart. -/
theorem apart (d : Dbg) : Apart t pretty d := by
  match d with
  | .atom s => exact apart_of t pretty _ trivial
  | .guid s => exact apart_of t pretty _ trivial
  | .str s => exact apart_of t pretty _ trivial
  | .list l => exact apart_of t pretty _ (apartItems l)
  | .map l => exact apart_of t pretty _ (apartEntries l)
  | .tuple k d => exact apart_of t pretty (.tuple k d) (apart d)
  | .struct k l => exact apart_of t pretty (.struct k l) (apartFields l)
theorem apartItems (l : List Dbg) : ∀ d ∈ l, Apart t pretty d := by
  match l with
  | [] => simp
  | d :: l => exact List.forall_mem_cons.mpr ⟨apart d, apartItems l⟩
theorem apartEntries (l : List (Dbg × Dbg)) : ∀ e ∈ l, Apart t pretty e.1 ∧ Apart t pretty e.2 := by
  match l with
  | [] => simp
  | (k, d) :: l => exact List.forall_mem_cons.mpr ⟨⟨apart k, apart d⟩, apartEntries l⟩
theorem apartFields (l : List (String × Dbg)) : ∀ e ∈ l, Apart t pretty e.2 := by
  match l with
  | [] => simp
  | (k, d) :: l => exact List.forall_mem_cons.mpr ⟨apart d, apartFields l⟩
end

/-- A tree can be read off its text. -/
theorem show_inj {d d' : Dbg} (n : Nat) (hd : Ok d) (hd' : Ok d')
    (h : d.show t pretty n = d'.show t pretty n) : d = d' :=
  (apart t pretty d d' n [] [] hd hd' trivial trivial (by rw [h])).1

end Gvas.Dt
