import Verif.Lemmas.JsonWrite
import Verif.Model.JsonPretty
import Verif.Spec.JsonSpace

/-!
# Lemmas: space between the parts of JSON text
-/

namespace Gvas.Text

open Spec Spec.Rfc8259 Sd

/-- A character that is neither space nor a mark outside of strings. -/
def Quiet (c : Char) : Prop := c ≠ '"' ∧ ¬ (c = ' ' ∨ c = '\t' ∨ c = '\n' ∨ c = '\r') ∧
  ¬ (c = '[' ∨ c = '{') ∧ ¬ (c = ']' ∨ c = '}') ∧ c ≠ ',' ∧ c ≠ ':'

instance (c : Char) : Decidable (Quiet c) := by unfold Quiet; infer_instance

theorem quiet_digit {c : Char} (h : isDigit c = true) : Quiet c := by
  have h : 48 ≤ c.toNat ∧ c.toNat ≤ 57 := by simpa [isDigit] using h
  have hne : ∀ d : Char, ¬ (48 ≤ d.toNat ∧ d.toNat ≤ 57) → c ≠ d := by
    rintro d hd rfl; exact hd h
  refine ⟨hne _ (by decide), ?_, ?_, ?_, hne _ (by decide), hne _ (by decide)⟩
  · rintro (e | e | e | e) <;> exact hne _ (by decide) e
  · rintro (e | e) <;> exact hne _ (by decide) e
  · rintro (e | e) <;> exact hne _ (by decide) e

theorem quiet_digits {l : List Char} {n : Nat} (h : Digits l n) : ∀ c ∈ l, Quiet c :=
  fun c hc => quiet_digit (((digits_iff _ _).mp h).2.1 c hc)

theorem quiet_exp {l : List Char} {x : Option Int} (h : Exp l x) : ∀ c ∈ l, Quiet c := by
  have he : ∀ e : Char, e = 'e' ∨ e = 'E' → Quiet e := by
    rintro e (rfl | rfl) <;> decide
  cases h with
  | absent => simp
  | given h1 h2 =>
    intro c hc
    rcases List.mem_cons.mp hc with rfl | hc
    · exact he _ h1
    · exact quiet_digits h2 c hc
  | plus h1 h2 =>
    intro c hc
    rcases List.mem_cons.mp hc with rfl | hc
    · exact he _ h1
    · rcases List.mem_cons.mp hc with rfl | hc
      · decide
      · exact quiet_digits h2 c hc
  | minus h1 h2 =>
    intro c hc
    rcases List.mem_cons.mp hc with rfl | hc
    · exact he _ h1
    · rcases List.mem_cons.mp hc with rfl | hc
      · decide
      · exact quiet_digits h2 c hc

theorem quiet_magnitude {l : List Char} {n : Nat} {e : Int} {w : Bool}
    (h : Rfc8259.Magnitude l n e w) : ∀ c ∈ l, Quiet c := by
  cases h with
  | mk h1 h2 h3 =>
    intro c hc
    rw [List.mem_append, List.mem_append] at hc
    rcases hc with (hc | hc) | hc
    · exact quiet_digits h1.1 c hc
    · cases h2 with
      | absent => simp at hc
      | given h2 =>
        rcases List.mem_cons.mp hc with rfl | hc
        · decide
        · exact quiet_digits h2 c hc
    · exact quiet_exp h3 c hc

theorem quiet_number {l : List Char} {d : Decimal} (h : Number l d) : ∀ c ∈ l, Quiet c := by
  cases h with
  | plus h => exact quiet_magnitude h
  | minus h =>
    intro c hc
    rcases List.mem_cons.mp hc with rfl | hc
    · decide
    · exact quiet_magnitude h c hc

/-! ## Taking space out -/

theorem squeeze_quiet {t : List Char} (h : ∀ c ∈ t, Quiet c) (r : List Char) :
    squeeze false (t ++ r) = t ++ squeeze false r := by
  induction t with
  | nil => rfl
  | cons c t ih =>
    have hc := h c (by simp)
    rw [List.cons_append, squeeze, if_neg hc.1, if_neg hc.2.1, ih fun c hc => h c (by simp [hc])]
    rfl

theorem squeeze_space {w : List Char} (h : Space w) (r : List Char) :
    squeeze false (w ++ r) = squeeze false r := by
  induction w with
  | nil => rfl
  | cons c w ih =>
    have hc := h c (by simp)
    rw [List.cons_append, squeeze, if_neg, if_pos hc, ih fun c hc => h c (by simp [hc])]
    rintro rfl
    simp at hc

theorem squeeze_inside {c : Char} (h1 : c ≠ '\\') (h2 : c ≠ '"') (r : List Char) (hr : r ≠ []) :
    squeeze true (c :: r) = c :: squeeze true r := by
  cases r with
  | nil => exact absurd rfl hr
  | cons e r => rw [squeeze, if_neg h1, if_neg h2]

theorem hex_inside {c : Char} {x : Nat} (h : HexDigit c x) : c ≠ '\\' ∧ c ≠ '"' := by
  rcases h with h | h
  · have := List.mem_of_getElem? h
    constructor <;> · rintro rfl; revert this; decide
  · have := List.mem_of_getElem? h
    constructor <;> · rintro rfl; revert this; decide

theorem squeeze_hex {l : List Char} {x : Nat} (h : Hex4 l x) (r : List Char) (hr : r ≠ []) :
    squeeze true (l ++ r) = l ++ squeeze true r := by
  cases h with
  | mk h1 h2 h3 h4 =>
    have a1 := hex_inside h1
    have a2 := hex_inside h2
    have a3 := hex_inside h3
    have a4 := hex_inside h4
    simp only [List.cons_append, List.nil_append]
    rw [squeeze_inside a1.1 a1.2 _ (by simp), squeeze_inside a2.1 a2.2 _ (by simp),
      squeeze_inside a3.1 a3.2 _ (by simp), squeeze_inside a4.1 a4.2 _ hr]

theorem squeeze_escape (e : Char) (r : List Char) :
    squeeze true ('\\' :: e :: r) = '\\' :: e :: squeeze true r := by
  rw [squeeze, if_pos rfl]

theorem squeeze_character {t : List Char} {c : Char} (h : Character t c) (r : List Char)
    (hr : r ≠ []) : squeeze true (t ++ r) = t ++ squeeze true r := by
  cases h with
  | plain h1 h2 _ => exact squeeze_inside h2 h1 r hr
  | escape _ => exact squeeze_escape _ r
  | unicode h =>
    simp only [List.cons_append]
    rw [squeeze_escape, squeeze_hex h r hr]
  | pair h1 h2 =>
    simp only [List.cons_append, List.append_assoc]
    rw [squeeze_escape, squeeze_hex h1 _ (by simp), squeeze_escape, squeeze_hex h2 r hr]

theorem squeeze_characters {t l : List Char} (h : Characters t l) (r : List Char) :
    squeeze true (t ++ '"' :: r) = t ++ '"' :: squeeze false r := by
  induction h with
  | nil =>
    cases r with
    | nil => rfl
    | cons e r => simp [squeeze]
  | cons h1 _ ih =>
    rw [List.append_assoc, squeeze_character h1 _ (by simp), ih, List.append_assoc]

theorem squeeze_str {t : List Char} {s : String} (h : Str t s) (r : List Char) :
    squeeze false (t ++ r) = t ++ squeeze false r := by
  obtain ⟨l, rfl, h⟩ := h
  simp only [List.cons_append, List.append_assoc, List.nil_append]
  rw [squeeze, if_pos rfl, squeeze_characters h]

theorem squeeze_mark {c : Char} (h : c ∈ ['[', ']', '{', '}', ',', ':']) (r : List Char) :
    squeeze false (c :: r) = c :: squeeze false r := by
  simp only [List.mem_cons, List.not_mem_nil, or_false] at h
  rcases h with rfl | rfl | rfl | rfl | rfl | rfl <;> simp [squeeze]

theorem no_space : Space [] := by simp [Space]

mutual
/-- Text of a value without its space is text of the value. -/
theorem squeeze_value {t : List Char} {j : J} :
    Value t j → ∃ u, Value u j ∧ ∀ r, squeeze false (t ++ r) = u ++ squeeze false r
  | .null => ⟨_, .null, squeeze_quiet (by decide)⟩
  | .true => ⟨_, .true, squeeze_quiet (by decide)⟩
  | .false => ⟨_, .false, squeeze_quiet (by decide)⟩
  | .number h1 h2 => ⟨_, .number h1 h2, squeeze_quiet (quiet_number h1)⟩
  | .str h => ⟨_, .str h, squeeze_str h⟩
  | .emptyArray h => ⟨_, .emptyArray no_space, fun r => by
      simp only [List.cons_append, List.append_assoc, List.nil_append]
      rw [squeeze_mark (by simp), squeeze_space h, squeeze_mark (by simp)]⟩
  | .array h => by
      obtain ⟨u, h1, h2⟩ := squeeze_items h
      refine ⟨_, .array h1, fun r => ?_⟩
      simp only [List.cons_append, List.append_assoc, List.nil_append]
      rw [squeeze_mark (by simp), h2, squeeze_mark (by simp)]
  | .emptyObject h => ⟨_, .emptyObject no_space, fun r => by
      simp only [List.cons_append, List.append_assoc, List.nil_append]
      rw [squeeze_mark (by simp), squeeze_space h, squeeze_mark (by simp)]⟩
  | .object h => by
      obtain ⟨u, h1, h2⟩ := squeeze_members h
      refine ⟨_, .object h1, fun r => ?_⟩
      simp only [List.cons_append, List.append_assoc, List.nil_append]
      rw [squeeze_mark (by simp), h2, squeeze_mark (by simp)]
theorem squeeze_items {t : List Char} {l : List J} :
    Items t l → ∃ u, Items u l ∧ ∀ r, squeeze false (t ++ r) = u ++ squeeze false r
  | .one a b c => by
      obtain ⟨u, h1, h2⟩ := squeeze_value b
      refine ⟨_, .one no_space h1 no_space, fun r => ?_⟩
      simp only [List.append_assoc, List.nil_append, List.append_nil]
      rw [squeeze_space a, h2, squeeze_space c]
  | .cons a b c d => by
      obtain ⟨u, h1, h2⟩ := squeeze_value b
      obtain ⟨v, h3, h4⟩ := squeeze_items d
      refine ⟨_, .cons no_space h1 no_space h3, fun r => ?_⟩
      simp only [List.append_assoc, List.nil_append, List.append_nil, List.cons_append]
      rw [squeeze_space a, h2, squeeze_space c, squeeze_mark (by simp), h4]
theorem squeeze_members {t : List Char} {l : List (String × J)} :
    Members t l → ∃ u, Members u l ∧ ∀ r, squeeze false (t ++ r) = u ++ squeeze false r
  | .one a b c d e f => by
      obtain ⟨u, h1, h2⟩ := squeeze_value e
      refine ⟨_, .one no_space b no_space no_space h1 no_space, fun r => ?_⟩
      simp only [List.append_assoc, List.nil_append, List.append_nil, List.cons_append]
      rw [squeeze_space a, squeeze_str b, squeeze_space c, squeeze_mark (by simp), squeeze_space d, h2,
        squeeze_space f]
  | .cons a b c d e f g => by
      obtain ⟨u, h1, h2⟩ := squeeze_value e
      obtain ⟨v, h3, h4⟩ := squeeze_members g
      refine ⟨_, .cons no_space b no_space no_space h1 no_space h3, fun r => ?_⟩
      simp only [List.append_assoc, List.nil_append, List.append_nil, List.cons_append]
      rw [squeeze_space a, squeeze_str b, squeeze_space c, squeeze_mark (by simp), squeeze_space d, h2,
        squeeze_space f, squeeze_mark (by simp), h4]
end

theorem squeeze_document {t : List Char} {j : J} (h : Document t j) :
    Value (squeeze false t) j := by
  obtain ⟨w, v, u, rfl, h1, h2, h3⟩ := h
  obtain ⟨x, h4, h5⟩ := squeeze_value h2
  have e := squeeze_space h3 []
  rw [List.append_nil] at e
  rw [List.append_assoc, squeeze_space h1, h5, e, squeeze, List.append_nil]
  exact h4

/-! ## Putting space in -/

theorem indent_eq (n : Nat) : '\n' :: indent n = newLine n := by
  have : ∀ n, indent n = List.replicate (2 * n) ' ' := by
    intro n
    induction n with
    | zero => rfl
    | succ n ih =>
      rw [indent, ih, Nat.mul_add]
      rfl
  rw [this, newLine]

theorem newLine_space (n : Nat) : Space (newLine n) := by
  intro c hc
  rcases List.mem_cons.mp hc with rfl | hc
  · simp
  · exact .inl (List.eq_of_mem_replicate hc)

theorem indent_space (n : Nat) : Space ('\n' :: indent n) := by
  rw [indent_eq]; exact newLine_space n

/-- The elements and the end of the last line. -/
theorem itemsPretty_false (t : FloatText) (n : Nat) (a : Ser) (l : List Ser) :
    itemsPretty t n false (a :: l) = ',' :: itemsPretty t n true (a :: l) := by
  simp [itemsPretty]

theorem membersPretty_false (t : FloatText) (n : Nat) (a : String × Ser)
    (l : List (String × Ser)) :
    membersPretty t n false (a :: l) = ',' :: membersPretty t n true (a :: l) := by
  simp [membersPretty]

mutual
/-- The text for people stands for the same value. -/
theorem pretty_value (t : FloatText) (num : F32 → F64)
    (h64 : ∀ f : F64, f.isFinite = true → ∃ d, Number (t.f64 f) d ∧ NumberIs d (.float f)) :
    ∀ (s : Ser) (n : Nat), Fine s → EveryF32 (fun f => f.isFinite = true →
      ∃ d, Number (t.f32 f) d ∧ NumberIs d (.float (num f))) s → Value (s.pretty t n) (s.toJ num)
  | .null, _, hf, h32 => text_value t num h64 .null hf h32
  | .bool b, _, hf, h32 => text_value t num h64 (.bool b) hf h32
  | .int i, _, hf, h32 => text_value t num h64 (.int i) hf h32
  | .f32 f, _, hf, h32 => text_value t num h64 (.f32 f) hf h32
  | .f64 f, _, hf, h32 => text_value t num h64 (.f64 f) hf h32
  | .str s, _, hf, h32 => text_value t num h64 (.str s) hf h32
  | .arr [], _, _, _ => .emptyArray (w := []) no_space
  | .arr (a :: l), n, hf, h32 => by
    have := itemsPretty_value t num h64 (a :: l) (n + 1) (by simp) hf h32 (indent_space n)
    have := Value.array this
    simpa [Ser.pretty, Ser.toJ] using this
  | .obj [], _, _, _ => .emptyObject (w := []) no_space
  | .obj (e :: l), n, hf, h32 => by
    have := membersPretty_value t num h64 (e :: l) (n + 1) (by simp) hf.2 h32 (indent_space n)
    have := Value.object this
    simpa [Ser.pretty, Ser.toJ] using this
theorem itemsPretty_value (t : FloatText) (num : F32 → F64)
    (h64 : ∀ f : F64, f.isFinite = true → ∃ d, Number (t.f64 f) d ∧ NumberIs d (.float f)) :
    ∀ (l : List Ser) (n : Nat), l ≠ [] → FineList l → EveryF32Items (fun f => f.isFinite = true →
      ∃ d, Number (t.f32 f) d ∧ NumberIs d (.float (num f))) l → ∀ {w : List Char}, Space w →
      Items (itemsPretty t n true l ++ w) (serList num l)
  | [], _, h, _, _, _, _ => absurd rfl h
  | [a], n, _, hf, h32, w, hw => by
    have := Items.one (indent_space n) (pretty_value t num h64 a n hf.1 h32.1) hw
    simpa [itemsPretty, serList] using this
  | a :: b :: l, n, _, hf, h32, w, hw => by
    have := Items.cons (v := []) (indent_space n) (pretty_value t num h64 a n hf.1 h32.1) no_space
      (itemsPretty_value t num h64 (b :: l) n (by simp) hf.2 h32.2 hw)
    rw [itemsPretty, itemsPretty_false, serList]
    simpa using this
theorem membersPretty_value (t : FloatText) (num : F32 → F64)
    (h64 : ∀ f : F64, f.isFinite = true → ∃ d, Number (t.f64 f) d ∧ NumberIs d (.float f)) :
    ∀ (l : List (String × Ser)) (n : Nat), l ≠ [] → FineEntries l → EveryF32Members (fun f =>
      f.isFinite = true → ∃ d, Number (t.f32 f) d ∧ NumberIs d (.float (num f))) l →
      ∀ {w : List Char}, Space w → Members (membersPretty t n true l ++ w) (serEntries num l)
  | [], _, h, _, _, _, _ => absurd rfl h
  | [(k, a)], n, _, hf, h32, w, hw => by
    have := Members.one (v := []) (x := [' ']) (indent_space n) (strText_str k) no_space
      (by simp [Space]) (pretty_value t num h64 a n hf.1 h32.1) hw
    simpa [membersPretty, serEntries] using this
  | (k, a) :: e :: l, n, _, hf, h32, w, hw => by
    have := Members.cons (v := []) (x := [' ']) (y := []) (indent_space n) (strText_str k) no_space
      (by simp [Space]) (pretty_value t num h64 a n hf.1 h32.1) no_space
      (membersPretty_value t num h64 (e :: l) n (by simp) hf.2 h32.2 hw)
    rw [membersPretty, membersPretty_false, serEntries]
    simpa using this
end

/-! ## One text from the other -/

theorem spread_quiet {t : List Char} (h : ∀ c ∈ t, Quiet c) (d : Nat) (r : List Char) :
    spread d false (t ++ r) = t ++ spread d false r := by
  induction t with
  | nil => rfl
  | cons c t ih =>
    obtain ⟨h1, _, h2, h3, h4, h5⟩ := h c (by simp)
    have hi := ih fun c hc => h c (by simp [hc])
    rw [List.cons_append, List.cons_append, ← hi]
    cases t ++ r with
    | nil => simp only [spread, if_neg h3]
    | cons e l => rw [spread, if_neg h1, if_neg h2, if_neg h3, if_neg h4, if_neg h5]

theorem spread_inside {c : Char} (h1 : c ≠ '\\') (h2 : c ≠ '"') (d : Nat) (r : List Char)
    (hr : r ≠ []) : spread d true (c :: r) = c :: spread d true r := by
  cases r with
  | nil => exact absurd rfl hr
  | cons e r => rw [spread, if_neg h1, if_neg h2]

theorem spread_hex {l : List Char} {x : Nat} (h : Hex4 l x) (d : Nat) (r : List Char)
    (hr : r ≠ []) : spread d true (l ++ r) = l ++ spread d true r := by
  cases h with
  | mk h1 h2 h3 h4 =>
    have a1 := hex_inside h1
    have a2 := hex_inside h2
    have a3 := hex_inside h3
    have a4 := hex_inside h4
    simp only [List.cons_append, List.nil_append]
    rw [spread_inside a1.1 a1.2 _ _ (by simp), spread_inside a2.1 a2.2 _ _ (by simp),
      spread_inside a3.1 a3.2 _ _ (by simp), spread_inside a4.1 a4.2 _ _ hr]

theorem spread_escape (e : Char) (d : Nat) (r : List Char) :
    spread d true ('\\' :: e :: r) = '\\' :: e :: spread d true r := by
  rw [spread, if_pos rfl]

theorem spread_character {t : List Char} {c : Char} (h : Character t c) (d : Nat) (r : List Char)
    (hr : r ≠ []) : spread d true (t ++ r) = t ++ spread d true r := by
  cases h with
  | plain h1 h2 _ => exact spread_inside h2 h1 d r hr
  | escape _ => exact spread_escape _ d r
  | unicode h =>
    simp only [List.cons_append]
    rw [spread_escape, spread_hex h d r hr]
  | pair h1 h2 =>
    simp only [List.cons_append, List.append_assoc]
    rw [spread_escape, spread_hex h1 _ _ (by simp), spread_escape, spread_hex h2 _ r hr]

theorem spread_characters {t l : List Char} (h : Characters t l) (d : Nat) (r : List Char) :
    spread d true (t ++ '"' :: r) = t ++ '"' :: spread d false r := by
  induction h with
  | nil =>
    cases r with
    | nil => rfl
    | cons e r => simp [spread]
  | cons h1 _ ih =>
    rw [List.append_assoc, spread_character h1 _ _ (by simp), ih, List.append_assoc]

theorem spread_str (s : String) (d : Nat) (r : List Char) :
    spread d false (strText s ++ r) = strText s ++ spread d false r := by
  obtain ⟨l, e, h⟩ := strText_str s
  rw [e]
  simp only [List.cons_append, List.append_assoc, List.nil_append]
  rw [← spread_characters h]
  cases h' : l ++ '"' :: r with
  | nil => simp at h'
  | cons a b => rw [spread, if_pos rfl]

theorem spread_close {c : Char} (h : c = ']' ∨ c = '}') (d : Nat) (r : List Char) :
    spread (d + 1) false (c :: r) = newLine d ++ c :: spread d false r := by
  cases r with
  | nil => simp only [spread, if_pos h, Nat.add_sub_cancel]
  | cons e r =>
    rw [spread, if_neg (by rcases h with rfl | rfl <;> decide),
      if_neg (by rcases h with rfl | rfl <;> decide), if_pos h]
    rfl

theorem spread_open {c : Char} (h : c = '[' ∨ c = '{') (d : Nat) {e : Char} (r : List Char)
    (he : ¬ (e = ']' ∨ e = '}')) :
    spread d false (c :: e :: r) = c :: newLine (d + 1) ++ spread (d + 1) false (e :: r) := by
  rw [spread, if_neg (by rcases h with rfl | rfl <;> decide), if_pos h, if_neg he]

theorem spread_empty {c e : Char} (h : c = '[' ∨ c = '{') (d : Nat) (r : List Char)
    (he : e = ']' ∨ e = '}') : spread d false (c :: e :: r) = c :: e :: spread d false r := by
  rw [spread, if_neg (by rcases h with rfl | rfl <;> decide), if_pos h, if_pos he]

theorem spread_comma (d : Nat) (r : List Char) (hr : r ≠ []) :
    spread d false (',' :: r) = ',' :: newLine d ++ spread d false r := by
  cases r with
  | nil => exact absurd rfl hr
  | cons e r => simp [spread]

theorem spread_colon (d : Nat) (r : List Char) (hr : r ≠ []) :
    spread d false (':' :: r) = ':' :: ' ' :: spread d false r := by
  cases r with
  | nil => exact absurd rfl hr
  | cons e r => simp [spread]

/-- Texts of floats that are numbers. -/
def Numbers (t : FloatText) : Prop :=
  (∀ f : F32, f.isFinite = true → ∃ d, Number (t.f32 f) d) ∧
    ∀ f : F64, f.isFinite = true → ∃ d, Number (t.f64 f) d

theorem numbers_of {t : FloatText} (h : FloatsOf t) : Numbers t :=
  ⟨fun f hf => (h.f32 f hf).imp fun _ h => h.1, fun f hf => (h.f64 f hf).imp fun _ h => h.1⟩

theorem intText_number (n : Int) : ∃ d, Number (intText n) d := by
  unfold intText
  split
  · exact ⟨_, .minus (toDigits_magnitude _)⟩
  · exact ⟨_, .plus (toDigits_magnitude _)⟩

theorem number_open {l : List Char} {d : Decimal} (h : Number l d) :
    ∃ c r, l = c :: r ∧ ¬ (c = ']' ∨ c = '}') := by
  obtain ⟨c, r, rfl, _⟩ := number_start h
  exact ⟨c, r, rfl, (quiet_number h c (by simp)).2.2.2.1⟩

/-- A value starts with no closing bracket. -/
theorem text_start {t : FloatText} (ht : Numbers t) (s : Ser) :
    ∃ c r, s.text t = c :: r ∧ ¬ (c = ']' ∨ c = '}') := by
  cases s with
  | null => exact ⟨_, _, rfl, by decide⟩
  | bool b => cases b <;> exact ⟨_, _, rfl, by decide⟩
  | int n =>
    obtain ⟨d, h⟩ := intText_number n
    rw [Ser.text]
    exact number_open h
  | f32 f =>
    rw [Ser.text]
    split
    · rename_i hf
      obtain ⟨d, h⟩ := ht.1 f hf
      exact number_open h
    · exact ⟨_, _, rfl, by decide⟩
  | f64 f =>
    rw [Ser.text]
    split
    · rename_i hf
      obtain ⟨d, h⟩ := ht.2 f hf
      exact number_open h
    · exact ⟨_, _, rfl, by decide⟩
  | str s => exact ⟨_, _, rfl, by decide⟩
  | arr l => exact ⟨_, _, rfl, by decide⟩
  | obj l => exact ⟨_, _, rfl, by decide⟩

theorem itemsText_start {t : FloatText} (ht : Numbers t) (a : Ser) (l : List Ser) :
    ∃ c r, itemsText t (a :: l) = c :: r ∧ ¬ (c = ']' ∨ c = '}') := by
  obtain ⟨c, r, h1, h2⟩ := text_start ht a
  exact ⟨c, _, by rw [itemsText, h1]; rfl, h2⟩

mutual
/-- The text for people is the text without space, laid out. -/
theorem spread_text {t : FloatText} (ht : Numbers t) :
    ∀ (s : Ser) (d : Nat) (r : List Char),
      spread d false (s.text t ++ r) = s.pretty t d ++ spread d false r
  | .null, d, r => spread_quiet (t := ['n', 'u', 'l', 'l']) (by decide) d r
  | .bool true, d, r => spread_quiet (t := ['t', 'r', 'u', 'e']) (by decide) d r
  | .bool false, d, r => spread_quiet (t := ['f', 'a', 'l', 's', 'e']) (by decide) d r
  | .int n, d, r => by
    obtain ⟨x, h⟩ := intText_number n
    exact spread_quiet (quiet_number h) d r
  | .f32 f, d, r => by
    rw [Ser.text, Ser.pretty]
    split
    · rename_i hf
      obtain ⟨x, h⟩ := ht.1 f hf
      exact spread_quiet (quiet_number h) d r
    · exact spread_quiet (by decide) d r
  | .f64 f, d, r => by
    rw [Ser.text, Ser.pretty]
    split
    · rename_i hf
      obtain ⟨x, h⟩ := ht.2 f hf
      exact spread_quiet (quiet_number h) d r
    · exact spread_quiet (by decide) d r
  | .str s, d, r => spread_str s d r
  | .arr [], d, r => spread_empty (.inl rfl) d r (.inl rfl)
  | .arr (a :: l), d, r => by
    obtain ⟨c, q, h1, h2⟩ := itemsText_start ht a l
    have h3 := spread_items ht (a :: l) (d + 1) (']' :: r) (by simp)
    rw [spread_close (.inl rfl)] at h3
    rw [Ser.text]
    simp only [List.cons_append, List.append_assoc, List.nil_append]
    rw [h1, List.cons_append] at h3 ⊢
    rw [spread_open (.inl rfl) _ _ h2, List.cons_append, h3]
    simp [Ser.pretty, ← indent_eq]
  | .obj [], d, r => spread_empty (.inr rfl) d r (.inr rfl)
  | .obj ((k, a) :: l), d, r => by
    have h3 := spread_members ht ((k, a) :: l) (d + 1) ('}' :: r) (by simp)
    rw [spread_close (.inr rfl)] at h3
    obtain ⟨q, hq⟩ : ∃ q, membersText t ((k, a) :: l) = '"' :: q := ⟨_, rfl⟩
    rw [Ser.text]
    simp only [List.cons_append, List.append_assoc, List.nil_append]
    rw [hq, List.cons_append] at h3 ⊢
    rw [spread_open (.inr rfl) _ _ (by decide), List.cons_append, h3]
    simp [Ser.pretty, ← indent_eq]
/-- The elements, each with a new line in front of it. -/
theorem spread_items {t : FloatText} (ht : Numbers t) :
    ∀ (l : List Ser) (d : Nat) (r : List Char), l ≠ [] →
      newLine d ++ spread d false (itemsText t l ++ r) =
        itemsPretty t d true l ++ spread d false r
  | [], _, _, h => absurd rfl h
  | [a], d, r, _ => by
    have := spread_text ht a d r
    simp [itemsText, itemsPretty, this, ← indent_eq]
  | a :: b :: l, d, r, _ => by
    have h1 := spread_text ht a d (',' :: (itemsText t (b :: l) ++ r))
    obtain ⟨c, q, h2, _⟩ := itemsText_start ht b l
    rw [spread_comma _ _ (by rw [h2]; simp), List.cons_append,
      spread_items ht (b :: l) d r (by simp)] at h1
    rw [itemsText, itemsPretty, itemsPretty_false]
    simp only [List.isEmpty_cons, Bool.false_eq_true, if_false, if_true, List.append_assoc,
      List.cons_append, List.nil_append]
    rw [h1, ← indent_eq]
    simp
/-- The entries, each with a new line in front of it. -/
theorem spread_members {t : FloatText} (ht : Numbers t) :
    ∀ (l : List (String × Ser)) (d : Nat) (r : List Char), l ≠ [] →
      newLine d ++ spread d false (membersText t l ++ r) =
        membersPretty t d true l ++ spread d false r
  | [], _, _, h => absurd rfl h
  | [(k, a)], d, r, _ => by
    have h1 := spread_text ht a d r
    obtain ⟨c, q, h2, _⟩ := text_start ht a
    have h3 := spread_str k d (':' :: (a.text t ++ r))
    rw [spread_colon _ _ (by rw [h2]; simp), h1] at h3
    rw [membersText, membersPretty]
    simp only [List.isEmpty_nil, if_true, List.append_assoc, List.cons_append, List.nil_append]
    rw [h3, ← indent_eq]
    simp [membersPretty]
  | (k, a) :: (k', b) :: l, d, r, _ => by
    have h1 := spread_text ht a d (',' :: (membersText t ((k', b) :: l) ++ r))
    obtain ⟨q, hq⟩ : ∃ q, membersText t ((k', b) :: l) = '"' :: q := ⟨_, rfl⟩
    rw [spread_comma _ _ (by rw [hq]; simp), List.cons_append,
      spread_members ht ((k', b) :: l) d r (by simp)] at h1
    obtain ⟨c, p, h2, _⟩ := text_start ht a
    have h3 := spread_str k d (':' :: (a.text t ++ (',' :: (membersText t ((k', b) :: l) ++ r))))
    rw [spread_colon _ _ (by rw [h2]; simp), h1] at h3
    rw [membersText, membersPretty, membersPretty_false]
    simp only [List.isEmpty_cons, Bool.false_eq_true, if_false, if_true, List.append_assoc,
      List.cons_append, List.nil_append]
    rw [h3, ← indent_eq]
    simp
end

mutual
/-- The text for people without its space. -/
theorem squeeze_pretty {t : FloatText} (ht : Numbers t) :
    ∀ (s : Ser) (d : Nat) (r : List Char),
      squeeze false (s.pretty t d ++ r) = s.text t ++ squeeze false r
  | .null, d, r => squeeze_quiet (t := ['n', 'u', 'l', 'l']) (by decide) r
  | .bool true, d, r => squeeze_quiet (t := ['t', 'r', 'u', 'e']) (by decide) r
  | .bool false, d, r => squeeze_quiet (t := ['f', 'a', 'l', 's', 'e']) (by decide) r
  | .int n, d, r => by
    obtain ⟨x, h⟩ := intText_number n
    exact squeeze_quiet (quiet_number h) r
  | .f32 f, d, r => by
    rw [Ser.text, Ser.pretty]
    split
    · rename_i hf
      obtain ⟨x, h⟩ := ht.1 f hf
      exact squeeze_quiet (quiet_number h) r
    · exact squeeze_quiet (by decide) r
  | .f64 f, d, r => by
    rw [Ser.text, Ser.pretty]
    split
    · rename_i hf
      obtain ⟨x, h⟩ := ht.2 f hf
      exact squeeze_quiet (quiet_number h) r
    · exact squeeze_quiet (by decide) r
  | .str s, d, r => squeeze_str (strText_str s) r
  | .arr [], d, r => by
    show squeeze false ('[' :: ']' :: r) = _
    rw [squeeze_mark (by simp), squeeze_mark (by simp)]
    rfl
  | .arr (a :: l), d, r => by
    have h1 := squeeze_itemsPretty ht (a :: l) (d + 1) (('\n' :: indent d) ++ ']' :: r)
    rw [squeeze_space (indent_space d), squeeze_mark (by simp)] at h1
    rw [Ser.text, Ser.pretty]
    simp only [List.isEmpty_cons, Bool.false_eq_true, if_false, List.cons_append, List.append_assoc,
      List.nil_append] at h1 ⊢
    rw [squeeze_mark (by simp), h1]
  | .obj [], d, r => by
    show squeeze false ('{' :: '}' :: r) = _
    rw [squeeze_mark (by simp), squeeze_mark (by simp)]
    rfl
  | .obj (a :: l), d, r => by
    have h1 := squeeze_membersPretty ht (a :: l) (d + 1) (('\n' :: indent d) ++ '}' :: r)
    rw [squeeze_space (indent_space d), squeeze_mark (by simp)] at h1
    rw [Ser.text, Ser.pretty]
    simp only [List.isEmpty_cons, Bool.false_eq_true, if_false, List.cons_append, List.append_assoc,
      List.nil_append] at h1 ⊢
    rw [squeeze_mark (by simp), h1]
theorem squeeze_itemsPretty {t : FloatText} (ht : Numbers t) :
    ∀ (l : List Ser) (d : Nat) (r : List Char),
      squeeze false (itemsPretty t d true l ++ r) = itemsText t l ++ squeeze false r
  | [], _, _ => rfl
  | [a], d, r => by
    have := squeeze_space (indent_space d) (a.pretty t d ++ r)
    rw [squeeze_pretty ht a d r] at this
    simpa [itemsText, itemsPretty] using this
  | a :: b :: l, d, r => by
    have := squeeze_space (indent_space d) (a.pretty t d ++ ',' :: (itemsPretty t d true (b :: l) ++ r))
    rw [squeeze_pretty ht a d, squeeze_mark (by simp), squeeze_itemsPretty ht (b :: l) d r] at this
    rw [itemsPretty, itemsPretty_false, itemsText]
    simpa using this
theorem squeeze_membersPretty {t : FloatText} (ht : Numbers t) :
    ∀ (l : List (String × Ser)) (d : Nat) (r : List Char),
      squeeze false (membersPretty t d true l ++ r) = membersText t l ++ squeeze false r
  | [], _, _ => rfl
  | [(k, a)], d, r => by
    have := squeeze_space (indent_space d) (strText k ++ ':' :: ([' '] ++ (a.pretty t d ++ r)))
    rw [squeeze_str (strText_str k), squeeze_mark (by simp), squeeze_space (w := [' ']) (by simp [Space]),
      squeeze_pretty ht a d r] at this
    simpa [membersText, membersPretty] using this
  | (k, a) :: b :: l, d, r => by
    have := squeeze_space (indent_space d) (strText k ++ ':' :: ([' '] ++ (a.pretty t d ++
      ',' :: (membersPretty t d true (b :: l) ++ r))))
    rw [squeeze_str (strText_str k), squeeze_mark (by simp), squeeze_space (w := [' ']) (by simp [Space]),
      squeeze_pretty ht a d, squeeze_mark (by simp), squeeze_membersPretty ht (b :: l) d r] at this
    rw [membersPretty, membersPretty_false, membersText]
    simpa using this
end

end Gvas.Text
