import Verif.Model.Display
import Verif.Lemmas.Instances

/-!
# Messages can be taken apart again
-/

namespace Gvas

/-! ## Digits -/

theorem digitChar_inj {a b : Nat} (ha : a < 16) (hb : b < 16)
    (h : Nat.digitChar a = Nat.digitChar b) : a = b := by
  have : ∀ a b : Fin 16, Nat.digitChar a.val = Nat.digitChar b.val → a = b := by decide
  exact congrArg Fin.val (this ⟨a, ha⟩ ⟨b, hb⟩ h)

theorem toDigits_inj {b : Nat} (h1 : 1 < b) (h2 : b ≤ 16) (m n : Nat)
    (h : Nat.toDigits b m = Nat.toDigits b n) : m = n := by
  induction m using Nat.strongRecOn generalizing n with
  | ind m ih =>
    rw [Nat.toDigits_eq_if h1, Nat.toDigits_eq_if h1 (n := n)] at h
    have hm := Nat.mod_lt m (show 0 < b by omega)
    have hn := Nat.mod_lt n (show 0 < b by omega)
    split at h <;> split at h
    · simp at h
      exact digitChar_inj (by omega) (by omega) h
    · exfalso
      have := congrArg List.length h
      have := Nat.length_toDigits_pos (b := b) (n := n / b)
      simp at *
    · exfalso
      have := congrArg List.length h
      have := Nat.length_toDigits_pos (b := b) (n := m / b)
      simp at *
    · obtain ⟨e1, e2⟩ := List.append_inj' h rfl
      simp at e2
      have e2 := digitChar_inj (by omega) (by omega) e2
      have e1 := ih (m / b) (Nat.div_lt_self (by omega) h1) _ e1
      rw [← Nat.div_add_mod m b, ← Nat.div_add_mod n b, e1, e2]

theorem mem_toDigits {b : Nat} (h1 : 1 < b) {c : Char} (n : Nat) (h : c ∈ Nat.toDigits b n) :
    ∃ d, d < b ∧ c = Nat.digitChar d := by
  induction n using Nat.strongRecOn with
  | ind n ih =>
    rw [Nat.toDigits_eq_if h1] at h
    split at h
    · simp at h
      exact ⟨n, by omega, h⟩
    · rcases List.mem_append.mp h with h | h
      · exact ih _ (Nat.div_lt_self (by omega) h1) h
      · simp at h
        exact ⟨_, Nat.mod_lt _ (by omega), h⟩

/-- Only digits. -/
def Digits (l : List Char) : Prop := ∀ c ∈ l, c ≠ ' ' ∧ c ≠ 'x' ∧ c ≠ '`' ∧ c ≠ '.' ∧ c ≠ '+'

theorem digits_toDigits {b : Nat} (h1 : 1 < b) (h2 : b ≤ 16) (n : Nat) :
    Digits (Nat.toDigits b n) ∧ '-' ∉ Nat.toDigits b n := by
  have : ∀ d : Fin 16, (Nat.digitChar d.val ≠ ' ' ∧ Nat.digitChar d.val ≠ 'x' ∧
      Nat.digitChar d.val ≠ '`' ∧ Nat.digitChar d.val ≠ '.' ∧ Nat.digitChar d.val ≠ '+') ∧
      '-' ≠ Nat.digitChar d.val := by decide
  refine ⟨fun c h => ?_, fun h => ?_⟩
  · obtain ⟨d, hd, rfl⟩ := mem_toDigits h1 n h
    exact (this ⟨d, by omega⟩).1
  · obtain ⟨d, hd, e⟩ := mem_toDigits h1 n h
    exact (this ⟨d, by omega⟩).2 e

theorem dec_toList (n : Nat) : (dec n).toList = Nat.toDigits 10 n := by simp [dec]

theorem hex_toList (n : Nat) : (hex n).toList = '0' :: 'x' :: Nat.toDigits 16 n := by
  simp [hex]

theorem decInt_toList (v : Int) : (decInt v).toList =
    if v < 0 then '-' :: Nat.toDigits 10 v.natAbs else Nat.toDigits 10 v.natAbs := by
  unfold decInt
  split <;> simp [dec]

theorem digits_decInt (v : Int) : Digits (decInt v).toList := by
  rw [decInt_toList]
  have := (digits_toDigits (b := 10) (by omega) (by omega) v.natAbs).1
  split
  · intro c hc
    rcases List.mem_cons.mp hc with rfl | hc
    · decide
    · exact this c hc
  · exact this

theorem decInt_inj {v w : Int} (h : (decInt v).toList = (decInt w).toList) : v = w := by
  rw [decInt_toList, decInt_toList] at h
  have n1 := (digits_toDigits (b := 10) (by omega) (by omega) v.natAbs).2
  have n2 := (digits_toDigits (b := 10) (by omega) (by omega) w.natAbs).2
  have inj := toDigits_inj (b := 10) (by omega) (by omega) v.natAbs w.natAbs
  split at h <;> split at h
  · have := inj (List.cons.inj h).2
    omega
  · rw [← h] at n2
    simp at n2
  · rw [h] at n1
    simp at n1
  · have := inj h
    omega

/-! ## Splitting -/

/-- The part before the first `c`. -/
theorem split_first {c : Char} {a a' r r' : List Char} (ha : c ∉ a) (ha' : c ∉ a')
    (h : a ++ c :: r = a' ++ c :: r') : a = a' ∧ r = r' := by
  induction a generalizing a' with
  | nil =>
    cases a' with
    | nil => simpa using h
    | cons x a' => simp at h ha'; exact absurd h.1 ha'.1
  | cons x a ih =>
    cases a' with
    | nil => simp at h ha; exact absurd h.1.symm ha.1
    | cons y a' =>
      simp only [List.mem_cons, not_or] at ha ha'
      simp only [List.cons_append, List.cons.injEq] at h
      obtain ⟨e1, e2⟩ := ih ha.2 ha'.2 h.2
      exact ⟨by rw [h.1, e1], e2⟩

/-- The part after the last `c`. -/
theorem split_last {c : Char} {a a' r r' : List Char} (ha : c ∉ r) (ha' : c ∉ r')
    (h : a ++ c :: r = a' ++ c :: r') : a = a' ∧ r = r' := by
  have := congrArg List.reverse h
  simp only [List.reverse_append, List.reverse_cons, List.append_assoc, List.singleton_append]
    at this
  obtain ⟨e1, e2⟩ := split_first (by simpa using ha) (by simpa using ha') this
  exact ⟨List.reverse_inj.mp e2, List.reverse_inj.mp e1⟩

/-- A message that ends with a position. -/
theorem split_position {a a' : String} {p p' : Nat}
    (h : a ++ " at position " ++ hex p = a' ++ " at position " ++ hex p') : a = a' ∧ p = p' := by
  have h := congrArg String.toList h
  have e : ∀ (a : String) p, (a ++ " at position " ++ hex p).toList =
      (a.toList ++ " at position 0".toList) ++ 'x' :: Nat.toDigits 16 p := fun a p => by
    simp only [String.toList_append, hex_toList, List.append_assoc]
    rfl
  rw [e, e] at h
  have nx : ∀ p, 'x' ∉ Nat.toDigits 16 p := fun p h =>
    ((digits_toDigits (b := 16) (by omega) (by omega) p).1 _ h).2.1 rfl
  obtain ⟨e1, e2⟩ := split_last (nx p) (nx p') h
  exact ⟨String.toList_inj.mp (List.append_cancel_right e1), toDigits_inj (by omega) (by omega) _ _ e2⟩

theorem append_left {a b c : String} (h : a ++ b = a ++ c) : b = c := by
  have := congrArg String.toList h
  simp only [String.toList_append] at this
  exact String.toList_inj.mp (List.append_cancel_left this)

/-- A number followed by something that starts with a character no number contains. -/
theorem split_dec {c : Char} (hc : ∀ n, c ∉ (dec n).toList) {n n' : Nat} {r r' s : String}
    (hs : ∃ t, s.toList = c :: t)
    (h : dec n ++ (s ++ r) = dec n' ++ (s ++ r')) : n = n' ∧ r = r' := by
  obtain ⟨t, ht⟩ := hs
  have h := congrArg String.toList h
  simp only [String.toList_append, ht, List.cons_append] at h
  obtain ⟨e1, e2⟩ := split_first (hc n) (hc n') h
  rw [dec_toList, dec_toList] at e1
  exact ⟨toDigits_inj (by omega) (by omega) _ _ e1,
    String.toList_inj.mp (List.append_cancel_left e2)⟩

theorem dec_inj {n n' : Nat} (h : dec n = dec n') : n = n' := by
  have h := congrArg String.toList h
  rw [dec_toList, dec_toList] at h
  exact toDigits_inj (by omega) (by omega) _ _ h

theorem hex_inj {n n' : Nat} (h : hex n = hex n') : n = n' := by
  have h := congrArg String.toList h
  rw [hex_toList, hex_toList] at h
  exact toDigits_inj (b := 16) (by omega) (by omega) _ _ (by simpa using h)

theorem no_dec {n : Nat} : ' ' ∉ (dec n).toList ∧ '.' ∉ (dec n).toList ∧ '-' ∉ (dec n).toList ∧
    '+' ∉ (dec n).toList := by
  rw [dec_toList]
  have := digits_toDigits (b := 10) (by omega) (by omega) n
  exact ⟨fun h => (this.1 _ h).1 rfl, fun h => (this.1 _ h).2.2.2.1 rfl, this.2,
    fun h => (this.1 _ h).2.2.2.2 rfl⟩

/-! ## Kinds of messages -/

/-- The fixed beginnings of the messages. -/
def beginnings : List String :=
  ["Invalid header: ", "Invalid value size, expected ", "Invalid string size ",
   "Invalid string terminator ", "Invalid boolean value ", "Missing hint for struct ",
   "Missing argument: ", "Invalid property ", "No discriminant in enum `",
   "Unexpected array_index value ", "Unexpected terminator value ",
   "Invalid UTF-16 string at position ", "Invalid UTF-8 string at position ",
   "failed to fill whole buffer"]

/-- Which of them a message has. -/
def kind : Err → Nat
  | .invalidHeader _ => 0
  | .invalidValueSize _ _ _ => 1
  | .invalidString _ _ => 2
  | .invalidStringTerminator _ _ => 3
  | .invalidBoolean _ _ => 4
  | .missingHint _ _ _ => 5
  | .missingArgument _ _ => 6
  | .invalidProperty _ _ => 7
  | .invalidEnumValue _ _ _ => 8
  | .invalidArrayIndex _ _ => 9
  | .invalidTerminator _ _ => 10
  | .fromUtf16 _ => 11
  | .fromUtf8 _ => 12
  | .eof => 13
  | .serializeInvalidValue _ => 14
  | .io => 15

theorem display_kind {e : Err} {m : String} (h : e.display = some m)
    (h1 : ∀ msg, e ≠ .serializeInvalidValue msg) :
    ∃ (hk : kind e < beginnings.length), (beginnings[kind e]).toList <+: m.toList := by
  cases e <;> simp only [Err.display, Option.some.injEq] at h <;>
    first
      | exact absurd rfl (h1 _)
      | (subst h; refine ⟨by simp only [kind]; decide, ?_⟩; try simp only [String.append_assoc, String.toList_append]
         first | exact List.prefix_append _ _ | exact List.prefix_refl _)
      | exact absurd h (by simp)

theorem beginnings_checked : ∀ i j : Fin beginnings.length,
    (beginnings[i.val]).toList.isPrefixOf (beginnings[j.val]).toList = true → i = j := by
  decide +kernel

theorem beginnings_apart (i j : Nat) (hi : i < beginnings.length) (hj : j < beginnings.length)
    (h : (beginnings[i]).toList <+: (beginnings[j]).toList) : i = j := by
  exact congrArg Fin.val (beginnings_checked ⟨i, hi⟩ ⟨j, hj⟩ (List.isPrefixOf_iff_prefix.mpr h))

theorem same_kind {e e' : Err} {m : String} (h : e.display = some m) (h' : e'.display = some m)
    (h1 : ∀ msg, e ≠ .serializeInvalidValue msg) (h2 : ∀ msg, e' ≠ .serializeInvalidValue msg) :
    kind e = kind e' := by
  obtain ⟨k1, p1⟩ := display_kind h h1
  obtain ⟨k2, p2⟩ := display_kind h' h2
  rcases List.prefix_or_prefix_of_prefix p1 p2 with h | h
  · exact beginnings_apart _ _ k1 k2 h
  · exact (beginnings_apart _ _ k2 k1 h).symm

end Gvas
