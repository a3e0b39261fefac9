import Verif.Props.Guid

/-!
# C11: exactly which text is a GUID, and which makes the parser panic
-/

namespace Gvas

open Spec

/-- White space according to Unicode. -/
def Spec.White (c : Char) : Prop :=
  c.toNat ∈ [9, 10, 11, 12, 13, 32, 0x85, 0xA0, 0x1680, 0x2000, 0x2001, 0x2002, 0x2003, 0x2004,
    0x2005, 0x2006, 0x2007, 0x2008, 0x2009, 0x200A, 0x2028, 0x2029, 0x202F, 0x205F, 0x3000]

/-- `core` is what remains of `t` without its dashes, then the white space around it, then an
opening brace in front, then a closing brace behind. -/
def Spec.CoreOf (t core : List Char) : Prop :=
  ∃ ws₁ mid ws₂ opening rest closing : List Char,
    t.filter (· ≠ '-') = ws₁ ++ mid ++ ws₂ ∧ (∀ c ∈ ws₁, White c) ∧ (∀ c ∈ ws₂, White c) ∧
    (∀ c, mid.head? = some c → ¬ White c) ∧ (∀ c, mid.getLast? = some c → ¬ White c) ∧
    mid = opening ++ rest ∧ (opening = ['{'] ∨ opening = [] ∧ rest.head? ≠ some '{') ∧
    rest = core ++ closing ∧ (closing = ['}'] ∨ closing = [] ∧ core.getLast? ≠ some '}')

/-- `cs` spells the bytes `bs`: two hexadecimal digits each, or a plus sign and one digit. -/
inductive Spec.LooseOf : Bytes → List Char → Prop
  | nil : LooseOf [] []
  | pair {b : UInt8} {bs : Bytes} {c d : Char} {cs : List Char} :
      HexChar (b.toNat / 16) c → HexChar (b.toNat % 16) d → LooseOf bs cs →
      LooseOf (b :: bs) (c :: d :: cs)
  | plus {b : UInt8} {bs : Bytes} {d : Char} {cs : List Char} :
      HexChar b.toNat d → LooseOf bs cs → LooseOf (b :: bs) ('+' :: d :: cs)

/-- Behind such pairs, `cs` has a character that does not end at an even offset in UTF-8: one of two
or more bytes after an ASCII character, or one of three or more. -/
def Spec.Misaligned (cs : List Char) : Prop :=
  ∃ bs pre rest, cs = pre ++ rest ∧ LooseOf bs pre ∧
    ((∃ c d l, rest = c :: d :: l ∧ c.toNat < 128 ∧ 128 ≤ d.toNat) ∨
      ∃ c l, rest = c :: l ∧ 0x800 ≤ c.toNat)

/-! ## Cleaning -/

theorem isWhite_iff (c : Char) : isWhite c = true ↔ White c := by
  simp only [isWhite, White, List.mem_cons, List.not_mem_nil, or_false, Bool.or_eq_true,
    Bool.and_eq_true, decide_eq_true_eq, beq_iff_eq]
  generalize c.toNat = n
  constructor
  · intro h
    omega
  · intro h
    omega

theorem trim_core (ws₁ mid ws₂ : List Char) (h1 : ∀ c ∈ ws₁, isWhite c = true)
    (h2 : ∀ c ∈ ws₂, isWhite c = true) (hh : ∀ c, mid.head? = some c → isWhite c = false)
    (ht : ∀ c, mid.getLast? = some c → isWhite c = false) : trim (ws₁ ++ mid ++ ws₂) = mid := by
  by_cases hm : mid = []
  · subst hm
    have : (ws₁ ++ [] ++ ws₂).dropWhile isWhite = [] := by
      have hall : ∀ l : List Char, (∀ c ∈ l, isWhite c = true) → l.dropWhile isWhite = [] := by
        intro l
        induction l with
        | nil => intro _; rfl
        | cons c l ih =>
          intro h
          rw [List.dropWhile_cons_of_pos (h c (List.mem_cons_self ..))]
          exact ih fun x hx => h x (List.mem_cons_of_mem _ hx)
      rw [List.append_nil]
      apply hall
      intro c hc
      rcases List.mem_append.mp hc with h | h
      · exact h1 c h
      · exact h2 c h
    unfold trim
    rw [this]
    rfl
  · exact trim_eq ws₁ mid ws₂ h1 h2 hm hh ht

theorem coreOf_clean {t core : List Char} (h : CoreOf t core) : cleanGuid t = core := by
  obtain ⟨ws₁, mid, ws₂, op, rest, cl, ht, h1, h2, hh, hl, hm, ho, hr, hc⟩ := h
  have nw : ∀ c, ¬ White c → isWhite c = false := by
    intro c hc
    rw [← isWhite_iff] at hc
    simpa using hc
  unfold cleanGuid
  rw [ht, trim_core _ _ _ (fun c hc => (isWhite_iff c).mpr (h1 c hc))
    (fun c hc => (isWhite_iff c).mpr (h2 c hc)) (fun c hc => nw c (hh c hc))
    (fun c hc => nw c (hl c hc))]
  have e1 : stripOpen mid = rest := by
    rcases ho with rfl | ⟨rfl, ho⟩
    · rw [hm]; rfl
    · rw [hm, List.nil_append]
      unfold stripOpen
      split
      · simp at ho
      · rfl
  rw [e1]
  unfold stripClose
  rcases hc with rfl | ⟨rfl, hc⟩
  · rw [hr, if_pos List.getLast?_concat, List.dropLast_concat]
  · rw [hr, List.append_nil, if_neg hc]

theorem clean_coreOf (t : List Char) : CoreOf t (cleanGuid t) := by
  unfold cleanGuid CoreOf
  generalize t.filter (· ≠ '-') = l
  obtain ⟨ws₁, e1, h1⟩ := dropWhile_split l
  obtain ⟨ws₂, e2, h2⟩ := dropWhile_split (l.dropWhile isWhite).reverse
  have em : l.dropWhile isWhite = trim l ++ ws₂.reverse := by
    rw [← List.reverse_reverse (l.dropWhile isWhite)]
    conv => lhs; rw [e2]
    rw [List.reverse_append]; rfl
  have e : l = ws₁ ++ trim l ++ ws₂.reverse := by
    conv => lhs; rw [e1, em]
    rw [List.append_assoc]
  refine ⟨ws₁, trim l, ws₂.reverse, if (trim l).head? = some '{' then ['{'] else [],
    stripOpen (trim l), if (stripOpen (trim l)).getLast? = some '}' then ['}'] else [], e,
    fun c hc => (isWhite_iff c).mp (h1 c hc),
    fun c hc => (isWhite_iff c).mp (h2 c (List.mem_reverse.mp hc)), ?_, ?_, ?_, ?_, ?_, ?_⟩
  · intro c hc hw
    have hd : (l.dropWhile isWhite).head? = some c := by
      rw [em]
      match hl : trim l with
      | [] => rw [hl] at hc; simp at hc
      | x :: xs => rw [hl] at hc; simpa using hc
    have := List.head?_dropWhile_not isWhite l
    rw [hd] at this
    simp only at this
    rw [(isWhite_iff c).mpr hw] at this
    simp at this
  · intro c hc hw
    have hd : ((l.dropWhile isWhite).reverse.dropWhile isWhite).head? = some c := by
      rw [show (l.dropWhile isWhite).reverse.dropWhile isWhite = (trim l).reverse by
        unfold trim; rw [List.reverse_reverse], List.head?_reverse]
      exact hc
    have := List.head?_dropWhile_not isWhite (l.dropWhile isWhite).reverse
    rw [hd] at this
    simp only at this
    rw [(isWhite_iff c).mpr hw] at this
    simp at this
  · by_cases h : (trim l).head? = some '{'
    · rw [if_pos h]
      match hl : trim l with
      | [] => rw [hl] at h; simp at h
      | x :: xs =>
        rw [hl] at h
        simp only [List.head?_cons, Option.some.injEq] at h
        subst h
        rfl
    · rw [if_neg h]
      unfold stripOpen
      split
      · rename_i l' h'
        rw [h'] at h
        simp at h
      · rfl
  · by_cases h : (trim l).head? = some '{'
    · rw [if_pos h]; exact .inl rfl
    · rw [if_neg h]
      refine .inr ⟨rfl, ?_⟩
      unfold stripOpen
      split
      · rename_i l' h'
        rw [h'] at h
        simp at h
      · exact h
  · unfold stripClose
    split
    · rename_i h
      obtain ⟨ys, hy⟩ := List.getLast?_eq_some_iff.mp h
      conv => lhs; rw [hy]
      rw [hy, List.dropLast_concat]
    · simp
  · unfold stripClose
    split
    · exact .inl rfl
    · exact .inr ⟨rfl, ‹_›⟩

/-! ## Pairs -/

theorem encodeChar_shape (c : Char) :
    (c.toNat < 128 ∧ String.utf8EncodeChar c = [UInt8.ofNat c.toNat]) ∨
    (128 ≤ c.toNat ∧ c.toNat < 0x800 ∧ ∃ a b, String.utf8EncodeChar c = [a, b] ∧ 0xC0 ≤ a.toNat ∧
      isCont b = true) ∨
    (0x800 ≤ c.toNat ∧ ∃ a b x l, String.utf8EncodeChar c = a :: b :: x :: l ∧ 0xC0 ≤ a.toNat ∧
      isCont b = true ∧ isCont x = true) := by
  have hv := char_toNat_lt c
  have e : c.val.toNat = c.toNat := rfl
  unfold String.utf8EncodeChar
  simp only [e]
  clear e
  generalize hn : c.toNat = v at *
  split
  · exact .inl ⟨by omega, rfl⟩
  split
  · refine .inr (.inl ⟨by omega, by omega, _, _, rfl, ?_, ?_⟩)
    · rw [u8_toNat_ofNat_lt (by omega)]; omega
    · rw [isCont_iff, u8_toNat_ofNat_lt (by omega)]; omega
  split
  · refine .inr (.inr ⟨by omega, _, _, _, _, rfl, ?_, ?_, ?_⟩)
    · rw [u8_toNat_ofNat_lt (by omega)]; omega
    · rw [isCont_iff, u8_toNat_ofNat_lt (by omega)]; omega
    · rw [isCont_iff, u8_toNat_ofNat_lt (by omega)]; omega
  · refine .inr (.inr ⟨by omega, _, _, _, _, rfl, ?_, ?_, ?_⟩)
    · rw [u8_toNat_ofNat_lt (by omega)]; omega
    · rw [isCont_iff, u8_toNat_ofNat_lt (by omega)]; omega
    · rw [isCont_iff, u8_toNat_ofNat_lt (by omega)]; omega

theorem utf8Encode_cons (c : Char) (cs : List Char) :
    utf8Encode (c :: cs) = String.utf8EncodeChar c ++ utf8Encode cs := rfl

theorem atBoundary_encode (cs : List Char) : atBoundary (utf8Encode cs) = true := by
  cases cs with
  | nil => rfl
  | cons c cs =>
    rw [utf8Encode_cons]
    rcases encodeChar_shape c with ⟨h, e⟩ | ⟨_, _, a, b, e, h, _⟩ | ⟨_, a, b, x, l, e, h, _⟩
    · rw [e]; simp [atBoundary, isCont_ascii h]
    all_goals
      rw [e]
      simp only [List.cons_append, atBoundary, Bool.not_eq_true']
      rw [← Bool.not_eq_true, isCont_iff]
      omega

/-- A pair of characters as `u8::from_str_radix` reads it. -/
def Spec.PairOf (b : UInt8) (c d : Char) : Prop :=
  (HexChar (b.toNat / 16) c ∧ HexChar (b.toNat % 16) d) ∨ (c = '+' ∧ HexChar b.toNat d)

theorem hexVal_iff {c : Char} (h : c.toNat < 128) (n : Nat) :
    hexVal (UInt8.ofNat c.toNat) = some n ↔ HexChar n c := by
  constructor
  · intro hx
    exact hexVal_some hx (by rw [u8_toNat_ofNat_lt (by omega)])
  · intro hx
    exact (hexChar_facts hx).2.2.1

theorem fromHex2_iff {c d : Char} (hc : c.toNat < 128) (hd : d.toNat < 128) (v : UInt8) :
    fromHex2 (UInt8.ofNat c.toNat) (UInt8.ofNat d.toNat) = some v ↔ PairOf v c d := by
  have hplus : UInt8.ofNat c.toNat = 0x2B ↔ c = '+' := by
    constructor
    · intro h
      have := congrArg UInt8.toNat h
      rw [u8_toNat_ofNat_lt (by omega)] at this
      rw [← Char.ofNat_toNat c, this]
      decide
    · rintro rfl
      decide
  unfold fromHex2 PairOf
  split
  · rename_i h
    have hcp := hplus.mp h
    subst hcp
    constructor
    · intro hx
      obtain ⟨n, h1, h2⟩ := Option.map_eq_some_iff.mp hx
      have hn := (hexVal_iff hd n).mp h1
      have := (hexChar_facts hn).1
      rw [← h2, u8_toNat_ofNat_lt (by omega)]
      exact .inr ⟨rfl, hn⟩
    · rintro (⟨h1, _⟩ | ⟨_, h2⟩)
      · exact absurd (by decide : '+'.toNat = 0x2B) (hexChar_facts h1).2.2.2.2.2.2
      · rw [(hexVal_iff hd _).mpr h2]
        simp
  · rename_i h
    have hcp : c ≠ '+' := fun hc => h (hplus.mpr hc)
    constructor
    · intro hx
      match ha : hexVal (UInt8.ofNat c.toNat), hb : hexVal (UInt8.ofNat d.toNat) with
      | none, _ => rw [ha] at hx; simp at hx
      | some x, none => rw [ha, hb] at hx; simp at hx
      | some x, some y =>
        rw [ha, hb] at hx
        simp only [Option.some.injEq] at hx
        have h1 := (hexVal_iff hc x).mp ha
        have h2 := (hexVal_iff hd y).mp hb
        have l1 := (hexChar_facts h1).1
        have l2 := (hexChar_facts h2).1
        rw [← hx, u8_toNat_ofNat_lt (by omega), show (x * 16 + y) / 16 = x by omega,
          show (x * 16 + y) % 16 = y by omega]
        exact .inl ⟨h1, h2⟩
    · rintro (⟨h1, h2⟩ | ⟨h1, _⟩)
      · rw [(hexVal_iff hc _).mpr h1, (hexVal_iff hd _).mpr h2]
        simp only [Option.some.injEq]
        apply UInt8.toNat_inj.mp
        rw [UInt8.toNat_ofNat']
        have := v.toNat_lt
        omega
      · exact absurd h1 hcp

theorem fromHex2_high {a b : UInt8} (h : 0x80 ≤ a.toNat) : fromHex2 a b = none := by
  have h1 : a ≠ 0x2B := by rintro rfl; simp at h
  have h2 : hexVal a = none := by
    match hx : hexVal a with
    | none => rfl
    | some n => have := hexVal_ascii hx; omega
  unfold fromHex2
  rw [if_neg h1, h2]

theorem pairOf_ascii {v : UInt8} {c d : Char} (h : PairOf v c d) : c.toNat < 128 ∧ d.toNat < 128 := by
  rcases h with ⟨h1, h2⟩ | ⟨rfl, h2⟩
  · exact ⟨(hexChar_facts h1).2.1, (hexChar_facts h2).2.1⟩
  · exact ⟨by decide, (hexChar_facts h2).2.1⟩

theorem looseOf_cons {v : UInt8} {vs : Bytes} {c d : Char} {cs : List Char} :
    LooseOf (v :: vs) (c :: d :: cs) ↔ PairOf v c d ∧ LooseOf vs cs := by
  constructor
  · intro h
    cases h with
    | pair h1 h2 h3 => exact ⟨.inl ⟨h1, h2⟩, h3⟩
    | plus h1 h2 => exact ⟨.inr ⟨rfl, h1⟩, h2⟩
  · rintro ⟨⟨h1, h2⟩ | ⟨rfl, h1⟩, h3⟩
    · exact .pair h1 h2 h3
    · exact .plus h1 h3

theorem looseOf_inv {bs : Bytes} {cs : List Char} (h : LooseOf bs cs) : bs = [] ∧ cs = [] ∨
    ∃ v vs c d l, bs = v :: vs ∧ cs = c :: d :: l ∧ PairOf v c d ∧ LooseOf vs l := by
  cases h with
  | nil => exact .inl ⟨rfl, rfl⟩
  | pair h1 h2 h3 => exact .inr ⟨_, _, _, _, _, rfl, rfl, .inl ⟨h1, h2⟩, h3⟩
  | plus h1 h2 => exact .inr ⟨_, _, _, _, _, rfl, rfl, .inr ⟨rfl, h1⟩, h2⟩

/-- `Misaligned` from the front. -/
theorem misaligned_cons {c : Char} {cs : List Char} : Misaligned (c :: cs) ↔
    0x800 ≤ c.toNat ∨ (c.toNat < 128 ∧ ∃ d l, cs = d :: l ∧
      (128 ≤ d.toNat ∨ ((∃ v, PairOf v c d) ∧ Misaligned l))) := by
  constructor
  · rintro ⟨bs, pre, rest, e, hl, h⟩
    rcases looseOf_inv hl with ⟨rfl, rfl⟩ | ⟨v, vs, c', d', l, rfl, rfl, hp, hl'⟩
    · rw [List.nil_append] at e
      rcases h with ⟨c', d', l, rfl, h1, h2⟩ | ⟨c', l, rfl, h1⟩
      · injection e with e1 e2
        subst e1
        exact .inr ⟨h1, d', l, e2, .inl h2⟩
      · injection e with e1 e2
        subst e1
        exact .inl h1
    · simp only [List.cons_append, List.cons.injEq] at e
      obtain ⟨rfl, rfl⟩ := e
      exact .inr ⟨(pairOf_ascii hp).1, d', l ++ rest, rfl, .inr ⟨⟨v, hp⟩, vs, l, rest, rfl, hl', h⟩⟩
  · rintro (h | ⟨h, d, l, rfl, h' | ⟨⟨v, hp⟩, bs, pre, rest, rfl, hl, hm⟩⟩)
    · exact ⟨[], [], _, rfl, .nil, .inr ⟨c, cs, rfl, h⟩⟩
    · exact ⟨[], [], _, rfl, .nil, .inl ⟨c, d, l, rfl, h, h'⟩⟩
    · exact ⟨v :: bs, c :: d :: pre, rest, rfl, looseOf_cons.mpr ⟨hp, hl⟩, hm⟩

theorem not_misaligned_nil : ¬ Misaligned [] := by
  rintro ⟨bs, pre, rest, e, _, h⟩
  have := (List.append_eq_nil_iff.mp e.symm).2
  subst this
  rcases h with ⟨_, _, _, h, _⟩ | ⟨_, _, h, _⟩ <;> simp at h

/-- What the loop over pairs does on a text of an even number of bytes. -/
theorem parsePairs_exact (n : Nat) (cs : List Char) (hn : (utf8Encode cs).length = 2 * n) :
    (∀ bs, parsePairs (utf8Encode cs) = .ok (some bs) ↔ LooseOf bs cs) ∧
    (∀ f, parsePairs (utf8Encode cs) = .bad f ↔
      f = .panic "byte index is not a char boundary" ∧ Misaligned cs) := by
  induction n generalizing cs with
  | zero =>
    cases cs with
    | nil =>
      refine ⟨fun bs => ⟨fun h => ?_, fun h => ?_⟩, fun f => ⟨fun h => ?_, fun h => ?_⟩⟩
      · simp [utf8Encode, parsePairs] at h; subst h; exact .nil
      · cases h; rfl
      · simp [utf8Encode, parsePairs] at h
      · exact absurd h.2 not_misaligned_nil
    | cons c cs =>
      rw [utf8Encode_cons, List.length_append] at hn
      have := String.length_utf8EncodeChar c
      have := Char.utf8Size_pos c
      omega
  | succ n ih =>
    cases cs with
    | nil => simp [utf8Encode] at hn
    | cons c cs =>
      rw [utf8Encode_cons] at hn ⊢
      rcases encodeChar_shape c with ⟨hc, e⟩ | ⟨hc, hc', a, b, e, ha, hb⟩ |
        ⟨hc, a, b, x, l, e, ha, hb, hx⟩
      · cases cs with
        | nil => rw [e] at hn; simp [utf8Encode] at hn; omega
        | cons d cs =>
          rw [utf8Encode_cons] at hn ⊢
          have ba : isCont (UInt8.ofNat c.toNat) = false := isCont_ascii hc
          have panics : ∀ (x y : UInt8) (l : Bytes), isCont y = true →
              parsePairs (UInt8.ofNat c.toNat :: x :: y :: l) =
                .panic "byte index is not a char boundary" := by
            intro x y l hy
            rw [parsePairs, if_neg (by simp [atBoundary, hy])]
          have nl : 128 ≤ d.toNat → ∀ bs, ¬ LooseOf bs (c :: d :: cs) := by
            intro hd bs h
            rcases looseOf_inv h with ⟨_, h⟩ | ⟨v, vs, c', d', l, _, h, hp, _⟩
            · simp at h
            · simp only [List.cons.injEq] at h
              obtain ⟨rfl, rfl, rfl⟩ := h
              have := (pairOf_ascii hp).2
              omega
          rcases encodeChar_shape d with ⟨hd, e'⟩ | ⟨hd, hd', a, b, e', ha, hb⟩ |
            ⟨hd, a, b, x, l, e', ha, hb, hx⟩
          · rw [e, e'] at hn ⊢
            simp only [List.cons_append, List.nil_append, List.length_cons] at hn ⊢
            obtain ⟨i1, i2⟩ := ih cs (by omega)
            have hbd : (atBoundary (UInt8.ofNat c.toNat :: UInt8.ofNat d.toNat :: utf8Encode cs) &&
                atBoundary (utf8Encode cs)) = true := by
              rw [atBoundary_encode, atBoundary, ba]; rfl
            rw [parsePairs, if_pos hbd]
            match hx : fromHex2 (UInt8.ofNat c.toNat) (UInt8.ofNat d.toNat) with
            | none =>
              have hno : ∀ v, ¬ PairOf v c d := by
                intro v hv
                rw [(fromHex2_iff hc hd v).mpr hv] at hx
                cases hx
              refine ⟨fun bs => ⟨fun h => by simp at h, fun h => ?_⟩, fun f => ⟨fun h => by simp at h,
                fun h => ?_⟩⟩
              · rcases looseOf_inv h with ⟨_, h⟩ | ⟨v, vs, c', d', l, _, h, hp, _⟩
                · simp at h
                · simp only [List.cons.injEq] at h
                  obtain ⟨rfl, rfl, rfl⟩ := h
                  exact absurd hp (hno v)
              · rcases misaligned_cons.mp h.2 with h | ⟨_, d', l, h, h' | ⟨⟨v, hv⟩, _⟩⟩
                · omega
                · injection h with h1 h2
                  subst h1
                  omega
                · injection h with h1 h2
                  subst h1
                  exact absurd hv (hno v)
            | some v =>
              have hv := (fromHex2_iff hc hd v).mp hx
              simp only []
              constructor
              · intro bs
                rw [show (LooseOf bs (c :: d :: cs)) ↔ ∃ vs, bs = v :: vs ∧ LooseOf vs cs by
                  constructor
                  · intro h
                    rcases looseOf_inv h with ⟨_, h⟩ | ⟨v', vs, c', d', l, h0, h, hp, hl⟩
                    · simp at h
                    · simp only [List.cons.injEq] at h
                      obtain ⟨rfl, rfl, rfl⟩ := h
                      have := (fromHex2_iff hc hd v').mpr hp
                      rw [hx] at this
                      injection this with this
                      subst this
                      exact ⟨vs, h0, hl⟩
                  · rintro ⟨vs, rfl, h⟩
                    exact looseOf_cons.mpr ⟨hv, h⟩]
                match hr : parsePairs (utf8Encode cs) with
                | .ok (some vs) =>
                  simp only [Res.ok.injEq, Option.some.injEq]
                  constructor
                  · rintro rfl
                    exact ⟨vs, rfl, (i1 vs).mp hr⟩
                  · rintro ⟨vs', rfl, h⟩
                    have := (i1 vs').mpr h
                    rw [hr] at this
                    simp at this
                    rw [this]
                | .ok none =>
                  simp only [Res.ok.injEq, reduceCtorEq, false_iff]
                  rintro ⟨vs', rfl, h⟩
                  have := (i1 vs').mpr h
                  rw [hr] at this
                  simp at this
                | .bad g =>
                  simp only [reduceCtorEq, false_iff]
                  rintro ⟨vs', rfl, h⟩
                  have := (i1 vs').mpr h
                  rw [hr] at this
                  simp at this
              · intro f
                rw [show Misaligned (c :: d :: cs) ↔ Misaligned cs by
                  rw [misaligned_cons]
                  constructor
                  · rintro (h | ⟨_, d', l, h, h' | ⟨_, h'⟩⟩)
                    · omega
                    · injection h with h1 h2
                      subst h1
                      omega
                    · injection h with h1 h2
                      subst h2
                      exact h'
                  · intro h
                    exact .inr ⟨hc, d, cs, rfl, .inr ⟨⟨v, hv⟩, h⟩⟩]
                rw [← i2 f]
                match hr : parsePairs (utf8Encode cs) with
                | .ok (some vs) => simp
                | .ok none => simp
                | .bad g => simp
          · rw [e, e']
            simp only [List.cons_append, List.nil_append]
            rw [panics a b _ hb]
            refine ⟨fun bs => ⟨fun h => by simp at h, fun h => absurd h (nl hd bs)⟩,
              fun f => ⟨fun h => ⟨by simpa using h.symm, misaligned_cons.mpr
                (.inr ⟨hc, d, cs, rfl, .inl hd⟩)⟩, fun h => by rw [h.1]⟩⟩
          · rw [e, e']
            simp only [List.cons_append, List.nil_append]
            rw [panics a b _ hb]
            refine ⟨fun bs => ⟨fun h => by simp at h, fun h => absurd h (nl (by omega) bs)⟩,
              fun f => ⟨fun h => ⟨by simpa using h.symm, misaligned_cons.mpr
                (.inr ⟨hc, d, cs, rfl, .inl (by omega)⟩)⟩, fun h => by rw [h.1]⟩⟩
      · have nl : ∀ bs, ¬ LooseOf bs (c :: cs) := by
          intro bs h
          rcases looseOf_inv h with ⟨_, h⟩ | ⟨v, vs, c', d', l, _, h, hp, _⟩
          · simp at h
          · injection h with h1 h2
            subst h1
            have := (pairOf_ascii hp).1
            omega
        rw [e]
        simp only [List.cons_append, List.nil_append]
        have ha' : isCont a = false := by
          rw [← Bool.not_eq_true, isCont_iff]; omega
        rw [parsePairs, if_pos (by rw [atBoundary_encode, atBoundary, ha']; rfl),
          fromHex2_high (by omega)]
        refine ⟨fun bs => ⟨fun h => by simp at h, fun h => absurd h (nl bs)⟩,
          fun f => ⟨fun h => by simp at h, fun h => ?_⟩⟩
        rcases misaligned_cons.mp h.2 with h | ⟨h, _⟩ <;> omega
      · have nl : ∀ bs, ¬ LooseOf bs (c :: cs) := by
          intro bs h
          rcases looseOf_inv h with ⟨_, h⟩ | ⟨v, vs, c', d', l, _, h, hp, _⟩
          · simp at h
          · injection h with h1 h2
            subst h1
            have := (pairOf_ascii hp).1
            omega
        rw [e]
        simp only [List.cons_append]
        rw [parsePairs, if_neg (by simp [atBoundary, hx])]
        exact ⟨fun bs => ⟨fun h => by simp at h, fun h => absurd h (nl bs)⟩,
          fun f => ⟨fun h => ⟨by simpa using h.symm, misaligned_cons.mpr (.inl hc)⟩,
            fun h => by rw [h.1]⟩⟩

/-! ## The claims -/

theorem utf8Encode_length (cs : List Char) :
    (utf8Encode cs).length = (cs.map Char.utf8Size).sum := by
  induction cs with
  | nil => rfl
  | cons c cs ih =>
    rw [utf8Encode_cons, List.length_append, ih, List.map_cons, List.sum_cons,
      String.length_utf8EncodeChar]

theorem looseOf_length {bs : Bytes} {cs : List Char} (h : LooseOf bs cs) :
    (cs.map Char.utf8Size).sum = 2 * bs.length := by
  have one : ∀ {c : Char}, c.toNat < 128 → c.utf8Size = 1 := by
    intro c hc
    rw [← String.length_utf8EncodeChar, utf8Encode_ascii c hc]; rfl
  induction h with
  | nil => rfl
  | pair h1 h2 _ ih =>
    simp only [List.map_cons, List.sum_cons, ih, one (hexChar_facts h1).2.1,
      one (hexChar_facts h2).2.1, List.length_cons]
    omega
  | plus h1 _ ih =>
    simp only [List.map_cons, List.sum_cons, ih, one (hexChar_facts h1).2.1,
      one (show '+'.toNat < 128 by decide), List.length_cons]
    omega

/-- **C11, what does hold**, exactly: every text has one core, the text is accepted as `g` exactly if
the core is `0` and `g` zero or the core spells `g` (plus signs allowed), and the parser panics
exactly if the core has 32 bytes and a character off an even offset behind well-formed pairs.
Missing: plus signs are accepted, and the panics. -/
theorem C11_parse_exact_partial (t : List Char) : ∃ core, (∀ core', CoreOf t core' ↔ core' = core) ∧
    (∀ g, Guid.parse t = .ok (some g) ↔
      (core = ['0'] ∧ g.bytes = List.replicate 16 0) ∨ LooseOf g.bytes core) ∧
    (∀ f, Guid.parse t = .bad f ↔ f = .panic "byte index is not a char boundary" ∧
      (core.map Char.utf8Size).sum = 32 ∧ Misaligned core) := by
  refine ⟨cleanGuid t, fun core' => ⟨fun h => (coreOf_clean h).symm, ?_⟩, ?_⟩
  · rintro rfl
    exact clean_coreOf t
  generalize hcore : cleanGuid t = core
  have e : Guid.parse t = if core = ['0'] then .ok (some (Guid.fromU128 0))
      else if (utf8Encode core).length ≠ 32 then .ok none
      else match parsePairs (utf8Encode core) with
        | .ok (some bs) => if h : bs.length = 16 then .ok (some ⟨bs, h⟩) else .ok none
        | .ok none => .ok none
        | .bad f => .bad f := by
    unfold Guid.parse
    rw [hcore]
    rfl
  rw [e]
  by_cases h0 : core = ['0']
  · rw [if_pos h0]
    subst h0
    refine ⟨fun g => ⟨fun h => ?_, fun h => ?_⟩, fun f => ⟨fun h => by simp at h, fun h => ?_⟩⟩
    · simp only [Res.ok.injEq, Option.some.injEq] at h
      subst h
      exact .inl ⟨rfl, by decide⟩
    · rcases h with ⟨_, h⟩ | h
      · simp only [Res.ok.injEq, Option.some.injEq]
        exact Guid.ext (by rw [h]; decide)
      · have := looseOf_length h
        rw [g.len] at this
        simp [Char.utf8Size] at this
    · have := h.2.1
      simp [Char.utf8Size] at this
  · rw [if_neg h0]
    by_cases hl : (utf8Encode core).length = 32
    · rw [if_neg (by simpa using hl)]
      obtain ⟨p1, p2⟩ := parsePairs_exact 16 core hl
      rw [utf8Encode_length] at hl
      constructor
      · intro g
        rw [show (core = ['0'] ∧ g.bytes = List.replicate 16 0 ∨ LooseOf g.bytes core) ↔
          LooseOf g.bytes core by simp [h0], ← p1]
        match hr : parsePairs (utf8Encode core) with
        | .ok (some bs) =>
          simp only [Res.ok.injEq, Option.some.injEq]
          have := looseOf_length ((p1 bs).mp hr)
          rw [dif_pos (show bs.length = 16 by omega)]
          simp only [Res.ok.injEq, Option.some.injEq]
          constructor
          · rintro rfl; rfl
          · intro h; exact Guid.ext h
        | .ok none => simp
        | .bad f => simp
      · intro f
        rw [show (f = .panic "byte index is not a char boundary" ∧
          (core.map Char.utf8Size).sum = 32 ∧ Misaligned core) ↔
          (f = .panic "byte index is not a char boundary" ∧ Misaligned core) by simp [hl], ← p2]
        match hr : parsePairs (utf8Encode core) with
        | .ok (some bs) =>
          simp only [reduceCtorEq, iff_false]
          split <;> simp
        | .ok none => simp
        | .bad f => simp
    · rw [if_pos (by simpa using hl)]
      rw [utf8Encode_length] at hl
      refine ⟨fun g => ⟨fun h => by simp at h, fun h => ?_⟩, fun f => ⟨fun h => by simp at h,
        fun h => absurd h.2.1 hl⟩⟩
      rcases h with h | h
      · exact absurd h.1 h0
      · have := looseOf_length h
        rw [g.len] at this
        omega

/-- A text and its core. -/
example : CoreOf " {+1-00}　".toList "+100".toList := by
  refine ⟨[' '], "{+100}".toList, ['　'], ['{'], "+100}".toList, ['}'], ?_⟩
  simp [White]

/-- A text that makes the parser panic. -/
example : Misaligned "1é23456789012345678901234567890".toList ∧
    ("1é23456789012345678901234567890".toList.map Char.utf8Size).sum = 32 :=
  ⟨⟨[], [], _, rfl, .nil, .inl ⟨'1', 'é', "23456789012345678901234567890".toList, by decide, by decide,
    by decide⟩⟩, by decide⟩

end Gvas
