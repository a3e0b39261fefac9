import Verif.Model.GuidText
import Verif.Lemmas.Reader

/-!
# C09-C11 GUIDs
-/

namespace Gvas

theorem Guid.ext {a b : Guid} (h : a.bytes = b.bytes) : a = b := by
  cases a; cases b; simp_all

/-! ## C09 -/

theorem take4 (a b c d : Bytes) (ha : a.length = 4) (hb : b.length = 4)
    (hc : c.length = 4) :
    (a ++ b ++ c ++ d).take 4 = a ∧ ((a ++ b ++ c ++ d).drop 4).take 4 = b ∧
    ((a ++ b ++ c ++ d).drop 8).take 4 = c ∧ (a ++ b ++ c ++ d).drop 12 = d := by
  obtain ⟨a1, a2, a3, a4, rfl⟩ : ∃ p q r s, a = [p, q, r, s] := by
    match a, ha with
    | [p, q, r, s], _ => exact ⟨p, q, r, s, rfl⟩
  obtain ⟨b1, b2, b3, b4, rfl⟩ : ∃ p q r s, b = [p, q, r, s] := by
    match b, hb with
    | [p, q, r, s], _ => exact ⟨p, q, r, s, rfl⟩
  obtain ⟨c1, c2, c3, c4, rfl⟩ : ∃ p q r s, c = [p, q, r, s] := by
    match c, hc with
    | [p, q, r, s], _ => exact ⟨p, q, r, s, rfl⟩
  exact ⟨rfl, rfl, rfl, rfl⟩

theorem leNat_u32B (x : UInt32) : leNat (u32B x) = x.toNat := by
  rw [u32B, leNat_leBytes, Nat.mod_eq_of_lt (by have := x.toNat_lt; omega)]

theorem ofNat_leNat_u32B (x : UInt32) : UInt32.ofNat (leNat (u32B x)) = x := by
  rw [leNat_u32B, UInt32.ofNat_toNat]

theorem u32B_ofNat_leNat {bs : Bytes} (h : bs.length = 4) :
    u32B (UInt32.ofNat (leNat bs)) = bs := by
  have hlt := leNat_lt bs
  rw [h] at hlt
  rw [u32B, UInt32.toNat_ofNat', Nat.mod_eq_of_lt (by omega), leBytes_leNat' h]

/-- **C09**: the conversions to four words, to a 128-bit number and to sixteen bytes
are bijections. -/
theorem C09_guid_conversions :
    (∀ a b c d, (Guid.fromU32 a b c d).toU32 = (a, b, c, d)) ∧
    (∀ g : Guid, Guid.fromU32 g.toU32.1 g.toU32.2.1 g.toU32.2.2.1 g.toU32.2.2.2 = g) ∧
    (∀ n, n < 2 ^ 128 → (Guid.fromU128 n).toU128 = n) ∧
    (∀ g : Guid, Guid.fromU128 g.toU128 = g) ∧
    (∀ g : Guid, g.toU128 < 2 ^ 128) ∧
    (∀ (bs : Bytes) (h : bs.length = 16), (Guid.mk bs h).bytes = bs ∧ Guid.mk bs h = ⟨bs, h⟩) := by
  refine ⟨?_, ?_, ?_, ?_, ?_, fun bs h => ⟨rfl, rfl⟩⟩
  · intro a b c d
    obtain ⟨h1, h2, h3, h4⟩ := take4 (u32B a) (u32B b) (u32B c) (u32B d) (by simp) (by simp) (by simp)
    simp only [Guid.toU32, Guid.fromU32, h1, h2, h3, h4, ofNat_leNat_u32B]
  · intro g
    have hl := g.len
    apply Guid.ext
    simp only [Guid.toU32, Guid.fromU32]
    rw [u32B_ofNat_leNat (by simp [hl]), u32B_ofNat_leNat (by simp [hl]),
      u32B_ofNat_leNat (by simp [hl]), u32B_ofNat_leNat (by simp [hl])]
    have e1 := List.take_append_drop 4 g.bytes
    have e2 := List.take_append_drop 4 (g.bytes.drop 4)
    have e3 := List.take_append_drop 4 (g.bytes.drop 8)
    rw [List.drop_drop] at e2 e3
    rw [List.append_assoc, List.append_assoc, e3, e2, e1]
  · intro n hn
    rw [Guid.toU128, Guid.fromU128]
    simp only [leNat_leBytes]
    exact Nat.mod_eq_of_lt (by simpa using hn)
  · intro g
    exact Guid.ext (leBytes_leNat' g.len)
  · intro g
    have := leNat_lt g.bytes
    rw [g.len] at this
    exact this

/-- **C09**: the representations agree: the words are the 32-bit digits of the number,
and the bytes its 8-bit digits, least significant first. -/
theorem C09_guid_representations_agree :
    (∀ a b c d : UInt32, (Guid.fromU32 a b c d).toU128 =
      a.toNat + 2 ^ 32 * b.toNat + 2 ^ 64 * c.toNat + 2 ^ 96 * d.toNat) ∧
    (∀ (g : Guid) (i : Nat) (h : i < g.bytes.length),
      g.bytes[i].toNat = g.toU128 / 256 ^ i % 256) := by
  constructor
  · intro a b c d
    simp only [Guid.toU128, Guid.fromU32, leNat_append, leNat_u32B, List.length_append, u32B_length]
  · intro g i h
    unfold Guid.toU128
    have : ∀ (bs : Bytes) (i : Nat) (h : i < bs.length), bs[i].toNat = leNat bs / 256 ^ i % 256 := by
      intro bs
      induction bs with
      | nil => intro i h; simp at h
      | cons b bs ih =>
        intro i h
        have hb := b.toNat_lt
        cases i with
        | zero => simp only [List.getElem_cons_zero, leNat]; omega
        | succ i =>
          simp only [List.getElem_cons_succ, leNat]
          rw [ih i (by simpa using h), Nat.pow_succ, Nat.mul_comm (256 ^ i), ← Nat.div_div_eq_div_mul]
          have : (b.toNat + 256 * leNat bs) / 256 = leNat bs := by omega
          rw [this]
    exact this _ i h

/-- **C09**: `is_zero` holds exactly for the all-zero GUID. -/
theorem C09_is_zero (g : Guid) : g.isZero = true ↔ g.bytes = List.replicate 16 0 := by
  have hz : (Guid.fromU128 0).bytes = List.replicate 16 0 := by decide
  constructor
  · intro h
    have h0 : g.toU128 = 0 := by simpa [Guid.isZero] using h
    rw [← C09_guid_conversions.2.2.2.1 g, h0, hz]
  · intro h
    have : g = Guid.fromU128 0 := Guid.ext (by rw [h, hz])
    subst this
    decide

/-- A GUID all of whose representations differ. -/
example : (Guid.fromU32 0x01020304 0x05060708 0x090A0B0C 0x0D0E0F10).bytes =
      [4, 3, 2, 1, 8, 7, 6, 5, 12, 11, 10, 9, 16, 15, 14, 13] ∧
    (Guid.fromU32 0x01020304 0x05060708 0x090A0B0C 0x0D0E0F10).toU128 =
      0x0D0E0F10090A0B0C0506070801020304 := by decide

/-! ## C10 -/

/-- The digit `c` denotes `n` (upper or lower case). -/
def Spec.HexChar (n : Nat) (c : Char) : Prop :=
  some c = "0123456789ABCDEF".toList[n]? ∨ some c = "0123456789abcdef".toList[n]?

/-- `cs` are the hexadecimal digits of the bytes `bs`, two per byte, high digit first. -/
inductive Spec.HexOf : Bytes → List Char → Prop
  | nil : HexOf [] []
  | cons {b : UInt8} {bs : Bytes} {c d : Char} {cs : List Char} :
      HexChar (b.toNat / 16) c → HexChar (b.toNat % 16) d → HexOf bs cs →
      HexOf (b :: bs) (c :: d :: cs)

/-- `t` is a spelling of `g`: apart from dashes anywhere, white space around it, and
an optional brace on either side, it consists of the 32 digits of `g` in any case. -/
def Spec.Spelling (g : Guid) (t : List Char) : Prop :=
  ∃ ws₁ opening digits closing ws₂ : List Char,
    t.filter (· ≠ '-') = ws₁ ++ opening ++ digits ++ closing ++ ws₂ ∧
    (∀ c ∈ ws₁, c.isWhitespace = true) ∧ (∀ c ∈ ws₂, c.isWhitespace = true) ∧
    (opening = [] ∨ opening = ['{']) ∧ (closing = [] ∨ closing = ['}']) ∧ HexOf g.bytes digits

open Spec

theorem hexChar_facts {n : Nat} {c : Char} (h : HexChar n c) :
    n < 16 ∧ c.toNat < 128 ∧ hexVal (UInt8.ofNat c.toNat) = some n ∧ isWhite c = false ∧
      c ≠ '{' ∧ c ≠ '}' ∧ c.toNat ≠ 0x2B := by
  have key : ∀ i : Fin 16, ∀ c ∈ [("0123456789ABCDEF".toList[i.val]?).getD 'x',
      ("0123456789abcdef".toList[i.val]?).getD 'x'], c.toNat < 128 ∧
      hexVal (UInt8.ofNat c.toNat) = some i.val ∧ isWhite c = false ∧ c ≠ '{' ∧ c ≠ '}' ∧
      c.toNat ≠ 0x2B := by decide
  have hn : n < 16 := by
    by_cases hn : n < 16
    · exact hn
    · exfalso
      rcases h with h | h
      · rw [List.getElem?_eq_none (by simpa using hn)] at h; cases h
      · rw [List.getElem?_eq_none (by simpa using hn)] at h; cases h
  refine ⟨hn, key ⟨n, hn⟩ c ?_⟩
  rcases h with h | h
  · exact List.mem_cons.mpr (.inl (by simp only []; rw [← h]; rfl))
  · exact List.mem_cons.mpr (.inr (List.mem_cons.mpr (.inl (by simp only []; rw [← h]; rfl))))

theorem utf8Encode_ascii (c : Char) (h : c.toNat < 128) :
    String.utf8EncodeChar c = [UInt8.ofNat c.toNat] := by
  have h' : c.val.toNat ≤ 127 := by
    have : c.toNat = c.val.toNat := rfl
    omega
  unfold String.utf8EncodeChar
  rw [if_pos h']
  rfl

theorem isCont_ascii {n : Nat} (h : n < 128) : isCont (UInt8.ofNat n) = false := by
  unfold isCont
  rw [UInt8.toNat_ofNat', Nat.mod_eq_of_lt (by omega)]
  simp; omega

theorem atBoundary_hex {bs : Bytes} {cs : List Char} (h : HexOf bs cs) :
    atBoundary (utf8Encode cs) = true := by
  cases h with
  | nil => rfl
  | cons h1 h2 h3 =>
    have f1 := hexChar_facts h1
    simp only [utf8Encode, List.flatMap_cons, utf8Encode_ascii _ f1.2.1, List.cons_append,
      atBoundary, isCont_ascii f1.2.1, Bool.not_false]

theorem parsePairs_hex {bs : Bytes} {cs : List Char} (h : HexOf bs cs) :
    parsePairs (utf8Encode cs) = .ok (some bs) ∧ (utf8Encode cs).length = 2 * bs.length := by
  induction h with
  | nil => exact ⟨rfl, rfl⟩
  | @cons b bs c d cs h1 h2 h3 ih =>
    have f1 := hexChar_facts h1
    have f2 := hexChar_facts h2
    have e : utf8Encode (c :: d :: cs) =
        UInt8.ofNat c.toNat :: UInt8.ofNat d.toNat :: utf8Encode cs := by
      simp only [utf8Encode, List.flatMap_cons, utf8Encode_ascii _ f1.2.1,
        utf8Encode_ascii _ f2.2.1, List.cons_append, List.nil_append]
    have hx : fromHex2 (UInt8.ofNat c.toNat) (UInt8.ofNat d.toNat) = some b := by
      unfold fromHex2
      rw [if_neg, f1.2.2.1, f2.2.2.1]
      · simp only [Option.some.injEq]
        apply UInt8.toNat_inj.mp
        rw [UInt8.toNat_ofNat']
        have := b.toNat_lt
        omega
      · intro hc
        have := congrArg UInt8.toNat hc
        rw [UInt8.toNat_ofNat', Nat.mod_eq_of_lt (by omega)] at this
        exact f1.2.2.2.2.2.2 this
    constructor
    · rw [e, parsePairs, atBoundary_hex h3, atBoundary, isCont_ascii f1.2.1, hx]
      simp [ih.1]
    · rw [e, List.length_cons, List.length_cons, ih.2, List.length_cons]; omega

theorem isWhite_of {c : Char} (h : c.isWhitespace = true) : isWhite c = true := by
  have : c = ' ' ∨ c = '\t' ∨ c = '\r' ∨ c = '\n' := by
    simpa [Char.isWhitespace, or_assoc] using h
  rcases this with h | h | h | h <;> subst h <;> decide

theorem dropWhile_prefix (ws l : List Char) (h : ∀ c ∈ ws, isWhite c = true)
    (hl : ∀ c, l.head? = some c → isWhite c = false) : (ws ++ l).dropWhile isWhite = l := by
  induction ws with
  | nil =>
    cases l with
    | nil => rfl
    | cons c l => simp [hl c rfl]
  | cons c ws ih =>
    rw [List.cons_append, List.dropWhile_cons_of_pos (h c (by simp))]
    exact ih fun d hd => h d (by simp [hd])

theorem trim_eq (ws₁ core ws₂ : List Char) (h1 : ∀ c ∈ ws₁, isWhite c = true)
    (h2 : ∀ c ∈ ws₂, isWhite c = true) (hne : core ≠ [])
    (hh : ∀ c, core.head? = some c → isWhite c = false)
    (ht : ∀ c, core.getLast? = some c → isWhite c = false) :
    trim (ws₁ ++ core ++ ws₂) = core := by
  unfold trim
  rw [List.append_assoc, dropWhile_prefix ws₁ _ h1, List.reverse_append,
    dropWhile_prefix ws₂.reverse _ (by simpa using h2), List.reverse_reverse]
  · intro c hc
    rw [List.head?_reverse] at hc
    exact ht c hc
  · intro c hc
    cases core with
    | nil => exact absurd rfl hne
    | cons x l => exact hh c (by simpa using hc)

theorem hexOf_length {bs : Bytes} {cs : List Char} (h : HexOf bs cs) :
    cs.length = 2 * bs.length := by
  induction h with
  | nil => rfl
  | cons _ _ _ ih => simp only [List.length_cons, ih]; omega

theorem hexOf_mem {bs : Bytes} {cs : List Char} (h : HexOf bs cs) :
    ∀ c ∈ cs, ∃ n, HexChar n c := by
  induction h with
  | nil => simp
  | cons h1 h2 _ ih =>
    intro c hc
    simp only [List.mem_cons] at hc
    rcases hc with rfl | rfl | hc
    · exact ⟨_, h1⟩
    · exact ⟨_, h2⟩
    · exact ih c hc

/-- **C10**: every spelling of a GUID parses to it. -/
theorem C10_guid_spellings (g : Guid) (t : List Char) (h : Spelling g t) :
    Guid.parse t = .ok (some g) := by
  obtain ⟨ws₁, op, digits, cl, ws₂, ht, hw1, hw2, hop, hcl, hd⟩ := h
  have hlen : digits.length = 32 := by rw [hexOf_length hd, g.len]
  have hdne : digits ≠ [] := by intro h; simp [h] at hlen
  have hmem : ∀ c ∈ digits, isWhite c = false ∧ c ≠ '{' ∧ c ≠ '}' := fun c hc => by
    obtain ⟨n, hn⟩ := hexOf_mem hd c hc
    have := hexChar_facts hn
    exact ⟨this.2.2.2.1, this.2.2.2.2.1, this.2.2.2.2.2.1⟩
  have hclean : cleanGuid t = digits := by
    unfold cleanGuid
    rw [ht, show ws₁ ++ op ++ digits ++ cl ++ ws₂ = ws₁ ++ (op ++ digits ++ cl) ++ ws₂ by
      simp [List.append_assoc]]
    rw [trim_eq _ _ _ (fun c hc => isWhite_of (hw1 c hc)) (fun c hc => isWhite_of (hw2 c hc))]
    · obtain ⟨d0, ds, rfl⟩ : ∃ d0 ds, digits = d0 :: ds := by
        cases digits with
        | nil => exact absurd rfl hdne
        | cons d0 ds => exact ⟨d0, ds, rfl⟩
      have ho : stripOpen (op ++ (d0 :: ds) ++ cl) = (d0 :: ds) ++ cl := by
        rcases hop with rfl | rfl
        · have := (hmem d0 (by simp)).2.1
          simp only [List.nil_append, List.cons_append]
          unfold stripOpen
          split
          · rename_i heq
            injection heq with h1 h2
            exact absurd h1 this
          · rfl
        · rfl
      rw [ho]
      unfold stripClose
      rcases hcl with rfl | rfl
      · rw [List.append_nil]
        rw [if_neg]
        intro hc
        exact (hmem '}' (List.mem_of_getLast? hc)).2.2 rfl
      · rw [if_pos List.getLast?_concat, List.dropLast_concat]
    · simp [hdne]
    · intro c hc
      rcases hop with rfl | rfl
      · rw [List.nil_append] at hc
        cases digits with
        | nil => exact absurd rfl hdne
        | cons d0 ds =>
          simp only [List.cons_append, List.head?_cons, Option.some.injEq] at hc
          exact (hmem c (by simp [hc])).1
      · simp at hc
        subst hc; decide
    · intro c hc
      rcases hcl with rfl | rfl
      · rw [List.append_nil] at hc
        rw [List.getLast?_append, Option.or_eq_some_iff] at hc
        rcases hc with hc | ⟨hc, _⟩
        · exact (hmem c (List.mem_of_getLast? hc)).1
        · exact absurd (List.getLast?_eq_none_iff.mp hc) hdne
      · simp at hc
        subst hc; decide
  have hp := parsePairs_hex hd
  unfold Guid.parse
  simp only [hclean]
  rw [if_neg (by intro h; rw [h] at hlen; simp at hlen), if_neg (by rw [hp.2, g.len]; simp), hp.1]
  simp [g.len]

theorem hexDigit_hexChar (n : Nat) (h : n < 16) : HexChar n (hexDigit n) := by
  have : ∀ i : Fin 16, some (hexDigit i.val) = "0123456789ABCDEF".toList[i.val]? := by decide
  exact .inl (this ⟨n, h⟩)

theorem hexOf_flatMap (bs : Bytes) : HexOf bs (bs.flatMap hex2) := by
  induction bs with
  | nil => exact .nil
  | cons b bs ih =>
    have := b.toNat_lt
    exact .cons (hexDigit_hexChar _ (by omega)) (hexDigit_hexChar _ (by omega)) ih

theorem filter_hex (bs : Bytes) : (bs.flatMap hex2).filter (· ≠ '-') = bs.flatMap hex2 := by
  apply List.filter_eq_self.mpr
  intro c hc
  obtain ⟨n, hn⟩ := hexOf_mem (hexOf_flatMap bs) c hc
  have f := hexChar_facts hn
  simp only [decide_eq_true_eq]
  intro hc
  subst hc
  have : hexVal (UInt8.ofNat ('-'.toNat)) = none := by decide
  rw [f.2.2.1] at this
  cases this

/-- **C10**: parsing the displayed form gives the GUID back. -/
theorem C10_guid_display_roundtrip (g : Guid) : Guid.parse g.display = .ok (some g) := by
  unfold Guid.display
  split
  · rename_i h
    have hg : g = Guid.fromU128 0 := by
      rw [← C09_guid_conversions.2.2.2.1 g]
      congr 1
      simpa [Guid.isZero] using h
    subst hg
    decide
  · apply C10_guid_spellings
    refine ⟨[], [], g.bytes.flatMap hex2, [], [], ?_, by simp, by simp, .inl rfl, .inl rfl,
      hexOf_flatMap _⟩
    have e : g.bytes = g.bytes.take 4 ++ ((g.bytes.drop 4).take 2 ++ ((g.bytes.drop 6).take 2 ++
        ((g.bytes.drop 8).take 2 ++ g.bytes.drop 10))) := by
      have e1 := List.take_append_drop 4 g.bytes
      have e2 := List.take_append_drop 2 (g.bytes.drop 4)
      have e3 := List.take_append_drop 2 (g.bytes.drop 6)
      have e4 := List.take_append_drop 2 (g.bytes.drop 8)
      rw [List.drop_drop] at e2 e3 e4
      rw [e4, e3, e2, e1]
    conv => rhs; rw [e]
    have fh : ∀ bs : Bytes, (bs.flatMap hex2).filter (fun x => !decide (x = '-')) =
        bs.flatMap hex2 := fun bs => by simpa only [decide_not] using filter_hex bs
    simp only [List.filter_append, List.flatMap_append, fh,
      List.append_assoc, List.nil_append, List.append_nil, decide_not, List.filter_cons]
    simp

/-- **C10**: distinct GUIDs display differently. -/
theorem C10_guid_display_injective (g g' : Guid) (h : g.display = g'.display) : g = g' := by
  have h1 := C10_guid_display_roundtrip g
  rw [h, C10_guid_display_roundtrip g'] at h1
  simpa using h1.symm

/-- The spellings are many: e.g. braces, blanks, lower case and odd dashes. -/
example : Guid.parse " {00010203-04050607-08090a0b0c0d0eFf} ".toList =
    .ok (some ⟨[0, 1, 2, 3, 4, 5, 6, 7, 8, 9, 10, 11, 12, 13, 14, 255], rfl⟩) := by decide

example : Spelling ⟨[0, 1, 2, 3, 4, 5, 6, 7, 8, 9, 10, 11, 12, 13, 14, 255], rfl⟩
    " {00010203-04050607-08090a0b0c0d0eFf} ".toList := by
  refine ⟨[' '], ['{'], "000102030405060708090a0b0c0d0eFf".toList, ['}'], [' '], by decide,
    by decide, by decide, .inr rfl, .inr rfl, ?_⟩
  repeat' (first | exact .nil | refine .cons (by unfold HexChar; decide) (by unfold HexChar; decide) ?_)

/-! ## C11 -/

/-- **C11 is false**, first reason: text of 32 bytes with a multi-byte character at an
odd offset makes `Guid::from_str` panic. -/
theorem C11_parse_can_panic :
    ∃ s : List Char, Guid.parse s = .panic "byte index is not a char boundary" :=
  ⟨"1é23456789012345678901234567890".toList, by decide⟩

/-- **C11 is false**, second reason: a plus sign is accepted in place of a high digit. -/
theorem C11_parse_accepts_plus :
    ∃ g, Guid.parse "+1000000000000000000000000000000".toList = .ok (some g) :=
  ⟨⟨[1, 0, 0, 0, 0, 0, 0, 0, 0, 0, 0, 0, 0, 0, 0, 0], rfl⟩, by decide⟩

/-- Pairs of hexadecimal digits, where a plus sign may stand for the high digit. -/
inductive Spec.LooseHex : List Char → Prop
  | nil : LooseHex []
  | pair {m n : Nat} {c d : Char} {cs : List Char} : HexChar m c → HexChar n d → LooseHex cs →
      LooseHex (c :: d :: cs)
  | plus {n : Nat} {d : Char} {cs : List Char} : HexChar n d → LooseHex cs →
      LooseHex ('+' :: d :: cs)

/-- `t` cleaned of dashes, white space and braces. -/
def Spec.Cleaned (t core : List Char) : Prop :=
  ∃ ws₁ opening closing ws₂ : List Char,
    t.filter (· ≠ '-') = ws₁ ++ opening ++ core ++ closing ++ ws₂ ∧
    (∀ c ∈ ws₁, isWhite c = true) ∧ (∀ c ∈ ws₂, isWhite c = true) ∧
    (opening = [] ∨ opening = ['{']) ∧ (closing = [] ∨ closing = ['}'])

theorem dropWhile_split (l : List Char) :
    ∃ ws, l = ws ++ l.dropWhile isWhite ∧ ∀ c ∈ ws, isWhite c = true :=
  ⟨l.takeWhile isWhite, by simp, fun c hc => by
    have := List.all_takeWhile (p := isWhite) (l := l)
    exact List.all_eq_true.mp this c hc⟩

theorem cleaned_cleanGuid (t : List Char) : Cleaned t (cleanGuid t) := by
  unfold cleanGuid Cleaned
  generalize t.filter (· ≠ '-') = l
  obtain ⟨ws₁, e1, h1⟩ := dropWhile_split l
  obtain ⟨ws₂, e2, h2⟩ := dropWhile_split (l.dropWhile isWhite).reverse
  have e : l = ws₁ ++ trim l ++ ws₂.reverse := by
    have : l.dropWhile isWhite = trim l ++ ws₂.reverse := by
      rw [← List.reverse_reverse (l.dropWhile isWhite)]
      conv => lhs; rw [e2]
      rw [List.reverse_append]; rfl
    conv => lhs; rw [e1, this]
    rw [List.append_assoc]
  obtain ⟨op, e3, ho⟩ : ∃ op, trim l = op ++ stripOpen (trim l) ∧ (op = [] ∨ op = ['{']) := by
    unfold stripOpen
    split
    · rename_i l' h
      exact ⟨['{'], h, .inr rfl⟩
    · exact ⟨[], rfl, .inl rfl⟩
  obtain ⟨cl, e4, hc⟩ : ∃ cl, stripOpen (trim l) = stripClose (stripOpen (trim l)) ++ cl ∧
      (cl = [] ∨ cl = ['}']) := by
    unfold stripClose
    split
    · rename_i h
      obtain ⟨ys, hy⟩ := List.getLast?_eq_some_iff.mp h
      exact ⟨['}'], by rw [hy, List.dropLast_concat], .inr rfl⟩
    · exact ⟨[], by simp, .inl rfl⟩
  refine ⟨ws₁, op, cl, ws₂.reverse, ?_, h1, by simpa using h2, ho, hc⟩
  conv => lhs; rw [e, e3, e4]
  simp [List.append_assoc]

theorem encode_cons_ascii {cs : List Char} {a : UInt8} {l : Bytes}
    (h : utf8Encode cs = a :: l) (ha : a.toNat < 128) :
    ∃ c cs', cs = c :: cs' ∧ c.toNat = a.toNat ∧ utf8Encode cs' = l := by
  have hd := utf8Decode_encode cs
  have hl : utf8Len a = 1 := by unfold utf8Len; rw [if_pos ha]
  rw [h, utf8Decode.eq_2 _ _ hl] at hd
  obtain ⟨c, cs', e1, e2, e3⟩ := consOpt_eq_some hd
  exact ⟨c, cs', e3, charOfNat?_some e1, utf8Encode_decode _ _ e2⟩

theorem hexVal_some {a : UInt8} {n : Nat} {c : Char} (h : hexVal a = some n)
    (hc : c.toNat = a.toNat) : HexChar n c := by
  have key : ∀ i : Fin 16, some (Char.ofNat (if i.val < 10 then 48 + i.val else 55 + i.val)) =
      "0123456789ABCDEF".toList[i.val]? ∧
      some (Char.ofNat (if i.val < 10 then 48 + i.val else 87 + i.val)) =
      "0123456789abcdef".toList[i.val]? := by decide
  have hcc : c = Char.ofNat a.toNat := by rw [← hc, Char.ofNat_toNat]
  unfold hexVal at h
  simp only [] at h
  split at h
  · simp only [Option.some.injEq] at h
    have := (key ⟨n, by omega⟩).1
    simp only [] at this
    rw [if_pos (by omega), show 48 + n = a.toNat by omega, ← hcc] at this
    exact .inl this
  · split at h
    · simp only [Option.some.injEq] at h
      have := (key ⟨n, by omega⟩).1
      simp only [] at this
      rw [if_neg (by omega), show 55 + n = a.toNat by omega, ← hcc] at this
      exact .inl this
    · split at h
      · simp only [Option.some.injEq] at h
        have := (key ⟨n, by omega⟩).2
        simp only [] at this
        rw [if_neg (by omega), show 87 + n = a.toNat by omega, ← hcc] at this
        exact .inr this
      · cases h

theorem hexVal_ascii {a : UInt8} {n : Nat} (h : hexVal a = some n) : a.toNat < 128 := by
  unfold hexVal at h
  simp only [] at h
  split at h
  · omega
  · split at h
    · omega
    · split at h
      · omega
      · cases h

theorem parsePairs_loose (n : Nat) (cs : List Char) (bs : Bytes)
    (hn : (utf8Encode cs).length = 2 * n)
    (h : parsePairs (utf8Encode cs) = .ok (some bs)) : LooseHex cs ∧ cs.length = 2 * n := by
  induction n generalizing cs bs with
  | zero =>
    cases cs with
    | nil => exact ⟨.nil, rfl⟩
    | cons c cs =>
      have := utf8Decode_encode (c :: cs)
      rw [List.eq_nil_of_length_eq_zero hn] at this
      simp [utf8Decode] at this
  | succ n ih =>
    match he : utf8Encode cs with
    | [] => rw [he] at hn; simp at hn
    | [a] => rw [he] at hn; simp at hn; omega
    | a :: b :: l =>
      rw [he, parsePairs] at h
      split at h
      · match hx : fromHex2 a b with
        | none => rw [hx] at h; simp at h
        | some v =>
          rw [hx] at h
          match hl : parsePairs l with
          | .bad f => rw [hl] at h; simp at h
          | .ok none => rw [hl] at h; simp at h
          | .ok (some vs) =>
            have hab : a.toNat < 128 ∧ b.toNat < 128 := by
              unfold fromHex2 at hx
              split at hx
              · rename_i h0
                refine ⟨by rw [h0]; decide, ?_⟩
                match hb : hexVal b with
                | none => rw [hb] at hx; simp at hx
                | some y => exact hexVal_ascii hb
              · match ha : hexVal a, hb : hexVal b with
                | some x, some y => exact ⟨hexVal_ascii ha, hexVal_ascii hb⟩
                | none, _ => rw [ha] at hx; simp at hx
                | some x, none => rw [ha, hb] at hx; simp at hx
            obtain ⟨c, cs1, rfl, hc, he1⟩ := encode_cons_ascii he hab.1
            obtain ⟨d, cs2, rfl, hd, he2⟩ := encode_cons_ascii he1 hab.2
            obtain ⟨i1, i2⟩ := ih cs2 vs (by rw [he2]; rw [he] at hn; simp at hn; omega)
              (by rw [he2]; exact hl)
            refine ⟨?_, by simp only [List.length_cons, i2]; omega⟩
            unfold fromHex2 at hx
            split at hx
            · rename_i h0
              match hb : hexVal b with
              | none => rw [hb] at hx; simp at hx
              | some y =>
                have : c = '+' := by
                  have e : c.toNat = '+'.toNat := by rw [hc, h0]; decide
                  rw [← Char.ofNat_toNat c, e]
                  decide
                rw [this]
                exact .plus (hexVal_some hb hd) i1
            · match ha : hexVal a, hb : hexVal b with
              | some x, some y => exact .pair (hexVal_some ha hc) (hexVal_some hb hd) i1
              | none, _ => rw [ha] at hx; simp at hx
              | some x, none => rw [ha, hb] at hx; simp at hx
      · simp at h

theorem looseHex_strict {cs : List Char} (h : LooseHex cs) (hp : '+' ∉ cs) :
    ∀ c ∈ cs, ∃ n, HexChar n c := by
  induction h with
  | nil => simp
  | pair h1 h2 _ ih =>
    intro c hc
    simp only [List.mem_cons, not_or] at hc hp
    rcases hc with rfl | rfl | hc
    · exact ⟨_, h1⟩
    · exact ⟨_, h2⟩
    · exact ih hp.2.2 c hc
  | plus => simp at hp

/-- **C11, what does hold**: whatever is accepted is, apart from dashes, white space and
braces, either `0` or 32 characters in pairs of hexadecimal digits with a possible plus
sign in place of a high digit; without plus signs that is exactly 32 hexadecimal digits.
Missing: plus signs are accepted (`C11_parse_accepts_plus`). -/
theorem C11_parse_strict_partial (t : List Char) (g : Guid) (h : Guid.parse t = .ok (some g)) :
    ∃ core, Cleaned t core ∧
      (core = ['0'] ∨ (core.length = 32 ∧ LooseHex core ∧
        ('+' ∉ t → ∀ c ∈ core, ∃ n, HexChar n c))) := by
  refine ⟨cleanGuid t, cleaned_cleanGuid t, ?_⟩
  unfold Guid.parse at h
  simp only [] at h
  split at h
  · exact .inl ‹_›
  · right
    split at h
    · simp at h
    · rename_i hne hlen
      have hlen : (utf8Encode (cleanGuid t)).length = 2 * 16 := by simpa using hlen
      match hp : parsePairs (utf8Encode (cleanGuid t)) with
      | .bad f => rw [hp] at h; simp at h
      | .ok none => rw [hp] at h; simp at h
      | .ok (some bs) =>
        obtain ⟨h1, h2⟩ := parsePairs_loose 16 _ bs hlen hp
        refine ⟨h2, h1, fun hplus => looseHex_strict h1 fun hmem => hplus ?_⟩
        obtain ⟨ws₁, op, cl, ws₂, e, _⟩ := cleaned_cleanGuid t
        have : '+' ∈ t.filter (· ≠ '-') := by rw [e]; simp [hmem]
        exact (List.mem_filter.mp this).1

theorem parsePairs_ascii (cs : List Char) (h : ∀ c ∈ cs, c.toNat < 128) :
    ∃ r, parsePairs (utf8Encode cs) = .ok r := by
  match cs, h with
  | [], _ => exact ⟨_, rfl⟩
  | [c], h =>
    refine ⟨some [], ?_⟩
    simp only [utf8Encode, List.flatMap_cons, utf8Encode_ascii c (h c (by simp)),
      List.flatMap_nil, List.append_nil, parsePairs]
  | c :: d :: cs, h =>
    obtain ⟨r, hr⟩ := parsePairs_ascii cs fun x hx => h x (by simp [hx])
    have hc := h c (by simp)
    have hd := h d (by simp)
    have e : utf8Encode (c :: d :: cs) =
        UInt8.ofNat c.toNat :: UInt8.ofNat d.toNat :: utf8Encode cs := by
      simp only [utf8Encode, List.flatMap_cons, utf8Encode_ascii _ hc,
        utf8Encode_ascii _ hd, List.cons_append, List.nil_append]
    have hb : atBoundary (utf8Encode cs) = true := by
      cases cs with
      | nil => rfl
      | cons x l =>
        have hx := h x (by simp)
        simp only [utf8Encode, List.flatMap_cons, utf8Encode_ascii _ hx, List.cons_append,
          atBoundary, isCont_ascii hx, Bool.not_false]
    rw [e, parsePairs, hb, atBoundary, isCont_ascii hc]
    simp only [Bool.not_false, Bool.and_self, if_true]
    match fromHex2 (UInt8.ofNat c.toNat) (UInt8.ofNat d.toNat) with
    | none => exact ⟨_, rfl⟩
    | some v =>
      rw [hr]
      match r with
      | none => exact ⟨_, rfl⟩
      | some vs => exact ⟨_, rfl⟩

/-- **C11, what does hold**: ASCII text never makes the parser panic.  Missing: other
text can (`C11_parse_can_panic`). -/
theorem C11_parse_total_partial (t : List Char) (h : ∀ c ∈ t, c.toNat < 128) :
    ∃ r, Guid.parse t = .ok r := by
  have hcl : ∀ c ∈ cleanGuid t, c.toNat < 128 := by
    intro c hc
    obtain ⟨ws₁, op, cl, ws₂, e, _⟩ := cleaned_cleanGuid t
    have : c ∈ t.filter (· ≠ '-') := by rw [e]; simp [hc]
    exact h c (List.mem_filter.mp this).1
  obtain ⟨r, hr⟩ := parsePairs_ascii _ hcl
  unfold Guid.parse
  simp only [hr]
  split
  · exact ⟨_, rfl⟩
  · split
    · exact ⟨_, rfl⟩
    · match r with
      | none => exact ⟨_, rfl⟩
      | some bs =>
        simp only []
        split <;> exact ⟨_, rfl⟩

/-- Rejected ASCII text: 31 digits, and a non-digit. -/
example : Guid.parse "0123456789abcdef0123456789abcde".toList = .ok none ∧
    Guid.parse "0123456789abcdef0123456789abcdeg".toList = .ok none := by decide

end Gvas
