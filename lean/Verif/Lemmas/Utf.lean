import Verif.Model.Utf
import Verif.Lemmas.Le

/-! # UTF-8 and UTF-16: decoding inverts encoding, and conversely -/

namespace Gvas

theorem charOfNat?_toNat (c : Char) : charOfNat? c.toNat = some c := by
  unfold charOfNat?
  have h : c.toNat.isValidChar := c.valid
  simp only [h, dite_true, Option.some.injEq]
  apply Char.ext
  apply UInt32.toNat_inj.mp
  simp [Char.ofNatAux]

theorem charOfNat?_eq {n : Nat} {c : Char} (h : c.toNat = n) : charOfNat? n = some c := by
  subst h; exact charOfNat?_toNat c

theorem charOfNat?_some {n : Nat} {c : Char} (h : charOfNat? n = some c) : c.toNat = n := by
  unfold charOfNat? at h
  split at h
  · rename_i hv
    simp only [Option.some.injEq] at h
    subst h
    simp only [Char.ofNatAux, Char.toNat]
    rfl
  · simp at h

theorem char_valid (c : Char) :
    c.toNat < 0xD800 ∨ (0xDFFF < c.toNat ∧ c.toNat < 0x110000) := c.valid

theorem char_toNat_lt (c : Char) : c.toNat < 0x110000 := by
  have := char_valid c; omega

theorem u8_toNat_ofNat_lt {n : Nat} (h : n < 256) : (UInt8.ofNat n).toNat = n := by
  rw [UInt8.toNat_ofNat']; omega

theorem u16_toNat_ofNat_lt {n : Nat} (h : n < 65536) : (UInt16.ofNat n).toNat = n := by
  rw [UInt16.toNat_ofNat']; omega

theorem consOpt_some (c : Char) (o : Option (List Char)) :
    consOpt (some c) o = o.map (c :: ·) := by cases o <;> rfl

theorem consOpt_eq_some {c : Option Char} {o : Option (List Char)} {cs : List Char}
    (h : consOpt c o = some cs) : ∃ c' cs', c = some c' ∧ o = some cs' ∧ cs = c' :: cs' := by
  cases c <;> cases o <;> simp_all [consOpt]

theorem isCont_iff (b : UInt8) : isCont b = true ↔ 0x80 ≤ b.toNat ∧ b.toNat < 0xC0 := by
  simp [isCont]

theorem utf8Len_eq (b : UInt8) {n : Nat} (h : b.toNat = n) :
    utf8Len b = if n < 0x80 then 1 else if n < 0xC2 then 0 else if n < 0xE0 then 2
      else if n < 0xF0 then 3 else if n < 0xF5 then 4 else 0 := by subst h; rfl

theorem utf8Decode_encodeChar (c : Char) (l : Bytes) :
    utf8Decode (String.utf8EncodeChar c ++ l) = (utf8Decode l).map (c :: ·) := by
  have hv := char_toNat_lt c
  have hd := char_valid c
  have e : c.val.toNat = c.toNat := rfl
  unfold String.utf8EncodeChar
  simp only [e]
  clear e
  generalize hn : c.toNat = v at *
  split
  · rename_i h
    have h0 := u8_toNat_ofNat_lt (n := v) (by omega)
    simp only [List.cons_append, List.nil_append]
    rw [utf8Decode.eq_2 _ _ (by rw [utf8Len_eq _ h0]; split <;> omega), h0, charOfNat?_eq hn,
      consOpt_some]
  split
  · rename_i h h'
    have h0 := u8_toNat_ofNat_lt (n := v / 64 % 32 + 192) (by omega)
    have h1 := u8_toNat_ofNat_lt (n := v % 64 + 128) (by omega)
    simp only [List.cons_append, List.nil_append]
    rw [utf8Decode.eq_3 _ _ _ (by rw [utf8Len_eq _ h0]; repeat' split <;> try omega), utf8Two,
      if_pos (by rw [isCont_iff]; omega), h0, h1, charOfNat?_eq (c := c) (by omega), consOpt_some]
  split
  · rename_i h h' h''
    have h0 := u8_toNat_ofNat_lt (n := v / 4096 % 16 + 224) (by omega)
    have h1 := u8_toNat_ofNat_lt (n := v / 64 % 64 + 128) (by omega)
    have h2 := u8_toNat_ofNat_lt (n := v % 64 + 128) (by omega)
    simp only [List.cons_append, List.nil_append]
    rw [utf8Decode.eq_4 _ _ _ _ (by rw [utf8Len_eq _ h0]; repeat' split <;> try omega), utf8Three]
    simp only [isCont_iff, h0, h1, h2]
    rw [if_pos (by omega), charOfNat?_eq (c := c) (by omega), consOpt_some]
  · rename_i h h' h''
    have h0 := u8_toNat_ofNat_lt (n := v / 262144 % 8 + 240) (by omega)
    have h1 := u8_toNat_ofNat_lt (n := v / 4096 % 64 + 128) (by omega)
    have h2 := u8_toNat_ofNat_lt (n := v / 64 % 64 + 128) (by omega)
    have h3 := u8_toNat_ofNat_lt (n := v % 64 + 128) (by omega)
    simp only [List.cons_append, List.nil_append]
    rw [utf8Decode.eq_5 _ _ _ _ _ (by rw [utf8Len_eq _ h0]; repeat' split <;> try omega), utf8Four]
    simp only [isCont_iff, h0, h1, h2, h3]
    rw [if_pos (by omega), charOfNat?_eq (c := c) (by omega), consOpt_some]

theorem utf8Decode_encode (cs : List Char) : utf8Decode (utf8Encode cs) = some cs := by
  induction cs with
  | nil => rfl
  | cons c cs ih =>
    have : utf8Encode (c :: cs) = String.utf8EncodeChar c ++ utf8Encode cs := rfl
    rw [this, utf8Decode_encodeChar, ih]; rfl

theorem u8_eq_ofNat {b : UInt8} {n : Nat} (h : b.toNat = n) : UInt8.ofNat n = b := by
  subst h; exact UInt8.ofNat_toNat

theorem u16_eq_ofNat {b : UInt16} {n : Nat} (h : b.toNat = n) : UInt16.ofNat n = b := by
  subst h; exact UInt16.ofNat_toNat

theorem utf8Len_cases {b : UInt8} {n : Nat} (h : utf8Len b = n) :
    (n = 1 ∧ b.toNat < 0x80) ∨ n = 0 ∨ (n = 2 ∧ 0xC2 ≤ b.toNat ∧ b.toNat < 0xE0) ∨
    (n = 3 ∧ 0xE0 ≤ b.toNat ∧ b.toNat < 0xF0) ∨ (n = 4 ∧ 0xF0 ≤ b.toNat ∧ b.toNat < 0xF5) := by
  unfold utf8Len at h
  repeat' split at h
  all_goals omega

theorem utf8Encode_decode (bs : Bytes) (cs : List Char) (h : utf8Decode bs = some cs) :
    utf8Encode cs = bs := by
  induction bs using utf8Decode.induct generalizing cs with
  | case1 => simp [utf8Decode] at h; subst h; rfl
  | case2 b0 l h0 ih =>
    rw [utf8Decode.eq_2 _ _ h0] at h
    obtain ⟨c, cs', hc, hcs, rfl⟩ := consOpt_eq_some h
    have h0 := utf8Len_cases h0
    have e : c.val.toNat = b0.toNat := charOfNat?_some hc
    have : utf8Encode (c :: cs') = String.utf8EncodeChar c ++ utf8Encode cs' := rfl
    rw [this, ih cs' hcs]
    unfold String.utf8EncodeChar
    simp only [e]
    rw [if_pos (by omega), u8_eq_ofNat rfl]; rfl
  | case3 b0 b1 l h0 ih =>
    rw [utf8Decode.eq_3 _ _ _ h0] at h
    obtain ⟨c, cs', hc, hcs, rfl⟩ := consOpt_eq_some h
    have h0 := utf8Len_cases h0
    unfold utf8Two at hc
    split at hc
    · rename_i hb
      rw [isCont_iff] at hb
      have e : c.val.toNat = _ := charOfNat?_some hc
      have : utf8Encode (c :: cs') = String.utf8EncodeChar c ++ utf8Encode cs' := rfl
      rw [this, ih cs' hcs]
      unfold String.utf8EncodeChar
      simp only [e]
      rw [if_neg (by omega), if_pos (by omega), u8_eq_ofNat (b := b0) (by omega),
        u8_eq_ofNat (b := b1) (by omega)]; rfl
    · simp at hc
  | case4 b0 b1 b2 l h0 ih =>
    rw [utf8Decode.eq_4 _ _ _ _ h0] at h
    obtain ⟨c, cs', hc, hcs, rfl⟩ := consOpt_eq_some h
    have h0 := utf8Len_cases h0
    unfold utf8Three at hc
    simp only [isCont_iff] at hc
    split at hc
    · rename_i hb
      have e : c.val.toNat = _ := charOfNat?_some hc
      have : utf8Encode (c :: cs') = String.utf8EncodeChar c ++ utf8Encode cs' := rfl
      rw [this, ih cs' hcs]
      unfold String.utf8EncodeChar
      simp only [e]
      rw [if_neg (by omega), if_neg (by omega), if_pos (by omega),
        u8_eq_ofNat (b := b0) (by omega), u8_eq_ofNat (b := b1) (by omega),
        u8_eq_ofNat (b := b2) (by omega)]; rfl
    · simp at hc
  | case5 b0 b1 b2 b3 l h0 ih =>
    rw [utf8Decode.eq_5 _ _ _ _ _ h0] at h
    obtain ⟨c, cs', hc, hcs, rfl⟩ := consOpt_eq_some h
    have h0 := utf8Len_cases h0
    unfold utf8Four at hc
    simp only [isCont_iff] at hc
    split at hc
    · rename_i hb
      have e : c.val.toNat = _ := charOfNat?_some hc
      have : utf8Encode (c :: cs') = String.utf8EncodeChar c ++ utf8Encode cs' := rfl
      rw [this, ih cs' hcs]
      unfold String.utf8EncodeChar
      simp only [e]
      rw [if_neg (by omega), if_neg (by omega), if_neg (by omega),
        u8_eq_ofNat (b := b0) (by omega), u8_eq_ofNat (b := b1) (by omega),
        u8_eq_ofNat (b := b2) (by omega), u8_eq_ofNat (b := b3) (by omega)]; rfl
    · simp at hc
  | case6 b0 l h1 h2 h3 h4 =>
    rw [utf8Decode.eq_6 _ _ h1 h2 h3 h4] at h
    simp at h

theorem utf16Len_eq (b : UInt16) {n : Nat} (h : b.toNat = n) :
    utf16Len b = if n < 0xD800 then 1 else if n < 0xDC00 then 2 else if n < 0xE000 then 0
      else 1 := by subst h; rfl

theorem utf16Len_cases {b : UInt16} {n : Nat} (h : utf16Len b = n) :
    (n = 1 ∧ (b.toNat < 0xD800 ∨ 0xE000 ≤ b.toNat)) ∨ n = 0 ∨
    (n = 2 ∧ 0xD800 ≤ b.toNat ∧ b.toNat < 0xDC00) := by
  unfold utf16Len at h
  repeat' split at h
  all_goals omega

theorem utf16Decode_encodeChar (c : Char) (l : List UInt16) :
    utf16Decode (utf16EncodeChar c ++ l) = (utf16Decode l).map (c :: ·) := by
  have hv := char_toNat_lt c
  have hd := char_valid c
  unfold utf16EncodeChar
  generalize hn : c.toNat = v at *
  simp only []
  split
  · have h0 := u16_toNat_ofNat_lt (n := v) (by omega)
    simp only [List.cons_append, List.nil_append]
    rw [utf16Decode.eq_2 _ _ (by rw [utf16Len_eq _ h0]; repeat' split <;> try omega), h0,
      charOfNat?_eq hn, consOpt_some]
  · have h0 := u16_toNat_ofNat_lt (n := 0xD800 + (v - 0x10000) / 1024) (by omega)
    have h1 := u16_toNat_ofNat_lt (n := 0xDC00 + (v - 0x10000) % 1024) (by omega)
    simp only [List.cons_append, List.nil_append]
    rw [utf16Decode.eq_3 _ _ _ (by rw [utf16Len_eq _ h0]; repeat' split <;> try omega), utf16Two,
      h0, h1, if_pos (by omega), charOfNat?_eq (c := c) (by omega), consOpt_some]

theorem utf16Decode_encode (cs : List Char) : utf16Decode (utf16Encode cs) = some cs := by
  induction cs with
  | nil => rfl
  | cons c cs ih =>
    have : utf16Encode (c :: cs) = utf16EncodeChar c ++ utf16Encode cs := rfl
    rw [this, utf16Decode_encodeChar, ih]; rfl

theorem utf16Encode_decode (us : List UInt16) (cs : List Char) (h : utf16Decode us = some cs) :
    utf16Encode cs = us := by
  induction us using utf16Decode.induct generalizing cs with
  | case1 => simp [utf16Decode] at h; subst h; rfl
  | case2 u l h0 ih =>
    rw [utf16Decode.eq_2 _ _ h0] at h
    obtain ⟨c, cs', hc, hcs, rfl⟩ := consOpt_eq_some h
    have h0 := utf16Len_cases h0
    have e : c.toNat = u.toNat := charOfNat?_some hc
    have : utf16Encode (c :: cs') = utf16EncodeChar c ++ utf16Encode cs' := rfl
    rw [this, ih cs' hcs]
    unfold utf16EncodeChar
    have := u.toNat_lt
    simp only [e]
    rw [if_pos (by omega), u16_eq_ofNat rfl]; rfl
  | case3 u v l h0 ih =>
    rw [utf16Decode.eq_3 _ _ _ h0] at h
    obtain ⟨c, cs', hc, hcs, rfl⟩ := consOpt_eq_some h
    have h0 := utf16Len_cases h0
    unfold utf16Two at hc
    split at hc
    · rename_i hb
      have e : c.toNat = _ := charOfNat?_some hc
      have : utf16Encode (c :: cs') = utf16EncodeChar c ++ utf16Encode cs' := rfl
      rw [this, ih cs' hcs]
      unfold utf16EncodeChar
      simp only [e]
      rw [if_neg (by omega), u16_eq_ofNat (b := u) (by omega), u16_eq_ofNat (b := v) (by omega)]
      rfl
    · simp at hc
  | case4 u l h1 h2 =>
    rw [utf16Decode.eq_4 _ _ h1 h2] at h
    simp at h

@[simp] theorem u16sToBytes_length (ws : List UInt16) : (u16sToBytes ws).length = 2 * ws.length := by
  induction ws with
  | nil => rfl
  | cons w ws ih =>
    have : u16sToBytes (w :: ws) = leBytes 2 w.toNat ++ u16sToBytes ws := rfl
    rw [this, List.length_append, ih, leBytes_length, List.length_cons]; omega

theorem bytesToU16_u16sToBytes (ws : List UInt16) : bytesToU16 (u16sToBytes ws) = ws := by
  induction ws with
  | nil => rfl
  | cons w ws ih =>
    have : u16sToBytes (w :: ws) = leBytes 2 w.toNat ++ u16sToBytes ws := rfl
    rw [this]
    have h2 := leNat_leBytes 2 w.toNat
    have hw := w.toNat_lt
    simp only [leBytes, List.cons_append, List.nil_append, bytesToU16, ih] at h2 ⊢
    rw [h2, u16_eq_ofNat (b := w) (by omega)]

theorem u16sToBytes_bytesToU16 (bs : Bytes) (h : 2 ∣ bs.length) :
    u16sToBytes (bytesToU16 bs) = bs := by
  fun_induction bytesToU16 bs with
  | case1 a b l ih =>
    have : u16sToBytes (UInt16.ofNat (leNat [a, b]) :: bytesToU16 l) =
      leBytes 2 (UInt16.ofNat (leNat [a, b])).toNat ++ u16sToBytes (bytesToU16 l) := rfl
    rw [this, ih (by simp at h; omega), u16_toNat_ofNat_lt (by have := leNat_lt [a, b]; simpa using this)]
    rw [leBytes_leNat' (by rfl)]; rfl
  | case2 l hl =>
    match l, hl with
    | [], _ => rfl
    | [a], _ => simp at h
    | a :: b :: l, hl => exact absurd rfl (hl a b l)

theorem bytesToU16_length (bs : Bytes) : (bytesToU16 bs).length = bs.length / 2 := by
  fun_induction bytesToU16 bs with
  | case1 a b l ih => simp [ih]; omega
  | case2 l hl =>
    match l, hl with
    | [], _ => rfl
    | [a], _ => simp
    | a :: b :: l, hl => exact absurd rfl (hl a b l)

theorem isAscii_iff (cs : List Char) : isAscii cs = true ↔ ∀ c ∈ cs, c.toNat < 128 := by
  simp [isAscii]

theorem utf8Encode_ascii_length (cs : List Char) (h : isAscii cs = true) :
    (utf8Encode cs).length = cs.length := by
  induction cs with
  | nil => rfl
  | cons c cs ih =>
    rw [isAscii_iff] at h
    have hc := h c (by simp)
    have : utf8Encode (c :: cs) = String.utf8EncodeChar c ++ utf8Encode cs := rfl
    rw [this, List.length_append, ih ((isAscii_iff cs).mpr fun d hd => h d (by simp [hd]))]
    unfold String.utf8EncodeChar
    have e : c.val.toNat = c.toNat := rfl
    simp only [e]
    rw [if_pos (by omega)]
    simp; omega

end Gvas
