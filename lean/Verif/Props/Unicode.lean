import Verif.Spec.Unicode
import Verif.Lemmas.GrammarComplete
import Verif.Props.Strings
import Verif.Props.GuidExact
import Verif.Props.Scalars

/-!
# C78: strings are stored in the Unicode encodings
-/

namespace Gvas

open Spec Unicode

namespace Unicode

/-! ## One character -/

theorem utf8_char (c : Char) : Utf8 c.toNat ((String.utf8EncodeChar c).map UInt8.toNat) := by
  have hv := char_toNat_lt c
  have e : c.val.toNat = c.toNat := rfl
  unfold String.utf8EncodeChar
  simp only [e]
  clear e
  generalize c.toNat = v at *
  split
  · rw [List.map_cons, List.map_nil, u8_toNat_ofNat_lt (by omega)]
    exact .one v (by omega)
  split
  · simp only [List.map_cons, List.map_nil]
    rw [u8_toNat_ofNat_lt (by omega), u8_toNat_ofNat_lt (by omega)]
    have := Utf8.two (v / 64) (v % 64) (by omega) (by omega) (by omega)
    rw [show v / 64 * 0x40 + v % 64 = v by omega] at this
    rwa [show v / 64 % 0x20 + 0xc0 = 0xC0 + v / 64 by omega,
      show v % 0x40 + 0x80 = 0x80 + v % 64 by omega]
  split
  · simp only [List.map_cons, List.map_nil]
    rw [u8_toNat_ofNat_lt (by omega), u8_toNat_ofNat_lt (by omega), u8_toNat_ofNat_lt (by omega)]
    have := Utf8.three (v / 4096) (v / 64 % 64) (v % 64) (by omega) (by omega) (by omega) (by omega)
    rw [show (v / 4096 * 0x40 + v / 64 % 64) * 0x40 + v % 64 = v by omega] at this
    rwa [show v / 4096 % 0x10 + 0xe0 = 0xE0 + v / 4096 by omega,
      show v / 64 % 0x40 + 0x80 = 0x80 + v / 64 % 64 by omega,
      show v % 0x40 + 0x80 = 0x80 + v % 64 by omega]
  · simp only [List.map_cons, List.map_nil]
    rw [u8_toNat_ofNat_lt (by omega), u8_toNat_ofNat_lt (by omega), u8_toNat_ofNat_lt (by omega),
      u8_toNat_ofNat_lt (by omega)]
    have := Utf8.four (v / 262144) (v / 4096 % 64) (v / 64 % 64) (v % 64) (by omega) (by omega)
      (by omega) (by omega) (by omega)
    rw [show ((v / 262144 * 0x40 + v / 4096 % 64) * 0x40 + v / 64 % 64) * 0x40 + v % 64 = v by
      omega] at this
    rwa [show v / 262144 % 0x08 + 0xf0 = 0xF0 + v / 262144 by omega,
      show v / 4096 % 0x40 + 0x80 = 0x80 + v / 4096 % 64 by omega,
      show v / 64 % 0x40 + 0x80 = 0x80 + v / 64 % 64 by omega,
      show v % 0x40 + 0x80 = 0x80 + v % 64 by omega]

theorem utf16_char (c : Char) : Utf16 c.toNat ((utf16EncodeChar c).map UInt16.toNat) := by
  have hv := char_toNat_lt c
  unfold utf16EncodeChar
  simp only
  generalize c.toNat = v at *
  have t : ∀ n, n < 2 ^ 16 → (UInt16.ofNat n).toNat = n := fun n h => by
    rw [UInt16.toNat_ofNat']; exact Nat.mod_eq_of_lt h
  split
  · rw [List.map_cons, List.map_nil, t _ (by omega)]
    exact .one v (by omega)
  · simp only [List.map_cons, List.map_nil]
    rw [t _ (by omega), t _ (by omega)]
    have := Utf16.two ((v - 0x10000) / 1024) ((v - 0x10000) % 1024) (by omega) (by omega)
    rwa [show 0x10000 + (v - 0x10000) / 1024 * 0x400 + (v - 0x10000) % 1024 = v by omega] at this

/-- A code point has one form in UTF-8. -/
theorem utf8_unique (n : Nat) (us vs : List Nat) (h : Utf8 n us) (h' : Utf8 n vs) :
    us = vs := by
  have key : ∀ n m us vs, Utf8 n us → Utf8 m vs → n = m → us = vs := by
    intro n m us vs h h' e
    cases h <;> cases h' <;> simp <;> omega
  exact key n n us vs h h' rfl

/-- A code point has one form in UTF-16. -/
theorem utf16_unique (n : Nat) (us vs : List Nat) (h : Utf16 n us) (h' : Utf16 n vs) :
    us = vs := by
  have key : ∀ n m us vs, Utf16 n us → Utf16 m vs → n = m → us = vs := by
    intro n m us vs h h' e
    cases h <;> cases h' <;> simp <;> omega
  exact key n n us vs h h' rfl

/-! ## Texts -/

theorem encoded_unique {form : Nat → List Nat → Prop}
    (hf : ∀ n us vs, form n us → form n vs → us = vs) {cs : List Char} {us vs : List Nat}
    (h : Encoded form cs us) (h' : Encoded form cs vs) : us = vs := by
  induction h generalizing vs with
  | nil => cases h'; rfl
  | cons h1 _ ih =>
    cases h' with
    | cons h1' h2' => rw [hf _ _ _ h1 h1', ih h2']

theorem encoded_utf8 (cs : List Char) : Encoded Utf8 cs ((utf8Encode cs).map UInt8.toNat) := by
  induction cs with
  | nil => exact .nil
  | cons c cs ih =>
    rw [utf8Encode_cons, List.map_append]
    exact .cons (utf8_char c) ih

theorem encoded_utf16 (cs : List Char) : Encoded Utf16 cs ((utf16Encode cs).map UInt16.toNat) := by
  induction cs with
  | nil => exact .nil
  | cons c cs ih =>
    rw [show utf16Encode (c :: cs) = utf16EncodeChar c ++ utf16Encode cs from rfl, List.map_append]
    exact .cons (utf16_char c) ih

/-! ## Bytes -/

theorem littleEndian_unique {n x : Nat} {b : Bytes} (h : LittleEndian n x b) : b = leBytes n x := by
  obtain ⟨hl, he⟩ := h
  obtain ⟨hl', he'⟩ := littleEndian_leBytes n x
  refine List.ext_getElem (by rw [hl, hl']) fun i h1 h2 => ?_
  exact UInt8.toNat_inj.mp (by rw [he i h1, he' i h2])

theorem words_iff (w : Nat) (ns : List Nat) (b : Bytes) :
    Words w ns b ↔ b = ns.flatMap (leBytes w) := by
  constructor
  · intro h
    induction h with
    | nil => rfl
    | cons h1 _ ih => rw [List.flatMap_cons, littleEndian_unique h1, ih]
  · rintro rfl
    induction ns with
    | nil => exact .nil
    | cons n ns ih => rw [List.flatMap_cons]; exact .cons (littleEndian_leBytes w n) ih

theorem words_utf8 (bs : Bytes) : (bs.map UInt8.toNat ++ [0]).flatMap (leBytes 1) = bs ++ [0] := by
  rw [List.flatMap_append, List.flatMap_map]
  congr 1
  induction bs with
  | nil => rfl
  | cons b bs ih => rw [List.flatMap_cons, ih]; simp [leBytes]

theorem words_utf16 (ws : List UInt16) :
    (ws.map UInt16.toNat ++ [0]).flatMap (leBytes 2) = u16sToBytes ws ++ [0, 0] := by
  rw [List.flatMap_append, List.flatMap_map]
  rfl

theorem len_narrow (n : Nat) (h : n + 1 < 2 ^ 31) :
    leBytes 4 (n + 1) = i32B (Int32.ofNat (n + 1)) := by
  have := (C01_scalars_little_endian).2.2.2.2.2.1 (Int32.ofNat (n + 1))
  rw [i32_ofNat_toInt (by omega)] at this
  rw [littleEndian_unique this]
  congr 1
  omega

theorem len_wide (n : Nat) (h : n + 1 < 2 ^ 31) :
    leBytes 4 (2 ^ 32 - (n + 1)) = i32B (-(Int32.ofNat (n + 1))) := by
  have := (C01_scalars_little_endian).2.2.2.2.2.1 (-(Int32.ofNat (n + 1)))
  rw [i32_neg_ofNat_toInt (by omega)] at this
  rw [littleEndian_unique this]
  have e : ((-((n + 1 : Nat) : Int)) % 2 ^ 32).toNat = 2 ^ 32 - (n + 1) := by omega
  rw [e]

theorem narrow_iff (t : String) (b : Bytes) (h : (utf8Encode t.toList).length + 1 < 2 ^ 31) :
    Narrow t b ↔ b = i32B (Int32.ofNat ((utf8Encode t.toList).length + 1)) ++
      utf8Encode t.toList ++ [0] := by
  constructor
  · rintro ⟨us, len, body, h1, h2, h3, rfl⟩
    cases encoded_unique utf8_unique h1 (encoded_utf8 _)
    rw [words_iff, words_utf8] at h3
    rw [littleEndian_unique h2, List.length_map, len_narrow _ h, h3, List.append_assoc]
  · rintro rfl
    refine ⟨_, _, _, encoded_utf8 _, littleEndian_leBytes _ _, (words_iff _ _ _).mpr rfl, ?_⟩
    rw [List.length_map, len_narrow _ h, words_utf8, List.append_assoc]

theorem wide_iff (t : String) (b : Bytes) (h : (utf16Encode t.toList).length + 1 < 2 ^ 31) :
    Wide t b ↔ b = i32B (-(Int32.ofNat ((utf16Encode t.toList).length + 1))) ++
      u16sToBytes (utf16Encode t.toList) ++ [0, 0] := by
  constructor
  · rintro ⟨us, len, body, h1, h2, h3, rfl⟩
    cases encoded_unique utf16_unique h1 (encoded_utf16 _)
    rw [words_iff, words_utf16] at h3
    rw [littleEndian_unique h2, List.length_map, len_wide _ h, h3, List.append_assoc]
  · rintro rfl
    refine ⟨_, _, _, encoded_utf16 _, littleEndian_leBytes _ _, (words_iff _ _ _).mpr rfl, ?_⟩
    rw [List.length_map, len_wide _ h, words_utf16, List.append_assoc]

theorem narrow_length {t : String} {b : Bytes} (h : Narrow t b) :
    b.length = 5 + (utf8Encode t.toList).length := by
  obtain ⟨us, len, body, h1, h2, h3, rfl⟩ := h
  cases encoded_unique utf8_unique h1 (encoded_utf8 _)
  rw [words_iff, words_utf8] at h3
  rw [List.length_append, h2.1, h3, List.length_append]
  simp; omega

theorem wide_length {t : String} {b : Bytes} (h : Wide t b) :
    b.length = 6 + 2 * (utf16Encode t.toList).length := by
  obtain ⟨us, len, body, h1, h2, h3, rfl⟩ := h
  cases encoded_unique utf16_unique h1 (encoded_utf16 _)
  rw [words_iff, words_utf16] at h3
  rw [List.length_append, h2.1, h3, List.length_append, u16sToBytes_length]
  simp; omega

/-- The strings of the grammar are the stored strings. -/
theorem str_iff (b : Bytes) (s : Option String) : Format.Str b s ↔ Stored 131072 s b := by
  constructor
  · intro h
    cases h with
    | null => exact (by decide : i32B 0 = [0, 0, 0, 0])
    | narrow t n hl hn =>
      subst hl
      have h' := (narrow_iff t _ (by omega)).mpr rfl
      exact .inl ⟨h', by rw [narrow_length h']; omega⟩
    | wide t n hl hn =>
      subst hl
      have h' := (wide_iff t _ (by omega)).mpr rfl
      exact .inr ⟨h', by rw [wide_length h']; omega⟩
  · intro h
    cases s with
    | none =>
      cases (show b = [0, 0, 0, 0] from h)
      exact (by decide : i32B 0 = [0, 0, 0, 0]) ▸ Format.Str.null
    | some t =>
      rcases h with ⟨h, hl⟩ | ⟨h, hl⟩
      · rw [narrow_length h] at hl
        rw [(narrow_iff t b (by omega)).mp h]
        exact .narrow t _ rfl (by omega)
      · rw [wide_length h] at hl
        rw [(wide_iff t b (by omega)).mp h]
        exact .wide t _ rfl (by omega)

end Unicode

/-- **C78**: a string is read from the bytes before `rest` if and only if they store it in at most
131072 units. -/
theorem C78_strings_read (input rest : Bytes) (s : Option String) (pos pos' : Nat)
    (st st' : List String) :
    readFString ⟨input, pos, st⟩ = (.ok s, ⟨rest, pos', st'⟩) ↔
      ∃ b, input = b ++ rest ∧ pos' = pos + b.length ∧ st' = st ∧ Stored 131072 s b := by
  constructor
  · intro h
    obtain ⟨b, r, e1, e2, hs⟩ := gives_fstring _ _ _ _ h
    simp only [RS.mk.injEq] at e2
    obtain ⟨rfl, rfl, rfl⟩ := e2
    exact ⟨b, e1, rfl, rfl, (str_iff _ _).mp hs⟩
  · rintro ⟨b, rfl, rfl, rfl, hs⟩
    exact (reads_str ((str_iff _ _).mpr hs)).run rest pos

/-- **C78**: a string is written in bytes if it is ASCII and in words otherwise. -/
theorem C78_strings_written (t : String) (h : strUnits t + 1 < 2 ^ 31) :
    (writeFString none).bytes = [0, 0, 0, 0] ∧
    (writeFString (some t)).bytes = (writeString t).bytes ∧
    ((∀ c ∈ t.toList, c.toNat < 128) → Narrow t (writeString t).bytes) ∧
    ((∃ c ∈ t.toList, 128 ≤ c.toNat) → Wide t (writeString t).bytes) := by
  refine ⟨by decide, rfl, fun ha => ?_, fun ⟨c, hc, h128⟩ => ?_⟩
  · have hb : isAscii t.toList = true := by simpa [isAscii] using ha
    have hl := utf8Encode_ascii_length _ hb
    have hu : strUnits t = t.toList.length := by
      unfold strUnits; exact if_pos hb
    unfold writeString
    rw [if_pos hb]
    refine (narrow_iff t _ (by omega)).mpr ?_
    rw [hl]
  · have hb : ¬ isAscii t.toList = true := by
      intro hb
      have : c.toNat < 128 := by simpa using (List.all_eq_true.mp hb) c hc
      omega
    have hu : strUnits t = (utf16Encode t.toList).length := by
      rw [utf16Encode_length]; unfold strUnits; exact if_neg hb
    unfold writeString
    rw [if_neg hb]
    refine (wide_iff t _ (by omega)).mpr ?_
    rfl

/-- **C78**: no bytes begin with two stored strings. -/
theorem C78_one_meaning (s s' : Option String) (b b' rest rest' : Bytes)
    (h : Stored 131072 s b) (h' : Stored 131072 s' b') (e : b ++ rest = b' ++ rest') :
    s = s' ∧ b = b' := by
  have r := (C78_strings_read _ rest s 0 _ [] _).mpr ⟨b, rfl, rfl, rfl, h⟩
  rw [e, (C78_strings_read _ rest' s' 0 _ [] _).mpr ⟨b', rfl, rfl, rfl, h'⟩] at r
  simp only [Prod.mk.injEq, Res.ok.injEq, RS.mk.injEq] at r
  obtain ⟨rfl, rfl, _⟩ := r
  exact ⟨rfl, List.append_cancel_right e.symm ▸ rfl⟩

/-! ## Concrete cases -/

/-- The euro sign in UTF-8, and an emoji in both forms. -/
example : Utf8 0x20AC [0xE2, 0x82, 0xAC] ∧ Utf8 0x1F600 [0xF0, 0x9F, 0x98, 0x80] ∧
    Utf16 0x1F600 [0xD83D, 0xDE00] :=
  ⟨.three 2 2 0x2C (by decide) (by decide) (by decide) (by decide),
    .four 0 0x1F 0x18 0 (by decide) (by decide) (by decide) (by decide) (by decide),
    .two 0x3D 0x200 (by decide) (by decide)⟩

/-- NUL has no second form in UTF-8. -/
example : ¬ Utf8 0 [0xC0, 0x80] := fun h =>
  absurd (utf8_unique _ _ _ h (.one 0 (by decide))) (by decide)

/-- "é" is written in words, but read from bytes as well. -/
example : (writeString "é").bytes = [0xFE, 0xFF, 0xFF, 0xFF, 0xE9, 0, 0, 0] ∧
    (readFString ⟨[3, 0, 0, 0, 0xC3, 0xA9, 0], 0, []⟩).1 = .ok (some "é") := by decide +kernel

example : Wide "é" [0xFE, 0xFF, 0xFF, 0xFF, 0xE9, 0, 0, 0] := by
  have := (C78_strings_written "é" (by decide)).2.2.2 ⟨'é', by decide, by decide⟩
  rwa [show (writeString "é").bytes = [0xFE, 0xFF, 0xFF, 0xFF, 0xE9, 0, 0, 0] by
    decide +kernel] at this

end Gvas
