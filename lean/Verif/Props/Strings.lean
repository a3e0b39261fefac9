import Verif.Spec.Codec
import Verif.Lemmas.Inv
import Verif.Lemmas.NoPanic

/-!
# C02-C05 strings
-/

namespace Gvas

open Spec

/-- **C02**: every string within the length limit reads back. -/
theorem C02_strings_roundtrip (s : String) (h : StrOK s) :
    ReadsBack readString (writeString s).bytes s :=
  fun rest pos st => (reads_string (st := st) h).run rest pos

/-- Non-ASCII text with an astral character and an embedded NUL is within the limit. -/
example : StrOK "héllo 😀\u0000." := by decide

/-- The stored length field of a string: number of units with the terminator,
negative for UTF-16. -/
def Spec.storedLength (s : String) : Int :=
  if s.toList.all (fun c => c.toNat < 128) then (strUnits s + 1 : Nat) else -((strUnits s + 1 : Nat) : Int)

private theorem readFString_stored {len : Int32} (h : ¬(-131072 ≤ len.toInt ∧ len.toInt ≤ 131072))
    (rest : Bytes) (pos : Nat) (st : List String) :
    readFString ⟨i32B len ++ rest, pos, st⟩ =
      (.err (.invalidString len pos), ⟨rest, pos + 4, st⟩) := by
  unfold readFString
  rw [R.bind_ok (show R.position ⟨_, pos, st⟩ = (.ok pos, _) from rfl),
    R.bind_ok ((reads_i32 (st := st) _).run _ _), i32B_length]
  apply R.bind_bad
  rw [R.ensure_false h]
  rfl

private theorem readString_bad {s s' : RS} {e : Fail} (h : readFString s = (.bad e, s')) :
    readString s = (.bad e, s') := by
  unfold readString
  rw [R.bind_ok (show R.position s = (.ok s.pos, s) from rfl), R.bind_bad h]

/-- **C03**: above the limit, reading reports the stored length and the start of
the string. -/
theorem C03_too_long_rejected (s : String) (hlt : strUnits s + 1 < 2 ^ 31)
    (hgt : 131072 < strUnits s + 1) (rest : Bytes) (pos : Nat) (st : List String) :
    ∃ len : Int32, len.toInt = storedLength s ∧
      (readString ⟨(writeString s).bytes ++ rest, pos, st⟩).1 =
        .err (.invalidString len pos) := by
  by_cases ha : isAscii s.toList = true
  · refine ⟨Int32.ofNat (strUnits s + 1), ?_, ?_⟩
    · unfold storedLength
      rw [if_pos (show s.toList.all (fun c => decide (c.toNat < 128)) = true from ha),
        i32_ofNat_toInt hlt]
    · rw [writeString_ascii ha, List.append_assoc, readString_bad (readFString_stored ?_ _ _ _)]
      rw [i32_ofNat_toInt hlt]; omega
  · refine ⟨-(Int32.ofNat (strUnits s + 1)), ?_, ?_⟩
    · unfold storedLength
      rw [if_neg (show ¬ s.toList.all (fun c => decide (c.toNat < 128)) = true from ha),
        i32_neg_ofNat_toInt hlt]
    · rw [writeString_wide ha, List.append_assoc, readString_bad (readFString_stored ?_ _ _ _)]
      rw [i32_neg_ofNat_toInt hlt]; omega

private theorem readFString_short {s s' : RS} {r : Option String}
    (h : readFString s = (.ok r, s')) : s'.pos ≤ s.pos + 4 + 2 * 131072 := by
  obtain ⟨_, h | h | h⟩ := readFString_inv h
  · obtain ⟨_, _, hp⟩ := h
    omega
  · obtain ⟨_, n, _, hn, _, _, hp⟩ := h
    omega
  · obtain ⟨_, n, _, hn, _, _, hp⟩ := h
    omega

/-- **C03**: a written string reads back exactly when its encoded length, terminator
included, is at most 131072.  This holds of strings of any length: where the stored
length has wrapped around, the little that is read is not the string. -/
theorem C03_limit_exact (s : String) :
    ReadsBack readString (writeString s).bytes s ↔ strUnits s + 1 ≤ 131072 := by
  constructor
  · intro h
    by_cases hle : strUnits s + 1 ≤ 131072
    · exact hle
    · exfalso
      by_cases hlt : strUnits s + 1 < 2 ^ 31
      · obtain ⟨len, _, h2⟩ := C03_too_long_rejected s hlt (by omega) [] 0 []
        rw [h [] 0 []] at h2
        simp at h2
      · have h3 := readFString_short (readString_inv' (h [] 0 []))
        rw [writeString_length] at h3
        simp only at h3
        unfold strBytes at h3
        split at h3 <;> omega
  · intro h
    exact C02_strings_roundtrip s h

private theorem strUnits_replicate (n : Nat) :
    strUnits (String.ofList (List.replicate n 'a')) = n := by
  have : (List.replicate n 'a').all (fun c => decide (c.toNat < 128)) = true := by
    simp only [List.all_replicate]
    split
    · rfl
    · rfl
  rw [strUnits, String.toList_ofList, if_pos this, List.length_replicate]

/-- Both sides of the limit are inhabited: 131071 letters read back, 131072 do not. -/
example : ReadsBack readString (writeString (String.ofList (List.replicate 131071 'a'))).bytes
      (String.ofList (List.replicate 131071 'a')) ∧
    ¬ ReadsBack readString (writeString (String.ofList (List.replicate 131072 'a'))).bytes
      (String.ofList (List.replicate 131072 'a')) := by
  rw [C03_limit_exact, C03_limit_exact, strUnits_replicate, strUnits_replicate]
  omega

/-! ## C04 -/

/-- **C04**: optional strings round-trip, null and empty have different encodings
and read back as different values, and `read_string` rejects null. -/
theorem C04_null_vs_empty :
    (∀ s, FStrOK s → ReadsBack readFString (writeFString s).bytes s) ∧
    (writeFString none).bytes = [0, 0, 0, 0] ∧
    (writeFString (some "")).bytes = [1, 0, 0, 0, 0] ∧
    (∀ (rest : Bytes) (pos : Nat) (st : List String),
      (readFString ⟨[0, 0, 0, 0] ++ rest, pos, st⟩).1 = .ok none ∧
      (readFString ⟨[1, 0, 0, 0, 0] ++ rest, pos, st⟩).1 = .ok (some "") ∧
      (readString ⟨[0, 0, 0, 0] ++ rest, pos, st⟩).1 = .err (.invalidString 0 pos)) := by
  have e0 : (writeFString none).bytes = [0, 0, 0, 0] := by decide
  have e1 : (writeFString (some "")).bytes = [1, 0, 0, 0, 0] := by decide
  have h : ∀ s, FStrOK s → ReadsBack readFString (writeFString s).bytes s :=
    fun s hs rest pos st => (reads_fstring (st := st) hs).run rest pos
  refine ⟨h, e0, e1, fun rest pos st => ⟨?_, ?_, ?_⟩⟩
  · rw [← e0, h none (by decide)]
  · rw [← e1, h (some "") (by decide)]
  · rw [← e0]
    unfold readString
    rw [R.bind_ok (show R.position ⟨_, pos, st⟩ = (.ok pos, _) from rfl),
      R.bind_ok (h none (by decide) rest pos st)]
    rfl

/-- The hypothesis covers null, empty and ordinary strings. -/
example : FStrOK none ∧ FStrOK (some "") ∧ FStrOK (some "日本") := by decide

/-! ## C05 -/

/-- `input` starts with a correctly encoded optional string `r` that occupies `used`
bytes and is followed by `rest`. -/
inductive Spec.FStringAt : Bytes → Option String → Nat → Bytes → Prop
  | null (len : Int32) (rest : Bytes) : len.toInt = 0 → FStringAt (i32B len ++ rest) none 4 rest
  | utf8 (s : String) (len : Int32) (payload rest : Bytes) :
      0 < len.toInt → len.toInt ≤ 131072 →
      (payload.length : Int) = len.toInt - 1 → payload = utf8Encode s.toList →
      FStringAt (i32B len ++ payload ++ [0] ++ rest) (some s) (4 + len.toInt.toNat) rest
  | utf16 (s : String) (len : Int32) (words : List UInt16) (rest : Bytes) :
      len.toInt < 0 → -131072 ≤ len.toInt →
      (words.length : Int) = -len.toInt - 1 → words = utf16Encode s.toList →
      FStringAt (i32B len ++ u16sToBytes words ++ [0, 0] ++ rest) (some s)
        (4 + 2 * (-len.toInt).toNat) rest

/-- **C05**: a successful read means a correctly encoded string was there, and exactly
it was consumed. -/
theorem C05_decoded_strings_valid (s s' : RS) (r : Option String)
    (h : readFString s = (.ok r, s')) :
    ∃ used, FStringAt s.rest r used s'.rest ∧ s'.pos = s.pos + used ∧ s'.stack = s.stack := by
  obtain ⟨hst, h | h | h⟩ := readFString_inv h
  · obtain ⟨rfl, hr, hp⟩ := h
    exact ⟨4, by rw [hr]; exact .null 0 _ rfl, hp, hst⟩
  · obtain ⟨t, n, rfl, hn, hl, hr, hp⟩ := h
    have hi := i32_ofNat_toInt (n := n + 1) (by omega)
    refine ⟨_, by rw [hr]; exact .utf8 t _ _ _ (by omega) (by omega) (by omega) rfl, ?_, hst⟩
    rw [hi, hp]; omega
  · obtain ⟨t, n, rfl, hn, hl, hr, hp⟩ := h
    have hi := i32_neg_ofNat_toInt (n := n + 1) (by omega)
    refine ⟨_, by rw [hr]; exact .utf16 t _ _ _ (by omega) (by omega) (by omega) rfl, ?_, hst⟩
    rw [hi, hp]; omega

/-- **C05**, converse: every correctly encoded string is accepted. -/
theorem C05_valid_strings_accepted (input rest : Bytes) (r : Option String) (used : Nat)
    (h : FStringAt input r used rest) (pos : Nat) (st : List String) :
    readFString ⟨input, pos, st⟩ = (.ok r, ⟨rest, pos + used, st⟩) := by
  cases h with
  | null len _ h0 =>
    have : len = 0 := Int32.toInt_inj.mp (by rw [h0]; rfl)
    subst this
    exact reads_none.run rest pos
  | utf8 s len payload _ h1 h2 h3 h4 =>
    subst h4
    have key : Reads st readFString (i32B len ++ (utf8Encode s.toList ++ [0])) (some s) := by
      intro rest pos
      unfold readFString
      rw [R.bind_ok (show R.position ⟨_, pos, st⟩ = (.ok pos, _) from rfl)]
      refine Reads.run ((reads_i32 _).bind ((Reads.ensure (by omega)).bind0 ?_)) rest pos
      rw [if_neg (by omega), if_neg (by omega)]
      refine (Reads.take (by omega)).bind (reads_zero.bind' (b2 := []) ?_ (by simp))
      refine (Reads.ensure rfl).bind0 ?_
      rw [utf8Decode_encode]
      simpa using Reads.pure (st := st) (some s)
    have := key rest pos
    simp only [List.append_assoc] at this ⊢
    rw [this]
    simp only [List.length_append, i32B_length, List.length_cons, List.length_nil, Prod.mk.injEq,
      RS.mk.injEq, true_and, and_true]
    omega
  | utf16 s len words _ h1 h2 h3 h4 =>
    subst h4
    have key : Reads st readFString (i32B len ++ (u16sToBytes (utf16Encode s.toList) ++ [0, 0]))
        (some s) := by
      intro rest pos
      unfold readFString
      rw [R.bind_ok (show R.position ⟨_, pos, st⟩ = (.ok pos, _) from rfl)]
      refine Reads.run ((reads_i32 _).bind ((Reads.ensure (by omega)).bind0 ?_)) rest pos
      rw [if_neg (by omega), if_pos (by omega)]
      refine (Reads.take (by rw [u16sToBytes_length]; omega)).bind
        ((reads_u16 0).bind' (b2 := []) ?_ (by simp [u16B, leBytes]))
      refine (Reads.ensure rfl).bind0 ?_
      rw [bytesToU16_u16sToBytes, utf16Decode_encode]
      simpa using Reads.pure (st := st) (some s)
    have := key rest pos
    simp only [List.append_assoc] at this ⊢
    rw [this]
    simp only [List.length_append, i32B_length, u16sToBytes_length, List.length_cons,
      List.length_nil, Prod.mk.injEq, RS.mk.injEq, true_and, and_true]
    omega

/-- **C05**: on every input `read_fstring` and `read_string` return `Ok` or `Err`. -/
theorem C05_strings_never_panic (s : RS) :
    (∀ f, (readFString s).1 = .bad f → ∃ e, f = .err e) ∧
    (∀ f, (readString s).1 = .bad f → ∃ e, f = .err e) :=
  ⟨NoPanic.fstring s, NoPanic.string s⟩

/-- An overlong UTF-8 encoding, a lone surrogate and a non-zero terminator are errors;
a UTF-8 payload is accepted. -/
example :
    (readFString ⟨[3, 0, 0, 0, 0xC0, 0x80, 0], 0, []⟩).1 = .err (.fromUtf8 0) ∧
    (readFString ⟨[0xFE, 0xFF, 0xFF, 0xFF, 0x00, 0xD8, 0, 0], 0, []⟩).1 = .err (.fromUtf16 0) ∧
    (readFString ⟨[2, 0, 0, 0, 0x41, 1], 0, []⟩).1 = .err (.invalidStringTerminator 1 6) ∧
    (readFString ⟨[3, 0, 0, 0, 0xC3, 0xA9, 0], 0, []⟩).1 = .ok (some "é") := by
  decide

end Gvas
