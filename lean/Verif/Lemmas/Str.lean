import Verif.Spec.Str
import Verif.Lemmas.Reader

/-! # Strings read back -/

namespace Gvas

open Spec

theorem utf16EncodeChar_length (c : Char) : (utf16EncodeChar c).length = charUnits c := by
  unfold utf16EncodeChar charUnits
  simp only []
  split <;> simp

theorem utf16Encode_length (cs : List Char) :
    (utf16Encode cs).length = (cs.map charUnits).sum := by
  induction cs with
  | nil => rfl
  | cons c cs ih =>
    have : utf16Encode (c :: cs) = utf16EncodeChar c ++ utf16Encode cs := rfl
    rw [this, List.length_append, ih, utf16EncodeChar_length]; rfl

theorem strUnits_ascii {s : String} (h : isAscii s.toList = true) :
    strUnits s = s.toList.length := by
  unfold isAscii at h
  unfold strUnits
  rw [if_pos h]

theorem strUnits_wide {s : String} (h : ¬ isAscii s.toList = true) :
    strUnits s = (utf16Encode s.toList).length := by
  unfold isAscii at h
  unfold strUnits
  rw [if_neg h, utf16Encode_length]

theorem writeString_ascii {s : String} (h : isAscii s.toList = true) :
    (writeString s).bytes =
      i32B (Int32.ofNat (strUnits s + 1)) ++ (utf8Encode s.toList ++ [0]) := by
  rw [strUnits_ascii h]
  simp only [writeString, h, if_true, List.append_assoc]

theorem writeString_wide {s : String} (h : ¬ isAscii s.toList = true) :
    (writeString s).bytes =
      i32B (-(Int32.ofNat (strUnits s + 1))) ++ (u16sToBytes (utf16Encode s.toList) ++ u16B 0) := by
  rw [strUnits_wide h]
  simp only [writeString, h, List.append_assoc]
  rfl

theorem writeString_length (s : String) : (writeString s).bytes.length = strBytes s := by
  unfold strBytes
  by_cases h : isAscii s.toList = true
  · rw [writeString_ascii h]
    have h' := h
    unfold isAscii at h'
    rw [if_pos h', strUnits_ascii h]
    simp only [List.length_append, i32B_length, utf8Encode_ascii_length _ h, List.length_cons,
      List.length_nil]
    omega
  · rw [writeString_wide h]
    have h' := h
    unfold isAscii at h'
    rw [if_neg h', strUnits_wide h]
    simp only [List.length_append, i32B_length, u16sToBytes_length, u16B_length]
    omega

theorem writeString_pos (s : String) : 5 ≤ (writeString s).bytes.length := by
  rw [writeString_length]; unfold strBytes; split <;> omega

theorem i32_ofNat_toInt {n : Nat} (h : n < 2 ^ 31) : (Int32.ofNat n).toInt = n :=
  Int32.toInt_ofNat_of_lt h

theorem i32_neg_ofNat_toInt {n : Nat} (h : n < 2 ^ 31) : (-(Int32.ofNat n)).toInt = -(n : Int) := by
  rw [Int32.toInt_neg, i32_ofNat_toInt h]
  rw [Int.bmod_def]
  split <;> omega

theorem reads_zero {st : List String} : Reads st readU8 [0] 0 := reads_u8 0

theorem reads_writeString {st : List String} {s : String} (h : StrOK s) :
    Reads st readFString (writeString s).bytes (some s) := by
  unfold StrOK at h
  by_cases ha : isAscii s.toList = true
  · rw [writeString_ascii ha]
    intro rest pos
    unfold readFString
    have hlen := i32_ofNat_toInt (n := strUnits s + 1) (by omega)
    rw [R.bind_ok (show R.position ⟨_, pos, st⟩ = (.ok pos, _) from rfl), List.append_assoc,
      R.bind_ok ((reads_i32 (st := st) _).run _ _),
      R.bind_ok (by rw [R.ensure_true (by rw [hlen]; omega)]; rfl)]
    simp only [hlen]
    rw [if_neg (by omega), if_neg (by omega), List.append_assoc]
    rw [R.bind_ok ((Reads.take (st := st) (by
      rw [utf8Encode_ascii_length _ ha, strUnits_ascii ha]; omega)).run _ _)]
    rw [R.bind_ok ((reads_zero (st := st)).run rest _)]
    rw [R.bind_ok (by rw [R.ensure_true rfl]; rfl)]
    rw [utf8Decode_encode]
    simp only [R.pure_def, String.ofList_toList, List.length_append, i32B_length,
      List.length_cons, List.length_nil]
    simp only [Nat.add_assoc]
  · rw [writeString_wide ha]
    intro rest pos
    unfold readFString
    have hlen := i32_neg_ofNat_toInt (n := strUnits s + 1) (by omega)
    rw [R.bind_ok (show R.position ⟨_, pos, st⟩ = (.ok pos, _) from rfl), List.append_assoc,
      R.bind_ok ((reads_i32 (st := st) _).run _ _),
      R.bind_ok (by rw [R.ensure_true (by rw [hlen]; omega)]; rfl)]
    simp only [hlen]
    rw [if_neg (by omega), if_pos (by omega), List.append_assoc]
    rw [R.bind_ok ((Reads.take (st := st) (by
      rw [u16sToBytes_length, strUnits_wide ha]; omega)).run _ _)]
    rw [R.bind_ok ((reads_u16 (st := st) 0).run rest _)]
    rw [R.bind_ok (by rw [R.ensure_true rfl]; rfl)]
    rw [bytesToU16_u16sToBytes, utf16Decode_encode]
    simp only [R.pure_def, String.ofList_toList, List.length_append, i32B_length, u16B_length]
    simp only [Nat.add_assoc]

theorem reads_string {st : List String} {s : String} (h : StrOK s) :
    Reads st readString (writeString s).bytes s := by
  intro rest pos
  unfold readString
  rw [R.bind_ok (show R.position ⟨_, pos, st⟩ = (.ok pos, _) from rfl),
    R.bind_ok ((reads_writeString h).run _ _)]
  rfl

theorem reads_none {st : List String} : Reads st readFString (writeFString none).bytes none := by
  intro rest pos
  unfold readFString
  simp only [writeFString]
  rw [R.bind_ok (show R.position ⟨_, pos, st⟩ = (.ok pos, _) from rfl),
    R.bind_ok ((reads_i32 (st := st) _).run _ _),
    R.bind_ok (by rw [R.ensure_true (by decide)]; rfl)]
  rfl

theorem reads_fstring {st : List String} {s : Option String} (h : FStrOK s) :
    Reads st readFString (writeFString s).bytes s := by
  cases s with
  | none => exact reads_none
  | some s => exact reads_writeString (h s rfl)

end Gvas
