import Verif.Model.Json

/-! # C71: numbers and bytes in JSON are read exactly or refused -/

namespace Gvas

namespace Spec

/-- A hexadecimal digit of either case and its value. -/
def HexLetter (c : Char) (x : Nat) : Prop :=
  "0123456789abcdef".toList[x]? = some c ∨ "0123456789ABCDEF".toList[x]? = some c

/-- Two digits for every byte, the higher one first. -/
inductive HexPairs : List Char → Bytes → Prop
  | nil : HexPairs [] []
  | cons {a b : Char} {x y : Nat} {l : List Char} {bs : Bytes} : HexLetter a x → HexLetter b y →
      HexPairs l bs → HexPairs (a :: b :: l) (UInt8.ofNat (16 * x + y) :: bs)

end Spec

open Spec

theorem getInt_iff {lo hi n : Int} {j : J} :
    J.getInt lo hi j = some n ↔ j = .int n ∧ lo ≤ n ∧ n < hi := by
  cases j with
  | int m =>
    simp only [J.getInt]
    split
    · rename_i h
      simp only [Option.some.injEq, J.int.injEq]
      exact ⟨fun e => e ▸ ⟨rfl, h⟩, fun e => e.1⟩
    · rename_i h
      simp only [reduceCtorEq, false_iff, J.int.injEq]
      rintro ⟨rfl, h'⟩
      exact h h'
  | _ => simp [J.getInt]

/-- **C71**: an unsigned field accepts its own values, written as whole numbers, and nothing
else. -/
theorem C71_unsigned (j : J) :
    (∀ v : UInt8, j.getU8 = some v ↔ j = .int v.toNat) ∧
    (∀ v : UInt16, j.getU16 = some v ↔ j = .int v.toNat) ∧
    (∀ v : UInt32, j.getU32 = some v ↔ j = .int v.toNat) ∧
    (∀ v : UInt64, j.getU64 = some v ↔ j = .int v.toNat) := by
  refine ⟨fun v => ?_, fun v => ?_, fun v => ?_, fun v => ?_⟩
  · simp only [J.getU8, Option.map_eq_some_iff, getInt_iff]
    constructor
    · rintro ⟨n, ⟨rfl, h1, h2⟩, rfl⟩
      rw [UInt8.toNat_ofNat', Nat.mod_eq_of_lt (by omega), Int.toNat_of_nonneg h1]
    · rintro rfl
      exact ⟨_, ⟨rfl, by omega, by have := v.toNat_lt; omega⟩, by simp⟩
  · simp only [J.getU16, Option.map_eq_some_iff, getInt_iff]
    constructor
    · rintro ⟨n, ⟨rfl, h1, h2⟩, rfl⟩
      rw [UInt16.toNat_ofNat', Nat.mod_eq_of_lt (by omega), Int.toNat_of_nonneg h1]
    · rintro rfl
      exact ⟨_, ⟨rfl, by omega, by have := v.toNat_lt; omega⟩, by simp⟩
  · simp only [J.getU32, Option.map_eq_some_iff, getInt_iff]
    constructor
    · rintro ⟨n, ⟨rfl, h1, h2⟩, rfl⟩
      rw [UInt32.toNat_ofNat', Nat.mod_eq_of_lt (by omega), Int.toNat_of_nonneg h1]
    · rintro rfl
      exact ⟨_, ⟨rfl, by omega, by have := v.toNat_lt; omega⟩, by simp⟩
  · simp only [J.getU64, Option.map_eq_some_iff, getInt_iff]
    constructor
    · rintro ⟨n, ⟨rfl, h1, h2⟩, rfl⟩
      rw [UInt64.toNat_ofNat', Nat.mod_eq_of_lt (by omega), Int.toNat_of_nonneg h1]
    · rintro rfl
      exact ⟨_, ⟨rfl, by omega, by have := v.toNat_lt; omega⟩, by simp⟩

/-- **C71**: a signed field accepts its own values, written as whole numbers, and nothing else. -/
theorem C71_signed (j : J) :
    (∀ v : Int8, j.getI8 = some v ↔ j = .int v.toInt) ∧
    (∀ v : Int16, j.getI16 = some v ↔ j = .int v.toInt) ∧
    (∀ v : Int32, j.getI32 = some v ↔ j = .int v.toInt) ∧
    (∀ v : Int64, j.getI64 = some v ↔ j = .int v.toInt) := by
  refine ⟨fun v => ?_, fun v => ?_, fun v => ?_, fun v => ?_⟩
  · simp only [J.getI8, Option.map_eq_some_iff, getInt_iff]
    constructor
    · rintro ⟨n, ⟨rfl, h1, h2⟩, rfl⟩
      rw [Int8.toInt_ofInt_of_le (by omega) (by omega)]
    · rintro rfl
      exact ⟨_, ⟨rfl, by have := v.le_toInt; omega, by have := v.toInt_lt; omega⟩, by simp⟩
  · simp only [J.getI16, Option.map_eq_some_iff, getInt_iff]
    constructor
    · rintro ⟨n, ⟨rfl, h1, h2⟩, rfl⟩
      rw [Int16.toInt_ofInt_of_le (by omega) (by omega)]
    · rintro rfl
      exact ⟨_, ⟨rfl, by have := v.le_toInt; omega, by have := v.toInt_lt; omega⟩, by simp⟩
  · simp only [J.getI32, Option.map_eq_some_iff, getInt_iff]
    constructor
    · rintro ⟨n, ⟨rfl, h1, h2⟩, rfl⟩
      rw [Int32.toInt_ofInt_of_le (by omega) (by omega)]
    · rintro rfl
      exact ⟨_, ⟨rfl, by have := v.le_toInt; omega, by have := v.toInt_lt; omega⟩, by simp⟩
  · simp only [J.getI64, Option.map_eq_some_iff, getInt_iff]
    constructor
    · rintro ⟨n, ⟨rfl, h1, h2⟩, rfl⟩
      rw [Int64.toInt_ofInt_of_le (by omega) (by omega)]
    · rintro rfl
      exact ⟨_, ⟨rfl, by have := v.le_toInt; omega, by have := v.toInt_lt; omega⟩, by simp⟩

theorem hexCharVal_iff (c : Char) (x : Nat) : hexCharVal c = some x ↔ HexLetter c x := by
  have char : ∀ d : Char, c = d ↔ c.toNat = d.toNat := fun d =>
    ⟨fun h => h ▸ rfl, fun h => by
      have : c.val.toNat = d.val.toNat := h
      exact Char.ext (UInt32.toNat_inj.mp this)⟩
  constructor
  · intro h
    unfold hexCharVal at h
    simp only at h
    unfold HexLetter
    have fin : x < 16 ∧ (c.toNat = 0x30 + x ∧ x < 10 ∨ c.toNat = 0x37 + x ∧ 10 ≤ x ∨
        c.toNat = 0x57 + x ∧ 10 ≤ x) := by
      split at h
      · cases h; omega
      · split at h
        · cases h; omega
        · split at h
          · cases h; omega
          · cases h
    obtain ⟨hx, hc⟩ := fin
    have : x = 0 ∨ x = 1 ∨ x = 2 ∨ x = 3 ∨ x = 4 ∨ x = 5 ∨ x = 6 ∨ x = 7 ∨ x = 8 ∨ x = 9 ∨
        x = 10 ∨ x = 11 ∨ x = 12 ∨ x = 13 ∨ x = 14 ∨ x = 15 := by omega
    rcases this with rfl | rfl | rfl | rfl | rfl | rfl | rfl | rfl | rfl | rfl | rfl | rfl | rfl |
      rfl | rfl | rfl <;>
      simp at hc <;> simp [eq_comm, char] <;> omega
  · intro h
    have hx : x < 16 := by
      rcases h with h | h
      · have := (List.getElem?_eq_some_iff.mp h).1; simpa using this
      · have := (List.getElem?_eq_some_iff.mp h).1; simpa using this
    have : x = 0 ∨ x = 1 ∨ x = 2 ∨ x = 3 ∨ x = 4 ∨ x = 5 ∨ x = 6 ∨ x = 7 ∨ x = 8 ∨ x = 9 ∨
        x = 10 ∨ x = 11 ∨ x = 12 ∨ x = 13 ∨ x = 14 ∨ x = 15 := by omega
    rcases this with rfl | rfl | rfl | rfl | rfl | rfl | rfl | rfl | rfl | rfl | rfl | rfl | rfl |
      rfl | rfl | rfl <;>
      rcases h with h | h <;> simp at h <;> subst h <;> decide

theorem unhex_iff (l : List Char) (bs : Bytes) : unhex l = some bs ↔ HexPairs l bs := by
  constructor
  · intro h
    induction l using unhex.induct generalizing bs with
    | case1 => simp [unhex] at h; subst h; exact .nil
    | case2 => simp [unhex] at h
    | case3 a b l ih =>
      simp only [unhex, Option.bind_eq_bind, Option.bind_eq_some_iff, Option.pure_def,
        Option.some.injEq] at h
      obtain ⟨x, h1, y, h2, r, h3, rfl⟩ := h
      rw [Nat.mul_comm]
      exact .cons ((hexCharVal_iff _ _).mp h1) ((hexCharVal_iff _ _).mp h2) (ih r h3)
  · intro h
    induction h with
    | nil => rfl
    | cons h1 h2 _ ih =>
      simp only [unhex, (hexCharVal_iff _ _).mpr h1, (hexCharVal_iff _ _).mpr h2, ih]
      rw [Nat.mul_comm]; rfl

/-- **C71**: the bytes of an array are accepted as text with two hexadecimal digits, of either
case, for every byte, and in no other form. -/
theorem C71_bytes (j : J) (bs : Bytes) :
    j.getHex = some bs ↔ ∃ s, j = .str s ∧ HexPairs s.toList bs := by
  unfold J.getHex
  cases j with
  | str s =>
    simp only [J.getStr, Option.bind_some, unhex_iff, J.str.injEq]
    exact ⟨fun h => ⟨s, rfl, h⟩, fun ⟨_, e, h⟩ => e ▸ h⟩
  | _ => simp [J.getStr]

/-- Numbers out of range, fractions and odd numbers of digits are refused. -/
example : J.getU8 (.int 256) = none ∧ J.getI8 (.int (-129)) = none ∧
    J.getI32 (.float ⟨0x3FF0000000000000⟩) = none ∧ J.getHex (.str "0aF") = none ∧
    J.getHex (.str "0aF1") = some [10, 241] := by decide

end Gvas
