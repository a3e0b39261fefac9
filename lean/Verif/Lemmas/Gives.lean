import Verif.Lemmas.Compact
import Verif.Lemmas.Parts
import Verif.Props.Header
import Verif.Props.Duplicates

/-!
# What was read, byte for byte

`Gives st m L`: whenever `m` succeeds below the path `st`, the bytes it consumed and its result
are related by `L`, and the path is as before.
-/

namespace Gvas

open Spec Format

def Gives {α : Type} (st : List String) (m : R α) (L : Bytes → α → Prop) : Prop :=
  ∀ rest pos a s', m ⟨rest, pos, st⟩ = (.ok a, s') →
    ∃ b rest', rest = b ++ rest' ∧ s' = ⟨rest', pos + b.length, st⟩ ∧ L b a

section combinators

variable {α β : Type} {st : List String}

theorem Gives.bind {m : R α} {f : α → R β} {L : Bytes → α → Prop} {M : Bytes → β → Prop}
    (h1 : Gives st m L) (h2 : ∀ b a, L b a → Gives st (f a) (fun b' c => M (b ++ b') c)) :
    Gives st (m >>= f) M := by
  intro rest pos c s' h
  rbind h => a s1 ha
  obtain ⟨b, rest1, rfl, rfl, hL⟩ := h1 _ _ _ _ ha
  obtain ⟨b', rest2, rfl, rfl, hM⟩ := h2 b a hL _ _ _ _ h
  exact ⟨b ++ b', rest2, by simp, by simp [Nat.add_assoc], hM⟩

theorem Gives.mono {m : R α} {L M : Bytes → α → Prop} (h : Gives st m L)
    (hi : ∀ b a, L b a → M b a) : Gives st m M := fun _ _ _ _ hm =>
  have ⟨b, r, h1, h2, hL⟩ := h _ _ _ _ hm
  ⟨b, r, h1, h2, hi _ _ hL⟩

theorem Gives.pure {a : α} {L : Bytes → α → Prop} (h : L [] a) :
    Gives st (Pure.pure a : R α) L := by
  intro rest pos b s' hm
  obtain ⟨rfl, rfl⟩ := R.pure_inv hm
  exact ⟨[], rest, rfl, rfl, h⟩

theorem Gives.map {m : R α} {g : α → β} {L : Bytes → α → Prop} {M : Bytes → β → Prop}
    (h : Gives st m L) (hg : ∀ b a, L b a → M b (g a)) :
    Gives st (m >>= fun a => Pure.pure (g a)) M :=
  h.bind fun b a hL => Gives.pure (by simpa using hg b a hL)

theorem Gives.never {m : R α} {L : Bytes → α → Prop} (h : ∀ s s2 a, m s ≠ (.ok a, s2)) :
    Gives st m L := fun _ _ _ _ hm => absurd hm (h _ _ _)

theorem Gives.fail {e : Err} {L : Bytes → α → Prop} : Gives st (R.fail e : R α) L :=
  .never fun _ _ _ => R.fail_ne

theorem Gives.panic {e : String} {L : Bytes → α → Prop} : Gives st (R.panic e : R α) L :=
  .never fun _ _ _ => R.panic_ne

theorem Gives.failPos {e : Nat → Err} {L : Bytes → α → Prop} :
    Gives st (R.position >>= fun p => (R.fail (e p) : R α)) L :=
  .never fun _ _ _ => R.failPos_ne

theorem Gives.outOfFuel {L : Bytes → α → Prop} : Gives st (R.outOfFuel : R α) L := by
  intro rest pos a s' h
  simp [R.outOfFuel] at h

theorem Gives.getStack {L : Bytes → List String → Prop} (h : L [] st) :
    Gives st R.getStack L := by
  intro rest pos a s' hm
  obtain ⟨rfl, rfl⟩ := R.getStack_inv hm
  exact ⟨[], rest, rfl, rfl, h⟩

theorem Gives.take {n : Nat} : Gives st (R.take n) (fun b a => b = a ∧ a.length = n) := by
  intro rest pos a s' h
  obtain ⟨hl, hr, hp, hs⟩ := R.take_inv h
  obtain ⟨r', p', st'⟩ := s'
  simp only at hr hp hs
  exact ⟨a, r', hr, by rw [hp, hs, hl], rfl, hl⟩

theorem Gives.ensure {c : Prop} [Decidable c] {o : R Unit} (ho : ∀ s s2 u, o s ≠ (.ok u, s2)) :
    Gives st (R.ensure c o) (fun b _ => b = [] ∧ c) := by
  intro rest pos a s' h
  obtain ⟨hc, rfl⟩ := R.ensure_inv ho h
  exact ⟨[], rest, rfl, rfl, rfl, hc⟩

theorem Gives.withEntry {nm : String} {m : R α} {L : Bytes → α → Prop}
    (h : Gives (st ++ [nm]) m L) : Gives st (R.withEntry nm m) L := by
  intro rest pos a s' hm
  unfold R.withEntry at hm
  match hr : m ⟨rest, pos, st ++ [nm]⟩ with
  | (r, s1) =>
    simp only [hr, Prod.mk.injEq] at hm
    obtain ⟨rfl, rfl⟩ := hm
    obtain ⟨b, r', e, rfl, hL⟩ := h _ _ _ _ hr
    exact ⟨b, r', e, by simp, hL⟩

/-- A loop, for any way of relating bytes to lists that is closed under adding an item in front. -/
theorem Gives.replicate {m : R α} {L : Bytes → α → Prop} {M : Bytes → List α → Prop}
    (h : Gives st m L) (hn : M [] [])
    (hc : ∀ b a bs as, L b a → M bs as → M (b ++ bs) (a :: as)) (n : Nat) :
    Gives st (R.replicate m n) (fun b l => l.length = n ∧ M b l) := by
  induction n with
  | zero => exact Gives.pure ⟨rfl, hn⟩
  | succ n ih =>
    refine h.bind fun b a hL => ih.bind fun bs as hM => Gives.pure ?_
    exact ⟨by simp [hM.1], by simpa using hc b a bs as hL hM.2⟩

end combinators

/-! ## Numbers and strings -/

section scalars

variable {st : List String}

theorem Gives.of_inv {α : Type} {m : R α} {enc : α → Bytes}
    (h : ∀ {s s2 : RS} {x : α}, m s = (.ok x, s2) → s.rest = enc x ++ s2.rest ∧
      s2.pos = s.pos + (enc x).length ∧ s2.stack = s.stack) :
    Gives st m (fun b a => b = enc a) := by
  intro rest pos a s' hm
  obtain ⟨hr, hp, hs⟩ := h hm
  obtain ⟨r', p', st'⟩ := s'
  simp only at hr hp hs
  exact ⟨enc a, r', hr, by rw [hp, hs], rfl⟩

theorem gives_u8 : Gives st readU8 (fun b a => b = u8B a) :=
  .of_inv fun h => by simpa using readU8_inv h
theorem gives_i8 : Gives st readI8 (fun b a => b = i8B a) :=
  .of_inv fun h => by simpa using readI8_inv h
theorem gives_u16 : Gives st readU16 (fun b a => b = u16B a) :=
  .of_inv fun h => by simpa using readU16_inv h
theorem gives_i16 : Gives st readI16 (fun b a => b = i16B a) :=
  .of_inv fun h => by simpa using readI16_inv h
theorem gives_u32 : Gives st readU32 (fun b a => b = u32B a) :=
  .of_inv fun h => by simpa using readU32_inv h
theorem gives_i32 : Gives st readI32 (fun b a => b = i32B a) :=
  .of_inv fun h => by simpa using readI32_inv h
theorem gives_u64 : Gives st readU64 (fun b a => b = u64B a) :=
  .of_inv fun h => by simpa using readU64_inv h
theorem gives_i64 : Gives st readI64 (fun b a => b = i64B a) :=
  .of_inv fun h => by simpa using readI64_inv h
theorem gives_f32 : Gives st readF32 (fun b a => b = f32B a) :=
  gives_u32.map fun b a h => by rw [h]; rfl
theorem gives_f64 : Gives st readF64 (fun b a => b = f64B a) :=
  gives_u64.map fun b a h => by rw [h]; rfl
theorem gives_guid : Gives st readGuid (fun b a => b = guidB a) :=
  .of_inv fun h => by simpa using readGuid_inv h

theorem u8B_eq (x : UInt8) : u8B x = [x] := by simp [u8B, leBytes]

theorem gives_bool : Gives st readBool (fun b a => b = [if a then 1 else 0]) := by
  unfold readBool
  refine gives_u8.bind fun b v h => ?_
  subst h
  split
  · rename_i h; subst h; exact Gives.pure (by simp [u8B_eq])
  split
  · rename_i h; subst h; exact Gives.pure (by simp [u8B_eq])
  · exact Gives.failPos

theorem gives_b32 : Gives st readB32 (fun b a => b = u32B (if a then 1 else 0)) := by
  unfold readB32
  refine gives_u32.bind fun b v h => ?_
  subst h
  split
  · rename_i h; subst h; exact Gives.pure (by simp)
  split
  · rename_i h; subst h; exact Gives.pure (by simp)
  · exact Gives.failPos

theorem gives_enum {α : Type} {nm : String} {tryFrom : Int8 → Option α} :
    Gives st (readEnum nm tryFrom) (fun b a => ∃ v, tryFrom v = some a ∧ b = i8B v) := by
  unfold readEnum
  refine gives_i8.bind fun b v h => ?_
  subst h
  split
  · exact Gives.pure ⟨v, by assumption, by simp⟩
  · exact Gives.failPos

theorem gives_fstring : Gives st readFString Str := by
  intro rest pos a s' h
  obtain ⟨hs, h2⟩ := readFString_inv h
  clear h
  obtain ⟨r', p', st'⟩ := s'
  simp only at hs h2
  subst hs
  rcases h2 with ⟨rfl, hr, hp⟩ | ⟨t, n, rfl, hn, hl, hr, hp⟩ | ⟨t, n, rfl, hn, hl, hr, hp⟩
  · exact ⟨_, r', hr, by simp [hp], .null⟩
  · exact ⟨_, r', hr, by simp [hp, hl]; omega, .narrow t n hl hn⟩
  · refine ⟨_, r', hr, ?_, .wide t n hl hn⟩
    rw [hp]
    simp [hl, u16sToBytes_length]
    omega

theorem gives_string : Gives st readString (fun b s => Str b (some s)) := by
  intro rest pos a s' h
  exact gives_fstring _ _ _ _ (readString_inv' h)

theorem reads_str {b : Bytes} {r : Option String} (h : Str b r) : Reads st readFString b r := by
  intro rest pos
  cases h with
  | null => exact C05_valid_strings_accepted _ rest _ _ (.null 0 rest rfl) pos st
  | narrow t n hl hn =>
    have hi := i32_ofNat_toInt (n := n + 1) (by omega)
    rw [C05_valid_strings_accepted _ rest _ _
      (.utf8 t _ _ _ (by omega) (by omega) (by omega) rfl) pos st, hi]
    simp [hl]
  | wide t n hl hn =>
    have hi := i32_neg_ofNat_toInt (n := n + 1) (by omega)
    rw [C05_valid_strings_accepted _ rest _ _
      (.utf16 t _ _ _ (by omega) (by omega) (by omega) rfl) pos st, hi]
    simp [hl, u16sToBytes_length]
    omega

theorem reads_str' {b : Bytes} {s : String} (h : Str b (some s)) : Reads st readString b s := by
  intro rest pos
  unfold readString
  rw [R.bind_ok (position_run _), R.bind_ok ((reads_str h).run rest pos)]
  rfl

end scalars

end Gvas
