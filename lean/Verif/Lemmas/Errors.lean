import Verif.Spec.Errors
import Verif.Props.Unicode
import Mathlib.Tactic.IntervalCases

/-!
# Errors are about the bytes that were read

`Says debug hints pre m L`: where `m` is run behind the bytes `pre`, success consumes bytes related to the
result by `L`, an error or panic describes the whole input, and running out of input means the end is reached.
-/

namespace Gvas

open Spec Unicode

/-! ## Bytes in place -/

namespace Spec

theorem At.mono {d : Bytes} {p : Nat} {b : Bytes} (h : At d p b) (x : Bytes) : At (d ++ x) p b := by
  obtain ⟨pre, post, rfl, rfl⟩ := h
  exact ⟨pre, post ++ x, by simp, rfl⟩

theorem At.mid (pre b post : Bytes) : At (pre ++ (b ++ post)) pre.length b := ⟨pre, post, rfl, rfl⟩

theorem At.last (pre b : Bytes) : At (pre ++ b) pre.length b := ⟨pre, [], by simp, rfl⟩

theorem NumAt.mono {d : Bytes} {p w n : Nat} (h : NumAt d p w n) (x : Bytes) :
    NumAt (d ++ x) p w n :=
  have ⟨b, h1, h2⟩ := h
  ⟨b, h1, h2.mono x⟩

theorem NumAt.last (pre : Bytes) (w n : Nat) : NumAt (pre ++ leBytes w n) pre.length w n :=
  ⟨_, littleEndian_leBytes _ _, At.last _ _⟩

theorem StrAt.mono {d : Bytes} {p : Nat} {t : String} (h : StrAt d p t) (x : Bytes) :
    StrAt (d ++ x) p t :=
  have ⟨b, h1, h2⟩ := h
  ⟨b, h1, h2.mono x⟩

theorem StrAt.lt {d : Bytes} {p : Nat} {t : String} (h : StrAt d p t) : p < d.length := by
  obtain ⟨b, h1, pre, post, rfl, rfl⟩ := h
  have : 0 < b.length := by
    rcases h1 with ⟨⟨us, len, body, _, hl, _, rfl⟩, _⟩ | ⟨⟨us, len, body, _, hl, _, rfl⟩, _⟩ <;>
      (have := hl.1; simp; omega)
  simp; omega

end Spec

/-! ## The triple -/

def Says {α : Type} (debug : Bool) (hints : String → Option String) (pre : Bytes) (m : R α)
    (L : Bytes → α → Prop) : Prop :=
  ∀ rest st, match m ⟨rest, pre.length, st⟩ with
    | (.ok a, s') => ∃ b rest', rest = b ++ rest' ∧ s'.rest = rest' ∧
        s'.pos = pre.length + b.length ∧ L b a
    | (.bad (.err e), s') => Describes hints (pre ++ rest) e ∧
        (e = .eof → s'.rest = [] ∧ s'.pos = (pre ++ rest).length)
    | (.bad (.panic msg), s') => Blames debug (pre ++ rest) s'.pos msg
    | _ => True

/-- `Says`, without a word about the result. -/
abbrev Tells {α : Type} (debug : Bool) (hints : String → Option String) (pre : Bytes) (m : R α) : Prop :=
  Says debug hints pre m fun _ _ => True

section combinators

variable {α β : Type} {debug : Bool} {hints : String → Option String} {pre : Bytes}

theorem Says.bind {m : R α} {f : α → R β} {L : Bytes → α → Prop} {M : Bytes → β → Prop}
    (h1 : Says debug hints pre m L) (h2 : ∀ b a, L b a → Says debug hints (pre ++ b) (f a) (fun b' c => M (b ++ b') c)) :
    Says debug hints pre (m >>= f) M := by
  intro rest st
  have h := h1 rest st
  match hm : m ⟨rest, pre.length, st⟩ with
  | (.ok a, s1) =>
    rw [R.bind_ok hm]
    simp only [hm] at h
    obtain ⟨b, rest1, rfl, e1, e2, hL⟩ := h
    have h' := h2 b a hL rest1 s1.stack
    have es : s1 = ⟨rest1, (pre ++ b).length, s1.stack⟩ := by
      obtain ⟨r, p, s⟩ := s1
      simp only at e1 e2
      simp [e1, e2]
    rw [es]
    match hf : f a ⟨rest1, (pre ++ b).length, s1.stack⟩ with
    | (.ok c, s2) =>
      simp only [hf] at h' ⊢
      obtain ⟨b', r', rfl, e3, e4, hM⟩ := h'
      exact ⟨b ++ b', r', by simp, e3, by rw [e4]; simp; omega, hM⟩
    | (.bad (.err e), s2) =>
      simp only [hf] at h' ⊢
      simpa [List.append_assoc] using h'
    | (.bad (.panic _), s2) =>
      simp only [hf] at h' ⊢
      simpa [List.append_assoc] using h'
    | (.bad .fuel, s2) => trivial
  | (.bad (.err e), s1) =>
    rw [R.bind_bad hm]
    simp only [hm] at h
    exact h
  | (.bad (.panic _), s1) =>
    rw [R.bind_bad hm]
    simp only [hm] at h
    exact h
  | (.bad .fuel, s1) => rw [R.bind_bad hm]; trivial

/-- What an error says. -/
theorem Says.err {m : R α} {L : Bytes → α → Prop} (h : Says debug hints pre m L) {rest : Bytes}
    {st : List String} {e : Err} (he : (m ⟨rest, pre.length, st⟩).1 = .err e) :
    Describes hints (pre ++ rest) e ∧ (e = .eof → (m ⟨rest, pre.length, st⟩).2.rest = [] ∧
      (m ⟨rest, pre.length, st⟩).2.pos = (pre ++ rest).length) := by
  have h := h rest st
  match hm : m ⟨rest, pre.length, st⟩ with
  | (.bad (.err e'), s1) =>
    rw [hm] at he
    simp only [hm] at h ⊢
    cases he
    exact h
  | (.ok a, s1) => rw [hm] at he; cases he
  | (.bad (.panic _), s1) => rw [hm] at he; cases he
  | (.bad .fuel, s1) => rw [hm] at he; cases he

/-- What a panic says. -/
theorem Says.panics {m : R α} {L : Bytes → α → Prop} (h : Says debug hints pre m L) {rest : Bytes}
    {st : List String} {msg : String} (he : (m ⟨rest, pre.length, st⟩).1 = .panic msg) :
    Blames debug (pre ++ rest) (m ⟨rest, pre.length, st⟩).2.pos msg := by
  have h := h rest st
  match hm : m ⟨rest, pre.length, st⟩ with
  | (.bad (.panic msg'), s1) =>
    rw [hm] at he
    simp only [hm] at h ⊢
    cases he
    exact h
  | (.ok a, s1) => rw [hm] at he; cases he
  | (.bad (.err _), s1) => rw [hm] at he; cases he
  | (.bad .fuel, s1) => rw [hm] at he; cases he

theorem Says.mono {m : R α} {L M : Bytes → α → Prop} (h : Says debug hints pre m L)
    (hi : ∀ b a, L b a → M b a) : Says debug hints pre m M := by
  intro rest st
  have h := h rest st
  match hm : m ⟨rest, pre.length, st⟩ with
  | (.ok a, s1) =>
    simp only [hm] at h ⊢
    obtain ⟨b, r, e1, e2, e3, hL⟩ := h
    exact ⟨b, r, e1, e2, e3, hi _ _ hL⟩
  | (.bad (.err e), s1) => simp only [hm] at h ⊢; exact h
  | (.bad (.panic _), s1) => simp only [hm] at h ⊢; exact h
  | (.bad .fuel, s1) => trivial

theorem Says.tells {m : R α} {L : Bytes → α → Prop} (h : Says debug hints pre m L) : Tells debug hints pre m :=
  h.mono fun _ _ _ => trivial

theorem Says.next {m : R α} {f : α → R β} {L : Bytes → α → Prop}
    (h1 : Says debug hints pre m L) (h2 : ∀ b a, L b a → Tells debug hints (pre ++ b) (f a)) :
    Tells debug hints pre (m >>= f) :=
  h1.bind h2

theorem Says.pure {a : α} {L : Bytes → α → Prop} (h : L [] a) :
    Says debug hints pre (Pure.pure a : R α) L :=
  fun rest _ => ⟨[], rest, rfl, rfl, rfl, h⟩

theorem Says.map {m : R α} {g : α → β} {L : Bytes → α → Prop} {M : Bytes → β → Prop}
    (h : Says debug hints pre m L) (hg : ∀ b a, L b a → M b (g a)) :
    Says debug hints pre (m >>= fun a => Pure.pure (g a)) M :=
  h.bind fun b a hL => Says.pure (by simpa using hg b a hL)

theorem Tells.map {m : R α} {g : α → β} (h : Tells debug hints pre m) :
    Tells debug hints pre (m >>= fun a => Pure.pure (g a)) := Says.map h fun _ _ _ => trivial

theorem Tells.ret {a : α} : Tells debug hints pre (Pure.pure a : R α) := Says.pure trivial

theorem Says.panic {msg : String} {L : Bytes → α → Prop}
    (h : ∀ rest, Blames debug (pre ++ rest) pre.length msg) :
    Says debug hints pre (R.panic msg : R α) L := fun rest _ => h rest

theorem Says.outOfFuel {L : Bytes → α → Prop} : Says debug hints pre (R.outOfFuel : R α) L :=
  fun _ _ => trivial

theorem Says.fail {e : Err} {L : Bytes → α → Prop}
    (h : ∀ rest, Describes hints (pre ++ rest) e) (he : e ≠ .eof) :
    Says debug hints pre (R.fail e : R α) L := fun rest _ => ⟨h rest, fun h => absurd h he⟩

theorem Says.failPos {e : Nat → Err} {L : Bytes → α → Prop}
    (h : ∀ rest, Describes hints (pre ++ rest) (e pre.length)) (he : e pre.length ≠ .eof) :
    Says debug hints pre (R.position >>= fun p => (R.fail (e p) : R α)) L :=
  fun rest _ => ⟨h rest, fun h => absurd h he⟩

theorem Says.position : Says debug hints pre R.position (fun b p => b = [] ∧ p = pre.length) :=
  fun rest _ => ⟨[], rest, rfl, rfl, rfl, rfl, rfl⟩

theorem Says.pos {f : Nat → R β} {M : Bytes → β → Prop} (h : Says debug hints pre (f pre.length) M) :
    Says debug hints pre (R.position >>= f) M :=
  Says.position.bind fun b p hp => by
    obtain ⟨rfl, rfl⟩ := hp
    simpa using h

theorem Says.getStack {f : List String → R β} {M : Bytes → β → Prop}
    (h : ∀ st, Says debug hints pre (f st) M) : Says debug hints pre (R.getStack >>= f) M :=
  fun rest st => h st rest st

theorem Says.take {n : Nat} : Says debug hints pre (R.take n) (fun b a => b = a ∧ a.length = n) := by
  intro rest st
  unfold R.take
  split
  · rename_i h
    split at h
    · cases h
      exact ⟨rest.take n, _, (List.take_append_drop n rest).symm, rfl, by simp; omega, rfl,
        by simp; omega⟩
    · cases h
  · rename_i h
    split at h
    · cases h
    · cases h
      exact ⟨trivial, fun _ => ⟨rfl, by simp⟩⟩
  · rename_i h
    split at h <;> cases h
  · trivial

theorem Says.ensure {c : Prop} [Decidable c] {o : R Unit}
    (h : ¬ c → Says debug hints pre o (fun _ _ => False)) :
    Says debug hints pre (R.ensure c o) (fun b _ => b = [] ∧ c) := by
  unfold R.ensure
  split
  · exact Says.pure ⟨rfl, ‹_›⟩
  · exact (h ‹_›).mono fun _ _ h => h.elim

theorem Says.onlyIf {b : Bool} {m : R Unit} (h : Tells debug hints pre m) :
    Tells debug hints pre (R.onlyIf b m) := by
  unfold R.onlyIf
  split
  · exact h
  · exact Says.pure trivial

theorem Says.withEntry {nm : String} {m : R α} {L : Bytes → α → Prop}
    (h : Says debug hints pre m L) : Says debug hints pre (R.withEntry nm m) L := by
  intro rest st
  have h := h rest (st ++ [nm])
  unfold R.withEntry
  match hm : m ⟨rest, pre.length, st ++ [nm]⟩ with
  | (.ok a, s1) => simp only [hm] at h ⊢; exact h
  | (.bad (.err e), s1) => simp only [hm] at h ⊢; exact h
  | (.bad (.panic _), s1) => simp only [hm] at h ⊢; exact h
  | (.bad .fuel, s1) => trivial

theorem Says.replicate {m : R α} (h : ∀ c, Tells debug hints (pre ++ c) m) (n : Nat) :
    Tells debug hints pre (R.replicate m n) := by
  induction n generalizing pre with
  | zero => exact Says.pure trivial
  | succ n ih =>
    refine Says.next (by simpa using h []) fun b a _ => Says.next (ih fun c => ?_) fun _ _ _ => Tells.ret
    simpa [List.append_assoc] using h (b ++ c)

end combinators

/-! ## Numbers and strings -/

section scalars

variable {debug : Bool} {hints : String → Option String} {pre : Bytes}

/-- A reader that fails only at the end of the input. -/
theorem Says.of_gives {α : Type} {m : R α} {L : Bytes → α → Prop} (h : ∀ st, Gives st m L)
    (h' : Tells debug hints pre m) : Says debug hints pre m L := by
  intro rest st
  have h' := h' rest st
  match hm : m ⟨rest, pre.length, st⟩ with
  | (.ok a, s1) =>
    obtain ⟨b, r, e, rfl, hL⟩ := h st _ _ _ _ hm
    exact ⟨b, r, e, rfl, rfl, hL⟩
  | (.bad (.err e), s1) => simp only [hm] at h' ⊢; exact h'
  | (.bad (.panic _), s1) => simp only [hm] at h' ⊢; exact h'
  | (.bad .fuel, s1) => trivial

theorem says_u8 : Says debug hints pre readU8 (fun b a => b = u8B a) :=
  .of_gives (fun _ => gives_u8) Says.take.tells.map
theorem says_i8 : Says debug hints pre readI8 (fun b a => b = i8B a) :=
  .of_gives (fun _ => gives_i8) says_u8.tells.map
theorem says_u16 : Says debug hints pre readU16 (fun b a => b = u16B a) :=
  .of_gives (fun _ => gives_u16) Says.take.tells.map
theorem says_i16 : Says debug hints pre readI16 (fun b a => b = i16B a) :=
  .of_gives (fun _ => gives_i16) says_u16.tells.map
theorem says_u32 : Says debug hints pre readU32 (fun b a => b = u32B a) :=
  .of_gives (fun _ => gives_u32) Says.take.tells.map
theorem says_i32 : Says debug hints pre readI32 (fun b a => b = i32B a) :=
  .of_gives (fun _ => gives_i32) says_u32.tells.map
theorem says_u64 : Says debug hints pre readU64 (fun b a => b = u64B a) :=
  .of_gives (fun _ => gives_u64) Says.take.tells.map
theorem says_i64 : Says debug hints pre readI64 (fun b a => b = i64B a) :=
  .of_gives (fun _ => gives_i64) says_u64.tells.map
theorem says_f32 : Tells debug hints pre readF32 := says_u32.tells.map
theorem says_f64 : Tells debug hints pre readF64 := says_u64.tells.map

theorem says_guid : Says debug hints pre readGuid (fun b a => b = guidB a) := by
  refine .of_gives (fun _ => gives_guid) (Says.next Says.take fun b a h => ?_)
  rw [dif_pos h.2]
  exact Says.pure trivial

theorem says_bool : Tells debug hints pre readBool := by
  unfold readBool
  refine Says.next says_u8 fun b v h => ?_
  subst h
  split
  · exact .ret
  split
  · exact .ret
  · rename_i h0 h1
    refine Says.failPos (fun rest => ⟨?_, pre.length, .inl ⟨by simp [u8B], ?_⟩⟩) (by simp)
    · have : v.toNat ≠ 0 := fun h => h0 (UInt8.toNat_inj.mp h)
      have : v.toNat ≠ 1 := fun h => h1 (UInt8.toNat_inj.mp h)
      simp; omega
    · simpa [u8B] using (NumAt.last pre 1 v.toNat).mono rest

theorem says_b32 : Tells debug hints pre readB32 := by
  unfold readB32
  refine Says.next says_u32 fun b v h => ?_
  subst h
  split
  · exact .ret
  split
  · exact .ret
  · rename_i h0 h1
    refine Says.failPos (fun rest => ⟨?_, pre.length, .inr ⟨by simp [u32B], ?_⟩⟩) (by simp)
    · have : v.toNat ≠ 0 := fun h => h0 (UInt32.toNat_inj.mp h)
      have : v.toNat ≠ 1 := fun h => h1 (UInt32.toNat_inj.mp h)
      omega
    · simpa [u32B] using (NumAt.last pre 4 v.toNat).mono rest

theorem says_enum {α : Type} {nm : String} {f : Int8 → Option α} (lo hi : Int)
    (hm : (nm, lo, hi) ∈ textEnums) (hf : ∀ v, f v = none → v.toInt < lo ∨ hi < v.toInt) :
    Says debug hints pre (readEnum nm f) (fun b a => ∃ v, f v = some a ∧ b = i8B v) := by
  refine .of_gives (fun _ => gives_enum) ?_
  unfold readEnum
  refine Says.next says_i8 fun b v h => ?_
  subst h
  split
  · exact .ret
  · rename_i h0
    refine Says.failPos (fun rest => ⟨pre.length, lo, hi, hm, hf v h0, by simp [i8B, u8B], ?_⟩)
      (by simp)
    simpa [i8B, u8B] using (NumAt.last pre 1 v.toUInt8.toNat).mono rest

theorem not_narrow {body : Bytes} {n : Nat} {len : Bytes} (hl : LittleEndian 4 n len)
    (h : utf8Decode body = none) (t : String) : ¬ Narrow t (len ++ body ++ [0]) := by
  rintro ⟨us, len', body', h1, h2, h3, h4⟩
  rw [List.append_assoc] at h4
  have h5 := List.append_inj_right h4 (by rw [hl.1, h2.1])
  cases encoded_unique utf8_unique h1 (encoded_utf8 _)
  rw [words_iff, words_utf8] at h3
  rw [h3] at h5
  have := List.append_inj_left' h5 rfl
  rw [this, utf8Decode_encode] at h
  cases h

theorem not_wide {body : Bytes} {n : Nat} {len : Bytes} (hl : LittleEndian 4 n len)
    (h : utf16Decode (bytesToU16 body) = none) (t : String) : ¬ Wide t (len ++ body ++ [0, 0]) := by
  rintro ⟨us, len', body', h1, h2, h3, h4⟩
  rw [List.append_assoc] at h4
  have h5 := List.append_inj_right h4 (by rw [hl.1, h2.1])
  cases encoded_unique utf16_unique h1 (encoded_utf16 _)
  rw [words_iff, words_utf16] at h3
  rw [h3] at h5
  have := List.append_inj_left' h5 rfl
  rw [this, bytesToU16_u16sToBytes, utf16Decode_encode] at h
  cases h

theorem i32_toNat_pos {x : Int32} (h : 0 < x.toInt) : x.toUInt32.toNat = x.toInt.toNat := by
  have h1 : x.toInt = (x.toUInt32.toNat : Int) := by
    rw [← Int32.toInt_toBitVec, BitVec.toInt_eq_toNat_cond] at h ⊢
    split at h <;> rename_i hc
    · rw [if_pos hc]; rfl
    · have := x.toBitVec.isLt; omega
  omega

theorem i32_toNat_neg {x : Int32} (h : x.toInt < 0) :
    x.toUInt32.toNat = 2 ^ 32 - (-x.toInt).toNat := by
  have h1 : x.toInt = (x.toUInt32.toNat : Int) - 2 ^ 32 := by
    rw [← Int32.toInt_toBitVec, BitVec.toInt_eq_toNat_cond] at h ⊢
    split at h <;> rename_i hc
    · omega
    · rw [if_neg hc]; rfl
  omega

theorem says_fstring : Says debug hints pre readFString (fun b s => Stored 131072 s b) := by
  refine .of_gives (fun _ => fun _ _ _ _ h => ?_) ?_
  · obtain ⟨b, r, h1, h2, h3⟩ := gives_fstring _ _ _ _ h
    exact ⟨b, r, h1, h2, (str_iff _ _).mp h3⟩
  unfold readFString
  refine Says.pos (Says.next says_i32 fun b len hb => ?_)
  subst hb
  have hlen : NumAt (pre ++ i32B len) pre.length 4 len.toUInt32.toNat := NumAt.last pre 4 _
  have hle : LittleEndian 4 len.toUInt32.toNat (i32B len) := littleEndian_leBytes _ _
  refine Says.next (Says.ensure fun hc => Says.fail (fun rest => ⟨hlen.mono _, ?_⟩) (by simp))
    fun b u hb => ?_
  · omega
  obtain ⟨rfl, hc⟩ := hb
  rw [List.append_nil]
  split
  · exact .ret
  rename_i h0
  split
  · rename_i hneg
    have en := i32_toNat_neg hneg
    refine Says.next Says.take fun b buf hb => Says.next says_u16 fun b' t hb' => ?_
    obtain ⟨rfl, hbuf⟩ := hb
    subst hb'
    have ht : NumAt (pre ++ i32B len ++ b ++ u16B t) (pre ++ i32B len ++ b).length 2 t.toNat :=
      NumAt.last _ 2 _
    have l4 : (i32B len).length = 4 := by simp [i32B, u32B]
    have l2 : (u16B t).length = 2 := by simp [u16B]
    refine Says.next (Says.ensure fun hc => Says.failPos (fun rest => ⟨hc, pre.length,
      (-len.toInt).toNat, by omega, by omega, .inr ⟨?_, ?_, ?_⟩⟩) (by simp)) fun b u hb => ?_
    · rw [← en]
      simpa [List.append_assoc] using hlen.mono (b ++ u16B t ++ rest)
    · simp only [List.length_append]; omega
    · have e : (pre ++ i32B len ++ b ++ u16B t).length - 2 = (pre ++ i32B len ++ b).length := by
        simp only [List.length_append]; omega
      rw [e]; exact ht.mono rest
    obtain ⟨rfl, rfl⟩ := hb
    split
    · exact .ret
    · rename_i hd
      refine Says.fail (fun rest => ⟨(-len.toInt).toNat, i32B len, b, by omega, by omega, ?_,
        by omega, ?_, not_wide hle hd⟩) (by simp)
      · rw [← en]; exact hle
      · exact ⟨pre, rest, by
          have : u16B 0 = [0, 0] := by decide
          rw [this]; simp, rfl⟩
  · have en := i32_toNat_pos (x := len) (by omega)
    refine Says.next Says.take fun b buf hb => Says.next says_u8 fun b' t hb' => ?_
    obtain ⟨rfl, hbuf⟩ := hb
    subst hb'
    have ht : NumAt (pre ++ i32B len ++ b ++ u8B t) (pre ++ i32B len ++ b).length 1 t.toNat :=
      NumAt.last _ 1 _
    have l4 : (i32B len).length = 4 := by simp [i32B, u32B]
    have l2 : (u8B t).length = 1 := by simp [u8B]
    refine Says.next (Says.ensure fun hc => Says.failPos (fun rest => ⟨?_, pre.length,
      len.toInt.toNat, by omega, by omega, .inl ⟨?_, ?_, ?_⟩⟩) (by simp)) fun b u hb => ?_
    · intro h
      have := congrArg UInt16.toNat h
      simp at this
      exact hc (UInt8.toNat_inj.mp this)
    · rw [← en]
      simpa [List.append_assoc] using hlen.mono (b ++ u8B t ++ rest)
    · simp only [List.length_append]; omega
    · have e : (pre ++ i32B len ++ b ++ u8B t).length - 1 = (pre ++ i32B len ++ b).length := by
        simp only [List.length_append]; omega
      rw [e]; simpa using ht.mono rest
    obtain ⟨rfl, rfl⟩ := hb
    split
    · exact .ret
    · rename_i hd
      refine Says.fail (fun rest => ⟨len.toInt.toNat, i32B len, b, by omega, by omega, ?_,
        by omega, ?_, not_narrow hle hd⟩) (by simp)
      · rw [← en]; exact hle
      · exact ⟨pre, rest, by
          have : u8B 0 = [0] := by decide
          rw [this]; simp, rfl⟩

theorem says_string : Says debug hints pre readString (fun b s => Stored 131072 (some s) b) := by
  unfold readString
  refine Says.pos (Says.bind says_fstring fun b r h => ?_)
  split
  · exact Says.pure (by simpa using h)
  · cases (show b = [0, 0, 0, 0] from h)
    refine Says.fail (fun rest => ⟨?_, .inl (by decide)⟩) (by simp)
    exact (NumAt.last pre 4 0).mono rest

end scalars

end Gvas
