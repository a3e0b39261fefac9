import Verif.Lemmas.StrBound
import Verif.Lemmas.IndexMap
import Verif.Lemmas.Parts

/-!
# What successful reads guarantee

`Ens st m Q`: whenever `m` succeeds below the path `st` with the result `a` after consuming `k`
bytes, `Q a k` holds and the path is as before.
-/

namespace Gvas

open Spec

def Ens {α : Type} (st : List String) (m : R α) (Q : α → Nat → Prop) : Prop :=
  ∀ rest pos a s', m ⟨rest, pos, st⟩ = (.ok a, s') → s'.stack = st ∧ ∃ k, s'.pos = pos + k ∧ Q a k

section combinators

variable {α β : Type} {st : List String}

theorem Ens.bind {m : R α} {f : α → R β} {P : α → Nat → Prop} {Q : β → Nat → Prop}
    (h1 : Ens st m P) (h2 : ∀ a k, P a k → Ens st (f a) (fun b k' => Q b (k + k'))) :
    Ens st (m >>= f) Q := by
  intro rest pos b s' h
  rbind h => a s1 ha
  obtain ⟨e1, k, hk, hP⟩ := h1 _ _ _ _ ha
  obtain ⟨rest1, pos1, st1⟩ := s1
  subst e1
  obtain ⟨e2, k', hk', hQ⟩ := h2 a k hP _ _ _ _ h
  refine ⟨e2, k + k', ?_, hQ⟩
  simp only at hk
  omega

theorem Ens.mono {m : R α} {P Q : α → Nat → Prop} (h : Ens st m P) (hi : ∀ a k, P a k → Q a k) :
    Ens st m Q := fun _ _ _ _ hm =>
  have ⟨e, k, hk, hP⟩ := h _ _ _ _ hm
  ⟨e, k, hk, hi _ _ hP⟩

theorem Ens.pure {a : α} {Q : α → Nat → Prop} (h : Q a 0) : Ens st (Pure.pure a : R α) Q := by
  intro rest pos b s' hm
  obtain ⟨rfl, rfl⟩ := R.pure_inv hm
  exact ⟨rfl, 0, rfl, h⟩

theorem Ens.rpure {a : α} {Q : α → Nat → Prop} (h : Q a 0) : Ens st (R.pure a : R α) Q :=
  Ens.pure h

theorem Ens.fail {e : Err} {Q : α → Nat → Prop} : Ens st (R.fail e : R α) Q :=
  fun _ _ _ _ h => absurd h R.fail_ne

theorem Ens.panic {e : String} {Q : α → Nat → Prop} : Ens st (R.panic e : R α) Q :=
  fun _ _ _ _ h => absurd h R.panic_ne

theorem Ens.failPos {e : Nat → Err} {Q : α → Nat → Prop} :
    Ens st (R.position >>= fun p => (R.fail (e p) : R α)) Q :=
  fun _ _ _ _ h => absurd h R.failPos_ne

theorem Ens.outOfFuel {Q : α → Nat → Prop} : Ens st (R.outOfFuel : R α) Q := by
  intro rest pos a s' h
  simp [R.outOfFuel] at h

theorem Ens.position : Ens st R.position (fun _ k => k = 0) := by
  intro rest pos a s' h
  obtain ⟨rfl, rfl⟩ := R.position_inv h
  exact ⟨rfl, 0, rfl, rfl⟩

theorem Ens.getStack : Ens st R.getStack (fun x k => x = st ∧ k = 0) := by
  intro rest pos a s' h
  obtain ⟨rfl, rfl⟩ := R.getStack_inv h
  exact ⟨rfl, 0, rfl, rfl, rfl⟩

theorem Ens.take {n : Nat} : Ens st (R.take n) (fun bs k => bs.length = n ∧ k = n) := by
  intro rest pos a s' h
  obtain ⟨hl, _, hp, hs⟩ := R.take_inv h
  exact ⟨hs, n, hp, hl, rfl⟩

theorem Ens.ensure {c : Prop} [Decidable c] {o : R Unit}
    (ho : Ens st o (fun _ _ => False)) : Ens st (R.ensure c o) (fun _ k => c ∧ k = 0) := by
  unfold R.ensure
  split
  · exact Ens.rpure ⟨‹_›, rfl⟩
  · exact ho.mono (fun _ _ h => h.elim)

theorem Ens.withEntry {nm : String} {m : R α} {Q : α → Nat → Prop} (h : Ens (st ++ [nm]) m Q) :
    Ens st (R.withEntry nm m) Q := by
  intro rest pos a s' hm
  unfold R.withEntry at hm
  match hr : m ⟨rest, pos, st ++ [nm]⟩ with
  | (r, s1) =>
    simp only [hr, Prod.mk.injEq] at hm
    obtain ⟨rfl, rfl⟩ := hm
    obtain ⟨e, k, hk, hQ⟩ := h _ _ _ _ hr
    exact ⟨by simp [e], k, hk, hQ⟩

/-- A loop: every element satisfies `P`, and the weights add up. -/
theorem Ens.replicate {m : R α} {P : α → Prop} {w : α → Nat}
    (h : Ens st m (fun a k => P a ∧ w a ≤ 2 * k)) (n : Nat) :
    Ens st (R.replicate m n)
      (fun l k => l.length = n ∧ (∀ a ∈ l, P a) ∧ (l.map w).sum ≤ 2 * k) := by
  induction n with
  | zero => exact Ens.rpure (by simp)
  | succ n ih =>
    refine h.bind fun a k hk => ih.bind fun l k' hk' => Ens.rpure ?_
    obtain ⟨h1, h2, h3⟩ := hk'
    refine ⟨by simp [h1], ?_, ?_⟩
    · intro x hx
      rcases List.mem_cons.mp hx with rfl | hx
      · exact hk.1
      · exact h2 x hx
    · simp only [List.map_cons, List.sum_cons]
      omega

theorem Ens.onlyIf {b : Bool} {m : R Unit} {k0 : Nat} (h : Ens st m (fun _ k => k = k0)) :
    Ens st (R.onlyIf b m) (fun _ k => k = if b then k0 else 0) := by
  cases b
  · exact Ens.rpure rfl
  · exact h

theorem Ens.lift {r : Res α} {Q : α → Nat → Prop} (h : ∀ a, r = .ok a → Q a 0) :
    Ens st (R.lift r) Q := by
  cases r with
  | ok a => exact Ens.rpure (h a rfl)
  | bad f =>
    intro rest pos a s' hm
    simp [R.lift] at hm

end combinators

/-! ## Primitives -/

section primitives

variable {st : List String}

theorem ens_u8 : Ens st readU8 (fun _ k => k = 1) := fun _ _ _ _ h =>
  have ⟨_, hp, hs⟩ := readU8_inv h
  ⟨hs, 1, hp, rfl⟩
theorem ens_i8 : Ens st readI8 (fun _ k => k = 1) := fun _ _ _ _ h =>
  have ⟨_, hp, hs⟩ := readI8_inv h
  ⟨hs, 1, hp, rfl⟩
theorem ens_u16 : Ens st readU16 (fun _ k => k = 2) := fun _ _ _ _ h =>
  have ⟨_, hp, hs⟩ := readU16_inv h
  ⟨hs, 2, hp, rfl⟩
theorem ens_i16 : Ens st readI16 (fun _ k => k = 2) := fun _ _ _ _ h =>
  have ⟨_, hp, hs⟩ := readI16_inv h
  ⟨hs, 2, hp, rfl⟩
theorem ens_u32 : Ens st readU32 (fun _ k => k = 4) := fun _ _ _ _ h =>
  have ⟨_, hp, hs⟩ := readU32_inv h
  ⟨hs, 4, hp, rfl⟩
theorem ens_i32 : Ens st readI32 (fun _ k => k = 4) := fun _ _ _ _ h =>
  have ⟨_, hp, hs⟩ := readI32_inv h
  ⟨hs, 4, hp, rfl⟩
theorem ens_u64 : Ens st readU64 (fun _ k => k = 8) := fun _ _ _ _ h =>
  have ⟨_, hp, hs⟩ := readU64_inv h
  ⟨hs, 8, hp, rfl⟩
theorem ens_i64 : Ens st readI64 (fun _ k => k = 8) := fun _ _ _ _ h =>
  have ⟨_, hp, hs⟩ := readI64_inv h
  ⟨hs, 8, hp, rfl⟩
theorem ens_f32 : Ens st readF32 (fun _ k => k = 4) := by
  unfold readF32
  exact ens_u32.bind fun _ k hk => Ens.pure (by omega)
theorem ens_f64 : Ens st readF64 (fun _ k => k = 8) := by
  unfold readF64
  exact ens_u64.bind fun _ k hk => Ens.pure (by omega)

theorem ens_fstring : Ens st readFString
    (fun s k => FStrOK s ∧ 4 ≤ k ∧ (writeFString s).bytes.length ≤ 2 * k) := fun _ _ _ _ h =>
  have ⟨hs, ho, k, hp, h4, hl⟩ := readFString_ok h
  ⟨hs, k, hp, ho, h4, hl⟩

theorem ens_string : Ens st readString
    (fun s k => StrOK s ∧ 5 ≤ k ∧ (writeString s).bytes.length ≤ 2 * k) := fun _ _ _ _ h =>
  have ⟨hs, ho, k, hp, h4, hl⟩ := readString_ok h
  ⟨hs, k, hp, ho, h4, hl⟩

theorem ens_guid : Ens st readGuid (fun _ k => k = 16) := by
  unfold readGuid
  refine Ens.take.bind fun bs k hk => ?_
  split
  · exact Ens.pure (by omega)
  · exact Ens.fail

theorem ens_bool : Ens st readBool (fun _ k => k = 1) := by
  unfold readBool
  refine ens_u8.bind fun v k hk => ?_
  repeat' split
  · exact Ens.pure (by omega)
  · exact Ens.pure (by omega)
  · exact Ens.failPos

theorem ens_b32 : Ens st readB32 (fun _ k => k = 4) := by
  unfold readB32
  refine ens_u32.bind fun v k hk => ?_
  repeat' split
  · exact Ens.pure (by omega)
  · exact Ens.pure (by omega)
  · exact Ens.failPos

theorem ens_enum {α : Type} {nm : String} {f : Int8 → Option α} :
    Ens st (readEnum nm f) (fun _ k => k = 1) := by
  unfold readEnum
  refine ens_i8.bind fun v k hk => ?_
  split
  · exact Ens.pure (by omega)
  · exact Ens.failPos

theorem ens_capacity {n : Int32} : Ens st (capacity n) (fun c k => k = 0 ∧ c < 2 ^ 31) := by
  unfold capacity
  split
  · exact Ens.panic
  · refine Ens.rpure ⟨rfl, ?_⟩
    have := Int32.toInt_lt n
    omega

end primitives

/-! ## Index maps -/

section maps

variable {κ ν : Type} {same : κ → κ → Bool}

theorem imInsert_forall {Pk : κ → Prop} {Pv : ν → Prop} {k : κ} {v : ν} (m : List (κ × ν))
    (hm : ∀ e ∈ m, Pk e.1 ∧ Pv e.2) (hk : Pk k) (hv : Pv v) :
    ∀ e ∈ imInsert same k v m, Pk e.1 ∧ Pv e.2 := by
  induction m with
  | nil => simp [imInsert, hk, hv]
  | cons x m ih =>
    obtain ⟨k', v'⟩ := x
    have h1 := hm (k', v') (by simp)
    have h2 := ih fun e he => hm e (by simp [he])
    simp only [imInsert]
    split
    · intro e he
      rcases List.mem_cons.mp he with rfl | he
      · exact ⟨h1.1, hv⟩
      · exact hm e (by simp [he])
    · intro e he
      rcases List.mem_cons.mp he with rfl | he
      · exact h1
      · exact h2 e he

theorem imExtend_forall {Pk : κ → Prop} {Pv : ν → Prop} (es m : List (κ × ν))
    (hm : ∀ e ∈ m, Pk e.1 ∧ Pv e.2) (he : ∀ e ∈ es, Pk e.1 ∧ Pv e.2) :
    ∀ e ∈ imExtend same m es, Pk e.1 ∧ Pv e.2 := by
  induction es generalizing m with
  | nil => exact hm
  | cons x es ih =>
    have h := he x (by simp)
    exact ih _ (imInsert_forall m hm h.1 h.2) fun e h => he e (by simp [h])

theorem imInsert_length (k : κ) (v : ν) (m : List (κ × ν)) :
    (imInsert same k v m).length ≤ m.length + 1 := by
  induction m with
  | nil => simp [imInsert]
  | cons x m ih =>
    simp only [imInsert]
    split <;> simp <;> omega

theorem imExtend_length (es m : List (κ × ν)) :
    (imExtend same m es).length ≤ m.length + es.length := by
  induction es generalizing m with
  | nil => simp [imExtend]
  | cons x es ih =>
    have h := ih (imInsert same x.1 x.2 m)
    have h2 := imInsert_length (same := same) x.1 x.2 m
    have e : imExtend same m (x :: es) = imExtend same (imInsert same x.1 x.2 m) es := rfl
    rw [e]
    simp only [List.length_cons]
    omega

theorem imInsert_sum (wk : κ → Nat) (wv : ν → Nat) (k : κ) (v : ν) (m : List (κ × ν)) :
    ((imInsert same k v m).map (fun e => wk e.1 + wv e.2)).sum ≤
      (m.map (fun e => wk e.1 + wv e.2)).sum + (wk k + wv v) := by
  induction m with
  | nil => simp [imInsert]
  | cons x m ih =>
    simp only [imInsert]
    split <;> simp only [List.map_cons, List.sum_cons] <;> omega

theorem imExtend_sum (wk : κ → Nat) (wv : ν → Nat) (es m : List (κ × ν)) :
    ((imExtend same m es).map (fun e => wk e.1 + wv e.2)).sum ≤
      (m.map (fun e => wk e.1 + wv e.2)).sum + (es.map (fun e => wk e.1 + wv e.2)).sum := by
  induction es generalizing m with
  | nil => simp [imExtend]
  | cons x es ih =>
    have h := ih (imInsert same x.1 x.2 m)
    have h2 := imInsert_sum (same := same) wk wv x.1 x.2 m
    have e : imExtend same m (x :: es) = imExtend same (imInsert same x.1 x.2 m) es := rfl
    rw [e]
    simp only [List.map_cons, List.sum_cons]
    omega

theorem imInsert_distinct (k : κ) (v : ν) (m : List (κ × ν))
    (h : (m.map Prod.fst).Pairwise (fun a b => same a b = false)) :
    ((imInsert same k v m).map Prod.fst).Pairwise (fun a b => same a b = false) := by
  rw [imInsert_keys]
  split
  · exact h
  · rename_i hn
    rw [List.pairwise_append]
    refine ⟨h, by simp, ?_⟩
    intro a ha b hb
    obtain ⟨e, he, rfl⟩ := List.mem_map.mp ha
    simp only [List.mem_singleton] at hb
    subst hb
    cases hs : same e.1 b
    · rfl
    · exact absurd (List.any_eq_true.mpr ⟨e, he, hs⟩) hn

theorem imExtend_distinct (es m : List (κ × ν))
    (h : (m.map Prod.fst).Pairwise (fun a b => same a b = false)) :
    ((imExtend same m es).map Prod.fst).Pairwise (fun a b => same a b = false) := by
  induction es generalizing m with
  | nil => exact h
  | cons x es ih => exact ih _ (imInsert_distinct x.1 x.2 m h)

theorem nodup_of_beq {κ : Type} [BEq κ] [LawfulBEq κ] {l : List κ}
    (h : l.Pairwise (fun a b => (a == b) = false)) : l.Nodup :=
  h.imp fun hab => by
    intro e
    subst e
    simp at hab

end maps

/-! ## Sizes -/

/-- Number of bytes written, zero on failure. -/
def outLen : Res Out → Nat
  | .ok o => o.bytes.length
  | .bad _ => 0

theorem outLen_le {r : Res Out} {c : Nat} (h : ∀ o, r = .ok o → o.bytes.length ≤ c) :
    outLen r ≤ c := by
  cases r with
  | ok o => exact h o rfl
  | bad f => exact Nat.zero_le _

theorem outLen_ok {r : Res Out} {o : Out} (h : r = .ok o) : o.bytes.length = outLen r := by
  rw [h]; rfl

theorem outLen_map {m : Res Out} {g : Out → Out} {c d : Nat}
    (h : outLen m ≤ d) (hg : ∀ o, o.bytes.length ≤ d → (g o).bytes.length ≤ c) :
    outLen (m >>= fun o => pure (g o)) ≤ c := by
  cases m with
  | ok o => exact hg o h
  | bad f => exact Nat.zero_le _

theorem outLen_map2 {m m' : Res Out} {g : Out → Out → Out} {c d d' : Nat}
    (h : outLen m ≤ d) (h' : outLen m' ≤ d')
    (hg : ∀ o o', o.bytes.length ≤ d → o'.bytes.length ≤ d' → (g o o').bytes.length ≤ c) :
    outLen (m >>= fun o => m' >>= fun o' => pure (g o o')) ≤ c := by
  cases m with
  | ok o =>
    cases m' with
    | ok o' => exact hg o o' h h'
    | bad f => exact Nat.zero_le _
  | bad f => exact Nat.zero_le _

theorem outLen_each {α : Type} {w : α → Res Out} (l : List α) :
    outLen (writeEach w l) ≤ (l.map (fun a => outLen (w a))).sum := by
  induction l with
  | nil => simp [writeEach, outLen]
  | cons a l ih =>
    simp only [writeEach, List.map_cons, List.sum_cons]
    refine outLen_map2 (Nat.le_refl _) ih fun o o' h h' => ?_
    simp only [Out.app_bytes, List.length_append]
    omega

theorem concatOut_length {α : Type} (f : α → Out) (l : List α) :
    (concatOut f l).bytes.length = (l.map (fun a => (f a).bytes.length)).sum := by
  rw [concatOut_bytes, List.length_flatMap]

end Gvas
