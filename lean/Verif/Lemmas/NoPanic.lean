import Verif.Lemmas.Reader
import Verif.Model.File

/-! # Readers that only ever return `Ok` or `Err` -/

namespace Gvas

/-- `m` neither panics nor runs out of fuel. -/
def NoPanic {α : Type} (m : R α) : Prop := ∀ s f, (m s).1 = .bad f → ∃ e, f = .err e

theorem NoPanic.pure {α : Type} (a : α) : NoPanic (Pure.pure a : R α) := by
  intro s f h; cases h

theorem NoPanic.rpure {α : Type} (a : α) : NoPanic (R.pure a : R α) := by
  intro s f h; cases h

theorem NoPanic.bind {α β : Type} {m : R α} {f : α → R β} (h1 : NoPanic m)
    (h2 : ∀ a, NoPanic (f a)) : NoPanic (m >>= f) := by
  intro s g h
  rw [R.bind_def] at h
  match hm : m s with
  | (.ok a, s1) => rw [hm] at h; exact h2 a s1 g h
  | (.bad e, s1) =>
    rw [hm] at h
    simp only [Res.bad.injEq] at h
    subst h
    exact h1 s e (by rw [hm])

theorem NoPanic.fail {α : Type} (e : Err) : NoPanic (R.fail e : R α) := by
  intro s f h; simp [R.fail] at h; exact ⟨e, h.symm⟩

theorem NoPanic.position : NoPanic R.position := by
  intro s f h; simp [R.position] at h

theorem NoPanic.take (n : Nat) : NoPanic (R.take n) := by
  intro s f h
  unfold R.take at h
  split at h
  · simp at h
  · simp at h; exact ⟨_, h.symm⟩

theorem NoPanic.ensure {c : Prop} [Decidable c] {o : R Unit} (h : NoPanic o) :
    NoPanic (R.ensure c o) := by
  unfold R.ensure
  split
  · exact NoPanic.rpure _
  · exact h

theorem NoPanic.ite {α : Type} {c : Prop} [Decidable c] {m m' : R α} (h : NoPanic m)
    (h' : NoPanic m') : NoPanic (if c then m else m') := by
  split <;> assumption

theorem NoPanic.replicate {α : Type} {m : R α} (h : NoPanic m) (n : Nat) :
    NoPanic (R.replicate m n) := by
  induction n with
  | zero => exact NoPanic.rpure _
  | succ n ih =>
    exact NoPanic.bind h fun _ => NoPanic.bind ih fun _ => NoPanic.rpure _

theorem NoPanic.u8 : NoPanic readU8 := (NoPanic.take 1).bind fun _ => NoPanic.pure _
theorem NoPanic.i8 : NoPanic readI8 := NoPanic.u8.bind fun _ => NoPanic.pure _
theorem NoPanic.u16 : NoPanic readU16 := (NoPanic.take 2).bind fun _ => NoPanic.pure _
theorem NoPanic.u32 : NoPanic readU32 := (NoPanic.take 4).bind fun _ => NoPanic.pure _
theorem NoPanic.i32 : NoPanic readI32 := NoPanic.u32.bind fun _ => NoPanic.pure _
theorem NoPanic.u64 : NoPanic readU64 := (NoPanic.take 8).bind fun _ => NoPanic.pure _

theorem NoPanic.guid : NoPanic readGuid := by
  refine (NoPanic.take 16).bind fun bs => ?_
  split
  · exact NoPanic.pure _
  · exact NoPanic.fail _

theorem NoPanic.failPos {α : Type} (e : Nat → Err) :
    NoPanic (R.position >>= fun p => (R.fail (e p) : R α)) :=
  NoPanic.position.bind fun _ => NoPanic.fail _

theorem NoPanic.fstring : NoPanic readFString := by
  refine NoPanic.position.bind fun start => NoPanic.i32.bind fun len =>
    (NoPanic.ensure (NoPanic.fail _)).bind fun _ => NoPanic.ite (NoPanic.pure _)
      (NoPanic.ite ?_ ?_)
  · refine (NoPanic.take _).bind fun buf => NoPanic.u16.bind fun t =>
      (NoPanic.ensure (NoPanic.failPos _)).bind fun _ => ?_
    split
    · exact NoPanic.pure _
    · exact NoPanic.fail _
  · refine (NoPanic.take _).bind fun buf => NoPanic.u8.bind fun t =>
      (NoPanic.ensure (NoPanic.failPos _)).bind fun _ => ?_
    split
    · exact NoPanic.pure _
    · exact NoPanic.fail _

theorem NoPanic.string : NoPanic readString := by
  refine NoPanic.position.bind fun start => NoPanic.fstring.bind fun r => ?_
  split
  · exact NoPanic.pure _
  · exact NoPanic.fail _

theorem NoPanic.header : NoPanic GvasHeader.read := by
  have hc : ∀ (c : Prop) [Decidable c] (m : String), NoPanic (headerCheck c m) :=
    fun c _ m => NoPanic.ensure (NoPanic.fail _)
  have tail : NoPanic readHeaderTail := by
    refine NoPanic.bind ?_ fun ev => NoPanic.u32.bind fun f => (hc _ _).bind fun _ =>
      NoPanic.u32.bind fun n => NoPanic.bind ?_ fun vs => NoPanic.string.bind fun c => NoPanic.pure _
    · exact NoPanic.u16.bind fun _ => NoPanic.u16.bind fun _ => NoPanic.u16.bind fun _ =>
        NoPanic.u32.bind fun _ => NoPanic.string.bind fun _ => NoPanic.pure _
    · exact NoPanic.replicate (NoPanic.guid.bind fun _ => NoPanic.u32.bind fun _ =>
        NoPanic.pure _) _
  refine NoPanic.u32.bind fun _ => (hc _ _).bind fun _ => NoPanic.u32.bind fun _ =>
    (hc _ _).bind fun _ => NoPanic.u32.bind fun _ => (hc _ _).bind fun _ => NoPanic.ite ?_ ?_
  · exact NoPanic.u32.bind fun _ => (hc _ _).bind fun _ => tail.bind fun _ => NoPanic.pure _
  · exact tail.bind fun _ => NoPanic.pure _

end Gvas
