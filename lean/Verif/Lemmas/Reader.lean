import Verif.Model.Cursor
import Verif.Lemmas.Utf

/-! # Reader algebra and the "reads back" relation -/

namespace Gvas

theorem R.bind_def {α β : Type} (m : R α) (f : α → R β) (s : RS) :
    (m >>= f) s = match m s with
      | (.ok a, s') => f a s'
      | (.bad e, s') => (.bad e, s') := rfl

theorem R.pure_def {α : Type} (a : α) (s : RS) : (pure a : R α) s = (.ok a, s) := rfl

theorem R.bind_ok {α β : Type} {m : R α} {f : α → R β} {s s' : RS} {a : α}
    (h : m s = (.ok a, s')) : (m >>= f) s = f a s' := by
  rw [R.bind_def, h]

theorem R.bind_bad {α β : Type} {m : R α} {f : α → R β} {s s' : RS} {e : Fail}
    (h : m s = (.bad e, s')) : (m >>= f) s = (.bad e, s') := by
  rw [R.bind_def, h]

theorem R.ensure_true {c : Prop} [Decidable c] {o : R Unit} (h : c) :
    R.ensure c o = R.pure () := by simp [R.ensure, h]

theorem R.ensure_false {c : Prop} [Decidable c] {o : R Unit} (h : ¬ c) :
    R.ensure c o = o := by simp [R.ensure, h]

/-- With stack `st`, the reader `m` turns the bytes `bs` into `a`, consuming
exactly them, whatever follows and wherever they are. -/
def Reads {α : Type} (st : List String) (m : R α) (bs : Bytes) (a : α) : Prop :=
  ∀ rest pos, m ⟨bs ++ rest, pos, st⟩ = (.ok a, ⟨rest, pos + bs.length, st⟩)

theorem Reads.pure {α : Type} {st : List String} (a : α) : Reads st (Pure.pure a : R α) [] a := by
  intro rest pos; rfl

theorem Reads.rpure {α : Type} {st : List String} (a : α) : Reads st (R.pure a : R α) [] a := by
  intro rest pos; rfl

theorem Reads.bind {α β : Type} {st : List String} {m : R α} {f : α → R β} {b1 b2 : Bytes}
    {a : α} {c : β} (h1 : Reads st m b1 a) (h2 : Reads st (f a) b2 c) :
    Reads st (m >>= f) (b1 ++ b2) c := by
  intro rest pos
  rw [List.append_assoc, R.bind_ok (h1 _ _), h2, List.length_append, Nat.add_assoc]

theorem Reads.bind' {α β : Type} {st : List String} {m : R α} {f : α → R β} {b b1 b2 : Bytes}
    {a : α} {c : β} (h1 : Reads st m b1 a) (h2 : Reads st (f a) b2 c) (e : b = b1 ++ b2) :
    Reads st (m >>= f) b c := e ▸ h1.bind h2

/-- Binding a reader that consumes nothing. -/
theorem Reads.bind0 {α β : Type} {st : List String} {m : R α} {f : α → R β} {b : Bytes}
    {a : α} {c : β} (h1 : Reads st m [] a) (h2 : Reads st (f a) b c) :
    Reads st (m >>= f) b c := h1.bind' h2 (by simp)

/-- A final `return`. -/
theorem Reads.map {α β : Type} {st : List String} {m : R α} {g : α → β} {b : Bytes}
    {a : α} (h1 : Reads st m b a) :
    Reads st (m >>= fun x => Pure.pure (g x)) b (g a) := h1.bind' (Reads.pure _) (by simp)

theorem Reads.ensure {st : List String} {c : Prop} [Decidable c] {o : R Unit} (h : c) :
    Reads st (R.ensure c o) [] () := by rw [R.ensure_true h]; exact Reads.rpure ()

theorem Reads.take {st : List String} {n : Nat} {bs : Bytes} (h : bs.length = n) :
    Reads st (R.take n) bs bs := by
  intro rest pos
  subst h
  simp [R.take]

theorem Reads.withEntry {α : Type} {st : List String} {nm : String} {m : R α} {b : Bytes} {a : α}
    (h : Reads (st ++ [nm]) m b a) : Reads st (R.withEntry nm m) b a := by
  intro rest pos
  simp [R.withEntry, h rest pos]

theorem Reads.getStack {st : List String} : Reads st R.getStack [] st := by
  intro rest pos; rfl

/-- `for _ in 0..n` over elements that read back one after the other. -/
theorem Reads.replicate {α γ : Type} {st : List String} {m : R α} (enc : γ → Bytes) (val : γ → α)
    (l : List γ) (h : ∀ x ∈ l, Reads st m (enc x) (val x)) :
    Reads st (R.replicate m l.length) (l.flatMap enc) (l.map val) := by
  induction l with
  | nil => exact Reads.rpure _
  | cons x l ih =>
    exact (h x (by simp)).bind (Reads.map (ih fun y hy => h y (by simp [hy])))

theorem Reads.run {α : Type} {m : R α} {bs : Bytes} {a : α} {st : List String}
    (h : Reads st m bs a) (rest : Bytes) (pos : Nat) :
    m ⟨bs ++ rest, pos, st⟩ = (.ok a, ⟨rest, pos + bs.length, st⟩) := h rest pos

/-! ## Scalars -/

section scalars
variable {st : List String}

@[simp] theorem u8B_length (x : UInt8) : (u8B x).length = 1 := by simp [u8B]
@[simp] theorem i8B_length (x : Int8) : (i8B x).length = 1 := by simp [i8B]
@[simp] theorem u16B_length (x : UInt16) : (u16B x).length = 2 := by simp [u16B]
@[simp] theorem i16B_length (x : Int16) : (i16B x).length = 2 := by simp [i16B]
@[simp] theorem u32B_length (x : UInt32) : (u32B x).length = 4 := by simp [u32B]
@[simp] theorem i32B_length (x : Int32) : (i32B x).length = 4 := by simp [i32B]
@[simp] theorem u64B_length (x : UInt64) : (u64B x).length = 8 := by simp [u64B]
@[simp] theorem i64B_length (x : Int64) : (i64B x).length = 8 := by simp [i64B]
@[simp] theorem f32B_length (x : F32) : (f32B x).length = 4 := by simp [f32B]
@[simp] theorem f64B_length (x : F64) : (f64B x).length = 8 := by simp [f64B]
@[simp] theorem boolB_length (x : Bool) : (boolB x).length = 1 := by simp [boolB]
@[simp] theorem b32B_length (x : Bool) : (b32B x).length = 4 := by simp [b32B]
@[simp] theorem guidB_length (g : Guid) : (guidB g).length = 16 := g.len

theorem reads_u8 (x : UInt8) : Reads st readU8 (u8B x) x := by
  have h : UInt8.ofNat (leNat (u8B x)) = x := by
    rw [u8B, leNat_leBytes, Nat.mod_eq_of_lt (by have := x.toNat_lt; omega), UInt8.ofNat_toNat]
  have := Reads.map (g := fun b => UInt8.ofNat (leNat b)) (Reads.take (st := st) (u8B_length x))
  rw [h] at this; exact this

theorem reads_u16 (x : UInt16) : Reads st readU16 (u16B x) x := by
  have h : UInt16.ofNat (leNat (u16B x)) = x := by
    rw [u16B, leNat_leBytes, Nat.mod_eq_of_lt (by have := x.toNat_lt; omega), UInt16.ofNat_toNat]
  have := Reads.map (g := fun b => UInt16.ofNat (leNat b)) (Reads.take (st := st) (u16B_length x))
  rw [h] at this; exact this

theorem reads_u32 (x : UInt32) : Reads st readU32 (u32B x) x := by
  have h : UInt32.ofNat (leNat (u32B x)) = x := by
    rw [u32B, leNat_leBytes, Nat.mod_eq_of_lt (by have := x.toNat_lt; omega), UInt32.ofNat_toNat]
  have := Reads.map (g := fun b => UInt32.ofNat (leNat b)) (Reads.take (st := st) (u32B_length x))
  rw [h] at this; exact this

theorem reads_u64 (x : UInt64) : Reads st readU64 (u64B x) x := by
  have h : UInt64.ofNat (leNat (u64B x)) = x := by
    rw [u64B, leNat_leBytes, Nat.mod_eq_of_lt (by have := x.toNat_lt; omega), UInt64.ofNat_toNat]
  have := Reads.map (g := fun b => UInt64.ofNat (leNat b)) (Reads.take (st := st) (u64B_length x))
  rw [h] at this; exact this

theorem reads_i8 (x : Int8) : Reads st readI8 (i8B x) x := by
  have := Reads.map (g := UInt8.toInt8) (reads_u8 (st := st) x.toUInt8)
  rw [show x.toUInt8.toInt8 = x by simp] at this
  exact this

theorem reads_i16 (x : Int16) : Reads st readI16 (i16B x) x := by
  have := Reads.map (g := UInt16.toInt16) (reads_u16 (st := st) x.toUInt16)
  rw [show x.toUInt16.toInt16 = x by simp] at this
  exact this

theorem reads_i32 (x : Int32) : Reads st readI32 (i32B x) x := by
  have := Reads.map (g := UInt32.toInt32) (reads_u32 (st := st) x.toUInt32)
  rw [show x.toUInt32.toInt32 = x by simp] at this
  exact this

theorem reads_i64 (x : Int64) : Reads st readI64 (i64B x) x := by
  have := Reads.map (g := UInt64.toInt64) (reads_u64 (st := st) x.toUInt64)
  rw [show x.toUInt64.toInt64 = x by simp] at this
  exact this

theorem reads_f32 (x : F32) : Reads st readF32 (f32B x) x :=
  Reads.map (g := F32.mk) (reads_u32 (st := st) x.bits)

theorem reads_f64 (x : F64) : Reads st readF64 (f64B x) x :=
  Reads.map (g := F64.mk) (reads_u64 (st := st) x.bits)

theorem reads_guid (g : Guid) : Reads st readGuid (guidB g) g := by
  refine Reads.bind' (Reads.take (guidB_length g)) (b2 := []) ?_ (by simp)
  have := g.len
  rw [dif_pos (guidB_length g)]
  exact Reads.pure _

theorem reads_bool (b : Bool) : Reads st readBool (boolB b) b := by
  refine Reads.bind' (reads_u8 (if b then 1 else 0)) (b2 := []) ?_ (by simp [boolB])
  cases b
  · simpa using Reads.pure (st := st) false
  · simpa using Reads.pure (st := st) true

theorem reads_b32 (b : Bool) : Reads st readB32 (b32B b) b := by
  refine Reads.bind' (reads_u32 (if b then 1 else 0)) (b2 := []) ?_ (by simp [b32B])
  cases b
  · simpa using Reads.pure (st := st) false
  · simpa using Reads.pure (st := st) true

theorem reads_enum {α : Type} (nm : String) (tryFrom : Int8 → Option α) (v : Int8) (a : α)
    (h : tryFrom v = some a) : Reads st (readEnum nm tryFrom) (i8B v) a := by
  refine Reads.bind' (reads_i8 v) (b2 := []) ?_ (by simp)
  simpa [h] using Reads.pure (st := st) a

end scalars

end Gvas
