import Verif.Lemmas.Closed
import Verif.Spec.Shift

/-!
# Readers do not depend on where in a stream they begin

The pass over all readers follows `Lemmas/Closed.lean`, with positions moved in one of the two runs.
-/

namespace Gvas

open Spec

/-- From any state with position at least `K`, `m'` does at a position moved by `w` what `m` does,
and success advances the position by at least `d`. -/
def Sh (w : Nat) (α : Type) (K d : Nat) (m m' : R α) : Prop :=
  ∀ s, K ≤ s.pos → m' (moveState w s) = moveOut w (m s) ∧ s.pos ≤ (m s).2.pos ∧
    ∀ a, (m s).1 = .ok a → s.pos + d ≤ (m s).2.pos

/-- Nested readers do so. -/
def Shifted.RecOK (w K : Nat) (rec rec' : String → Bool → Option UInt32 → R Property) : Prop :=
  ∀ K' ty hdr o, K < K' → Sh w Property K' 0 (rec ty hdr o) (rec' ty hdr o)

/-- The distance is `w`. -/
structure Shifted (w : Nat) : Prop where
  intro ::

namespace Shifted

variable {w : Nat} {debug : Bool} {hints : String → Option String} (C : Shifted w)
include C

/-! ## Rules -/

theorem weaken {α : Type} {K K' d d' : Nat} {m m' : R α} (hK : K ≤ K') (hd : d' ≤ d)
    (h : Sh w α K d m m') : Sh w α K' d' m m' := fun s hs => by
  obtain ⟨h1, h2, h3⟩ := h s (by omega)
  exact ⟨h1, h2, fun a ha => by have := h3 a ha; omega⟩

theorem pure {α : Type} {K : Nat} (a : α) : Sh w α K 0 (R.pure a) (R.pure a) :=
  fun s _ => ⟨rfl, Nat.le_refl _, fun _ _ => Nat.le_refl _⟩

theorem bind {α β : Type} {K d d' : Nat} {m m' : R α} {f f' : α → R β} (h : Sh w α K d m m')
    (hf : ∀ a, Sh w β (K + d) d' (f a) (f' a)) : Sh w β K (d + d') (R.bind m f) (R.bind m' f') := by
  intro s hs
  obtain ⟨h1, h2, h3⟩ := h s hs
  unfold R.bind
  rw [h1]
  match e : m s with
  | (.ok a, s') =>
    rw [e] at h2 h3
    have h4 := h3 a rfl
    obtain ⟨f1, f2, f3⟩ := hf a s' (by simp only at h4; omega)
    simp only at h4 f2 ⊢
    exact ⟨f1, by omega, fun b hb => by have := f3 b hb; omega⟩
  | (.bad b, s') =>
    rw [e] at h2
    exact ⟨by cases b <;> rfl, h2, fun a ha => by simp at ha⟩

theorem position {β : Type} {K d : Nat} {f f' : Nat → R β}
    (h : ∀ p, K ≤ p → Sh w β p d (f p) (f' (p + w))) :
    Sh w β K d (R.bind R.position f) (R.bind R.position f') :=
  fun s hs => h s.pos hs s (Nat.le_refl _)

theorem getStack {β : Type} {K d : Nat} {f f' : List String → R β}
    (h : ∀ st, Sh w β K d (f st) (f' st)) :
    Sh w β K d (R.bind R.getStack f) (R.bind R.getStack f') :=
  fun s hs => h s.stack s hs

theorem fail {α : Type} {K d : Nat} {e e' : Err} (h : e' = moveErr w e) :
    Sh w α K d (R.fail e) (R.fail e') :=
  fun s _ => ⟨by rw [h]; rfl, Nat.le_refl _, fun a ha => by simp [R.fail] at ha⟩

theorem panic {α : Type} {K d : Nat} {msg : String} : Sh w α K d (R.panic msg) (R.panic msg) :=
  fun s _ => ⟨rfl, Nat.le_refl _, fun a ha => by simp [R.panic] at ha⟩

theorem fuel {α : Type} {K d : Nat} : Sh w α K d R.outOfFuel R.outOfFuel :=
  fun s _ => ⟨rfl, Nat.le_refl _, fun a ha => by simp [R.outOfFuel] at ha⟩

theorem take {K : Nat} (n : Nat) : Sh w Bytes K n (R.take n) (R.take n) := by
  intro s _
  unfold R.take
  by_cases h : n ≤ s.rest.length
  · rw [if_pos h, if_pos (show n ≤ (moveState w s).rest.length from h)]
    exact ⟨by simp [moveOut, moveRes, moveState, Nat.add_right_comm], by simp,
      fun _ _ => Nat.le_refl _⟩
  · rw [if_neg h, if_neg (show ¬ n ≤ (moveState w s).rest.length from h)]
    exact ⟨by simp [moveOut, moveRes, moveState, moveErr, Nat.add_right_comm], by simp,
      fun _ h => by simp at h⟩

theorem withEntry {α : Type} {K d : Nat} {m m' : R α} (nm : String) (h : Sh w α K d m m') :
    Sh w α K d (R.withEntry nm m) (R.withEntry nm m') := by
  intro s hs
  obtain ⟨h1, h2, h3⟩ := h { s with stack := s.stack ++ [nm] } hs
  unfold R.withEntry
  rw [show ({ moveState w s with stack := (moveState w s).stack ++ [nm] } : RS) =
    moveState w { s with stack := s.stack ++ [nm] } from rfl, h1]
  exact ⟨rfl, h2, h3⟩

/-! ## Combinators -/

/-- Forget the progress made. -/
theorem zero {α : Type} {K d : Nat} {m m' : R α} (h : Sh w α K d m m') : Sh w α K 0 m m' :=
  C.weaken (Nat.le_refl _) (Nat.zero_le _) h

/-- Sequencing, where the second part does not need the progress of the first. -/
theorem next {α β : Type} {K d : Nat} {m m' : R α} {f f' : α → R β} (h : Sh w α K d m m')
    (h' : ∀ a, Sh w β K 0 (f a) (f' a)) : Sh w β K d (m >>= f) (m' >>= f') :=
  C.bind (d' := 0) h fun a => C.weaken (by omega) (Nat.le_refl _) (h' a)

/-- Sequencing, where only the progress of the second part matters. -/
theorem skip {α β : Type} {K d : Nat} {m m' : R α} {f f' : α → R β} (h : Sh w α K 0 m m')
    (h' : ∀ a, Sh w β K d (f a) (f' a)) : Sh w β K d (m >>= f) (m' >>= f') :=
  C.weaken (Nat.le_refl _) (by omega) (C.bind (d := 0) h h')

theorem ret {α : Type} {K : Nat} (a : α) : Sh w α K 0 (Pure.pure a) (Pure.pure a) := C.pure a

/-- A reader followed by a plain `return`. -/
theorem map {α β : Type} {K d : Nat} {m m' : R α} {g : α → β} (h : Sh w α K d m m') :
    Sh w β K d (m >>= fun a => Pure.pure (g a)) (m' >>= fun a => Pure.pure (g a)) :=
  C.next h fun _ => C.ret _

theorem pos {β : Type} {K d : Nat} {f f' : Nat → R β} (h : ∀ p, K ≤ p → Sh w β p d (f p) (f' (p + w))) :
    Sh w β K d (R.position >>= f) (R.position >>= f') := C.position h

theorem ensure {K : Nat} {c c' : Prop} [Decidable c] [Decidable c'] {o o' : R Unit}
    (h : ¬ c → Sh w Unit K 0 o o') (hc : c' ↔ c := by exact Iff.rfl) :
    Sh w Unit K 0 (R.ensure c o) (R.ensure c' o') := by
  unfold R.ensure
  by_cases hp : c
  · rw [if_pos hp, if_pos (hc.2 hp)]
    exact C.pure _
  · rw [if_neg hp, if_neg fun x => hp (hc.1 x)]
    exact h hp

theorem failPos {α : Type} {K d : Nat} {e : Nat → Err}
    (h : ∀ p, K ≤ p → e (p + w) = moveErr w (e p)) :
    Sh w α K d (R.position >>= fun p => R.fail (e p)) (R.position >>= fun p => R.fail (e p)) :=
  C.pos fun p hp => C.fail (h p hp)

theorem replicate {α : Type} {K : Nat} {m m' : R α} (h : Sh w α K 0 m m') (n : Nat) :
    Sh w (List α) K 0 (R.replicate m n) (R.replicate m' n) := by
  induction n with
  | zero => exact C.pure _
  | succ n ih => exact C.next h fun a => C.next ih fun as => C.pure _

theorem onlyIf {K : Nat} {m m' : R Unit} (b : Bool) (h : Sh w Unit K 0 m m') :
    Sh w Unit K 0 (R.onlyIf b m) (R.onlyIf b m') := by
  unfold R.onlyIf
  split
  · exact h
  · exact C.pure _

/-! ## Primitives -/

theorem u8 {K : Nat} : Sh w UInt8 K 1 readU8 readU8 := C.map (C.take 1)
theorem i8 {K : Nat} : Sh w Int8 K 1 readI8 readI8 := C.map C.u8
theorem u16 {K : Nat} : Sh w UInt16 K 2 readU16 readU16 := C.map (C.take 2)
theorem i16 {K : Nat} : Sh w Int16 K 2 readI16 readI16 := C.map C.u16
theorem u32 {K : Nat} : Sh w UInt32 K 4 readU32 readU32 := C.map (C.take 4)
theorem i32 {K : Nat} : Sh w Int32 K 4 readI32 readI32 := C.map C.u32
theorem u64 {K : Nat} : Sh w UInt64 K 8 readU64 readU64 := C.map (C.take 8)
theorem i64 {K : Nat} : Sh w Int64 K 8 readI64 readI64 := C.map C.u64
theorem f32 {K : Nat} : Sh w F32 K 4 readF32 readF32 := C.map C.u32
theorem f64 {K : Nat} : Sh w F64 K 8 readF64 readF64 := C.map C.u64

theorem fstring {K : Nat} : Sh w (Option String) K 4 readFString readFString := by
  unfold readFString
  refine C.pos fun p _ => C.next C.i32 fun len => C.next (C.ensure fun _ => C.fail rfl) fun _ => ?_
  split
  · exact C.ret _
  · split
    · refine C.zero (C.next (C.take _) fun buf => C.zero (C.next C.u16 fun t =>
        C.next (C.ensure fun _ => C.failPos fun p _ => rfl) fun _ => ?_))
      split
      · exact C.ret _
      · exact C.fail rfl
    · refine C.zero (C.next (C.take _) fun buf => C.zero (C.next C.u8 fun t =>
        C.next (C.ensure fun _ => C.failPos fun p _ => rfl) fun _ => ?_))
      split
      · exact C.ret _
      · exact C.fail rfl

theorem string {K : Nat} : Sh w String K 4 readString readString := by
  unfold readString
  refine C.pos fun p _ => C.next C.fstring fun r => ?_
  split
  · exact C.ret _
  · exact C.fail rfl

theorem guid {K : Nat} : Sh w Guid K 16 readGuid readGuid := by
  unfold readGuid
  refine C.next (C.take 16) fun bs => ?_
  split
  · exact C.ret _
  · exact C.fail rfl

theorem boolean {K : Nat} : Sh w Bool K 1 readBool readBool := by
  unfold readBool
  refine C.next C.u8 fun v => ?_
  split
  · exact C.ret _
  · split
    · exact C.ret _
    · exact C.failPos fun p _ => rfl

theorem b32 {K : Nat} : Sh w Bool K 4 readB32 readB32 := by
  unfold readB32
  refine C.next C.u32 fun v => ?_
  split
  · exact C.ret _
  · split
    · exact C.ret _
    · exact C.failPos fun p _ => rfl

theorem enum {α : Type} {K : Nat} (nm : String) (f : Int8 → Option α) :
    Sh w α K 1 (readEnum nm f) (readEnum nm f) := by
  unfold readEnum
  refine C.next C.i8 fun v => ?_
  split
  · exact C.ret _
  · exact C.failPos fun p _ => rfl

/-! ## Texts -/

theorem capacity {K : Nat} (c : Int32) : Sh w Nat K 0 (Gvas.capacity c) (Gvas.capacity c) := by
  unfold Gvas.capacity
  split
  · exact C.panic
  · exact C.pure _

theorem formattingOptions {K : Nat} :
    Sh w NumberFormattingOptions K 0 NumberFormattingOptions.read NumberFormattingOptions.read := by
  unfold NumberFormattingOptions.read
  exact C.zero (C.next C.b32 fun _ => C.zero (C.next C.b32 fun _ => C.zero (C.next (C.enum _ _)
    fun _ => C.zero (C.next C.i32 fun _ => C.zero (C.next C.i32 fun _ => C.zero (C.next C.i32
    fun _ => C.zero (C.next C.i32 fun _ => C.ret _)))))))

theorem formatOptions {K : Nat} :
    Sh w (Option NumberFormattingOptions) K 0 readFormatOptions readFormatOptions := by
  unfold readFormatOptions
  refine C.zero (C.next C.b32 fun b => ?_)
  split
  · exact C.map C.formattingOptions
  · exact C.ret _

theorem argument {K : Nat} {cv : List (Guid × UInt32)} {rec rec' : R FText}
    (h : Sh w FText K 0 rec rec') : Sh w FormatArgumentValue K 0
      (FormatArgumentValue.readWith cv rec) (FormatArgumentValue.readWith cv rec') := by
  unfold FormatArgumentValue.readWith
  refine C.zero (C.next (C.enum _ _) fun ty => ?_)
  cases ty with
  | int =>
    simp only []
    split
    · exact C.zero (C.map C.i64)
    · exact C.zero (C.map C.i32)
  | uint =>
    simp only []
    split
    · exact C.zero (C.map C.u64)
    · exact C.zero (C.map C.u32)
  | float => exact C.zero (C.map C.f32)
  | double => exact C.zero (C.map C.f64)
  | text => exact C.map h
  | gender => exact C.panic

theorem arguments {K : Nat} {cv : List (Guid × UInt32)} {rec rec' : R FText}
    (h : Sh w FText K 0 rec rec') :
    Sh w (List (String × FormatArgumentValue)) K 0 (readArguments cv rec) (readArguments cv rec') := by
  unfold readArguments
  exact C.zero (C.next C.i32 fun c => C.next (C.capacity c) fun n =>
    C.next (C.replicate (C.zero (C.next C.string fun k => C.next (C.argument h) fun v => C.ret _)) n)
      fun es => C.ret _)

theorem history {K : Nat} {cv : List (Guid × UInt32)} {rec rec' : R FText}
    (h : Sh w FText K 0 rec rec') : Sh w FTextHistory K 0
      (FTextHistory.readWith cv rec) (FTextHistory.readWith cv rec') := by
  unfold FTextHistory.readWith
  refine C.zero (C.next (C.enum _ _) fun ty => ?_)
  cases ty with
  | none =>
    simp only []
    split
    · refine C.zero (C.next C.b32 fun b => ?_)
      split
      · exact C.zero (C.map C.fstring)
      · exact C.ret _
    · exact C.ret _
  | base => exact C.zero (C.next C.fstring fun _ => C.zero (C.next C.fstring fun _ =>
      C.zero (C.map C.fstring)))
  | namedFormat => exact C.next h fun _ => C.map (C.arguments h)
  | orderedFormat =>
    exact C.next h fun _ => C.zero (C.next C.i32 fun c => C.next (C.capacity c)
      fun n => C.map (C.replicate (C.argument h) n))
  | argumentFormat => exact C.next h fun _ => C.map (C.arguments h)
  | asNumber =>
    exact C.next (C.argument h) fun _ => C.next C.formatOptions fun _ =>
      C.zero (C.map C.fstring)
  | asPercent =>
    exact C.next (C.argument h) fun _ => C.next C.formatOptions fun _ =>
      C.zero (C.map C.fstring)
  | asCurrency => exact C.zero (C.next C.fstring fun _ => C.next (C.argument h) fun _ =>
      C.next C.formatOptions fun _ => C.zero (C.map C.fstring))
  | asDate => exact C.zero (C.next C.u64 fun _ => C.zero (C.next (C.enum _ _) fun _ =>
      C.zero (C.map C.string)))
  | asTime => exact C.zero (C.next C.u64 fun _ => C.zero (C.next (C.enum _ _) fun _ =>
      C.zero (C.next C.string fun _ => C.zero (C.map C.string))))
  | asDateTime => exact C.zero (C.next C.u64 fun _ => C.zero (C.next (C.enum _ _) fun _ =>
      C.zero (C.next (C.enum _ _) fun _ => C.zero (C.next C.string fun _ =>
      C.zero (C.map C.string)))))
  | transform => exact C.next h fun _ => C.zero (C.map (C.enum _ _))
  | stringTableEntry => exact C.zero (C.next C.string fun _ => C.zero (C.map C.string))
  | textGenerator => exact C.panic
  | rawText => exact C.panic

theorem text {K : Nat} (cv : List (Guid × UInt32)) (n : Nat) : Sh w FText K 0 (FText.read cv n) (FText.read cv n) := by
  induction n generalizing K with
  | zero => exact C.fuel
  | succ n ih =>
    unfold FText.read
    refine C.zero (C.bind (d' := 0) C.u32 fun fl => C.map (C.history ih))

/-! ## Property headers -/

theorem terminator {K : Nat} : Sh w Unit K 1 readTerminator readTerminator := by
  unfold readTerminator
  exact C.bind (d' := 0) C.u8 fun t => C.ensure fun _ => C.failPos fun p hp => by
    simp only [moveErr, Err.invalidTerminator.injEq, true_and]; omega

theorem separator {K : Nat} : Sh w Unit K 1 readSeparator readSeparator := by
  unfold readSeparator
  exact C.next C.u8 fun t => C.ensure fun _ => C.panic

theorem sized {β : Type} {K : Nat} {len : UInt32} {m m' : R β} (h : Sh w β K 0 m m') :
    Sh w β K 0 (readSized len m) (readSized len m') := by
  unfold readSized
  refine C.pos fun p hp => C.next (C.weaken hp (Nat.le_refl _) h) fun r => C.pos fun p' hp' =>
    C.next (C.ensure (fun _ => C.fail ?_) ?_) fun _ => C.ret _
  all_goals simp only [Nat.add_sub_add_right, moveErr]

theorem zeroIndex {K : Nat} : Sh w Unit K 4 readZeroIndex readZeroIndex := by
  unfold readZeroIndex
  exact C.bind (d' := 0) C.u32 fun t => C.ensure fun _ => C.failPos fun p hp => by
    simp only [moveErr, Err.invalidArrayIndex.injEq, true_and]; omega

theorem assertedIndex {K : Nat} : Sh w Unit K 4 readAssertedIndex readAssertedIndex := by
  unfold readAssertedIndex
  exact C.next C.u32 fun t => C.ensure fun _ => C.panic

theorem header {α β : Type} {K : Nat} {hdr hdr' : R α} {body body' : UInt32 → α → R β}
    (h1 : Sh w α (K + 4) 0 hdr hdr') (h2 : ∀ l a, Sh w β (K + 4) 0 (body l a) (body' l a)) :
    Sh w β K 4 (readHeader hdr body) (readHeader hdr' body') := by
  unfold readHeader
  refine C.bind (d' := 0) C.u32 fun len => C.zero (C.next C.zeroIndex fun _ => C.next h1 fun a =>
    C.zero (C.next C.terminator fun _ => C.sized (h2 len a)))

theorem checkSize {K n : Nat} : Sh w Unit K 8 (Gvas.checkSize n) (Gvas.checkSize n) := by
  unfold Gvas.checkSize
  exact C.next C.u64 fun t => C.ensure fun _ => C.failPos fun p _ => rfl

theorem subU32 {K : Nat} (a b : UInt32) : Sh w UInt32 K 0 (Gvas.subU32 debug a b) (Gvas.subU32 debug a b) := by
  unfold Gvas.subU32
  split
  · exact C.panic
  · exact C.pure _

/-! ## Leaves -/

theorem fixed {α : Type} {K d n : Nat} {hdr : Bool} {m : R α} (h : Sh w α K d m m) :
    Sh w α K d (readFixed hdr n m) (readFixed hdr n m) := by
  unfold readFixed
  exact C.skip (C.onlyIf _ (C.zero (C.next C.checkSize fun _ => C.zero C.separator))) fun _ => h

theorem boolProperty {K : Nat} (hdr : Bool) :
    Sh w Bool K 0 (readBoolProperty hdr) (readBoolProperty hdr) := by
  unfold readBoolProperty
  exact C.next (C.onlyIf _ (C.zero C.checkSize)) fun _ => C.zero (C.next C.boolean fun _ =>
    C.next (C.onlyIf _ (C.zero C.separator)) fun _ => C.ret _)

theorem byteValue {K : Nat} (l : UInt32) :
    Sh w BytePropertyValue K 0 (readByteValue l) (readByteValue l) := by
  unfold readByteValue
  split
  · exact C.zero (C.map C.u8)
  · exact C.zero (C.map C.string)

theorem byteLength {K : Nat} (o : Option UInt32) :
    Sh w UInt32 K 0 (Gvas.byteLength debug o) (Gvas.byteLength debug o) := by
  cases o with
  | none => exact C.pure _
  | some e => exact C.subU32 e 1

theorem byteProperty {K : Nat} (hdr : Bool) (o : Option UInt32) :
    Sh w Property K 0 (readByteProperty debug hdr o) (readByteProperty debug hdr o) := by
  unfold readByteProperty
  split
  · exact C.zero (C.next C.u32 fun _ => C.zero (C.next C.assertedIndex fun _ =>
      C.zero (C.next C.string fun _ => C.zero (C.next C.separator fun _ =>
      C.next (C.byteLength _) fun _ => C.map (C.byteValue _)))))
  · exact C.next (C.byteLength _) fun _ => C.map (C.byteValue _)

theorem plain {β : Type} {K : Nat} {hdr : Bool} {m m' : R β} (h : Sh w β K 0 m m') :
    Sh w β K 0 (readPlain hdr m) (readPlain hdr m') := by
  unfold readPlain
  split
  · exact C.zero (C.header (C.pure _) fun _ _ => C.weaken (by omega) (Nat.le_refl _) h)
  · exact h

theorem enumProperty {K : Nat} (hdr : Bool) :
    Sh w Property K 0 (readEnumProperty hdr) (readEnumProperty hdr) := by
  unfold readEnumProperty
  split
  · exact C.zero (C.header (C.zero C.string) fun _ _ => C.zero (C.map C.string))
  · exact C.zero (C.map C.string)

theorem nameProperty {K : Nat} (hdr : Bool) :
    Sh w Property K 0 (readNameProperty hdr) (readNameProperty hdr) := by
  unfold readNameProperty
  split
  · exact C.zero (C.next C.u32 fun _ => C.zero (C.next C.u32 fun _ => C.zero (C.next C.terminator
      fun _ => C.sized (C.zero (C.map C.fstring)))))
  · exact C.zero (C.map C.fstring)

theorem delegate {K : Nat} : Sh w Delegate K 4 Delegate.read Delegate.read := by
  unfold Delegate.read
  exact C.next C.string fun _ => C.zero (C.map C.string)

theorem multicast {K : Nat} : Sh w (List Delegate) K 4 readMulticast readMulticast := by
  unfold readMulticast
  exact C.next C.u32 fun _ => C.replicate (C.zero C.delegate) _

theorem fieldPath {K : Nat} : Sh w FieldPath K 4 FieldPath.read FieldPath.read := by
  unfold FieldPath.read
  exact C.next C.u32 fun _ => C.next (C.replicate (C.zero C.string) _) fun _ => C.zero (C.map C.string)

theorem unknown {K : Nat} (ty : String) (hdr : Bool) (o : Option UInt32) :
    Sh w Property K 0 (readUnknown ty hdr o) (readUnknown ty hdr o) := by
  unfold readUnknown
  split
  · exact C.zero (C.next C.u32 fun _ => C.zero (C.next C.assertedIndex fun _ =>
      C.zero (C.next C.separator fun _ => C.zero (C.map (C.take _)))))
  · split
    · exact C.zero (C.map (C.take _))
    · exact C.failPos fun p _ => rfl

/-! ## Structs -/

theorem insertProperty {K : Nat} (fs : List (String × List Property)) (k : String) (p : Property) :
    Sh w (List (String × List Property)) K 0 (Gvas.insertProperty debug fs k p)
      (Gvas.insertProperty debug fs k p) := by
  unfold Gvas.insertProperty
  exact C.next (C.ensure fun _ => C.panic) fun _ => C.ret _

omit C in
theorem RecOK.mono {K K' : Nat} {rec rec' : String → Bool → Option UInt32 → R Property}
    (h : RecOK w K rec rec') (hk : K ≤ K') : RecOK w K' rec rec' :=
  fun K'' ty hdr o hK => h K'' ty hdr o (by omega)

theorem custom {K : Nat} {rec rec' : String → Bool → Option UInt32 → R Property}
    (hr : RecOK w K rec rec') (n : Nat)
    (fs : List (String × List Property)) :
    Sh w (List (String × List Property)) K 0 (readCustom debug rec n fs)
      (readCustom debug rec' n fs) := by
  induction n generalizing K fs with
  | zero => exact C.fuel
  | succ n ih =>
    unfold readCustom
    refine C.zero (C.bind (d' := 0) C.string fun name => ?_)
    split
    · exact C.ret _
    · refine C.zero (C.next C.string fun ty => C.next (C.withEntry _ (C.next (hr _ _ _ _ (by omega))
        fun p => C.insertProperty _ _ _)) fun fs' => ih (hr.mono (by omega)) _)

theorem builtin {K : Nat} (cv : List (Guid × UInt32)) (k : StructKind) :
    Sh w StructPropertyValue K 4 (readBuiltin cv k) (readBuiltin cv k) := by
  have f2 : ∀ g : F32 → F32 → StructPropertyValue, Sh w StructPropertyValue K 4
      (do let x ← readF32; let y ← readF32; return g x y)
      (do let x ← readF32; let y ← readF32; return g x y) := fun g =>
    C.next C.f32 fun _ => C.zero (C.map C.f32)
  have f3 : ∀ g : F32 → F32 → F32 → StructPropertyValue, Sh w StructPropertyValue K 4
      (do let x ← readF32; let y ← readF32; let z ← readF32; return g x y z)
      (do let x ← readF32; let y ← readF32; let z ← readF32; return g x y z) := fun g =>
    C.next C.f32 fun _ => C.zero (C.next C.f32 fun _ => C.zero (C.map C.f32))
  have f4 : ∀ g : F32 → F32 → F32 → F32 → StructPropertyValue, Sh w StructPropertyValue K 4
      (do let x ← readF32; let y ← readF32; let z ← readF32; let w ← readF32; return g x y z w)
      (do let x ← readF32; let y ← readF32; let z ← readF32; let w ← readF32; return g x y z w) :=
    fun g => C.next C.f32 fun _ => C.zero (C.next C.f32 fun _ => C.zero (C.next C.f32
      fun _ => C.zero (C.map C.f32)))
  have d2 : ∀ g : F64 → F64 → StructPropertyValue, Sh w StructPropertyValue K 4
      (do let x ← readF64; let y ← readF64; return g x y)
      (do let x ← readF64; let y ← readF64; return g x y) := fun g =>
    C.weaken (Nat.le_refl _) (by decide) (C.next C.f64 fun _ => C.zero (C.map C.f64))
  have d3 : ∀ g : F64 → F64 → F64 → StructPropertyValue, Sh w StructPropertyValue K 4
      (do let x ← readF64; let y ← readF64; let z ← readF64; return g x y z)
      (do let x ← readF64; let y ← readF64; let z ← readF64; return g x y z) := fun g =>
    C.weaken (Nat.le_refl _) (by decide) (C.next C.f64 fun _ => C.zero (C.next C.f64 fun _ => C.zero (C.map C.f64)))
  have d4 : ∀ g : F64 → F64 → F64 → F64 → StructPropertyValue, Sh w StructPropertyValue K 4
      (do let x ← readF64; let y ← readF64; let z ← readF64; let w ← readF64; return g x y z w)
      (do let x ← readF64; let y ← readF64; let z ← readF64; let w ← readF64; return g x y z w) :=
    fun g => C.weaken (Nat.le_refl _) (by decide) (C.next C.f64 fun _ => C.zero (C.next C.f64 fun _ => C.zero (C.next C.f64
      fun _ => C.zero (C.map C.f64))))
  cases k with
  | vector => unfold readBuiltin; simp only []; split; exact d3 _; exact f3 _
  | vector2D => unfold readBuiltin; simp only []; split; exact d2 _; exact f2 _
  | rotator => unfold readBuiltin; simp only []; split; exact d3 _; exact f3 _
  | quat => unfold readBuiltin; simp only []; split; exact d4 _; exact f4 _
  | dateTime => exact C.weaken (Nat.le_refl _) (by decide) (C.map C.u64)
  | timespan => exact C.weaken (Nat.le_refl _) (by decide) (C.map C.u64)
  | linearColor => exact f4 _
  | intPoint => exact C.next C.i32 fun _ => C.zero (C.map C.i32)
  | guid => exact C.weaken (Nat.le_refl _) (by decide) (C.map C.guid)
  | gameplayTagContainer => exact C.next C.i32 fun c => (C.next (C.capacity c) fun n =>
      C.map (C.replicate (C.zero C.string) n))

theorem structBody {K : Nat} {rec rec' : String → Bool → Option UInt32 → R Property}
    (cv : List (Guid × UInt32)) (hr : RecOK w K rec rec') (n : Nat) (ty : String) : Sh w StructPropertyValue K 0
      (readStructBody ⟨debug, hints, cv⟩ n rec ty) (readStructBody ⟨debug, hints, cv⟩ n rec' ty) := by
  unfold readStructBody
  split
  · exact C.zero (C.builtin _ _)
  · exact C.map (C.custom hr n [])

theorem structProperty {K : Nat} {rec rec' : String → Bool → Option UInt32 → R Property}
    (cv : List (Guid × UInt32)) (hr : RecOK w K rec rec') (n : Nat) (hdr : Bool) : Sh w Property K 0
      (readStructProperty ⟨debug, hints, cv⟩ n rec hdr)
      (readStructProperty ⟨debug, hints, cv⟩ n rec' hdr) := by
  unfold readStructProperty
  split
  · refine C.zero (C.header (C.zero (C.next C.string fun _ => C.zero (C.map C.guid))) fun _ x =>
      C.map (C.structBody cv (hr.mono (by omega)) n _))
  · refine C.getStack fun st => ?_
    simp only []
    split
    · exact C.map (C.structBody cv hr n _)
    · exact C.failPos fun p _ => rfl

/-! ## Arrays, sets, maps -/

theorem structInfo {K : Nat} :
    Sh w (String × UInt64 × String × Guid) K 0 readStructInfo readStructInfo := by
  unfold readStructInfo
  exact C.zero (C.next C.string fun _ => C.zero (C.next C.string fun _ =>
    C.next (C.ensure fun _ => C.panic) fun _ => C.zero (C.next C.u64 fun _ =>
    C.zero (C.next C.string fun _ => C.zero (C.next C.guid fun _ => C.zero (C.map C.terminator))))))

theorem arrayBody {K : Nat} {rec rec' : String → Bool → Option UInt32 → R Property}
    (cv : List (Guid × UInt32)) (hr : RecOK w K rec rec') (n : Nat) (len : UInt32) (ty : String) : Sh w ArrayProperty K 0
      (readArrayBody ⟨debug, hints, cv⟩ n rec len ty)
      (readArrayBody ⟨debug, hints, cv⟩ n rec' len ty) := by
  unfold readArrayBody
  refine C.zero (C.bind (d' := 0) C.u32 fun count => ?_)
  split
  · rename_i hty
    subst hty
    refine C.next C.structInfo fun i => ?_
    obtain ⟨field, size, sty, guid⟩ := i
    refine C.pos fun p hp => C.next (C.replicate (C.structBody cv (hr.mono (by omega)) n _) _)
      fun vs => C.pos fun p' hp' => ?_
    rw [Nat.add_sub_add_right]
    refine C.next (C.ensure fun _ => C.failPos fun p _ => rfl) fun _ => ?_
    rw [Closed.array_new_structs]
    exact C.pure _
  · refine C.next (C.replicate (hr _ _ _ _ (by omega)) _) fun ps => ?_
    obtain ⟨a, ha⟩ := Closed.array_new_ok ty ps
    rw [ha]
    exact C.pure _

theorem arrayProperty {K : Nat} {rec rec' : String → Bool → Option UInt32 → R Property}
    (cv : List (Guid × UInt32)) (hr : RecOK w K rec rec') (n : Nat) (hdr : Bool) : Sh w Property K 0
      (readArrayProperty ⟨debug, hints, cv⟩ n rec hdr)
      (readArrayProperty ⟨debug, hints, cv⟩ n rec' hdr) := by
  unfold readArrayProperty
  split
  · exact C.zero (C.header (C.zero C.string) fun _ _ => C.map (C.arrayBody cv (hr.mono (by omega))
      n _ _))
  · exact C.failPos fun p _ => rfl

theorem setBody {K : Nat} {rec rec' : String → Bool → Option UInt32 → R Property}
    (hr : RecOK w K rec rec') (len : UInt32) (ty : String) :
    Sh w Property K 0 (readSetBody debug rec len ty) (readSetBody debug rec' len ty) := by
  unfold readSetBody
  refine C.zero (C.bind (d' := 0) C.u32 fun _ => C.zero (C.next C.u32 fun count => C.map ?_))
  unfold readSetElems
  split
  · exact C.next (C.subU32 _ _) fun _ => C.replicate (hr _ _ _ _ (by omega)) _
  · exact C.pure _

theorem setProperty {K : Nat} {rec rec' : String → Bool → Option UInt32 → R Property}
    (hr : RecOK w K rec rec') (hdr : Bool) :
    Sh w Property K 0 (readSetProperty debug rec hdr) (readSetProperty debug rec' hdr) := by
  unfold readSetProperty
  split
  · exact C.zero (C.header (C.zero C.string) fun len ty => C.setBody (hr.mono (by omega)) len ty)
  · exact C.failPos fun p _ => rfl

theorem mapBody {K : Nat} {rec rec' : String → Bool → Option UInt32 → R Property}
    (hr : RecOK w K rec rec') (kt vt : String) :
    Sh w Property K 0 (readMapBody rec kt vt) (readMapBody rec' kt vt) := by
  unfold readMapBody
  refine C.zero (C.bind (d' := 0) C.u32 fun _ => C.zero (C.next C.u32 fun count => C.map
    (C.replicate ?_ _)))
  unfold readMapEntry
  exact C.next (C.withEntry _ (hr _ _ _ _ (by omega))) fun _ =>
    C.map (C.withEntry _ (hr _ _ _ _ (by omega)))

theorem mapProperty {K : Nat} {rec rec' : String → Bool → Option UInt32 → R Property}
    (hr : RecOK w K rec rec') (hdr : Bool) :
    Sh w Property K 0 (readMapProperty rec hdr) (readMapProperty rec' hdr) := by
  unfold readMapProperty
  split
  · exact C.zero (C.header (C.zero (C.next C.string fun _ => C.zero (C.map C.string)))
      fun len ty => C.mapBody (hr.mono (by omega)) _ _)
  · exact C.failPos fun p _ => rfl

/-! ## `Property::new` and files -/

theorem kind {K : Nat} {rec rec' : String → Bool → Option UInt32 → R Property}
    (cv : List (Guid × UInt32)) (hr : RecOK w K rec rec') (n : Nat) (hdr : Bool) (o : Option UInt32) (k : Kind) : Sh w Property K 0
      (readKind ⟨debug, hints, cv⟩ n rec hdr o k) (readKind ⟨debug, hints, cv⟩ n rec' hdr o k) := by
  cases k with
  | int8 => exact C.zero (C.map (C.fixed C.i8))
  | byte => exact C.byteProperty _ _
  | int16 => exact C.zero (C.map (C.fixed C.i16))
  | uint16 => exact C.zero (C.map (C.fixed C.u16))
  | int => exact C.zero (C.map (C.fixed C.i32))
  | uint32 => exact C.zero (C.map (C.fixed C.u32))
  | int64 => exact C.zero (C.map (C.fixed C.i64))
  | uint64 => exact C.zero (C.map (C.fixed C.u64))
  | float => exact C.zero (C.map (C.fixed C.f32))
  | double => exact C.zero (C.map (C.fixed C.f64))
  | bool => exact C.map (C.boolProperty _)
  | enum => exact C.enumProperty _
  | str => exact C.map (C.plain (C.zero C.fstring))
  | text => exact C.map (C.plain (C.text cv n))
  | name => exact C.nameProperty _
  | object => exact C.map (C.plain (C.zero C.string))
  | delegate => exact C.map (C.plain (C.zero C.delegate))
  | multicastInlineDelegate => exact C.map (C.plain (C.zero C.multicast))
  | multicastSparseDelegate => exact C.map (C.plain (C.zero C.multicast))
  | fieldPath => exact C.map (C.plain (C.zero C.fieldPath))
  | struct => exact C.structProperty cv hr n _
  | array => exact C.arrayProperty cv hr n _
  | set => exact C.setProperty hr _
  | map => exact C.mapProperty hr _

theorem property {K : Nat} (cv : List (Guid × UInt32)) (n : Nat) (ty : String) (hdr : Bool) (o : Option UInt32) : Sh w Property K 0
      (Property.read ⟨debug, hints, cv⟩ n ty hdr o) (Property.read ⟨debug, hints, cv⟩ n ty hdr o) := by
  induction n generalizing K ty hdr o with
  | zero => exact C.fuel
  | succ n ih =>
    unfold Property.read Property.readStep
    refine C.withEntry _ ?_
    split
    · refine C.kind cv (fun K' ty hdr o hK => ih _ _ _) (n + 1)
        _ _ _
    · exact C.unknown _ _ _

theorem top {K : Nat} {rec rec' : String → Bool → Option UInt32 → R Property}
    (hr : RecOK w K rec rec') (n : Nat)
    (ps : List (String × Property)) :
    Sh w (List (String × Property)) K 0 (readTop rec n ps) (readTop rec' n ps) := by
  induction n generalizing K ps with
  | zero => exact C.fuel
  | succ n ih =>
    unfold readTop
    refine C.zero (C.bind (d' := 0) C.string fun name => ?_)
    split
    · exact C.ret _
    · refine C.zero (C.next C.string fun ty => C.next (C.withEntry _ (hr _ _ _ _ (by omega)))
        fun p => ih (hr.mono (by omega)) _)

theorem headerCheck {K : Nat} {c : Prop} [Decidable c] {msg : String} :
    Sh w Unit K 0 (Gvas.headerCheck c msg) (Gvas.headerCheck c msg) :=
  C.ensure fun _ => C.fail rfl

theorem engineVersion {K : Nat} : Sh w FEngineVersion K 0 FEngineVersion.read FEngineVersion.read := by
  unfold FEngineVersion.read
  exact C.zero (C.next C.u16 fun _ => C.zero (C.next C.u16 fun _ => C.zero (C.next C.u16 fun _ =>
    C.zero (C.next C.u32 fun _ => C.zero (C.map C.string)))))

theorem customVersion {K : Nat} :
    Sh w (Guid × UInt32) K 0 FCustomVersion.read FCustomVersion.read := by
  unfold FCustomVersion.read
  exact C.zero (C.next C.guid fun _ => C.zero (C.map C.u32))

theorem headerTail {K : Nat} :
    Sh w (FEngineVersion × UInt32 × List (Guid × UInt32) × String) K 0 readHeaderTail readHeaderTail := by
  unfold readHeaderTail
  exact C.next C.engineVersion fun _ => C.zero (C.next C.u32 fun _ => C.next C.headerCheck fun _ =>
    C.zero (C.next C.u32 fun _ => C.next (C.replicate C.customVersion _) fun _ =>
    C.zero (C.map C.string)))

theorem gvasHeader {K : Nat} : Sh w GvasHeader K 4 GvasHeader.read GvasHeader.read := by
  unfold GvasHeader.read
  refine C.next C.u32 fun _ => C.next C.headerCheck fun _ => C.zero (C.next C.u32 fun v =>
    C.next C.headerCheck fun _ => C.zero (C.next C.u32 fun _ => C.next C.headerCheck fun _ => ?_))
  split
  · exact C.zero (C.next C.u32 fun _ => C.next C.headerCheck fun _ => C.map C.headerTail)
  · exact C.map C.headerTail

theorem contents {K : Nat} (n : Nat) :
    Sh w (GvasHeader × List (String × Property)) K 0 (readContents debug hints n)
      (readContents debug hints n) := by
  unfold readContents
  refine C.zero (C.bind (d' := 0) C.gvasHeader fun h => ?_)
  exact C.map (C.top (fun K' ty hdr o hK => C.property _ n _ _ _) n _)

theorem frame {K : Nat} : Sh w (UInt32 × PalworldCompressionType) K 0 readFrame readFrame := by
  unfold readFrame
  exact C.zero (C.next C.u32 fun _ => C.zero (C.next C.u32 fun _ => C.zero (C.next (C.take 3) fun _ =>
    C.next C.headerCheck fun _ => C.zero (C.map (C.enum _ _)))))

end Shifted

end Gvas
