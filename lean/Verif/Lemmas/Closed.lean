import Verif.Model.File

/-!
# Relations between readers that are closed under everything the library does

Many properties say that a reader, or the readers of two runs, behave well in some
sense that is preserved by all combinators.  `Closed` lists what such a relation `J`
has to satisfy, and the theorems below conclude that `J` holds of all readers of the
library.

`J K d m m'` is to be read as: from any state with position at least `K`, the
readers `m` and `m'` are related, and success advances the position by at least
`d`.
-/

namespace Gvas

/-- The messages of the panics in the readers; the last one needs overflow checks. -/
def Spec.panicMessages (debug : Bool) : List String :=
  ["assertion `left == right` failed", "Expected array_index value zero", "capacity overflow",
   "not implemented", "not implemented: unimplemented history type: TextGenerator",
   "not implemented: unimplemented history type: RawText"] ++
  if debug then ["attempt to subtract with overflow"] else []

/-- The position an error reports. -/
def Spec.errPos : Err → Option Nat
  | .invalidHeader _ => none
  | .invalidValueSize _ _ p => some p
  | .invalidString _ p => some p
  | .invalidStringTerminator _ p => some p
  | .invalidBoolean _ p => some p
  | .missingHint _ _ p => some p
  | .missingArgument _ p => some p
  | .invalidProperty _ p => some p
  | .invalidEnumValue _ _ p => some p
  | .invalidArrayIndex _ p => some p
  | .invalidTerminator _ p => some p
  | .fromUtf16 p => some p
  | .fromUtf8 p => some p
  | .serializeInvalidValue _ => none
  | .eof => none
  | .io => none

/-- A position reported by an error that is not beyond `K`; and the error is not `MissingHint`, and
none of those only writing and other streams give. -/
def ErrAt (K : Nat) (e : Err) : Prop :=
  (∀ p, Spec.errPos e = some p → p ≤ K) ∧ (∀ a b c, e ≠ .missingHint a b c) ∧
    (∀ msg, e ≠ .serializeInvalidValue msg) ∧ e ≠ .io

/-- Two readers of nested properties are related wherever at least one byte more was read. -/
def Closed.RecOK (J : ∀ α : Type, Nat → Nat → R α → R α → Prop) (K : Nat)
    (rec rec' : String → Bool → Option UInt32 → R Property) : Prop :=
  ∀ K' ty hdr o, K < K' → J Property K' 0 (rec ty hdr o) (rec' ty hdr o)

/-- `J` relates the readers of a run with `debug`, `hints` to those of a run with `debug'`,
`hints'`.  `okF K` says that running out of fuel beyond position `K` is all right. -/
structure Closed (okF : Nat → Prop) (debug debug' : Bool) (hints hints' : String → Option String)
    (J : ∀ α : Type, Nat → Nat → R α → R α → Prop) : Prop where
  okMono : ∀ {K K'}, K ≤ K' → okF K → okF K'
  weaken : ∀ {α K K' d d'} {m m' : R α}, K ≤ K' → d' ≤ d → J α K d m m' → J α K' d' m m'
  pure : ∀ {α K} (a : α), J α K 0 (R.pure a) (R.pure a)
  bind : ∀ {α β K d d'} {m m' : R α} {f f' : α → R β}, J α K d m m' →
    (∀ a, J β (K + d) d' (f a) (f' a)) → J β K (d + d') (R.bind m f) (R.bind m' f')
  position : ∀ {β K d} {f f' : Nat → R β}, (∀ p, K ≤ p → J β p d (f p) (f' p)) →
    J β K d (R.bind R.position f) (R.bind R.position f')
  getStack : ∀ {β K d} {f f' : List String → R β}, (∀ st, J β K d (f st) (f' st)) →
    J β K d (R.bind R.getStack f) (R.bind R.getStack f')
  fail : ∀ {α K d e}, ErrAt K e → J α K d (R.fail e) (R.fail e)
  panic : ∀ {α K d msg}, msg ∈ Spec.panicMessages debug → J α K d (R.panic msg) (R.panic msg)
  fuel : ∀ {α K d} (m' : R α), okF K → J α K d R.outOfFuel m'
  take : ∀ {K} (n), J Bytes K n (R.take n) (R.take n)
  withEntry : ∀ {α K d} {m m' : R α} (nm : String), J α K d m m' →
    J α K d (R.withEntry nm m) (R.withEntry nm m')
  hint : ∀ p h, hints p = some h → hints' p = some h
  missing : ∀ {α K d path}, hints path = none →
    J α K d (R.bind R.position fun pos => R.fail (.missingHint "StructProperty" path pos))
      (R.bind R.position fun pos => R.fail (.missingHint "StructProperty" path pos))
  supplied : ∀ {K path h n n'} {rec rec' : String → Bool → Option UInt32 → R Property}
    (cv : List (Guid × UInt32)), Closed.RecOK J K rec rec' → n ≤ n' → okF (K + n) →
    hints path = none → hints' path = some h →
    J Property K 0 (R.bind R.position fun pos => R.fail (.missingHint "StructProperty" path pos))
      (do return .structValue (← readStructBody ⟨debug', hints', cv⟩ n' rec' h))
  debugRel : debug = debug' ∨ (debug = true ∧ debug' = false)
  debugPanic : ∀ {α K d msg} (m' : R α), msg ∈ Spec.panicMessages debug → debug = true →
    debug' = false → J α K d (R.panic msg) m'

namespace Closed

variable {okF : Nat → Prop} {debug debug' : Bool} {hints hints' : String → Option String}
  {J : ∀ α : Type, Nat → Nat → R α → R α → Prop} (C : Closed okF debug debug' hints hints' J)
include C

/-! ## Combinators -/

/-- Forget the progress made. -/
theorem zero {α : Type} {K d : Nat} {m m' : R α} (h : J α K d m m') : J α K 0 m m' :=
  C.weaken (Nat.le_refl _) (Nat.zero_le _) h

/-- Sequencing, where the second part does not need the progress of the first. -/
theorem next {α β : Type} {K d : Nat} {m m' : R α} {f f' : α → R β} (h : J α K d m m')
    (h' : ∀ a, J β K 0 (f a) (f' a)) : J β K d (m >>= f) (m' >>= f') :=
  C.bind (d' := 0) h fun a => C.weaken (by omega) (Nat.le_refl _) (h' a)

/-- Sequencing, where only the progress of the second part matters. -/
theorem skip {α β : Type} {K d : Nat} {m m' : R α} {f f' : α → R β} (h : J α K 0 m m')
    (h' : ∀ a, J β K d (f a) (f' a)) : J β K d (m >>= f) (m' >>= f') :=
  C.weaken (Nat.le_refl _) (by omega) (C.bind (d := 0) h h')

theorem ret {α : Type} {K : Nat} (a : α) : J α K 0 (Pure.pure a) (Pure.pure a) := C.pure a

/-- A reader followed by a plain `return`. -/
theorem map {α β : Type} {K d : Nat} {m m' : R α} {g : α → β} (h : J α K d m m') :
    J β K d (m >>= fun a => Pure.pure (g a)) (m' >>= fun a => Pure.pure (g a)) :=
  C.next h fun _ => C.ret _

theorem pos {β : Type} {K d : Nat} {f f' : Nat → R β} (h : ∀ p, K ≤ p → J β p d (f p) (f' p)) :
    J β K d (R.position >>= f) (R.position >>= f') := C.position h

theorem ensure {K : Nat} {c : Prop} [Decidable c] {o o' : R Unit} (h : ¬ c → J Unit K 0 o o') :
    J Unit K 0 (R.ensure c o) (R.ensure c o') := by
  unfold R.ensure
  split
  · exact C.pure _
  · exact h ‹_›

theorem failPos {α : Type} {K d : Nat} {e : Nat → Err} (h : ∀ p, ErrAt p (e p)) :
    J α K d (R.position >>= fun p => R.fail (e p)) (R.position >>= fun p => R.fail (e p)) :=
  C.pos fun p _ => C.fail (h p)

theorem replicate {α : Type} {K : Nat} {m m' : R α} (h : J α K 0 m m') (n : Nat) :
    J (List α) K 0 (R.replicate m n) (R.replicate m' n) := by
  induction n with
  | zero => exact C.pure _
  | succ n ih => exact C.next h fun a => C.next ih fun as => C.pure _

theorem onlyIf {K : Nat} {m m' : R Unit} (b : Bool) (h : J Unit K 0 m m') :
    J Unit K 0 (R.onlyIf b m) (R.onlyIf b m') := by
  unfold R.onlyIf
  split
  · exact h
  · exact C.pure _

/-! ## Primitives -/

theorem u8 {K : Nat} : J UInt8 K 1 readU8 readU8 := C.map (C.take 1)
theorem i8 {K : Nat} : J Int8 K 1 readI8 readI8 := C.map C.u8
theorem u16 {K : Nat} : J UInt16 K 2 readU16 readU16 := C.map (C.take 2)
theorem i16 {K : Nat} : J Int16 K 2 readI16 readI16 := C.map C.u16
theorem u32 {K : Nat} : J UInt32 K 4 readU32 readU32 := C.map (C.take 4)
theorem i32 {K : Nat} : J Int32 K 4 readI32 readI32 := C.map C.u32
theorem u64 {K : Nat} : J UInt64 K 8 readU64 readU64 := C.map (C.take 8)
theorem i64 {K : Nat} : J Int64 K 8 readI64 readI64 := C.map C.u64
theorem f32 {K : Nat} : J F32 K 4 readF32 readF32 := C.map C.u32
theorem f64 {K : Nat} : J F64 K 8 readF64 readF64 := C.map C.u64

theorem fstring {K : Nat} : J (Option String) K 4 readFString readFString := by
  unfold readFString
  refine C.pos fun p _ => C.next C.i32 fun len => C.next (C.ensure fun _ => C.fail ?_) fun _ => ?_
  · simp [ErrAt, Spec.errPos]
  split
  · exact C.ret _
  · split
    · refine C.zero (C.next (C.take _) fun buf => C.zero (C.next C.u16 fun t =>
        C.next (C.ensure fun _ => C.failPos fun p => ?_) fun _ => ?_))
      · simp [ErrAt, Spec.errPos]
      · split
        · exact C.ret _
        · exact C.fail (by simp [ErrAt, Spec.errPos])
    · refine C.zero (C.next (C.take _) fun buf => C.zero (C.next C.u8 fun t =>
        C.next (C.ensure fun _ => C.failPos fun p => ?_) fun _ => ?_))
      · simp [ErrAt, Spec.errPos]
      · split
        · exact C.ret _
        · exact C.fail (by simp [ErrAt, Spec.errPos])

theorem string {K : Nat} : J String K 4 readString readString := by
  unfold readString
  refine C.pos fun p _ => C.next C.fstring fun r => ?_
  split
  · exact C.ret _
  · exact C.fail (by simp [ErrAt, Spec.errPos])

theorem guid {K : Nat} : J Guid K 16 readGuid readGuid := by
  unfold readGuid
  refine C.next (C.take 16) fun bs => ?_
  split
  · exact C.ret _
  · exact C.fail (by simp [ErrAt, Spec.errPos])

theorem boolean {K : Nat} : J Bool K 1 readBool readBool := by
  unfold readBool
  refine C.next C.u8 fun v => ?_
  split
  · exact C.ret _
  · split
    · exact C.ret _
    · exact C.failPos fun p => by simp [ErrAt, Spec.errPos]

theorem b32 {K : Nat} : J Bool K 4 readB32 readB32 := by
  unfold readB32
  refine C.next C.u32 fun v => ?_
  split
  · exact C.ret _
  · split
    · exact C.ret _
    · exact C.failPos fun p => by simp [ErrAt, Spec.errPos]

theorem enum {α : Type} {K : Nat} (nm : String) (f : Int8 → Option α) :
    J α K 1 (readEnum nm f) (readEnum nm f) := by
  unfold readEnum
  refine C.next C.i8 fun v => ?_
  split
  · exact C.ret _
  · exact C.failPos fun p => by simp [ErrAt, Spec.errPos]

/-! ## Texts -/

theorem capacity {K : Nat} (c : Int32) : J Nat K 0 (Gvas.capacity c) (Gvas.capacity c) := by
  unfold Gvas.capacity
  split
  · exact C.panic (by simp [Spec.panicMessages])
  · exact C.pure _

theorem formattingOptions {K : Nat} :
    J NumberFormattingOptions K 0 NumberFormattingOptions.read NumberFormattingOptions.read := by
  unfold NumberFormattingOptions.read
  exact C.zero (C.next C.b32 fun _ => C.zero (C.next C.b32 fun _ => C.zero (C.next (C.enum _ _)
    fun _ => C.zero (C.next C.i32 fun _ => C.zero (C.next C.i32 fun _ => C.zero (C.next C.i32
    fun _ => C.zero (C.next C.i32 fun _ => C.ret _)))))))

theorem formatOptions {K : Nat} :
    J (Option NumberFormattingOptions) K 0 readFormatOptions readFormatOptions := by
  unfold readFormatOptions
  refine C.zero (C.next C.b32 fun b => ?_)
  split
  · exact C.map C.formattingOptions
  · exact C.ret _

theorem argument {K : Nat} {cv : List (Guid × UInt32)} {rec rec' : R FText}
    (h : J FText K 0 rec rec') : J FormatArgumentValue K 0
      (FormatArgumentValue.readWith cv rec) (FormatArgumentValue.readWith cv rec') := by
  unfold FormatArgumentValue.readWith
  refine C.zero (C.next (C.enum _ _) fun ty => ?_)
  cases ty with
  | int =>
    simp only []
    split
    · exact C.zero (C.map C.i64)
    · exact C.zero (C.map C.i32)
  | uint =>
    simp only []
    split
    · exact C.zero (C.map C.u64)
    · exact C.zero (C.map C.u32)
  | float => exact C.zero (C.map C.f32)
  | double => exact C.zero (C.map C.f64)
  | text => exact C.map h
  | gender => exact C.panic (by simp [Spec.panicMessages])

theorem arguments {K : Nat} {cv : List (Guid × UInt32)} {rec rec' : R FText}
    (h : J FText K 0 rec rec') :
    J (List (String × FormatArgumentValue)) K 0 (readArguments cv rec) (readArguments cv rec') := by
  unfold readArguments
  exact C.zero (C.next C.i32 fun c => C.next (C.capacity c) fun n =>
    C.next (C.replicate (C.zero (C.next C.string fun k => C.next (C.argument h) fun v => C.ret _)) n)
      fun es => C.ret _)

theorem history {K : Nat} {cv : List (Guid × UInt32)} {rec rec' : R FText}
    (h : J FText K 0 rec rec') : J FTextHistory K 0
      (FTextHistory.readWith cv rec) (FTextHistory.readWith cv rec') := by
  unfold FTextHistory.readWith
  refine C.zero (C.next (C.enum _ _) fun ty => ?_)
  cases ty with
  | none =>
    simp only []
    split
    · refine C.zero (C.next C.b32 fun b => ?_)
      split
      · exact C.zero (C.map C.fstring)
      · exact C.ret _
    · exact C.ret _
  | base => exact C.zero (C.next C.fstring fun _ => C.zero (C.next C.fstring fun _ =>
      C.zero (C.map C.fstring)))
  | namedFormat => exact C.next h fun _ => C.map (C.arguments h)
  | orderedFormat =>
    exact C.next h fun _ => C.zero (C.next C.i32 fun c => C.next (C.capacity c)
      fun n => C.map (C.replicate (C.argument h) n))
  | argumentFormat => exact C.next h fun _ => C.map (C.arguments h)
  | asNumber =>
    exact C.next (C.argument h) fun _ => C.next C.formatOptions fun _ =>
      C.zero (C.map C.fstring)
  | asPercent =>
    exact C.next (C.argument h) fun _ => C.next C.formatOptions fun _ =>
      C.zero (C.map C.fstring)
  | asCurrency => exact C.zero (C.next C.fstring fun _ => C.next (C.argument h) fun _ =>
      C.next C.formatOptions fun _ => C.zero (C.map C.fstring))
  | asDate => exact C.zero (C.next C.u64 fun _ => C.zero (C.next (C.enum _ _) fun _ =>
      C.zero (C.map C.string)))
  | asTime => exact C.zero (C.next C.u64 fun _ => C.zero (C.next (C.enum _ _) fun _ =>
      C.zero (C.next C.string fun _ => C.zero (C.map C.string))))
  | asDateTime => exact C.zero (C.next C.u64 fun _ => C.zero (C.next (C.enum _ _) fun _ =>
      C.zero (C.next (C.enum _ _) fun _ => C.zero (C.next C.string fun _ =>
      C.zero (C.map C.string)))))
  | transform => exact C.next h fun _ => C.zero (C.map (C.enum _ _))
  | stringTableEntry => exact C.zero (C.next C.string fun _ => C.zero (C.map C.string))
  | textGenerator => exact C.panic (by simp [Spec.panicMessages])
  | rawText => exact C.panic (by simp [Spec.panicMessages])

theorem text {K : Nat} (cv : List (Guid × UInt32)) {n n' : Nat} (hn : n ≤ n')
    (hok : okF (K + n)) : J FText K 0 (FText.read cv n) (FText.read cv n') := by
  induction n generalizing K n' with
  | zero => exact C.fuel _ (by simpa using hok)
  | succ n ih =>
    obtain ⟨k, rfl⟩ : ∃ k, n' = k + 1 := ⟨n' - 1, by omega⟩
    unfold FText.read
    refine C.zero (C.bind (d' := 0) C.u32 fun fl => C.map (C.history (ih (by omega) ?_)))
    exact C.okMono (by omega) hok

/-! ## Property headers -/

theorem terminator {K : Nat} : J Unit K 1 readTerminator readTerminator := by
  unfold readTerminator
  exact C.next C.u8 fun t => C.ensure fun _ => C.failPos fun p => by simp [ErrAt, Spec.errPos]

theorem separator {K : Nat} : J Unit K 1 readSeparator readSeparator := by
  unfold readSeparator
  exact C.next C.u8 fun t => C.ensure fun _ => C.panic (by simp [Spec.panicMessages])

theorem sized {β : Type} {K : Nat} {len : UInt32} {m m' : R β} (h : J β K 0 m m') :
    J β K 0 (readSized len m) (readSized len m') := by
  unfold readSized
  refine C.pos fun p hp => C.next (C.weaken hp (Nat.le_refl _) h) fun r => C.pos fun p' hp' =>
    C.next (C.ensure fun _ => C.fail ?_) fun _ => C.ret _
  refine ⟨?_, by simp⟩
  simp only [Spec.errPos, Option.some.injEq]
  omega

theorem zeroIndex {K : Nat} : J Unit K 4 readZeroIndex readZeroIndex := by
  unfold readZeroIndex
  exact C.next C.u32 fun t => C.ensure fun _ => C.failPos fun p => by simp [ErrAt, Spec.errPos]

theorem assertedIndex {K : Nat} : J Unit K 4 readAssertedIndex readAssertedIndex := by
  unfold readAssertedIndex
  exact C.next C.u32 fun t => C.ensure fun _ => C.panic (by simp [Spec.panicMessages])

theorem header {α β : Type} {K : Nat} {hdr hdr' : R α} {body body' : UInt32 → α → R β}
    (h1 : J α (K + 4) 0 hdr hdr') (h2 : ∀ l a, J β (K + 4) 0 (body l a) (body' l a)) :
    J β K 4 (readHeader hdr body) (readHeader hdr' body') := by
  unfold readHeader
  refine C.bind (d' := 0) C.u32 fun len => C.zero (C.next C.zeroIndex fun _ => C.next h1 fun a =>
    C.zero (C.next C.terminator fun _ => C.sized (h2 len a)))

theorem checkSize {K n : Nat} : J Unit K 8 (Gvas.checkSize n) (Gvas.checkSize n) := by
  unfold Gvas.checkSize
  exact C.next C.u64 fun t => C.ensure fun _ => C.failPos fun p => by simp [ErrAt, Spec.errPos]

theorem subU32 {K : Nat} (a b : UInt32) : J UInt32 K 0 (Gvas.subU32 debug a b) (Gvas.subU32 debug' a b) := by
  unfold Gvas.subU32
  rcases C.debugRel with h | ⟨h, h'⟩
  · rw [← h]
    split
    · rename_i hc
      exact C.panic (by simp [Spec.panicMessages, hc.2])
    · exact C.pure _
  · split
    · exact C.debugPanic _ (by simp [Spec.panicMessages, h]) h h'
    · rw [if_neg (by rw [h']; simp)]
      exact C.pure _

/-! ## Leaves -/

theorem fixed {α : Type} {K d n : Nat} {hdr : Bool} {m : R α} (h : J α K d m m) :
    J α K d (readFixed hdr n m) (readFixed hdr n m) := by
  unfold readFixed
  exact C.skip (C.onlyIf _ (C.zero (C.next C.checkSize fun _ => C.zero C.separator))) fun _ => h

theorem boolProperty {K : Nat} (hdr : Bool) :
    J Bool K 0 (readBoolProperty hdr) (readBoolProperty hdr) := by
  unfold readBoolProperty
  exact C.next (C.onlyIf _ (C.zero C.checkSize)) fun _ => C.zero (C.next C.boolean fun _ =>
    C.next (C.onlyIf _ (C.zero C.separator)) fun _ => C.ret _)

theorem byteValue {K : Nat} (l : UInt32) :
    J BytePropertyValue K 0 (readByteValue l) (readByteValue l) := by
  unfold readByteValue
  split
  · exact C.zero (C.map C.u8)
  · exact C.zero (C.map C.string)

theorem byteLength {K : Nat} (o : Option UInt32) :
    J UInt32 K 0 (Gvas.byteLength debug o) (Gvas.byteLength debug' o) := by
  cases o with
  | none => exact C.pure _
  | some e => exact C.subU32 e 1

theorem byteProperty {K : Nat} (hdr : Bool) (o : Option UInt32) :
    J Property K 0 (readByteProperty debug hdr o) (readByteProperty debug' hdr o) := by
  unfold readByteProperty
  split
  · exact C.zero (C.next C.u32 fun _ => C.zero (C.next C.assertedIndex fun _ =>
      C.zero (C.next C.string fun _ => C.zero (C.next C.separator fun _ =>
      C.next (C.byteLength _) fun _ => C.map (C.byteValue _)))))
  · exact C.next (C.byteLength _) fun _ => C.map (C.byteValue _)

theorem plain {β : Type} {K : Nat} {hdr : Bool} {m m' : R β} (h : J β K 0 m m') :
    J β K 0 (readPlain hdr m) (readPlain hdr m') := by
  unfold readPlain
  split
  · exact C.zero (C.header (C.pure _) fun _ _ => C.weaken (by omega) (Nat.le_refl _) h)
  · exact h

theorem enumProperty {K : Nat} (hdr : Bool) :
    J Property K 0 (readEnumProperty hdr) (readEnumProperty hdr) := by
  unfold readEnumProperty
  split
  · exact C.zero (C.header (C.zero C.string) fun _ _ => C.zero (C.map C.string))
  · exact C.zero (C.map C.string)

theorem nameProperty {K : Nat} (hdr : Bool) :
    J Property K 0 (readNameProperty hdr) (readNameProperty hdr) := by
  unfold readNameProperty
  split
  · exact C.zero (C.next C.u32 fun _ => C.zero (C.next C.u32 fun _ => C.zero (C.next C.terminator
      fun _ => C.sized (C.zero (C.map C.fstring)))))
  · exact C.zero (C.map C.fstring)

theorem delegate {K : Nat} : J Delegate K 4 Delegate.read Delegate.read := by
  unfold Delegate.read
  exact C.next C.string fun _ => C.zero (C.map C.string)

theorem multicast {K : Nat} : J (List Delegate) K 4 readMulticast readMulticast := by
  unfold readMulticast
  exact C.next C.u32 fun _ => C.replicate (C.zero C.delegate) _

theorem fieldPath {K : Nat} : J FieldPath K 4 FieldPath.read FieldPath.read := by
  unfold FieldPath.read
  exact C.next C.u32 fun _ => C.next (C.replicate (C.zero C.string) _) fun _ => C.zero (C.map C.string)

theorem unknown {K : Nat} (ty : String) (hdr : Bool) (o : Option UInt32) :
    J Property K 0 (readUnknown ty hdr o) (readUnknown ty hdr o) := by
  unfold readUnknown
  split
  · exact C.zero (C.next C.u32 fun _ => C.zero (C.next C.assertedIndex fun _ =>
      C.zero (C.next C.separator fun _ => C.zero (C.map (C.take _)))))
  · split
    · exact C.zero (C.map (C.take _))
    · exact C.failPos fun p => by simp [ErrAt, Spec.errPos]

/-! ## Structs -/

theorem insertProperty {K : Nat} (fs : List (String × List Property)) (k : String) (p : Property) :
    J (List (String × List Property)) K 0 (Gvas.insertProperty debug fs k p)
      (Gvas.insertProperty debug' fs k p) := by
  unfold Gvas.insertProperty
  rcases C.debugRel with h | ⟨h, h'⟩
  · rw [← h]
    exact C.next (C.ensure fun _ => C.panic (by simp [Spec.panicMessages])) fun _ => C.ret _
  · unfold R.ensure
    split
    · rw [if_pos (by rw [h']; simp)]
      exact C.next (C.pure _) fun _ => C.ret _
    · refine C.next (d := 0) (C.debugPanic _ (by simp [Spec.panicMessages, h]) h h') fun _ => C.ret _

omit C in
theorem RecOK.mono {K K' : Nat} {rec rec' : String → Bool → Option UInt32 → R Property}
    (h : RecOK J K rec rec') (hk : K ≤ K') : RecOK J K' rec rec' :=
  fun K'' ty hdr o hK => h K'' ty hdr o (by omega)

theorem custom {K : Nat} {rec rec' : String → Bool → Option UInt32 → R Property}
    (hr : RecOK J K rec rec') {n n' : Nat} (hn : n ≤ n') (hok : okF (K + n))
    (fs : List (String × List Property)) :
    J (List (String × List Property)) K 0 (readCustom debug rec n fs)
      (readCustom debug' rec' n' fs) := by
  induction n generalizing K n' fs with
  | zero => exact C.fuel _ (by simpa using hok)
  | succ n ih =>
    obtain ⟨k, rfl⟩ : ∃ k, n' = k + 1 := ⟨n' - 1, by omega⟩
    unfold readCustom
    refine C.zero (C.bind (d' := 0) C.string fun name => ?_)
    split
    · exact C.ret _
    · refine C.zero (C.next C.string fun ty => C.next (C.withEntry _ (C.next (hr _ _ _ _ (by omega))
        fun p => C.insertProperty _ _ _)) fun fs' => ih (hr.mono (by omega)) (by omega) ?_ _)
      exact C.okMono (by omega) hok

theorem builtin {K : Nat} (cv : List (Guid × UInt32)) (k : StructKind) :
    J StructPropertyValue K 4 (readBuiltin cv k) (readBuiltin cv k) := by
  have f2 : ∀ g : F32 → F32 → StructPropertyValue, J StructPropertyValue K 4
      (do let x ← readF32; let y ← readF32; return g x y)
      (do let x ← readF32; let y ← readF32; return g x y) := fun g =>
    C.next C.f32 fun _ => C.zero (C.map C.f32)
  have f3 : ∀ g : F32 → F32 → F32 → StructPropertyValue, J StructPropertyValue K 4
      (do let x ← readF32; let y ← readF32; let z ← readF32; return g x y z)
      (do let x ← readF32; let y ← readF32; let z ← readF32; return g x y z) := fun g =>
    C.next C.f32 fun _ => C.zero (C.next C.f32 fun _ => C.zero (C.map C.f32))
  have f4 : ∀ g : F32 → F32 → F32 → F32 → StructPropertyValue, J StructPropertyValue K 4
      (do let x ← readF32; let y ← readF32; let z ← readF32; let w ← readF32; return g x y z w)
      (do let x ← readF32; let y ← readF32; let z ← readF32; let w ← readF32; return g x y z w) :=
    fun g => C.next C.f32 fun _ => C.zero (C.next C.f32 fun _ => C.zero (C.next C.f32
      fun _ => C.zero (C.map C.f32)))
  have d2 : ∀ g : F64 → F64 → StructPropertyValue, J StructPropertyValue K 4
      (do let x ← readF64; let y ← readF64; return g x y)
      (do let x ← readF64; let y ← readF64; return g x y) := fun g =>
    C.weaken (Nat.le_refl _) (by decide) (C.next C.f64 fun _ => C.zero (C.map C.f64))
  have d3 : ∀ g : F64 → F64 → F64 → StructPropertyValue, J StructPropertyValue K 4
      (do let x ← readF64; let y ← readF64; let z ← readF64; return g x y z)
      (do let x ← readF64; let y ← readF64; let z ← readF64; return g x y z) := fun g =>
    C.weaken (Nat.le_refl _) (by decide) (C.next C.f64 fun _ => C.zero (C.next C.f64 fun _ => C.zero (C.map C.f64)))
  have d4 : ∀ g : F64 → F64 → F64 → F64 → StructPropertyValue, J StructPropertyValue K 4
      (do let x ← readF64; let y ← readF64; let z ← readF64; let w ← readF64; return g x y z w)
      (do let x ← readF64; let y ← readF64; let z ← readF64; let w ← readF64; return g x y z w) :=
    fun g => C.weaken (Nat.le_refl _) (by decide) (C.next C.f64 fun _ => C.zero (C.next C.f64 fun _ => C.zero (C.next C.f64
      fun _ => C.zero (C.map C.f64))))
  cases k with
  | vector => unfold readBuiltin; simp only []; split; exact d3 _; exact f3 _
  | vector2D => unfold readBuiltin; simp only []; split; exact d2 _; exact f2 _
  | rotator => unfold readBuiltin; simp only []; split; exact d3 _; exact f3 _
  | quat => unfold readBuiltin; simp only []; split; exact d4 _; exact f4 _
  | dateTime => exact C.weaken (Nat.le_refl _) (by decide) (C.map C.u64)
  | timespan => exact C.weaken (Nat.le_refl _) (by decide) (C.map C.u64)
  | linearColor => exact f4 _
  | intPoint => exact C.next C.i32 fun _ => C.zero (C.map C.i32)
  | guid => exact C.weaken (Nat.le_refl _) (by decide) (C.map C.guid)
  | gameplayTagContainer => exact C.next C.i32 fun c => (C.next (C.capacity c) fun n =>
      C.map (C.replicate (C.zero C.string) n))

theorem structBody {K : Nat} {rec rec' : String → Bool → Option UInt32 → R Property}
    (cv : List (Guid × UInt32)) (hr : RecOK J K rec rec') {n n' : Nat} (hn : n ≤ n')
    (hok : okF (K + n)) (ty : String) : J StructPropertyValue K 0
      (readStructBody ⟨debug, hints, cv⟩ n rec ty) (readStructBody ⟨debug', hints', cv⟩ n' rec' ty) := by
  unfold readStructBody
  split
  · exact C.zero (C.builtin _ _)
  · exact C.map (C.custom hr hn hok [])

theorem structProperty {K : Nat} {rec rec' : String → Bool → Option UInt32 → R Property}
    (cv : List (Guid × UInt32)) (hr : RecOK J K rec rec') {n n' : Nat} (hn : n ≤ n')
    (hok : okF (K + n)) (hdr : Bool) : J Property K 0
      (readStructProperty ⟨debug, hints, cv⟩ n rec hdr)
      (readStructProperty ⟨debug', hints', cv⟩ n' rec' hdr) := by
  unfold readStructProperty
  split
  · refine C.zero (C.header (C.zero (C.next C.string fun _ => C.zero (C.map C.guid))) fun _ x =>
      C.map (C.structBody cv (hr.mono (by omega)) hn (C.okMono (by omega) hok) _))
  · refine C.getStack fun st => ?_
    simp only []
    cases hh : hints (joinDots st) with
    | some h =>
      rw [C.hint _ _ hh]
      exact C.map (C.structBody cv hr hn hok _)
    | none =>
      simp only []
      cases hh' : hints' (joinDots st) with
      | some h => exact C.supplied cv hr hn hok hh hh'
      | none => exact C.missing hh

/-! ## Arrays, sets, maps -/

theorem structInfo {K : Nat} :
    J (String × UInt64 × String × Guid) K 0 readStructInfo readStructInfo := by
  unfold readStructInfo
  exact C.zero (C.next C.string fun _ => C.zero (C.next C.string fun _ =>
    C.next (C.ensure fun _ => C.panic (by simp [Spec.panicMessages])) fun _ => C.zero (C.next C.u64 fun _ =>
    C.zero (C.next C.string fun _ => C.zero (C.next C.guid fun _ => C.zero (C.map C.terminator))))))

omit C in
theorem collect_structValues (vs : List StructPropertyValue) :
    collect asStructValue (vs.map Property.structValue) = some vs := by
  induction vs with
  | nil => rfl
  | cons v vs ih => rw [List.map_cons, collect, ih]; rfl

omit C in
/-- The array constructor does not fail in the reader. -/
theorem array_new_structs (field sty : String) (guid : Guid) (vs : List StructPropertyValue) :
    ArrayProperty.new "StructProperty" (some (field, sty, guid)) (vs.map Property.structValue) =
      .ok (.structs field sty guid vs) := by
  simp [ArrayProperty.new, collect_structValues]

omit C in
theorem array_new_ok (ty : String) (ps : List Property) :
    ∃ a, ArrayProperty.new ty none ps = .ok a := by
  unfold ArrayProperty.new compactArray
  simp only []
  repeat' split
  all_goals exact ⟨_, rfl⟩

theorem arrayBody {K : Nat} {rec rec' : String → Bool → Option UInt32 → R Property}
    (cv : List (Guid × UInt32)) (hr : RecOK J K rec rec') {n n' : Nat} (hn : n ≤ n')
    (hok : okF (K + n)) (len : UInt32) (ty : String) : J ArrayProperty K 0
      (readArrayBody ⟨debug, hints, cv⟩ n rec len ty)
      (readArrayBody ⟨debug', hints', cv⟩ n' rec' len ty) := by
  unfold readArrayBody
  refine C.zero (C.bind (d' := 0) C.u32 fun count => ?_)
  split
  · rename_i hty
    subst hty
    refine C.next C.structInfo fun i => ?_
    obtain ⟨field, size, sty, guid⟩ := i
    refine C.pos fun p hp => C.next (C.replicate (C.structBody cv (hr.mono (by omega)) hn
      (C.okMono (by omega) hok) _) _) fun vs => C.pos fun p' hp' => C.next (C.ensure fun _ =>
      C.failPos fun p => by simp [ErrAt, Spec.errPos]) fun _ => ?_
    rw [array_new_structs]
    exact C.pure _
  · refine C.next (C.replicate (hr _ _ _ _ (by omega)) _) fun ps => ?_
    obtain ⟨a, ha⟩ := array_new_ok ty ps
    rw [ha]
    exact C.pure _

theorem arrayProperty {K : Nat} {rec rec' : String → Bool → Option UInt32 → R Property}
    (cv : List (Guid × UInt32)) (hr : RecOK J K rec rec') {n n' : Nat} (hn : n ≤ n')
    (hok : okF (K + n)) (hdr : Bool) : J Property K 0
      (readArrayProperty ⟨debug, hints, cv⟩ n rec hdr)
      (readArrayProperty ⟨debug', hints', cv⟩ n' rec' hdr) := by
  unfold readArrayProperty
  split
  · exact C.zero (C.header (C.zero C.string) fun _ _ => C.map (C.arrayBody cv (hr.mono (by omega))
      hn (C.okMono (by omega) hok) _ _))
  · exact C.failPos fun p => by simp [ErrAt, Spec.errPos]

theorem setBody {K : Nat} {rec rec' : String → Bool → Option UInt32 → R Property}
    (hr : RecOK J K rec rec') (len : UInt32) (ty : String) :
    J Property K 0 (readSetBody debug rec len ty) (readSetBody debug' rec' len ty) := by
  unfold readSetBody
  refine C.zero (C.bind (d' := 0) C.u32 fun _ => C.zero (C.next C.u32 fun count => C.map ?_))
  unfold readSetElems
  split
  · exact C.next (C.subU32 _ _) fun _ => C.replicate (hr _ _ _ _ (by omega)) _
  · exact C.pure _

theorem setProperty {K : Nat} {rec rec' : String → Bool → Option UInt32 → R Property}
    (hr : RecOK J K rec rec') (hdr : Bool) :
    J Property K 0 (readSetProperty debug rec hdr) (readSetProperty debug' rec' hdr) := by
  unfold readSetProperty
  split
  · exact C.zero (C.header (C.zero C.string) fun len ty => C.setBody (hr.mono (by omega)) len ty)
  · exact C.failPos fun p => by simp [ErrAt, Spec.errPos]

theorem mapBody {K : Nat} {rec rec' : String → Bool → Option UInt32 → R Property}
    (hr : RecOK J K rec rec') (kt vt : String) :
    J Property K 0 (readMapBody rec kt vt) (readMapBody rec' kt vt) := by
  unfold readMapBody
  refine C.zero (C.bind (d' := 0) C.u32 fun _ => C.zero (C.next C.u32 fun count => C.map
    (C.replicate ?_ _)))
  unfold readMapEntry
  exact C.next (C.withEntry _ (hr _ _ _ _ (by omega))) fun _ =>
    C.map (C.withEntry _ (hr _ _ _ _ (by omega)))

theorem mapProperty {K : Nat} {rec rec' : String → Bool → Option UInt32 → R Property}
    (hr : RecOK J K rec rec') (hdr : Bool) :
    J Property K 0 (readMapProperty rec hdr) (readMapProperty rec' hdr) := by
  unfold readMapProperty
  split
  · exact C.zero (C.header (C.zero (C.next C.string fun _ => C.zero (C.map C.string)))
      fun len ty => C.mapBody (hr.mono (by omega)) _ _)
  · exact C.failPos fun p => by simp [ErrAt, Spec.errPos]

/-! ## `Property::new` and files -/

theorem kind {K : Nat} {rec rec' : String → Bool → Option UInt32 → R Property}
    (cv : List (Guid × UInt32)) (hr : RecOK J K rec rec') {n n' : Nat} (hn : n ≤ n')
    (hok : okF (K + n)) (hdr : Bool) (o : Option UInt32) (k : Kind) : J Property K 0
      (readKind ⟨debug, hints, cv⟩ n rec hdr o k) (readKind ⟨debug', hints', cv⟩ n' rec' hdr o k) := by
  cases k with
  | int8 => exact C.zero (C.map (C.fixed C.i8))
  | byte => exact C.byteProperty _ _
  | int16 => exact C.zero (C.map (C.fixed C.i16))
  | uint16 => exact C.zero (C.map (C.fixed C.u16))
  | int => exact C.zero (C.map (C.fixed C.i32))
  | uint32 => exact C.zero (C.map (C.fixed C.u32))
  | int64 => exact C.zero (C.map (C.fixed C.i64))
  | uint64 => exact C.zero (C.map (C.fixed C.u64))
  | float => exact C.zero (C.map (C.fixed C.f32))
  | double => exact C.zero (C.map (C.fixed C.f64))
  | bool => exact C.map (C.boolProperty _)
  | enum => exact C.enumProperty _
  | str => exact C.map (C.plain (C.zero C.fstring))
  | text => exact C.map (C.plain (C.text cv hn hok))
  | name => exact C.nameProperty _
  | object => exact C.map (C.plain (C.zero C.string))
  | delegate => exact C.map (C.plain (C.zero C.delegate))
  | multicastInlineDelegate => exact C.map (C.plain (C.zero C.multicast))
  | multicastSparseDelegate => exact C.map (C.plain (C.zero C.multicast))
  | fieldPath => exact C.map (C.plain (C.zero C.fieldPath))
  | struct => exact C.structProperty cv hr hn hok _
  | array => exact C.arrayProperty cv hr hn hok _
  | set => exact C.setProperty hr _
  | map => exact C.mapProperty hr _

theorem property {K : Nat} (cv : List (Guid × UInt32)) {n n' : Nat} (hn : n ≤ n')
    (hok : okF (K + n)) (ty : String) (hdr : Bool) (o : Option UInt32) : J Property K 0
      (Property.read ⟨debug, hints, cv⟩ n ty hdr o) (Property.read ⟨debug', hints', cv⟩ n' ty hdr o) := by
  induction n generalizing K n' ty hdr o with
  | zero => exact C.fuel _ (by simpa using hok)
  | succ n ih =>
    obtain ⟨k, rfl⟩ : ∃ k, n' = k + 1 := ⟨n' - 1, by omega⟩
    unfold Property.read Property.readStep
    refine C.withEntry _ ?_
    split
    · refine C.kind cv (fun K' ty hdr o hK => ih (by omega) (C.okMono (by omega) hok) _ _ _) hn hok
        _ _ _
    · exact C.unknown _ _ _

theorem top {K : Nat} {rec rec' : String → Bool → Option UInt32 → R Property}
    (hr : RecOK J K rec rec') {n n' : Nat} (hn : n ≤ n') (hok : okF (K + n))
    (ps : List (String × Property)) :
    J (List (String × Property)) K 0 (readTop rec n ps) (readTop rec' n' ps) := by
  induction n generalizing K n' ps with
  | zero => exact C.fuel _ (by simpa using hok)
  | succ n ih =>
    obtain ⟨k, rfl⟩ : ∃ k, n' = k + 1 := ⟨n' - 1, by omega⟩
    unfold readTop
    refine C.zero (C.bind (d' := 0) C.string fun name => ?_)
    split
    · exact C.ret _
    · refine C.zero (C.next C.string fun ty => C.next (C.withEntry _ (hr _ _ _ _ (by omega)))
        fun p => ih (hr.mono (by omega)) (by omega) (C.okMono (by omega) hok) _)

theorem headerCheck {K : Nat} {c : Prop} [Decidable c] {msg : String} :
    J Unit K 0 (Gvas.headerCheck c msg) (Gvas.headerCheck c msg) :=
  C.ensure fun _ => C.fail (by simp [ErrAt, Spec.errPos])

theorem engineVersion {K : Nat} : J FEngineVersion K 0 FEngineVersion.read FEngineVersion.read := by
  unfold FEngineVersion.read
  exact C.zero (C.next C.u16 fun _ => C.zero (C.next C.u16 fun _ => C.zero (C.next C.u16 fun _ =>
    C.zero (C.next C.u32 fun _ => C.zero (C.map C.string)))))

theorem customVersion {K : Nat} :
    J (Guid × UInt32) K 0 FCustomVersion.read FCustomVersion.read := by
  unfold FCustomVersion.read
  exact C.zero (C.next C.guid fun _ => C.zero (C.map C.u32))

theorem headerTail {K : Nat} :
    J (FEngineVersion × UInt32 × List (Guid × UInt32) × String) K 0 readHeaderTail readHeaderTail := by
  unfold readHeaderTail
  exact C.next C.engineVersion fun _ => C.zero (C.next C.u32 fun _ => C.next C.headerCheck fun _ =>
    C.zero (C.next C.u32 fun _ => C.next (C.replicate C.customVersion _) fun _ =>
    C.zero (C.map C.string)))

theorem gvasHeader {K : Nat} : J GvasHeader K 4 GvasHeader.read GvasHeader.read := by
  unfold GvasHeader.read
  refine C.next C.u32 fun _ => C.next C.headerCheck fun _ => C.zero (C.next C.u32 fun v =>
    C.next C.headerCheck fun _ => C.zero (C.next C.u32 fun _ => C.next C.headerCheck fun _ => ?_))
  split
  · exact C.zero (C.next C.u32 fun _ => C.next C.headerCheck fun _ => C.map C.headerTail)
  · exact C.map C.headerTail

theorem contents {K : Nat} {n n' : Nat} (hn : n ≤ n') (hok : okF (K + n)) :
    J (GvasHeader × List (String × Property)) K 0 (readContents debug hints n)
      (readContents debug' hints' n') := by
  unfold readContents
  refine C.zero (C.bind (d' := 0) C.gvasHeader fun h => ?_)
  exact C.map (C.top (fun K' ty hdr o hK => C.property _ hn (C.okMono (by omega) hok) _ _ _) hn
    (C.okMono (by omega) hok) _)

theorem frame {K : Nat} : J (UInt32 × PalworldCompressionType) K 0 readFrame readFrame := by
  unfold readFrame
  exact C.zero (C.next C.u32 fun _ => C.zero (C.next C.u32 fun _ => C.zero (C.next (C.take 3) fun _ =>
    C.next C.headerCheck fun _ => C.zero (C.map (C.enum _ _)))))

end Closed

end Gvas
