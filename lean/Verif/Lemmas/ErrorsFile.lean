import Verif.Lemmas.Errors
import Verif.Lemmas.Closed
import Verif.Lemmas.GrammarSound

/-!
# Errors are about the bytes that were read: texts, properties, files
-/

namespace Gvas

open Spec Unicode

variable {debug : Bool} {hints : String → Option String} {pre : Bytes}

/-! ## Texts -/

macro "enum_range" : tactic => `(tactic| (
  intro v h
  by_contra hc
  simp only [not_or, Int.not_lt] at hc
  obtain ⟨h1, h2⟩ := hc
  have e : v = Int8.ofInt v.toInt := by simp
  generalize v.toInt = k at *
  subst e
  interval_cases k <;> revert h <;> decide))

theorem tells_historyType : Says debug hints pre
    (readEnum (textEnumName "TextHistoryType") TextHistoryType.ofI8) (fun b a => ∃ v, TextHistoryType.ofI8 v = some a ∧ b = i8B v) :=
  says_enum (-1) 13 (by decide) (by enum_range)
theorem tells_argumentType : Says debug hints pre
    (readEnum (textEnumName "FormatArgumentType") FormatArgumentType.ofI8) (fun b a => ∃ v, FormatArgumentType.ofI8 v = some a ∧ b = i8B v) :=
  says_enum 0 5 (by decide) (by enum_range)
theorem tells_roundingMode : Says debug hints pre
    (readEnum (textEnumName "RoundingMode") RoundingMode.ofI8) (fun b a => ∃ v, RoundingMode.ofI8 v = some a ∧ b = i8B v) :=
  says_enum 0 6 (by decide) (by enum_range)
theorem tells_dateTimeStyle : Says debug hints pre
    (readEnum (textEnumName "DateTimeStyle") DateTimeStyle.ofI8) (fun b a => ∃ v, DateTimeStyle.ofI8 v = some a ∧ b = i8B v) :=
  says_enum 0 4 (by decide) (by enum_range)
theorem tells_transformType : Says debug hints pre
    (readEnum (textEnumName "TransformType") TransformType.ofI8) (fun b a => ∃ v, TransformType.ofI8 v = some a ∧ b = i8B v) :=
  says_enum 0 1 (by decide) (by enum_range)

theorem tells_capacity (c : Int32) : Tells debug hints (pre ++ i32B c) (capacity c) := by
  unfold capacity
  split
  · rename_i h
    refine Says.panic fun rest => .capacity pre.length c.toUInt32.toNat (by simp [i32B, u32B])
      ((NumAt.last pre 4 c.toUInt32.toNat).mono rest) ?_
    have := i32_toNat_neg h
    have := c.toBitVec.isLt
    have h2 : -2 ^ 31 ≤ c.toInt := Int32.le_toInt c
    omega
  · exact .ret

theorem tells_count {α : Type} {f : Nat → R α} (h : ∀ pre n, Tells debug hints pre (f n)) :
    Tells debug hints pre (do let n ← capacity (← readI32); f n) := by
  refine says_i32.next fun b c hb => ?_
  subst hb
  exact (tells_capacity c).next fun _ n _ => h _ n

theorem ofI8_some {α : Type} {f : Int8 → Option α} {a : α} {b : Bytes} (n : UInt8)
    (hf : ∀ v, f v = some a → v = n.toInt8) (h : ∃ v, f v = some a ∧ b = i8B v) : b = [n] := by
  obtain ⟨v, hv, rfl⟩ := h
  rw [hf v hv]
  simp [i8B, u8B_eq]

theorem tells_formattingOptions : Tells debug hints pre NumberFormattingOptions.read := by
  unfold NumberFormattingOptions.read
  exact says_b32.next fun _ _ _ => says_b32.next fun _ _ _ => tells_roundingMode.next fun _ _ _ =>
    says_i32.next fun _ _ _ => says_i32.next fun _ _ _ => says_i32.next fun _ _ _ =>
    says_i32.tells.map

theorem tells_formatOptions : Tells debug hints pre readFormatOptions := by
  unfold readFormatOptions
  refine says_b32.next fun _ _ _ => ?_
  split
  · exact tells_formattingOptions.map
  · exact .ret

theorem tells_argument {cv : List (Guid × UInt32)} {rec : R FText}
    (h : ∀ pre, Tells debug hints pre rec) : Tells debug hints pre (FormatArgumentValue.readWith cv rec) := by
  unfold FormatArgumentValue.readWith
  refine tells_argumentType.next fun b ty hb => ?_
  cases ty with
  | int =>
    simp only []
    split
    · exact says_i64.tells.map
    · exact says_i32.tells.map
  | uint =>
    simp only []
    split
    · exact says_u64.tells.map
    · exact says_u32.tells.map
  | float => exact says_f32.map
  | double => exact says_f64.map
  | text => exact (h _).map
  | gender =>
    have := ofI8_some 5 (by unfold FormatArgumentType.ofI8; intro v; split_ifs <;> simp_all) hb
    subst this
    exact Says.panic fun rest => .gender pre.length (by simp) ((NumAt.last pre 1 5).mono rest)

theorem tells_arguments {cv : List (Guid × UInt32)} {rec : R FText}
    (h : ∀ pre, Tells debug hints pre rec) : Tells debug hints pre (readArguments cv rec) := by
  unfold readArguments
  exact tells_count fun _ n =>
    (Says.replicate (fun _ => says_string.next fun _ _ _ => (tells_argument h).map) n).map

theorem tells_history {cv : List (Guid × UInt32)} {rec : R FText}
    (h : ∀ pre, Tells debug hints pre rec) : Tells debug hints pre (FTextHistory.readWith cv rec) := by
  unfold FTextHistory.readWith
  refine tells_historyType.next fun b ty hb => ?_
  cases ty with
  | none =>
    simp only []
    split
    · refine says_b32.next fun _ _ _ => ?_
      split
      · exact says_fstring.tells.map
      · exact .ret
    · exact .ret
  | base => exact says_fstring.next fun _ _ _ => says_fstring.next fun _ _ _ => says_fstring.tells.map
  | namedFormat => exact (h _).next fun _ _ _ => (tells_arguments h).map
  | orderedFormat =>
    exact (h _).next fun _ _ _ => tells_count fun _ n =>
      (Says.replicate (fun _ => tells_argument h) n).map
  | argumentFormat => exact (h _).next fun _ _ _ => (tells_arguments h).map
  | asNumber =>
    exact (tells_argument h).next fun _ _ _ => tells_formatOptions.next fun _ _ _ =>
      says_fstring.tells.map
  | asPercent =>
    exact (tells_argument h).next fun _ _ _ => tells_formatOptions.next fun _ _ _ =>
      says_fstring.tells.map
  | asCurrency =>
    exact says_fstring.next fun _ _ _ => (tells_argument h).next fun _ _ _ =>
      tells_formatOptions.next fun _ _ _ => says_fstring.tells.map
  | asDate =>
    exact says_u64.next fun _ _ _ => tells_dateTimeStyle.next fun _ _ _ => says_string.tells.map
  | asTime =>
    exact says_u64.next fun _ _ _ => tells_dateTimeStyle.next fun _ _ _ =>
      says_string.next fun _ _ _ => says_string.tells.map
  | asDateTime =>
    exact says_u64.next fun _ _ _ => tells_dateTimeStyle.next fun _ _ _ =>
      tells_dateTimeStyle.next fun _ _ _ => says_string.next fun _ _ _ => says_string.tells.map
  | transform => exact (h _).next fun _ _ _ => tells_transformType.tells.map
  | stringTableEntry => exact says_string.next fun _ _ _ => says_string.tells.map
  | textGenerator =>
    have := ofI8_some 12 (fun _ h => ofI8_history h) hb
    subst this
    exact Says.panic fun rest => .generator pre.length (by simp) ((NumAt.last pre 1 12).mono rest)
  | rawText =>
    have := ofI8_some 13 (fun _ h => ofI8_history h) hb
    subst this
    exact Says.panic fun rest => .raw pre.length (by simp) ((NumAt.last pre 1 13).mono rest)

theorem tells_text (cv : List (Guid × UInt32)) (n : Nat) : Tells debug hints pre (FText.read cv n) := by
  induction n generalizing pre with
  | zero => exact Says.outOfFuel
  | succ n ih =>
    unfold FText.read
    exact says_u32.next fun _ _ _ => (tells_history fun _ => ih).map

/-! ## Property headers -/

theorem says_terminator : Says debug hints pre readTerminator (fun b _ => b = [0]) := by
  unfold readTerminator
  refine says_u8.bind fun b t h => ?_
  subst h
  refine Says.mono (Says.ensure fun hc => Says.failPos (fun rest => ⟨hc, ?_⟩) (by simp)) ?_
  · have := (NumAt.last pre 1 t.toNat).mono rest
    simpa [u8B] using this
  · rintro _ _ ⟨rfl, rfl⟩
    decide

theorem says_zeroIndex : Says debug hints pre readZeroIndex (fun b _ => b.length = 4) := by
  unfold readZeroIndex
  refine says_u32.bind fun b t h => ?_
  subst h
  refine Says.mono (Says.ensure fun hc => Says.failPos (fun rest => ⟨hc, ?_⟩) (by simp)) ?_
  · have := (NumAt.last pre 4 t.toNat).mono rest
    simpa [u32B] using this
  · rintro _ _ ⟨rfl, rfl⟩
    decide

theorem tells_separator : Tells debug hints pre readSeparator := by
  refine says_u8.next fun b t hb => Says.tells (Says.ensure fun hc => Says.panic fun rest =>
    .separator pre.length t.toNat ?_ ?_ fun h => hc (UInt8.toNat_inj.mp h)) <;> subst hb
  · simp [u8B]
  · exact (NumAt.last pre 1 t.toNat).mono rest

theorem tells_assertedIndex : Tells debug hints pre readAssertedIndex := by
  refine says_u32.next fun b t hb => Says.tells (Says.ensure fun hc => Says.panic fun rest =>
    .index pre.length t.toNat ?_ ?_ fun h => hc (UInt32.toNat_inj.mp h)) <;> subst hb
  · simp [u32B]
  · exact (NumAt.last pre 4 t.toNat).mono rest

/-- A length that was read before, and a count behind it for which it is too small. -/
def Small (pre : Bytes) : Prop :=
  ∃ q len, NumAt pre q 4 len ∧ q + 4 ≤ pre.length ∧
    (len = 0 ∨ ∃ q' count, q < q' ∧ q' + 4 ≤ pre.length ∧ NumAt pre q' 4 count ∧ 0 < count ∧
      len < count + 8)

theorem Small.mono {pre : Bytes} (h : Small pre) (x : Bytes) : Small (pre ++ x) := by
  obtain ⟨q, len, h1, h2, h3⟩ := h
  refine ⟨q, len, h1.mono x, by simp; omega, ?_⟩
  rcases h3 with h3 | ⟨q', c, a, b, h4, h5⟩
  · exact .inl h3
  · exact .inr ⟨q', c, a, by simp; omega, h4.mono x, h5⟩

theorem tells_subU32 (a b : UInt32) (h : a < b → Small pre) :
    Tells debug hints pre (subU32 debug a b) := by
  unfold subU32
  split
  · rename_i hc
    obtain ⟨q, len, h1, h2, h3⟩ := h hc.1
    refine Says.panic fun rest => .small q len hc.2 (h1.mono rest) h2 ?_
    rcases h3 with h3 | ⟨q', c, a, b, h4, h5⟩
    · exact .inl h3
    · exact .inr ⟨q', c, a, b, h4.mono rest, h5⟩
  · exact .ret

/-- Behind a header with the length at `q`, which ends with a zero byte. -/
def Declared (pre : Bytes) (length : UInt32) : Prop :=
  ∃ q, NumAt pre q 4 length.toNat ∧ q + 9 ≤ pre.length ∧ NumAt pre (pre.length - 1) 1 0

theorem tells_sized {β : Type} {length : UInt32} {body : R β} (hd : Declared pre length)
    (h : Tells debug hints pre body) : Tells debug hints pre (readSized length body) := by
  unfold readSized
  refine Says.pos (h.next fun b r _ => Says.pos (Says.next (Says.ensure fun hc => Says.fail
    (fun rest => ?_) (by simp)) fun _ _ _ => .ret))
  obtain ⟨q, h1, h2, h3⟩ := hd
  refine ⟨fun h => hc h.symm, .inr ⟨q, ?_, h2, ?_, ?_⟩⟩
  · simpa [List.append_assoc] using h1.mono (b ++ rest)
  · simpa [List.append_assoc] using h3.mono (b ++ rest)
  · simp only [List.length_append]; omega

theorem declared_of {pre b1 b2 : Bytes} (length : UInt32) (h : b1.length = 4) :
    Declared (pre ++ u32B length ++ b1 ++ b2 ++ [0]) length := by
  refine ⟨pre.length, ?_, ?_, ?_⟩
  · simpa [List.append_assoc, u32B] using (NumAt.last pre 4 length.toNat).mono (b1 ++ (b2 ++ [0]))
  · simp [u32B]; omega
  · have := NumAt.last (pre ++ u32B length ++ b1 ++ b2) 1 0
    rw [show leBytes 1 0 = [0] by decide] at this
    rw [List.length_append]
    exact this

theorem tells_header {α β : Type} {hdr : R α} {body : UInt32 → α → R β} {L : Bytes → α → Prop}
    (h1 : ∀ pre, Says debug hints pre hdr L)
    (h2 : ∀ pre b c l a, L b a → Declared (pre ++ b ++ c) l →
      Tells debug hints (pre ++ b ++ c) (body l a)) :
    Tells debug hints pre (readHeader hdr body) := by
  unfold readHeader
  refine says_u32.next fun b l hb => says_zeroIndex.next fun b1 _ hb1 => (h1 _).next fun b2 a hb2 =>
    says_terminator.next fun b3 _ hb3 => ?_
  subst hb hb3
  have := declared_of (pre := pre) (b2 := b2) l hb1
  exact tells_sized this (h2 _ _ _ _ _ hb2 this)

theorem Declared.small {l c : UInt32} {x : Bytes} (h : Declared pre l) (hc : 0 < c)
    (hs : l.toNat < c.toNat + 8) : Small (pre ++ x ++ u32B c) := by
  obtain ⟨q, h1, h2, -⟩ := h
  refine ⟨q, l.toNat, (h1.mono x).mono _, by simp; omega, .inr ⟨(pre ++ x).length, c.toNat,
    by simp; omega, by simp [u32B]; omega, NumAt.last _ 4 _, UInt32.lt_iff_toNat_lt.mp hc, hs⟩⟩

theorem tells_checkSize {n : Nat} (hn : n ∈ [0, 1, 2, 4, 8]) : Tells debug hints pre (checkSize n) := by
  unfold checkSize
  refine says_u64.next fun b t h => ?_
  subst h
  refine Says.tells (Says.ensure fun hc => Says.failPos (fun rest => ⟨fun h => hc h.symm,
    .inl ⟨hn, pre.length, by simp [u64B], ?_⟩⟩) (by simp))
  simpa [u64B] using (NumAt.last pre 8 t.toNat).mono rest

/-! ## Leaves -/

theorem tells_fixed {α : Type} {n : Nat} {hdr : Bool} {m : R α} (hn : n ∈ [0, 1, 2, 4, 8])
    (h : ∀ pre, Tells debug hints pre m) : Tells debug hints pre (readFixed hdr n m) := by
  unfold readFixed
  exact (Says.onlyIf ((tells_checkSize hn).next fun _ _ _ => tells_separator)).next fun _ _ _ => h _

theorem tells_boolProperty (hdr : Bool) : Tells debug hints pre (readBoolProperty hdr) := by
  unfold readBoolProperty
  exact (Says.onlyIf (tells_checkSize (by decide))).next fun _ _ _ => says_bool.next fun _ _ _ =>
    (Says.onlyIf tells_separator).map

theorem tells_byteValue (l : UInt32) : Tells debug hints pre (readByteValue l) := by
  unfold readByteValue
  split
  · exact says_u8.tells.map
  · exact says_string.tells.map

theorem tells_byteLength (o : Option UInt32) (ho : o = some 0 → Small pre) :
    Tells debug hints pre (byteLength debug o) := by
  cases o with
  | none => exact .ret
  | some e =>
    refine tells_subU32 _ _ fun h => ho ?_
    have : e.toNat < 1 := UInt32.lt_iff_toNat_lt.mp h
    rw [show e = 0 from UInt32.toNat_inj.mp (by simpa using this)]

theorem tells_byteProperty (hdr : Bool) (o : Option UInt32) (ho : o = some 0 → Small pre) :
    Tells debug hints pre (readByteProperty debug hdr o) := by
  unfold readByteProperty
  split
  · refine says_u32.next fun b l hb => tells_assertedIndex.next fun _ _ _ => says_string.next
      fun _ _ _ => tells_separator.next fun _ _ _ => (tells_byteLength _ fun h => ?_).next
      fun _ _ _ => (tells_byteValue _).map
    subst hb
    cases h
    have : Small (pre ++ u32B 0) :=
      ⟨pre.length, 0, NumAt.last pre 4 0, by simp [u32B], .inl rfl⟩
    exact ((this.mono _).mono _).mono _
  · exact (tells_byteLength _ ho).next fun _ _ _ => (tells_byteValue _).map

theorem tells_plain {β : Type} {hdr : Bool} {m : R β} (h : ∀ pre, Tells debug hints pre m) :
    Tells debug hints pre (readPlain hdr m) := by
  unfold readPlain
  split
  · exact tells_header (L := fun _ _ => True) (fun _ => Tells.ret) fun _ _ _ _ _ _ _ => h _
  · exact h _

theorem tells_enumProperty (hdr : Bool) : Tells debug hints pre (readEnumProperty hdr) := by
  unfold readEnumProperty
  split
  · exact tells_header (fun _ => says_string) fun _ _ _ _ _ _ _ => says_string.tells.map
  · exact says_string.tells.map

theorem tells_nameProperty (hdr : Bool) : Tells debug hints pre (readNameProperty hdr) := by
  unfold readNameProperty
  split
  · refine says_u32.next fun b l hb => says_u32.next fun b1 _ hb1 => says_terminator.next
      fun b2 _ hb2 => tells_sized ?_ says_fstring.tells.map
    subst hb hb1 hb2
    have := declared_of (pre := pre) (b2 := []) l
      (b1 := u32B _) (show (u32B ‹UInt32›).length = 4 by simp [u32B])
    simpa using this
  · exact says_fstring.tells.map

theorem tells_delegate : Tells debug hints pre Delegate.read :=
  says_string.next fun _ _ _ => says_string.tells.map

theorem tells_multicast : Tells debug hints pre readMulticast :=
  says_u32.next fun _ _ _ => Says.replicate (fun _ => tells_delegate) _

theorem tells_fieldPath : Tells debug hints pre FieldPath.read :=
  says_u32.next fun _ _ _ => (Says.replicate (fun _ => says_string.tells) _).next fun _ _ _ =>
    says_string.tells.map

/-- The name of the type was read before. -/
def Named (pre : Bytes) (ty : String) : Prop := ∃ q, StrAt pre q ty

theorem Named.mono {ty : String} (h : Named pre ty) (x : Bytes) : Named (pre ++ x) ty :=
  have ⟨q, h⟩ := h
  ⟨q, h.mono x⟩

theorem Named.last {b : Bytes} {ty : String} (h : Stored 131072 (some ty) b) :
    Named (pre ++ b) ty := ⟨pre.length, b, h, At.last _ _⟩

theorem tells_unknown (ty : String) (hn : Named pre ty) (hty : ty ∉ knownTypes) (hdr : Bool)
    (o : Option UInt32) : Tells debug hints pre (readUnknown ty hdr o) := by
  unfold readUnknown
  split
  · exact says_u32.next fun _ _ _ => tells_assertedIndex.next fun _ _ _ => tells_separator.next
      fun _ _ _ => Says.take.tells.map
  · split
    · exact Says.take.tells.map
    · refine Says.failPos (fun rest => ⟨by simp, .inr (.inl ⟨hty, ?_⟩)⟩) (by simp)
      obtain ⟨q, hq⟩ := hn
      exact ⟨q, hq.lt, hq.mono rest⟩

/-! ## Structs, arrays, sets, maps -/

/-- What is asked of the reader of nested properties. -/
abbrev RecTells (debug : Bool) (hints : String → Option String)
    (rec : String → Bool → Option UInt32 → R Property) : Prop :=
  ∀ pre ty hdr o, Named pre ty → (o = some 0 → Small pre) →
    Says debug hints pre (rec ty hdr o) fun b p => hdr = true → p.arrayIndex ≠ 0 →
      ty = "NameProperty" ∧ NumAt b 4 4 p.arrayIndex.toNat

theorem fieldCount_push (k : String) (p : Property) (fs : List (String × List Property)) (k' : String)
    (h : fieldCount k' (fieldPush k p fs) ≠ 0) : k' = k ∨ fieldCount k' fs ≠ 0 := by
  induction fs with
  | nil =>
    by_cases hk : k' = k
    · exact .inl hk
    · simp [fieldPush, fieldCount, List.lookup, beq_false_of_ne hk] at h
  | cons e l ih =>
    obtain ⟨e, ps⟩ := e
    unfold fieldPush at h
    unfold fieldCount at h ih ⊢
    by_cases hk : k' = e
    · subst hk
      by_cases he : (k' == k) = true
      · exact .inl (by simpa using he)
      · exact .inr (by simpa [he] using h)
    · have hk' := beq_false_of_ne hk
      by_cases he : (e == k) = true
      · exact .inr (by simpa [he, List.lookup, hk'] using h)
      · simp only [he, Bool.false_eq_true, ↓reduceIte, List.lookup, hk'] at h ⊢
        exact ih h

/-- The names of the fields so far are stored in the input. -/
def FieldsNamed (pre : Bytes) (fs : List (String × List Property)) : Prop :=
  ∀ k, fieldCount k fs ≠ 0 → ∃ q, StrAt pre q k

theorem FieldsNamed.mono {fs : List (String × List Property)} (h : FieldsNamed pre fs) (x : Bytes) :
    FieldsNamed (pre ++ x) fs := fun k hk =>
  have ⟨q, hq⟩ := h k hk
  ⟨q, hq.mono x⟩

theorem says_insertProperty {fs : List (String × List Property)} {k : String} {p : Property}
    (h : debug = true → UInt32.ofNat (fieldCount k fs) ≠ p.arrayIndex → ∀ rest,
      Blames debug (pre ++ rest) pre.length "assertion `left == right` failed") :
    Says debug hints pre (insertProperty debug fs k p) (fun b fs' => b = [] ∧ fs' = fieldPush k p fs) :=
  (Says.ensure fun hc => Says.panic fun rest => h (by
    by_contra hd
    exact hc fun h => absurd h hd) (fun h' => hc fun _ => h') rest).bind fun b _ hb => by
      obtain ⟨rfl, -⟩ := hb
      exact Says.pure ⟨rfl, rfl⟩

theorem tells_custom {rec : String → Bool → Option UInt32 → R Property}
    (hr : RecTells debug hints rec) (n : Nat) (fs : List (String × List Property))
    (hf : FieldsNamed pre fs) : Tells debug hints pre (readCustom debug rec n fs) := by
  induction n generalizing pre fs with
  | zero => exact Says.outOfFuel
  | succ n ih =>
    unfold readCustom
    refine says_string.next fun b name hn => ?_
    split
    · exact .ret
    · refine says_string.next fun t ty hty => Says.next (L := fun _ fs' =>
        ∃ p, fs' = fieldPush name p fs) (Says.withEntry ((hr _ _ _ _ (.last hty)
        (by simp)).bind fun v p hp => (says_insertProperty fun hd hne rest => ?_).mono fun _ _ h =>
          ⟨p, h.2⟩)) fun c fs' ⟨p, h⟩ => ih _ ?_
      · refine .field pre.length b name hd (by simp) hn (by
          simpa using At.mid pre b (t ++ (v ++ rest))) ?_
        by_cases h0 : fieldCount name fs = 0
        · right
          have hi : p.arrayIndex ≠ 0 := fun h => hne (by rw [h0, h]; rfl)
          obtain ⟨rfl, w, hw, x, y, rfl, hx⟩ := hp rfl hi
          refine ⟨t, _, hty, ?_, ⟨w, hw, ?_⟩, fun h => hi (UInt32.toNat_inj.mp h), ?_⟩
          · have := At.mid (pre ++ b) t (x ++ (w ++ y) ++ rest)
            simpa using this
          · have := At.mid (pre ++ b ++ t ++ x) w (y ++ rest)
            simpa [hx, Nat.add_assoc] using this
          · have := hw.1
            simp
            omega
        · left
          obtain ⟨q, hq⟩ := hf name h0
          exact ⟨q, hq.lt, by simpa using hq.mono (b ++ (t ++ (v ++ rest)))⟩
      · subst h
        intro k hk
        rcases fieldCount_push _ _ _ _ hk with rfl | hk
        · exact ⟨pre.length, (StrAt.mono ⟨b, hn, At.last _ _⟩ _).mono _⟩
        · obtain ⟨q, hq⟩ := hf k hk
          exact ⟨q, ((hq.mono _).mono _).mono _⟩

theorem tells_builtin (cv : List (Guid × UInt32)) (k : StructKind) :
    Tells debug hints pre (readBuiltin cv k) := by
  cases k with
  | vector =>
    unfold readBuiltin; simp only []; split
    · exact says_f64.next fun _ _ _ => says_f64.next fun _ _ _ => says_f64.map
    · exact says_f32.next fun _ _ _ => says_f32.next fun _ _ _ => says_f32.map
  | vector2D =>
    unfold readBuiltin; simp only []; split
    · exact says_f64.next fun _ _ _ => says_f64.map
    · exact says_f32.next fun _ _ _ => says_f32.map
  | rotator =>
    unfold readBuiltin; simp only []; split
    · exact says_f64.next fun _ _ _ => says_f64.next fun _ _ _ => says_f64.map
    · exact says_f32.next fun _ _ _ => says_f32.next fun _ _ _ => says_f32.map
  | quat =>
    unfold readBuiltin; simp only []; split
    · exact says_f64.next fun _ _ _ => says_f64.next fun _ _ _ => says_f64.next fun _ _ _ =>
        says_f64.map
    · exact says_f32.next fun _ _ _ => says_f32.next fun _ _ _ => says_f32.next fun _ _ _ =>
        says_f32.map
  | dateTime => exact says_u64.tells.map
  | timespan => exact says_u64.tells.map
  | linearColor =>
    exact says_f32.next fun _ _ _ => says_f32.next fun _ _ _ => says_f32.next fun _ _ _ =>
      says_f32.map
  | intPoint => exact says_i32.next fun _ _ _ => says_i32.tells.map
  | guid => exact says_guid.tells.map
  | gameplayTagContainer => exact tells_count fun _ n =>
      (Says.replicate (fun _ => says_string.tells) n).map

theorem tells_structBody {env : Env} {rec : String → Bool → Option UInt32 → R Property}
    (hd : env.debug = debug) (hr : RecTells debug hints rec) (n : Nat) (ty : String) :
    Tells debug hints pre (readStructBody env n rec ty) := by
  unfold readStructBody
  split
  · exact tells_builtin _ _
  · rw [hd]
    exact (tells_custom hr _ _ fun k h => absurd rfl h).map

theorem tells_structProperty {env : Env} {rec : String → Bool → Option UInt32 → R Property}
    (hd : env.debug = debug) (he : env.hints = hints)
    (hr : RecTells debug hints rec) (n : Nat) (hdr : Bool) :
    Tells debug hints pre (readStructProperty env n rec hdr) := by
  unfold readStructProperty
  split
  · exact tells_header (L := fun _ _ => True) (fun _ => says_string.next fun _ _ _ =>
      says_guid.tells.map) fun _ _ _ _ _ _ _ => (tells_structBody hd hr _ _).map
  · refine Says.getStack fun st => ?_
    simp only []
    cases hh : env.hints (joinDots st) with
    | some h => exact (tells_structBody hd hr _ _).map
    | none =>
      refine Says.failPos (fun rest => ⟨rfl, ?_, by simp⟩) (by simp)
      rw [← he]; exact hh

theorem says_structInfo : Says debug hints pre readStructInfo
    (fun b i => ∃ q, ∀ pre', NumAt (pre' ++ b) (pre'.length + q) 8 i.2.1.toNat ∧ q + 8 ≤ b.length) := by
  unfold readStructInfo
  refine says_string.bind fun b1 _ _ => says_string.bind fun b2 inner h2 => Says.bind
    (Says.ensure fun hc => Says.panic fun rest => .inner (pre ++ b1).length b2 inner
      (by simp [Nat.add_assoc]) h2 ((At.last _ _).mono rest) hc) fun b3 _ _ => says_u64.bind fun b4 size h4 => says_string.bind
    fun b5 _ _ => says_guid.bind fun b6 _ _ => says_terminator.bind fun b7 _ _ => Says.pure ?_
  subst h4
  refine ⟨(b1 ++ b2 ++ b3).length, fun pre' => ⟨?_, ?_⟩⟩
  · have := (NumAt.last (pre' ++ (b1 ++ b2 ++ b3)) 8 size.toNat).mono (b5 ++ b6 ++ b7)
    simpa [List.append_assoc, u64B] using this
  · simp [u64B]; omega

theorem lift_tells {α : Type} {r : Res α} (h : ∃ a, r = .ok a) : Tells debug hints pre (R.lift r) := by
  obtain ⟨a, rfl⟩ := h
  exact .ret

theorem tells_arrayBody {env : Env} {rec : String → Bool → Option UInt32 → R Property}
    (hd : env.debug = debug) (hr : RecTells debug hints rec) (n : Nat) (len : UInt32) (ty : String) (hty : Named pre ty)
    (hl : Declared pre len) : Tells debug hints pre (readArrayBody env n rec len ty) := by
  unfold readArrayBody
  refine says_u32.next fun b0 count hb0 => ?_
  split
  · rename_i e
    subst e
    refine says_structInfo.next fun b i hb => ?_
    obtain ⟨field, size, sty, guid⟩ := i
    refine Says.pos (Says.next (Says.replicate (fun _ => tells_structBody hd hr _ _) _) fun b1 vs _ =>
      Says.pos (Says.next (Says.ensure fun hc => Says.failPos (fun rest => ?_) (by simp))
        fun _ _ _ => ?_))
    · obtain ⟨q, hq⟩ := hb
      have := hq (pre ++ b0)
      refine ⟨by simp, .inr (.inr ⟨_, size.toNat, (pre ++ b0).length + q, hc, rfl, ?_, ?_⟩)⟩
      · simpa [List.append_assoc] using this.1.mono (b1 ++ rest)
      · have := this.2
        simp only [List.length_append]; omega
    · rw [Closed.array_new_structs]
      exact .ret
  · refine Says.next (Says.replicate (fun c => (hr _ _ _ _ ((hty.mono _).mono _) fun h => ?_).tells) _)
      fun _ ps _ => lift_tells (Closed.array_new_ok ty ps)
    subst hb0
    unfold arraySuggested at h
    split at h
    · rename_i hc
      refine Small.mono ?_ _
      have := hl.small (x := []) hc.1 ?_
      · simpa using this
      · simp only [Option.some.injEq] at h
        have h' := congrArg UInt32.toNat h
        rw [UInt32.toNat_div, UInt32.toNat_sub_of_le _ _ hc.2] at h'
        have h0 : 0 < count.toNat := UInt32.lt_iff_toNat_lt.mp hc.1
        have := (Nat.div_eq_zero_iff_lt h0).mp h'
        have h4 : (4 : UInt32).toNat = 4 := rfl
        omega
    · cases h

theorem tells_arrayProperty {env : Env} {rec : String → Bool → Option UInt32 → R Property}
    (hd : env.debug = debug) (hr : RecTells debug hints rec) (n : Nat) (hdr : Bool) :
    Tells debug hints pre (readArrayProperty env n rec hdr) := by
  unfold readArrayProperty
  split
  · exact tells_header (fun _ => says_string) fun _ _ _ _ _ h hl =>
      (tells_arrayBody hd hr _ _ _ ((Named.last h).mono _) hl).map
  · exact Says.failPos (fun rest => ⟨by simp, .inl (by simp)⟩) (by simp)

theorem tells_setBody {rec : String → Bool → Option UInt32 → R Property}
    (hr : RecTells debug hints rec) (len : UInt32) (ty : String) (hty : Named pre ty)
    (hl : Declared pre len) : Tells debug hints pre (readSetBody debug rec len ty) := by
  unfold readSetBody
  refine says_u32.next fun b _ _ => says_u32.next fun b' count hb' => Tells.map ?_
  subst hb'
  unfold readSetElems
  split
  · rename_i hc
    have h0 : 0 < count.toNat := UInt32.lt_iff_toNat_lt.mp hc
    refine Says.next (L := fun _ a => a = len - 8) ?_ fun _ avail ha => Says.replicate (fun _ =>
      (hr _ _ _ _ ((((hty.mono _).mono _).mono _).mono _) fun h => Small.mono (Small.mono
      (hl.small hc ?_) _) _).tells) _
    · unfold subU32
      split
      · rename_i h
        have := tells_subU32 (debug := debug) (hints := hints) (pre := pre ++ b ++ u32B count) len 8
          fun h => hl.small hc (by
            have := UInt32.lt_iff_toNat_lt.mp h
            have h8 : (8 : UInt32).toNat = 8 := rfl
            omega)
        unfold subU32 at this
        rw [if_pos h] at this
        exact fun rest st => this rest st
      · exact Says.pure rfl
    · subst ha
      simp only [Option.some.injEq] at h
      have h' := congrArg UInt32.toNat h
      have h8 : (8 : UInt32).toNat = 8 := rfl
      by_cases hle : 8 ≤ len
      · rw [UInt32.toNat_div, UInt32.toNat_sub_of_le _ _ hle] at h'
        have := (Nat.div_eq_zero_iff_lt h0).mp h'
        omega
      · rw [UInt32.le_iff_toNat_le] at hle
        omega
  · exact .ret

theorem tells_setProperty {rec : String → Bool → Option UInt32 → R Property}
    (hr : RecTells debug hints rec) (hdr : Bool) : Tells debug hints pre (readSetProperty debug rec hdr) := by
  unfold readSetProperty
  split
  · exact tells_header (fun _ => says_string) fun _ _ _ _ _ h hl =>
      tells_setBody hr _ _ ((Named.last h).mono _) hl
  · exact Says.failPos (fun rest => ⟨by simp, .inl (by simp)⟩) (by simp)

theorem tells_mapBody {rec : String → Bool → Option UInt32 → R Property}
    (hr : RecTells debug hints rec) (kt vt : String) (hk : Named pre kt) (hv : Named pre vt) :
    Tells debug hints pre (readMapBody rec kt vt) := by
  unfold readMapBody
  refine says_u32.next fun _ _ _ => says_u32.next fun _ _ _ => Tells.map (Says.replicate
    (fun _ => ?_) _)
  unfold readMapEntry
  exact (Says.withEntry (hr _ _ _ _ (((hk.mono _).mono _).mono _) (by simp))).next fun _ _ _ =>
    (Says.withEntry (hr _ _ _ _ ((((hv.mono _).mono _).mono _).mono _)
      (by simp))).map fun _ _ _ => trivial

theorem says_mapTypes : Says debug hints pre (do
      let kt ← readString
      let vt ← readString
      return (kt, vt))
    (fun b x => ∀ pre', Named (pre' ++ b) x.1 ∧ Named (pre' ++ b) x.2) := by
  refine says_string.bind fun b1 kt h1 => says_string.bind fun b2 vt h2 => Says.pure fun pre' => ?_
  have a := (Named.last (pre := pre') h1).mono b2
  have b := Named.last (pre := pre' ++ b1) h2
  simp only [List.append_assoc, List.append_nil] at a b ⊢
  exact ⟨a, b⟩

theorem tells_mapProperty {rec : String → Bool → Option UInt32 → R Property}
    (hr : RecTells debug hints rec) (hdr : Bool) : Tells debug hints pre (readMapProperty rec hdr) := by
  unfold readMapProperty
  split
  · exact tells_header (fun _ => says_mapTypes) fun p _ _ _ _ h _ =>
      tells_mapBody hr _ _ ((h p).1.mono _) ((h p).2.mono _)
  · exact Says.failPos (fun rest => ⟨by simp, .inl (by simp)⟩) (by simp)

/-! ## `Property::new` and files -/

theorem tells_kind {env : Env} {rec : String → Bool → Option UInt32 → R Property}
    (hd : env.debug = debug) (he : env.hints = hints)
    (hr : RecTells debug hints rec) (n : Nat) (hdr : Bool) (o : Option UInt32)
    (ho : o = some 0 → Small pre) (k : Kind) : Tells debug hints pre (readKind env n rec hdr o k) := by
  cases k with
  | int8 => exact (tells_fixed (by decide) fun _ => says_i8.tells).map
  | byte =>
    subst hd
    exact tells_byteProperty _ _ ho
  | int16 => exact (tells_fixed (by decide) fun _ => says_i16.tells).map
  | uint16 => exact (tells_fixed (by decide) fun _ => says_u16.tells).map
  | int => exact (tells_fixed (by decide) fun _ => says_i32.tells).map
  | uint32 => exact (tells_fixed (by decide) fun _ => says_u32.tells).map
  | int64 => exact (tells_fixed (by decide) fun _ => says_i64.tells).map
  | uint64 => exact (tells_fixed (by decide) fun _ => says_u64.tells).map
  | float => exact (tells_fixed (by decide) fun _ => says_f32).map
  | double => exact (tells_fixed (by decide) fun _ => says_f64).map
  | bool => exact (tells_boolProperty _).map
  | enum => exact tells_enumProperty _
  | str => exact (tells_plain fun _ => says_fstring.tells).map
  | text => exact (tells_plain fun _ => tells_text _ _).map
  | name => exact tells_nameProperty _
  | object => exact (tells_plain fun _ => says_string.tells).map
  | delegate => exact (tells_plain fun _ => tells_delegate).map
  | multicastInlineDelegate => exact (tells_plain fun _ => tells_multicast).map
  | multicastSparseDelegate => exact (tells_plain fun _ => tells_multicast).map
  | fieldPath => exact (tells_plain fun _ => tells_fieldPath).map
  | struct => exact tells_structProperty hd he hr _ _
  | array => exact tells_arrayProperty hd hr _ _
  | set =>
    subst hd
    exact tells_setProperty hr _
  | map => exact tells_mapProperty hr _

/-- Only names have an index, which is behind their length. -/
theorem says_index (env : Env) (n : Nat) (ty : String) (hdr : Bool) (o : Option UInt32)
    (h : Tells debug hints pre (Property.read env n ty hdr o)) :
    Says debug hints pre (Property.read env n ty hdr o) fun b p => hdr = true → p.arrayIndex ≠ 0 →
      ty = "NameProperty" ∧ NumAt b 4 4 p.arrayIndex.toNat := by
  refine Says.of_gives (fun st => ?_) h
  cases hdr with
  | false => exact (fun _ _ _ _ h =>
      have ⟨b, r, e1, e2, _⟩ := (gives_property env n).bare st ty o _ _ _ _ h
      ⟨b, r, e1, e2, fun h => by cases h⟩)
  | true =>
    refine ((gives_property env n).full st ty o).mono fun b p hp _ hi => ?_
    cases hp with
    | @name _ idx c s hs =>
      refine ⟨rfl, _, littleEndian_leBytes _ _, u32B (UInt32.ofNat c.length), [0] ++ c, ?_,
        by simp [u32B]⟩
      simp only [Property.arrayIndex, u32B]
      simp
    | number h => cases h <;> exact absurd rfl hi
    | plain h => cases h <;> exact absurd rfl hi
    | _ => exact absurd rfl hi

theorem tells_property (env : Env) (hd : env.debug = debug) (he : env.hints = hints) (n : Nat) :
    RecTells debug hints (Property.read env n) := by
  induction n with
  | zero => exact fun _ _ _ _ _ _ => Says.outOfFuel
  | succ n ih =>
    intro pre ty hdr o hty ho
    refine says_index env (n + 1) ty hdr o ?_
    unfold Property.read Property.readStep
    refine Says.withEntry ?_
    split
    · exact tells_kind hd he ih _ _ _ ho _
    · rename_i h
      exact tells_unknown _ hty (kind_none_iff.mp h) _ _

theorem tells_top {rec : String → Bool → Option UInt32 → R Property} (hr : RecTells debug hints rec)
    (n : Nat) (ps : List (String × Property)) : Tells debug hints pre (readTop rec n ps) := by
  induction n generalizing pre ps with
  | zero => exact Says.outOfFuel
  | succ n ih =>
    unfold readTop
    refine says_string.next fun _ _ _ => ?_
    split
    · exact .ret
    · exact says_string.next fun _ _ hty => (Says.withEntry (hr _ _ _ _ (.last hty) (by simp))).next
        fun _ _ _ => ih _

theorem says_engineVersion : Says debug hints pre FEngineVersion.read
    (fun b _ => ∃ c d branch, c.length = 10 ∧ Stored 131072 (some branch) d ∧ b = c ++ d) := by
  unfold FEngineVersion.read
  refine says_u16.bind fun b1 _ h1 => says_u16.bind fun b2 _ h2 => says_u16.bind fun b3 _ h3 =>
    says_u32.bind fun b4 _ h4 => says_string.bind fun b5 s h5 => Says.pure ?_
  refine ⟨b1 ++ (b2 ++ (b3 ++ b4)), b5, s, ?_, h5, by simp⟩
  subst h1 h2 h3 h4
  simp [u16B, u32B]

theorem tells_customVersion : Tells debug hints pre FCustomVersion.read :=
  says_guid.next fun _ _ _ => says_u32.tells.map

theorem tells_headerTail
    (hp : NumAt pre 4 4 2 ∧ pre.length = 12 ∨ NumAt pre 4 4 3 ∧ pre.length = 16) :
    Tells debug hints pre readHeaderTail := by
  unfold readHeaderTail
  refine says_engineVersion.next fun b _ hb => says_u32.next fun b' format hb' => Says.next
    (Says.ensure fun hc => Says.fail (fun rest => ?_) (by simp)) fun _ _ _ => says_u32.next
    fun _ _ _ => (Says.replicate (fun _ => tells_customVersion) _).next fun _ _ _ =>
    says_string.tells.map
  subst hb'
  obtain ⟨c, d, branch, hc10, hs, rfl⟩ := hb
  refine HeaderFault.format (pre.length + 10) format.toNat branch ?_ ⟨d, hs, ?_, ?_⟩ ?_
  · rcases hp with ⟨h, hl⟩ | ⟨h, hl⟩
    · left
      refine ⟨?_, by omega⟩
      simpa [List.append_assoc] using h.mono (c ++ (d ++ (u32B format ++ rest)))
    · right
      refine ⟨?_, by omega⟩
      simpa [List.append_assoc] using h.mono (c ++ (d ++ (u32B format ++ rest)))
  · exact ⟨pre ++ c, u32B format ++ rest, by simp [List.append_assoc], by simp [hc10]⟩
  · have hl : pre.length + 10 + d.length = (pre ++ (c ++ d)).length := by
      simp [hc10]; omega
    rw [hl]
    exact (NumAt.last (pre ++ (c ++ d)) 4 format.toNat).mono rest
  · intro h
    exact hc (UInt32.toNat_inj.mp (by simpa using h))

theorem between_iff (x lo hi : UInt32) :
    between x lo hi = true ↔ lo.toNat ≤ x.toNat ∧ x.toNat ≤ hi.toNat := by
  simp [between, UInt32.le_iff_toNat_le]

theorem tells_gvasHeader : Tells debug hints [] GvasHeader.read := by
  unfold GvasHeader.read
  refine says_u32.next fun b tag hb => Says.next (Says.ensure fun hc => Says.fail (fun rest => ?_)
    (by simp)) fun _ _ hc => ?_
  · subst hb
    refine HeaderFault.fileType tag.toNat ((NumAt.last [] 4 _).mono rest) fun h => hc ?_
    exact UInt32.toNat_inj.mp (by rw [h]; decide)
  subst hb
  obtain ⟨rfl, -⟩ := hc
  refine says_u32.next fun b v hb => Says.next (Says.ensure fun hc => Says.fail (fun rest => ?_)
    (by simp)) fun _ _ hc => ?_
  · subst hb
    rw [between_iff] at hc
    refine HeaderFault.version v.toNat ?_ ?_ ?_
    · have := (NumAt.last ([] ++ u32B tag ++ []) 4 v.toNat).mono rest
      simpa [u32B] using this
    · rintro h; exact hc (by rw [h]; decide)
    · rintro h; exact hc (by rw [h]; decide)
  subst hb
  obtain ⟨rfl, hv⟩ := hc
  have hat : NumAt ([] ++ u32B tag ++ [] ++ u32B v ++ []) 4 4 v.toNat := by
    have := NumAt.last ([] ++ u32B tag ++ []) 4 v.toNat
    simpa [u32B] using this
  refine says_u32.next fun b pkg hb => Says.next (Says.ensure fun hc => Says.fail (fun rest => ?_)
    (by simp)) fun _ _ hc => ?_
  · subst hb
    rw [between_iff] at hc
    refine HeaderFault.package pkg.toNat ?_ ?_
    · have := (NumAt.last ([] ++ u32B tag ++ [] ++ u32B v ++ []) 4 pkg.toNat).mono rest
      simpa [u32B] using this
    · rw [show (0x205 : UInt32).toNat = 517 by decide, show (0x20D : UInt32).toNat = 525 by decide]
        at hc
      omega
  subst hb
  obtain ⟨rfl, -⟩ := hc
  rw [between_iff, show (2 : UInt32).toNat = 2 by decide, show (3 : UInt32).toNat = 3 by decide] at hv
  have hat2 := (hat.mono (u32B pkg)).mono []
  have l1 : ([] ++ u32B tag ++ [] ++ u32B v ++ [] ++ u32B pkg ++ [] : Bytes).length = 12 := by
    simp [u32B]
  split
  · rename_i h3
    rw [UInt32.le_iff_toNat_le, show (3 : UInt32).toNat = 3 by decide] at h3
    have hv3 : v.toNat = 3 := by omega
    rw [hv3] at hat2
    refine says_u32.next fun b ue5 hb => Says.next (Says.ensure fun hc => Says.fail (fun rest => ?_)
      (by simp)) fun _ _ hc => ?_
    · subst hb
      rw [between_iff, show (1000 : UInt32).toNat = 1000 by decide,
        show (1009 : UInt32).toNat = 1009 by decide] at hc
      refine HeaderFault.ue5 ue5.toNat ((hat2.mono _).mono rest) ?_ (by omega)
      have := (NumAt.last ([] ++ u32B tag ++ [] ++ u32B v ++ [] ++ u32B pkg ++ []) 4
        ue5.toNat).mono rest
      rw [l1] at this
      exact this
    · subst hb
      obtain ⟨rfl, -⟩ := hc
      refine Tells.map (tells_headerTail (.inr ⟨(hat2.mono _).mono _, ?_⟩))
      rw [List.append_nil, List.length_append, l1]
      simp [u32B]
  · rename_i h3
    rw [UInt32.le_iff_toNat_le, show (3 : UInt32).toNat = 3 by decide] at h3
    have hv2 : v.toNat = 2 := by omega
    rw [hv2] at hat2
    exact Tells.map (tells_headerTail (.inl ⟨hat2, l1⟩))

theorem tells_contents (n : Nat) : Tells debug hints [] (readContents debug hints n) := by
  unfold readContents
  exact tells_gvasHeader.next fun _ _ _ => Tells.map (tells_top (tells_property _ rfl rfl _) _ _)

end Gvas
