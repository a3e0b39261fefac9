import Verif.Lemmas.AcceptText
import Verif.Spec.Wf

/-!
# Properties that were read are representable

Whatever a successful read returns is representable (`HeadOK` / `BareOK`), and writing it takes at
most twice as many bytes as were read (a string stored as UTF-8 may have to be written as UTF-16).
-/

namespace Gvas

open Spec

variable {env : Env} {st : List String}

/-! ## Parts of headers -/

theorem ens_terminator : Ens st readTerminator (fun _ k => k = 1) := by
  unfold readTerminator
  exact ens_u8.bind fun _ _ _ => (Ens.ensure Ens.failPos).mono fun _ _ h => by omega

theorem ens_zeroIndex : Ens st readZeroIndex (fun _ k => k = 4) := by
  unfold readZeroIndex
  exact ens_u32.bind fun _ _ _ => (Ens.ensure Ens.failPos).mono fun _ _ h => by omega

theorem ens_separator : Ens st readSeparator (fun _ k => k = 1) := by
  unfold readSeparator
  exact ens_u8.bind fun _ _ _ => (Ens.ensure Ens.panic).mono fun _ _ h => by omega

theorem ens_assertedIndex : Ens st readAssertedIndex (fun _ k => k = 4) := by
  unfold readAssertedIndex
  exact ens_u32.bind fun _ _ _ => (Ens.ensure Ens.panic).mono fun _ _ h => by omega

theorem ens_checkSize {n : Nat} : Ens st (checkSize n) (fun _ k => k = 8) := by
  unfold checkSize
  exact ens_u64.bind fun _ _ _ => (Ens.ensure Ens.failPos).mono fun _ _ h => by omega

theorem ens_subU32 {debug : Bool} {a b : UInt32} :
    Ens st (subU32 debug a b) (fun c k => c = a - b ∧ k = 0) := by
  unfold subU32
  split
  · exact Ens.panic
  · exact Ens.rpure ⟨rfl, rfl⟩

theorem ens_sized {β : Type} {length : UInt32} {body : R β} {Q : β → Nat → Prop}
    (h : Ens st body Q) : Ens st (readSized length body) Q := by
  unfold readSized
  refine Ens.position.bind fun _ _ h0 => h.bind fun b k hk => Ens.position.bind fun _ _ h1 =>
    (Ens.ensure Ens.fail).bind fun _ _ h2 => Ens.pure ?_
  obtain ⟨_, rfl⟩ := h2
  subst h0 h1
  simpa using hk

theorem ens_header {α β : Type} {hdr : R α} {body : UInt32 → α → R β} {P : α → Nat → Prop}
    {Q : α → β → Nat → Prop} (h1 : Ens st hdr P)
    (h2 : ∀ len a k, P a k → Ens st (body len a) (Q a)) :
    Ens st (readHeader hdr body) (fun b k => ∃ a k1 k2, P a k1 ∧ Q a b k2 ∧ k = 9 + k1 + k2) := by
  unfold readHeader
  refine ens_u32.bind fun len k0 h0 => ens_zeroIndex.bind fun _ k1 e1 => h1.bind fun a k2 hP =>
    ens_terminator.bind fun _ k3 e3 => (ens_sized (h2 len a k2 hP)).mono fun b k4 hQ => ?_
  exact ⟨a, k2, k4, hP, hQ, by omega⟩

theorem ens_plain {β : Type} {body : R β} {Q : β → Nat → Prop} (h : Ens st body Q) :
    Ens st (readPlain true body) (fun b k => ∃ k', Q b k' ∧ k = 9 + k') := by
  unfold readPlain
  rw [if_pos rfl]
  refine (ens_header (P := fun _ k => k = 0) (Ens.rpure rfl) fun _ _ _ _ => h).mono ?_
  rintro b k ⟨_, k1, k2, rfl, hQ, rfl⟩
  exact ⟨k2, hQ, by omega⟩

theorem ens_fixed {α : Type} {n : Nat} {m : R α} (h : Ens st m (fun _ k => k = n)) (hdr : Bool) :
    Ens st (readFixed hdr n m) (fun _ k => k = n + if hdr then 9 else 0) := by
  unfold readFixed
  refine (Ens.onlyIf (k0 := 9) (ens_checkSize.bind fun _ _ _ =>
    ens_separator.mono fun _ _ _ => by omega)).bind fun _ k hk => h.mono fun _ k' hk' => ?_
  omega

/-! ## Sizes of headers -/

theorem headed_true_length (ty : String) (parts body : Out) :
    (headed true ty parts body).bytes.length =
      (writeString ty).bytes.length + 9 + parts.bytes.length + body.bytes.length := by
  simp only [headed, withHeader, if_true, List.length_append, u32B_length, List.length_cons,
    List.length_nil]
  omega

theorem headed_false (ty : String) (parts body : Out) : headed false ty parts body = body := rfl

/-! ## Postconditions -/

/-- The size class an element read with a given suggested length has. -/
def classOf (ty : String) (sug : Option UInt32) : Option Nat :=
  if ty = "ByteProperty" then
    some (match sug with
      | none => 0
      | some e => if e - 1 = 1 ∨ e - 1 = 0 then 0 else 1)
  else if ty ∈ knownTypes then none
  else sug.map UInt32.toNat

/-- What reading with a header guarantees; `st` is the path without the property. -/
def HeadPost (env : Env) (st : List String) (ty : String) (p : Property) (k : Nat) : Prop :=
  HeadOK env st p ∧ typeName p = ty ∧
    outLen (p.write env.cv true) ≤ (writeString ty).bytes.length + 2 * k

/-- What reading without a header guarantees. -/
def BarePost (env : Env) (st : List String) (ty : String) (sug : Option UInt32) (p : Property)
    (k : Nat) : Prop :=
  BareOK env st ty p ∧ sizeClass p = classOf ty sug ∧ outLen (p.write env.cv false) ≤ 2 * k

/-- What is known of the recursive call. -/
structure RecPost (env : Env) (rec : String → Bool → Option UInt32 → R Property) : Prop where
  head : ∀ st ty, StrOK ty → Ens st (rec ty true none) (HeadPost env st ty)
  bare : ∀ st ty sug, Ens st (rec ty false sug) (BarePost env st ty sug)

theorem sizeFree_of_class {ty : String} {p : Property} (h : BareOK env st ty p)
    (hc : sizeClass p = classOf ty none) : SizeFree p := by
  unfold classOf at hc
  cases p <;> try trivial
  · rename_i name v
    cases v
    · trivial
    · simp only [BareOK] at h
      simp [h.1, sizeClass] at hc
  · rename_i name raw
    simp only [BareOK] at h
    obtain ⟨rfl, h⟩ := h
    rw [if_neg (by rintro rfl; exact h (by decide)), if_neg h] at hc
    simp [sizeClass] at hc

/-! ## Byte properties -/

theorem ens_byteLength {debug : Bool} {sug : Option UInt32} :
    Ens st (byteLength debug sug)
      (fun len k => len = (match sug with | none => 1 | some e => e - 1) ∧ k = 0) := by
  cases sug
  · exact Ens.rpure ⟨rfl, rfl⟩
  · exact ens_subU32

theorem ens_byteValue {len : UInt32} : Ens st (readByteValue len)
    (fun v k => ByteOK v ∧ v.write.bytes.length ≤ 2 * k ∧
      sizeClass (.byte none v) = some (if len = 1 ∨ len = 0 then 0 else 1)) := by
  unfold readByteValue
  split
  · exact ens_u8.bind fun v k hk => Ens.pure (by
      simp [ByteOK, BytePropertyValue.write, sizeClass]; omega)
  · exact ens_string.bind fun v k hk => Ens.pure (by
      refine ⟨hk.1, by simp [BytePropertyValue.write]; omega, rfl⟩)

theorem ens_byte_bare {sug : Option UInt32} :
    Ens st (readByteProperty env.debug false sug) (BarePost env st' "ByteProperty" sug) := by
  unfold readByteProperty
  rw [if_neg (by simp)]
  refine ens_byteLength.bind fun len k hk => ens_byteValue.bind fun v k' hk' => Ens.pure ?_
  refine ⟨by simp [BareOK, hk'.1], ?_, ?_⟩
  · rw [hk'.2.2, hk.1]
    cases sug
    · rfl
    · rfl
  · simp only [Property.write, outLen]
    simp
    omega

theorem ens_byte_head {sug : Option UInt32} :
    Ens st (readByteProperty env.debug true sug) (HeadPost env st' "ByteProperty") := by
  unfold readByteProperty
  rw [if_pos rfl]
  refine ens_u32.bind fun _ k1 h1 => ens_assertedIndex.bind fun _ k2 h2 => ens_string.bind
    fun nm k3 h3 => ens_separator.bind fun _ k4 h4 => ens_byteLength.bind fun len k5 h5 =>
    ens_byteValue.bind fun v k' hk' => Ens.pure ?_
  refine ⟨by simp [HeadOK, hk'.1, h3.1], rfl, ?_⟩
  simp only [Property.write, outLen, if_true, byteHeader, writeFString, List.length_append,
    u64B_length, List.length_cons, List.length_nil]
  omega

/-! ## Delegates and field paths -/

theorem ens_delegate : Ens st Delegate.read
    (fun d k => DelegateOK d ∧ d.write.bytes.length ≤ 2 * k) := by
  unfold Delegate.read
  exact ens_string.bind fun a k1 h1 => ens_string.bind fun b k2 h2 => Ens.pure
    ⟨⟨h1.1, h2.1⟩, by simp [Delegate.write]; omega⟩

theorem ens_multicast : Ens st readMulticast
    (fun d k => MulticastOK d ∧ (writeMulticast d).bytes.length ≤ 2 * k) := by
  unfold readMulticast
  refine ens_u32.bind fun n k1 h1 => (Ens.replicate ens_delegate n.toNat).mono fun l k2 h2 => ?_
  refine ⟨⟨by have := n.toNat_lt; omega, h2.2.1⟩, ?_⟩
  simp only [writeMulticast, Out.app_bytes, u32O_bytes, List.length_append, u32B_length,
    concatOut_length]
  omega

theorem ens_fieldPath : Ens st FieldPath.read
    (fun p k => FieldPathOK p ∧ p.write.bytes.length ≤ 2 * k) := by
  unfold FieldPath.read
  refine ens_u32.bind fun n k1 h1 => (Ens.replicate (P := StrOK)
    (w := fun s => (writeString s).bytes.length) (ens_string.mono fun _ _ h => ⟨h.1, h.2.2⟩)
    n.toNat).bind fun l k2 h2 => ens_string.bind fun o k3 h3 => Ens.pure ?_
  refine ⟨⟨by have := n.toNat_lt; simp only; omega, h2.2.1, h3.1⟩, ?_⟩
  simp only [FieldPath.write, Out.app_bytes, u32O_bytes, List.length_append, u32B_length,
    concatOut_length]
  omega

/-! ## Unknown properties -/

theorem ens_unknown_head {ty : String} {sug : Option UInt32} (hs : StrOK ty)
    (hty : ty ∉ knownTypes) : Ens st (readUnknown ty true sug) (HeadPost env st' ty) := by
  unfold readUnknown
  rw [if_pos rfl]
  refine ens_u32.bind fun _ k1 h1 => ens_assertedIndex.bind fun _ k2 h2 => ens_separator.bind
    fun _ k3 h3 => Ens.take.bind fun raw k4 h4 => Ens.pure ?_
  refine ⟨by simp [HeadOK, hs, hty], rfl, ?_⟩
  simp only [Property.write, outLen, headed_true_length, Out.nil_bytes, List.length_nil]
  omega

theorem ens_unknown_bare {ty : String} {sug : Option UInt32} (hty : ty ∉ knownTypes) :
    Ens st (readUnknown ty false sug) (BarePost env st' ty sug) := by
  unfold readUnknown
  rw [if_neg (by simp)]
  cases sug with
  | none => exact Ens.failPos
  | some n =>
    refine Ens.take.bind fun raw k4 h4 => Ens.pure ?_
    refine ⟨by simp [BareOK, hty], ?_, ?_⟩
    · rw [classOf, if_neg (by rintro rfl; exact hty (by decide)), if_neg hty]
      simp [sizeClass, h4.1]
    · simp only [Property.write, outLen, headed_false]
      omega

/-! ## Structs -/

/-- Bytes of the values of one field. -/
def valsSize (cv : List (Guid × UInt32)) (k : String) (ps : List Property) : Nat :=
  (ps.map fun p => (writeString k).bytes.length + outLen (p.write cv true)).sum

/-- Bytes of the fields of a custom struct. -/
def fieldsSize (cv : List (Guid × UInt32)) (fs : List (String × List Property)) : Nat :=
  (fs.map fun e => valsSize cv e.1 e.2).sum

theorem outLen_vals (cv : List (Guid × UInt32)) (k : String) (ps : List Property) :
    outLen (writeFieldVals cv k ps) ≤ valsSize cv k ps := by
  induction ps with
  | nil => simp [writeFieldVals, outLen]
  | cons p ps ih =>
    simp only [writeFieldVals, valsSize, List.map_cons, List.sum_cons]
    refine outLen_map2 (Nat.le_refl _) ih fun o o' h h' => ?_
    simp only [Out.app_bytes, List.length_append, valsSize] at h' ⊢
    omega

theorem outLen_fields (cv : List (Guid × UInt32)) (fs : List (String × List Property)) :
    outLen (writeFields cv fs) ≤ fieldsSize cv fs := by
  induction fs with
  | nil => simp [writeFields, outLen]
  | cons e fs ih =>
    obtain ⟨k, ps⟩ := e
    simp only [writeFields, fieldsSize, List.map_cons, List.sum_cons]
    refine outLen_map2 (outLen_vals cv k ps) ih fun o o' h h' => ?_
    simp only [Out.app_bytes, List.length_append, fieldsSize] at h' ⊢
    omega

theorem fieldPush_size (cv : List (Guid × UInt32)) (k : String) (p : Property)
    (fs : List (String × List Property)) :
    fieldsSize cv (fieldPush k p fs) =
      fieldsSize cv fs + ((writeString k).bytes.length + outLen (p.write cv true)) := by
  induction fs with
  | nil => simp [fieldPush, fieldsSize, valsSize]
  | cons e fs ih =>
    obtain ⟨k', ps⟩ := e
    simp only [fieldPush]
    split
    · rename_i h
      have : k' = k := by simpa using h
      subst this
      simp only [fieldsSize, List.map_cons, List.sum_cons, valsSize, List.map_append,
        List.sum_append, List.map_nil, List.sum_nil]
      omega
    · simp only [fieldsSize, List.map_cons, List.sum_cons] at ih ⊢
      omega

theorem fieldPush_names (k : String) (p : Property) (fs : List (String × List Property)) :
    (fieldPush k p fs).map Prod.fst =
      if k ∈ fs.map Prod.fst then fs.map Prod.fst else fs.map Prod.fst ++ [k] := by
  induction fs with
  | nil => simp [fieldPush]
  | cons e fs ih =>
    obtain ⟨k', ps⟩ := e
    simp only [fieldPush]
    by_cases h : k' = k
    · subst h; simp
    · have hk : (k' == k) = false := by simpa using h
      rw [hk, if_neg (by simp)]
      simp only [List.map_cons, ih, List.mem_cons]
      have h2 : k ≠ k' := fun e => h e.symm
      simp only [h2, false_or]
      split <;> simp

theorem valsOK_append {i : Nat} (ps : List Property) (p : Property) :
    ValsOK env st i (ps ++ [p]) ↔ ValsOK env st i ps ∧
      (env.debug = true → storedIndex p = UInt32.ofNat (i + ps.length)) ∧ HeadOK env st p := by
  induction ps generalizing i with
  | nil => simp [ValsOK]
  | cons q ps ih =>
    simp only [List.cons_append, ValsOK, ih, List.length_cons]
    rw [show i + 1 + ps.length = i + (ps.length + 1) by omega]
    simp only [and_assoc]

theorem storedIndex_eq (p : Property) : storedIndex p = p.arrayIndex := by cases p <;> rfl

theorem fieldCount_cons_ne {k k' : String} (h : k' ≠ k) (ps : List Property)
    (fs : List (String × List Property)) : fieldCount k ((k', ps) :: fs) = fieldCount k fs := by
  unfold fieldCount
  rw [List.lookup_cons]
  have : (k == k') = false := by simpa using fun e : k = k' => h e.symm
  rw [this]

theorem fieldsOK_push {k : String} {p : Property} (fs : List (String × List Property))
    (h : FieldsOK env st fs) (hk : StrOK k) (hn : k ≠ "None") (hp : HeadOK env (st ++ [k]) p)
    (hi : env.debug = true → UInt32.ofNat (fieldCount k fs) = p.arrayIndex) :
    FieldsOK env st (fieldPush k p fs) := by
  induction fs with
  | nil =>
    simp only [fieldPush, FieldsOK, ValsOK]
    refine ⟨hk, hn, by simp, ⟨?_, hp, trivial⟩, trivial⟩
    intro hd
    rw [storedIndex_eq, ← hi hd]
    rfl
  | cons e fs ih =>
    obtain ⟨k', ps⟩ := e
    simp only [FieldsOK] at h
    obtain ⟨h1, h2, h3, h4, h5⟩ := h
    simp only [fieldPush]
    by_cases hkk : k' = k
    · subst hkk
      simp only [beq_self_eq_true, if_true, FieldsOK]
      refine ⟨h1, h2, by simp, ?_, h5⟩
      rw [valsOK_append]
      refine ⟨h4, ?_, hp⟩
      intro hd
      rw [storedIndex_eq, ← hi hd]
      simp [fieldCount]
    · have : (k' == k) = false := by simpa using hkk
      rw [this, if_neg (by simp)]
      simp only [FieldsOK]
      exact ⟨h1, h2, h3, h4, ih h5 (by rwa [fieldCount_cons_ne hkk] at hi)⟩

theorem ens_custom {rec : String → Bool → Option UInt32 → R Property} (hrec : RecPost env rec)
    (n : Nat) (fs : List (String × List Property)) (hnd : (fs.map Prod.fst).Nodup)
    (hok : FieldsOK env st fs) :
    Ens st (readCustom env.debug rec n fs)
      (fun fs' k => (fs'.map Prod.fst).Nodup ∧ FieldsOK env st fs' ∧
        fieldsSize env.cv fs' + (writeString "None").bytes.length ≤ fieldsSize env.cv fs + 2 * k) := by
  induction n generalizing fs with
  | zero => exact Ens.outOfFuel
  | succ n ih =>
    unfold readCustom
    refine ens_string.bind fun name k1 h1 => ?_
    split
    · rename_i hn
      subst hn
      exact Ens.pure ⟨hnd, hok, by omega⟩
    · rename_i hn
      refine ens_string.bind fun ty k2 h2 => ?_
      refine Ens.bind (P := fun fs' k => (fs'.map Prod.fst).Nodup ∧ FieldsOK env st fs' ∧
        fieldsSize env.cv fs' ≤ fieldsSize env.cv fs + (writeString name).bytes.length +
          (writeString ty).bytes.length + 2 * k) ?_ ?_
      · refine Ens.withEntry ?_
        refine (hrec.head _ ty h2.1).bind fun p k3 h3 => ?_
        unfold insertProperty
        refine (Ens.ensure Ens.panic).bind fun _ k4 h4 => Ens.pure ?_
        refine ⟨?_, fieldsOK_push fs hok h1.1 hn h3.1 h4.1, ?_⟩
        · rw [fieldPush_names]
          split
          · exact hnd
          · rename_i hm
            rw [List.nodup_append]
            exact ⟨hnd, by simp, fun a ha b hb e => by
              simp only [List.mem_singleton] at hb
              subst hb; subst e; exact hm ha⟩
        · rw [fieldPush_size]
          have := h3.2.2
          omega
      · intro fs' k3 h3
        refine (ih fs' h3.1 h3.2.1).mono fun fs'' k4 h4 => ⟨h4.1, h4.2.1, ?_⟩
        omega

theorem ens_builtin {k : StructKind} : Ens st (readBuiltin env.cv k)
    (fun v n => StructOK env st' k.typeName v ∧ outLen (v.writeBody env.cv) ≤ 2 * n) := by
  cases k <;> simp only [readBuiltin]
  all_goals
    first
    | (by_cases h : lwc env.cv = true
       · rw [if_pos h]
         repeat refine ens_f64.bind fun _ _ _ => ?_
         refine Ens.pure ⟨by simp [StructOK, h, StructKind.typeName], ?_⟩
         simp [StructPropertyValue.writeBody, writeIf, h, outLen]
         omega
       · rw [if_neg h]
         repeat refine ens_f32.bind fun _ _ _ => ?_
         refine Ens.pure ⟨by simp [StructOK, h, StructKind.typeName], ?_⟩
         simp [StructPropertyValue.writeBody, writeIf, h, outLen]
         omega)
    | (repeat refine ens_f32.bind fun _ _ _ => ?_
       repeat refine ens_u64.bind fun _ _ _ => ?_
       repeat refine ens_i32.bind fun _ _ _ => ?_
       repeat refine ens_guid.bind fun _ _ _ => ?_
       refine Ens.pure ⟨by simp [StructOK, StructKind.typeName], ?_⟩
       simp [StructPropertyValue.writeBody, outLen]
       omega)
    | (refine ens_i32.bind fun c k1 h1 => ens_capacity.bind fun n k2 h2 => (Ens.replicate (P := StrOK)
         (w := fun s => (writeString s).bytes.length) (ens_string.mono fun _ _ h => ⟨h.1, h.2.2⟩)
         n).bind fun l k3 h3 => Ens.pure ?_
       refine ⟨?_, ?_⟩
       · simp only [StructOK, StructKind.typeName]
         exact ⟨trivial, by omega, h3.2.1⟩
       · simp only [StructPropertyValue.writeBody, outLen, Out.app_bytes, List.length_append,
           i32B_length, concatOut_length]
         omega)

theorem ens_structBody {rec : String → Bool → Option UInt32 → R Property} (hrec : RecPost env rec)
    {fuel : Nat} {ty : String} : Ens st (readStructBody env fuel rec ty)
      (fun v k => StructOK env st ty v ∧ outLen (v.writeBody env.cv) ≤ 2 * k) := by
  unfold readStructBody
  split
  · rename_i k hk
    have := structKind_some hk
    subst this
    exact ens_builtin
  · rename_i hk
    refine (ens_custom hrec fuel [] (by simp) (by simp [FieldsOK])).bind fun fs k h => Ens.pure ?_
    refine ⟨?_, ?_⟩
    · simp only [StructOK]
      exact ⟨structKind_none_iff.mp hk, h.1, h.2.1⟩
    · simp only [StructPropertyValue.writeBody]
      refine outLen_map (outLen_fields env.cv fs) fun o ho => ?_
      have : fieldsSize env.cv [] = 0 := rfl
      simp only [Out.app_bytes, List.length_append]
      omega

end Gvas
