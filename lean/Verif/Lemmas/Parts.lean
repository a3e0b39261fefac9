import Verif.Spec.Wf
import Verif.Lemmas.Text
import Verif.Props.Construct

/-! # Reading back the parts of properties -/

namespace Gvas

open Spec

/-! ## Type names -/

theorem kind_none_iff {s : String} : Kind.ofName s = none ↔ s ∉ knownTypes := by
  unfold Kind.ofName knownTypes
  rw [List.find?_eq_none]
  simp only [Kind.all, List.mem_cons, List.not_mem_nil, or_false, forall_eq_or_imp, forall_eq,
    Kind.typeName, beq_iff_eq, not_or]
  simp only [eq_comm]

theorem structKind_none_iff {s : String} : StructKind.ofName s = none ↔ s ∉ builtinStructs := by
  unfold StructKind.ofName builtinStructs
  rw [List.find?_eq_none]
  simp only [StructKind.all, List.mem_cons, List.not_mem_nil, or_false, forall_eq_or_imp, forall_eq,
    StructKind.typeName, beq_iff_eq, not_or]
  simp only [eq_comm]

theorem kind_ofName (k : Kind) : Kind.ofName k.typeName = some k := by
  cases k <;> decide +kernel

theorem structKind_ofName (k : StructKind) : StructKind.ofName k.typeName = some k := by
  cases k <;> decide +kernel

theorem kind_some {s : String} {k : Kind} (h : Kind.ofName s = some k) : k.typeName = s := by
  have := List.find?_some h
  simpa using this

theorem structKind_some {s : String} {k : StructKind} (h : StructKind.ofName s = some k) :
    k.typeName = s := by
  have := List.find?_some h
  simpa using this

theorem headOK_typeName {env : Env} {st : List String} {p : Property} (h : HeadOK env st p) :
    StrOK (typeName p) := by
  cases p
  case unknown name raw => simp only [HeadOK] at h; exact h.1
  all_goals (simp only [typeName]; decide +kernel)

/-! ## Sizes as 32 and 64 bit numbers -/

theorem leBytes_add (a b n : Nat) : leBytes (a + b) n = leBytes a n ++ leBytes b (n / 256 ^ a) := by
  induction a generalizing n with
  | zero => simp [leBytes]
  | succ a ih =>
    rw [Nat.succ_add, leBytes, ih, leBytes, List.cons_append, Nat.pow_succ',
      Nat.div_div_eq_div_mul]

theorem u64B_ofNat {n : Nat} (h : n < 2 ^ 32) :
    u64B (UInt64.ofNat n) = u32B (UInt32.ofNat n) ++ u32B 0 := by
  unfold u64B u32B
  rw [UInt64.toNat_ofNat', UInt32.toNat_ofNat', Nat.mod_eq_of_lt (by omega), Nat.mod_eq_of_lt h,
    show (8 : Nat) = 4 + 4 from rfl, leBytes_add, Nat.div_eq_of_lt (by omega)]
  rfl

theorem u64_ofNat_toNat {n : Nat} (h : n < 2 ^ 64) : (UInt64.ofNat n).toNat = n := by
  rw [UInt64.toNat_ofNat']; exact Nat.mod_eq_of_lt h

/-! ## Headers -/

section
variable {st : List String}

theorem reads_terminator : Reads st readTerminator [0] () := by
  unfold readTerminator
  exact (reads_zero).bind' (Reads.ensure rfl) (by simp)

theorem reads_zeroIndex : Reads st readZeroIndex (u32B 0) () := by
  unfold readZeroIndex
  exact (reads_u32 0).bind' (Reads.ensure rfl) (by simp)

theorem reads_assertedIndex : Reads st readAssertedIndex (u32B 0) () := by
  unfold readAssertedIndex
  exact (reads_u32 0).bind' (Reads.ensure rfl) (by simp)

theorem reads_separator : Reads st readSeparator [0] () := by
  unfold readSeparator
  exact (reads_zero).bind' (Reads.ensure rfl) (by simp)

theorem position_run (s : RS) : R.position s = (.ok s.pos, s) := rfl

theorem reads_sized {β : Type} {length : UInt32} {body : R β} {bs : Bytes} {r : β}
    (h : Reads st body bs r) (hl : bs.length = length.toNat) :
    Reads st (readSized length body) bs r := by
  intro rest pos
  unfold readSized
  rw [R.bind_ok (position_run _), R.bind_ok (h.run rest pos), R.bind_ok (position_run _),
    R.ensure_true (by simp only []; omega)]
  rfl

theorem reads_header' {α β : Type} {hdr : R α} {body : UInt32 → α → R β} {parts bs : Bytes}
    {a : α} {r : β} {len : UInt32} (hh : Reads st hdr parts a) (hb : Reads st (body len a) bs r)
    (hl : bs.length = len.toNat) :
    Reads st (readHeader hdr body) (u32B len ++ u32B 0 ++ parts ++ [0] ++ bs) r := by
  unfold readHeader
  simp only [List.append_assoc]
  exact (reads_u32 len).bind (reads_zeroIndex.bind (hh.bind (reads_terminator.bind
    (reads_sized hb hl))))

theorem reads_plain {β : Type} {body : R β} {bs : Bytes} {r : β} (hb : Reads st body bs r)
    (hl : bs.length < 2 ^ 32) :
    Reads st (readPlain true body)
      (u32B (UInt32.ofNat bs.length) ++ u32B 0 ++ [] ++ [0] ++ bs) r := by
  unfold readPlain
  rw [if_pos rfl]
  exact reads_header' (Reads.rpure ()) hb (u32_ofNat_toNat hl).symm

theorem reads_checkSize {n : Nat} (h : n < 2 ^ 32) :
    Reads st (checkSize n) (u32B (UInt32.ofNat n) ++ u32B 0) () := by
  unfold checkSize
  rw [← u64B_ofNat h]
  exact (reads_u64 _).bind' (Reads.ensure (u64_ofNat_toNat (by omega))) (by simp)

theorem reads_fixed {α : Type} {n : Nat} {m : R α} {bs : Bytes} {a : α} (h : Reads st m bs a)
    (hn : bs.length = n) (h32 : n < 2 ^ 32) :
    Reads st (readFixed true n m) (u32B (UInt32.ofNat bs.length) ++ u32B 0 ++ [] ++ [0] ++ bs) a := by
  unfold readFixed R.onlyIf
  rw [if_pos rfl, hn]
  refine Reads.bind' (b1 := u32B (UInt32.ofNat n) ++ u32B 0 ++ [0]) (Reads.bind (reads_checkSize h32) reads_separator) h ?_
  simp only [List.append_assoc, List.nil_append]

theorem reads_fixed_bare {α : Type} {n : Nat} {m : R α} {bs : Bytes} {a : α} (h : Reads st m bs a) :
    Reads st (readFixed false n m) bs a := by
  unfold readFixed R.onlyIf
  exact (Reads.rpure ()).bind0 h

/-! ## Lists -/

theorem Reads.congr {α : Type} {m : R α} {b b' : Bytes} {a : α} (h : Reads st m b a) (e : b' = b) :
    Reads st m b' a := e ▸ h

/-- Writers in a loop. -/
def writeEach {α : Type} (w : α → Res Out) : List α → Res Out
  | [] => .ok Out.nil
  | a :: l => do
    let x ← w a
    let y ← writeEach w l
    return x ++ y

theorem reads_all {α β : Type} {w : α → Res Out} {m : R β} {g : α → β} (l : List α) (out : Out)
    (hw : writeEach w l = .ok out)
    (h : ∀ a ∈ l, ∀ o, w a = .ok o → o.bytes.length ≤ out.bytes.length → Reads st m o.bytes (g a)) :
    Reads st (R.replicate m l.length) out.bytes (l.map g) := by
  induction l generalizing out with
  | nil => simp only [writeEach] at hw; cases hw; exact Reads.rpure _
  | cons a l ih =>
    simp only [writeEach] at hw
    obtain ⟨x, hx, hw⟩ := Res.bind_inv hw
    obtain ⟨y, hy, hw⟩ := Res.bind_inv hw
    cases hw
    simp only [Out.app_bytes, List.length_append] at h
    exact (h a (by simp) x hx (by omega)).bind
      (Reads.map (ih y hy fun b hb o ho hle => h b (by simp [hb]) o ho (by omega)))

theorem writeEach_length_eq {α : Type} {w : α → Res Out} {n : Nat} (l : List α) (out : Out)
    (hw : writeEach w l = .ok out)
    (h : ∀ a ∈ l, ∀ o, w a = .ok o → o.bytes.length = n) : out.bytes.length = n * l.length := by
  induction l generalizing out with
  | nil => simp only [writeEach] at hw; cases hw; simp
  | cons a l ih =>
    simp only [writeEach] at hw
    obtain ⟨x, hx, hw⟩ := Res.bind_inv hw
    obtain ⟨y, hy, hw⟩ := Res.bind_inv hw
    cases hw
    have h1 := h a (by simp) x hx
    have h2 := ih y hy fun b hb => h b (by simp [hb])
    simp only [Out.app_bytes, List.length_append, List.length_cons, Nat.mul_add]
    omega

theorem writeEach_length_ge {α : Type} {w : α → Res Out} {n : Nat} (l : List α) (out : Out)
    (hw : writeEach w l = .ok out)
    (h : ∀ a ∈ l, ∀ o, w a = .ok o → n ≤ o.bytes.length) : n * l.length ≤ out.bytes.length := by
  induction l generalizing out with
  | nil => simp
  | cons a l ih =>
    simp only [writeEach] at hw
    obtain ⟨x, hx, hw⟩ := Res.bind_inv hw
    obtain ⟨y, hy, hw⟩ := Res.bind_inv hw
    cases hw
    have h1 := h a (by simp) x hx
    have h2 := ih y hy fun b hb => h b (by simp [hb])
    simp only [Out.app_bytes, List.length_append, List.length_cons, Nat.mul_add]
    omega

theorem writeEach_ok {α : Type} {w : α → Res Out} (l : List α) (h : ∀ a ∈ l, ∃ o, w a = .ok o) :
    ∃ out, writeEach w l = .ok out := by
  induction l with
  | nil => exact ⟨_, rfl⟩
  | cons a l ih =>
    obtain ⟨x, hx⟩ := h a (by simp)
    obtain ⟨y, hy⟩ := ih fun b hb => h b (by simp [hb])
    exact ⟨x ++ y, by simp only [writeEach, hx, hy]; rfl⟩

theorem writeList_eq (cv : List (Guid × UInt32)) (l : List Property) :
    writeList cv l = writeEach (Property.write cv false) l := by
  induction l with
  | nil => simp only [writeList, writeEach]
  | cons a l ih => simp only [writeList, writeEach, ih]

theorem writeStructs_eq (cv : List (Guid × UInt32)) (l : List StructPropertyValue) :
    writeStructs cv l = writeEach (StructPropertyValue.writeBody cv) l := by
  induction l with
  | nil => simp only [writeStructs, writeEach]
  | cons a l ih => simp only [writeStructs, writeEach, ih]

theorem Res.bind_assoc {α β γ : Type} (m : Res α) (f : α → Res β) (g : β → Res γ) :
    ((m >>= f) >>= g) = (m >>= fun a => f a >>= g) := by cases m <;> rfl

theorem Res.pure_bind {α β : Type} (a : α) (f : α → Res β) : ((pure a : Res α) >>= f) = f a := rfl

theorem writeStrProps_eq (cv : List (Guid × UInt32)) (l : List (String × Property)) :
    writeStrProps cv l = writeEach (fun e => do
      let a ← Property.write cv false e.2
      return writeString e.1 ++ a) l := by
  induction l with
  | nil => simp only [writeStrProps, writeEach]
  | cons a l ih =>
    obtain ⟨k, p⟩ := a
    simp only [writeStrProps, writeEach, ih, Res.bind_assoc, Res.pure_bind]

theorem Out.append_assoc (a b c : Out) : a ++ b ++ c = a ++ (b ++ c) := by
  show Out.mk _ _ = Out.mk _ _
  simp [List.append_assoc, Nat.add_assoc]

theorem writePairs_eq (cv : List (Guid × UInt32)) (l : List (Property × Property)) :
    writePairs cv l = writeEach (fun e => do
      let a ← Property.write cv false e.1
      let b ← Property.write cv false e.2
      return a ++ b) l := by
  induction l with
  | nil => simp only [writePairs, writeEach]
  | cons a l ih =>
    obtain ⟨k, p⟩ := a
    simp only [writePairs, writeEach, ih, Res.bind_assoc, Res.pure_bind]

theorem baresOK_iff {env : Env} {st : List String} {ty : String} {l : List Property} :
    BaresOK env st ty l ↔ ∀ p ∈ l, BareOK env st ty p := by
  induction l with
  | nil => simp [BaresOK]
  | cons p l ih => simp [BaresOK, ih]

theorem structsOK_iff {env : Env} {st : List String} {ty : String}
    {l : List StructPropertyValue} :
    StructsOK env st ty l ↔ ∀ p ∈ l, StructOK env st ty p := by
  induction l with
  | nil => simp [StructsOK]
  | cons p l ih => simp [StructsOK, ih]

theorem valuesOK_iff {env : Env} {st : List String} {ty : String} {l : List (String × Property)} :
    ValuesOK env st ty l ↔ ∀ e ∈ l, SizeFree e.2 ∧ BareOK env st ty e.2 := by
  induction l with
  | nil => simp [ValuesOK]
  | cons e l ih => obtain ⟨k, p⟩ := e; simp [ValuesOK, ih, and_assoc]

theorem entriesOK_iff {env : Env} {st : List String} {kt vt : String}
    {l : List (Property × Property)} :
    EntriesOK env st kt vt l ↔ ∀ e ∈ l, (SizeFree e.1 ∧ BareOK env (st ++ ["Key"]) kt e.1) ∧
      SizeFree e.2 ∧ BareOK env (st ++ ["Value"]) vt e.2 := by
  induction l with
  | nil => simp [EntriesOK]
  | cons e l ih => obtain ⟨k, p⟩ := e; simp only [EntriesOK, ih, List.forall_mem_cons, and_assoc]

/-! ## Simple bodies -/

theorem reads_delegate {d : Delegate} (h : DelegateOK d) :
    Reads st Delegate.read d.write.bytes d := by
  unfold Delegate.read Delegate.write
  exact (reads_string h.1).bind (Reads.map (reads_string h.2))

theorem reads_concat {α β : Type} {m : R β} {w : α → Out} {g : α → β} (l : List α)
    (h : ∀ a ∈ l, Reads st m (w a).bytes (g a)) :
    Reads st (R.replicate m l.length) (concatOut w l).bytes (l.map g) := by
  rw [concatOut_bytes]
  exact Reads.replicate _ _ l h

theorem reads_counted {α β γ : Type} {m : R β} {w : α → Out} {g : α → β} {f : List β → γ}
    (l : List α) (hl : l.length < 2 ^ 32) (h : ∀ a ∈ l, Reads st m (w a).bytes (g a)) :
    Reads st (do let n ← readU32; let x ← R.replicate m n.toNat; return f x)
      (u32B (UInt32.ofNat l.length) ++ (concatOut w l).bytes) (f (l.map g)) := by
  refine (reads_u32 _).bind (Reads.map ?_)
  rw [u32_ofNat_toNat hl]
  exact reads_concat l h

theorem reads_multicast {ds : List Delegate} (h : MulticastOK ds) :
    Reads st readMulticast (writeMulticast ds).bytes ds := by
  unfold readMulticast writeMulticast
  refine (reads_u32 _).bind ?_
  rw [u32_ofNat_toNat h.1]
  have := reads_concat (st := st) (m := Delegate.read) (w := Delegate.write) (g := id) ds
    (fun d hd => reads_delegate (h.2 d hd))
  rwa [List.map_id] at this

theorem reads_fieldPath {p : FieldPath} (h : FieldPathOK p) :
    Reads st FieldPath.read p.write.bytes p := by
  unfold FieldPath.read FieldPath.write
  simp only [Out.app_bytes, List.append_assoc]
  refine (reads_u32 _).bind ?_
  rw [u32_ofNat_toNat h.1]
  have := reads_concat (st := st) (m := readString) (w := writeString) (g := id) p.path
    (fun d hd => reads_string (h.2.1 d hd))
  rw [List.map_id] at this
  exact this.bind (Reads.map (reads_string h.2.2))

/-- The suggested length lets the element be read. -/
def SugOK (sug : Option UInt32) : Property → Prop
  | .byte _ (.byte _) => sug = none ∨ sug = some 1
  | .byte _ (.namespaced _) => ∃ e : UInt32, sug = some e ∧ 5 ≤ e.toNat
  | .unknown _ raw => ∃ e : UInt32, sug = some e ∧ e.toNat = raw.length
  | _ => True

theorem sugOK_of_sizeFree {p : Property} (h : SizeFree p) : SugOK none p := by
  unfold SizeFree at h
  unfold SugOK
  split <;> simp_all

theorem reads_byteLength {debug : Bool} {e : UInt32} (h : 1 ≤ e.toNat) :
    Reads st (byteLength debug (some e)) [] (e - 1) := by
  show Reads st (subU32 debug e 1) _ _
  unfold subU32
  rw [if_neg (fun hc => by have := UInt32.lt_iff_toNat_lt.mp hc.1; simp at this; omega)]
  exact Reads.rpure _

theorem reads_byteValue_byte {len : UInt32} (h : len = 1 ∨ len = 0) (v : UInt8) :
    Reads st (readByteValue len) (u8B v) (.byte v) := by
  unfold readByteValue
  rw [if_pos h]
  exact Reads.map (reads_u8 v)

theorem reads_byteValue_name {len : UInt32} (h : ¬ (len = 1 ∨ len = 0)) {s : String} (hs : StrOK s) :
    Reads st (readByteValue len) (writeString s).bytes (.namespaced s) := by
  unfold readByteValue
  rw [if_neg h]
  exact Reads.map (reads_string hs)

theorem sub_one_ne {e : UInt32} (h : 5 ≤ e.toNat) : ¬ (e - 1 = 1 ∨ e - 1 = 0) := by
  have h1 : (e - 1).toNat = e.toNat - 1 := by
    rw [UInt32.toNat_sub_of_le]
    · rfl
    · rw [UInt32.le_iff_toNat_le]; simp; omega
  rintro (h2 | h2) <;> rw [h2] at h1 <;> simp at h1 <;> omega

theorem reads_byte_head {debug : Bool} {name : String} {v : BytePropertyValue} (hn : StrOK name)
    (hv : ByteOK v) (hl : v.write.bytes.length < 2 ^ 32) :
    Reads st (readByteProperty debug true none)
      (u32B (UInt32.ofNat v.write.bytes.length) ++ u32B 0 ++ (writeString name).bytes ++ [0] ++
        v.write.bytes) (.byte (some name) v) := by
  unfold readByteProperty
  rw [if_pos rfl]
  simp only [List.append_assoc]
  refine (reads_u32 _).bind (reads_assertedIndex.bind ((reads_string hn).bind
    (reads_separator.bind ?_)))
  cases v with
  | byte v =>
    refine Reads.bind0 (reads_byteLength ?_) (Reads.map (reads_byteValue_byte ?_ v))
    · simp [BytePropertyValue.write]
    · simp [BytePropertyValue.write]
  | namespaced s =>
    have h5 : 5 ≤ (UInt32.ofNat (BytePropertyValue.namespaced s).write.bytes.length).toNat := by
      rw [u32_ofNat_toNat hl]
      exact writeString_pos s
    exact Reads.bind0 (reads_byteLength (by omega)) (Reads.map (reads_byteValue_name (sub_one_ne h5) hv))

theorem reads_byte_bare {debug : Bool} {v : BytePropertyValue} {sug : Option UInt32}
    (hv : ByteOK v) (hs : SugOK sug (.byte none v)) :
    Reads st (readByteProperty debug false sug) v.write.bytes (.byte none v) := by
  unfold readByteProperty
  rw [if_neg (by simp)]
  cases v with
  | byte v =>
    simp only [SugOK] at hs
    rcases hs with rfl | rfl
    · exact Reads.bind0 (Reads.rpure 1) (Reads.map (reads_byteValue_byte (.inl rfl) v))
    · exact Reads.bind0 (reads_byteLength (by simp)) (Reads.map (reads_byteValue_byte (by simp) v))
  | namespaced s =>
    simp only [SugOK] at hs
    obtain ⟨e, rfl, he⟩ := hs
    exact Reads.bind0 (reads_byteLength (by omega)) (Reads.map (reads_byteValue_name (sub_one_ne he) hv))

end

end Gvas
