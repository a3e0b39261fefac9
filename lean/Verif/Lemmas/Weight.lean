import Verif.Lemmas.AcceptFile
import Verif.Props.Construct
import Verif.Spec.Weight

/-!
# How much is read from how many bytes
-/

namespace Gvas

open Spec

variable {l : Nat} {u : Bytes → Nat} {c e : Nat}

theorem weighProps_eq (ps : List Property) : weighProps l u ps = (ps.map (weigh l u)).sum := by
  induction ps with
  | nil => simp [weighProps]
  | cons p ps ih => simp [weighProps, ih]

theorem weighStructs_eq (vs : List StructPropertyValue) :
    weighStructs l u vs = (vs.map fun v => l + weighStruct l u v).sum := by
  induction vs with
  | nil => simp [weighStructs]
  | cons p ps ih => simp [weighStructs, ih]

theorem weighValues_eq (es : List (String × Property)) :
    weighValues l u es = (es.map fun e => l + weigh l u e.2).sum := by
  induction es with
  | nil => simp [weighValues]
  | cons p ps ih => simp [weighValues, ih]

theorem weighEntries_eq (es : List (Property × Property)) :
    weighEntries l u es = (es.map fun e => weigh l u e.1 + weigh l u e.2).sum := by
  induction es with
  | nil => simp [weighEntries]
  | cons p ps ih => simp [weighEntries, ih]

theorem sum_map_const {α : Type} (n : Nat) (v : List α) : (v.map fun _ => n).sum = n * v.length := by
  induction v with
  | nil => simp
  | cons a v ih => simp [ih, Nat.mul_add]; omega

theorem weighArray_eq (a : ArrayProperty) :
    weighArray l u a = ((elements a).map (weigh l u)).sum := by
  cases a <;>
    simp [weighArray, elements, List.map_map, Function.comp_def, weigh, weighProps_eq,
      weighStructs_eq, sum_map_const]

theorem weighMap_eq (m : MapProperty) :
    weighMap l u m = ((entries m).map fun e => weigh l u e.1 + weigh l u e.2).sum := by
  cases m <;>
    simp [weighMap, entries, List.map_map, Function.comp_def, weigh, weighValues_eq,
      weighEntries_eq, sum_map_const, Nat.two_mul]

theorem weighFields_push (k : String) (p : Property) (fs : List (String × List Property)) :
    weighFields l u (fieldPush k p fs) = weighFields l u fs + weigh l u p := by
  induction fs with
  | nil => simp [fieldPush, weighFields, weighProps]
  | cons x fs ih =>
    obtain ⟨k', ps⟩ := x
    simp only [fieldPush]
    split
    · simp only [weighFields, weighProps_eq, List.map_append, List.sum_append, List.map_cons,
        List.map_nil, List.sum_cons, List.sum_nil]
      omega
    · simp only [weighFields, ih]
      omega

/-- Weights that a byte can bear: `c` for each byte, and `e` extra for each element without
header, as many as there can be in a container. -/
structure Scale (l : Nat) (u : Bytes → Nat) (c e : Nat) : Prop where
  known : l ≤ c
  unknown : ∀ raw, u raw ≤ e + c * raw.length
  extra : 2 ^ 32 * e ≤ 4 * c

/-- The weight of what has been read from `k` bytes. -/
def WPost (l : Nat) (u : Bytes → Nat) (c e : Nat) (hdr : Bool) (p : Property) (k : Nat) : Prop :=
  weigh l u p ≤ (if hdr then 0 else e) + c * k

def RecW (l : Nat) (u : Bytes → Nat) (c e : Nat)
    (rec : String → Bool → Option UInt32 → R Property) : Prop :=
  ∀ st ty hdr sug, Ens st (rec ty hdr sug) (WPost l u c e hdr)

section
variable {st : List String} {env : Env}

theorem Ens.replicateW {α : Type} {m : R α} {w : α → Nat}
    (h : Ens st m (fun a k => w a ≤ e + c * k)) (n : Nat) :
    Ens st (R.replicate m n) (fun v k => (v.map w).sum ≤ n * e + c * k) := by
  induction n with
  | zero => exact Ens.rpure (by simp)
  | succ n ih =>
    refine h.bind fun a k hk => ih.bind fun v k' hk' => Ens.rpure ?_
    simp only [List.map_cons, List.sum_cons, Nat.mul_add, Nat.add_mul] at *
    omega

theorem leaf_le (hs : Scale l u c e) {k : Nat} (hk : 1 ≤ k) : l ≤ c * k :=
  Nat.le_trans hs.known (Nat.le_mul_of_pos_right c hk)

theorem leafW (hs : Scale l u c e) {α : Type} {mk : α → Property} {hdr : Bool} {m : R α}
    (hm : Ens st m (fun _ k => 1 ≤ k)) (hmk : ∀ a, weigh l u (mk a) = l) :
    Ens st (do return mk (← m)) (WPost l u c e hdr) :=
  hm.bind fun a k hk => Ens.pure (by
    unfold WPost
    rw [hmk]
    have := leaf_le hs hk
    simp only [Nat.add_zero]
    omega)

theorem ens_plainW {α : Type} {hdr : Bool} {m : R α} (hm : Ens st m (fun _ k => 1 ≤ k)) :
    Ens st (readPlain hdr m) (fun _ k => 1 ≤ k) := by
  cases hdr with
  | true => exact (ens_plain hm).mono fun a k ⟨_, _, _⟩ => by omega
  | false => exact hm

theorem ens_fixedW {α : Type} {hdr : Bool} {n : Nat} {m : R α} (hm : Ens st m (fun _ k => k = n))
    (hn : 1 ≤ n) : Ens st (readFixed hdr n m) (fun _ k => 1 ≤ k) :=
  (ens_fixed hm hdr).mono fun a k hk => by omega

theorem ens_byteW {hdr : Bool} {sug : Option UInt32} (hs : Scale l u c e) :
    Ens st (readByteProperty env.debug hdr sug) (WPost l u c e hdr) := by
  have hv : ∀ len, Ens st (readByteValue len) (fun _ k => 1 ≤ k) := by
    intro len
    unfold readByteValue
    split
    · exact ens_u8.bind fun _ _ _ => Ens.pure (by omega)
    · exact ens_string.bind fun _ _ _ => Ens.pure (by omega)
  unfold readByteProperty
  cases hdr
  · rw [if_neg (by simp)]
    refine ens_byteLength.bind fun len k1 h1 => (hv len).bind fun v k2 h2 => Ens.pure ?_
    have := leaf_le hs (k := k1 + (k2 + 0)) (by omega)
    simp only [WPost, weigh]
    omega
  · rw [if_pos rfl]
    refine ens_u32.bind fun _ k1 h1 => ens_assertedIndex.bind fun _ k2 h2 => ens_string.bind
      fun nm k3 h3 => ens_separator.bind fun _ k4 h4 => ens_byteLength.bind fun len k5 h5 =>
      (hv len).bind fun v k6 h6 => Ens.pure ?_
    have := leaf_le hs (k := k1 + (k2 + (k3 + (k4 + (k5 + (k6 + 0)))))) (by omega)
    simp only [WPost, weigh]
    omega

theorem ens_customW {rec : String → Bool → Option UInt32 → R Property} (hs : Scale l u c e)
    (hrec : RecW l u c e rec) (n : Nat) (fs : List (String × List Property)) :
    Ens st (readCustom env.debug rec n fs)
      (fun fs' k => l + weighFields l u fs' ≤ weighFields l u fs + c * k) := by
  induction n generalizing fs with
  | zero => exact Ens.outOfFuel
  | succ n ih =>
    unfold readCustom
    refine ens_string.bind fun name k1 h1 => ?_
    split
    · refine Ens.pure ?_
      have := leaf_le hs (k := k1 + 0) (by omega)
      omega
    · refine ens_string.bind fun ty k2 h2 => ?_
      refine Ens.bind (P := fun fs' k => weighFields l u fs' ≤ weighFields l u fs + c * k) ?_ ?_
      · refine Ens.withEntry ?_
        refine (hrec _ ty true none).bind fun p k3 h3 => ?_
        unfold insertProperty
        refine (Ens.ensure Ens.panic).bind fun _ k4 h4 => Ens.pure ?_
        rw [weighFields_push]
        simp only [WPost, if_true] at h3
        simp only [Nat.mul_add]
        omega
      · intro fs' k3 h3
        refine (ih fs').mono fun fs'' k4 h4 => ?_
        simp only [Nat.mul_add]
        omega

theorem ens_builtinW (hs : Scale l u c e) {kd : StructKind} : Ens st (readBuiltin env.cv kd)
    (fun v k => l + weighStruct l u v ≤ c * k) := by
  have key : ∀ {v : StructPropertyValue} {k : Nat}, weighStruct l u v = 0 → 1 ≤ k →
      l + weighStruct l u v ≤ c * k := by
    intro v k hv hk
    rw [hv]
    exact leaf_le hs hk
  cases kd <;> simp only [readBuiltin]
  all_goals
    first
    | (by_cases h : lwc env.cv = true
       · rw [if_pos h]
         repeat refine ens_f64.bind fun _ _ _ => ?_
         exact Ens.pure (key rfl (by omega))
       · rw [if_neg h]
         repeat refine ens_f32.bind fun _ _ _ => ?_
         exact Ens.pure (key rfl (by omega)))
    | (repeat refine ens_f32.bind fun _ _ _ => ?_
       repeat refine ens_u64.bind fun _ _ _ => ?_
       repeat refine ens_i32.bind fun _ _ _ => ?_
       repeat refine ens_guid.bind fun _ _ _ => ?_
       exact Ens.pure (key rfl (by omega)))
    | (refine ens_i32.bind fun c k1 h1 => ens_capacity.bind fun n k2 h2 => (Ens.replicate (P := StrOK)
         (w := fun s => (writeString s).bytes.length) (ens_string.mono fun _ _ h => ⟨h.1, h.2.2⟩)
         n).bind fun l k3 h3 => Ens.pure (key rfl (by omega)))

theorem ens_structBodyW {rec : String → Bool → Option UInt32 → R Property} (hs : Scale l u c e)
    (hrec : RecW l u c e rec) {fuel : Nat} {ty : String} : Ens st (readStructBody env fuel rec ty)
      (fun v k => l + weighStruct l u v ≤ c * k) := by
  unfold readStructBody
  split
  · exact ens_builtinW hs
  · refine (ens_customW hs hrec fuel []).bind fun fs k h => Ens.pure ?_
    simp only [weighFields] at h
    simp only [weighStruct, Nat.add_zero]
    omega

theorem count_le (hs : Scale l u c e) (count : UInt32) : count.toNat * e ≤ c * 4 := by
  have h1 := hs.extra
  have h2 : count.toNat * e ≤ 2 ^ 32 * e := Nat.mul_le_mul_right e (Nat.le_of_lt count.toNat_lt)
  omega

theorem ens_arrayBodyW {rec : String → Bool → Option UInt32 → R Property} (hs : Scale l u c e)
    (hrec : RecW l u c e rec) {fuel : Nat} {length : UInt32} {ty : String} :
    Ens st (readArrayBody env fuel rec length ty) (fun v k => weighArray l u v ≤ c * k) := by
  unfold readArrayBody
  refine ens_u32.bind fun count k0 h0 => ?_
  subst h0
  have hc := count_le hs count
  split
  · refine ens_structInfo.bind fun x k1 h1 => ?_
    obtain ⟨field, size, sty, guid⟩ := x
    simp only []
    refine Ens.position.bind fun _ k2 h2 => ?_
    refine (Ens.replicateW (e := 0) (c := c) (w := fun v => l + weighStruct l u v)
      ((ens_structBodyW hs hrec).mono fun v k h => by omega) count.toNat).bind fun vs k3 h3 => ?_
    refine Ens.position.bind fun _ k4 h4 => (Ens.ensure Ens.failPos).bind fun _ k5 h5 => ?_
    refine Ens.lift fun v hv => ?_
    rw [weighArray_eq, (C35_array_new_keeps _ _ _ _ hv).2.1, List.map_map]
    simp only [Function.comp_def, weigh, Nat.mul_add]
    omega
  · refine (Ens.replicateW (e := e) (c := c) (hrec _ _ false _) count.toNat).bind fun ps k3 h3 => ?_
    refine Ens.lift fun v hv => ?_
    rw [weighArray_eq, (C35_array_new_keeps _ _ _ _ hv).2.1]
    simp only [Nat.mul_add]
    omega

theorem ens_setBodyW {rec : String → Bool → Option UInt32 → R Property} (hs : Scale l u c e)
    (hrec : RecW l u c e rec) {length : UInt32} {ty : String} :
    Ens st (readSetBody env.debug rec length ty) (fun p k => weigh l u p ≤ l + c * k) := by
  unfold readSetBody
  refine ens_u32.bind fun fl k1 h1 => ens_u32.bind fun count k2 h2 => ?_
  subst h1 h2
  have hc := count_le hs count
  refine Ens.bind (P := fun ps k => weighProps l u ps ≤ count.toNat * e + c * k) ?_
    fun ps k3 h3 => Ens.pure ?_
  · unfold readSetElems
    split
    · refine ens_subU32.bind fun avail k4 h4 => ?_
      refine (Ens.replicateW (e := e) (c := c) (hrec _ _ false _) count.toNat).mono fun ps k5 h5 => ?_
      rw [weighProps_eq]
      simp only [Nat.mul_add]
      omega
    · exact Ens.rpure (by simp [weighProps])
  · simp only [weigh, Nat.mul_add]
    omega

theorem ens_mapBodyW {rec : String → Bool → Option UInt32 → R Property} (hs : Scale l u c e)
    (hrec : RecW l u c e rec) {kt vt : String} :
    Ens st (readMapBody rec kt vt) (fun p k => weigh l u p ≤ l + c * k) := by
  unfold readMapBody
  refine ens_u32.bind fun fl k1 h1 => ens_u32.bind fun count k2 h2 => ?_
  subst h1 h2
  have hc := count_le hs count
  refine (Ens.replicateW (e := e + e) (c := c)
    (w := fun x : Property × Property => weigh l u x.1 + weigh l u x.2) ?_ count.toNat).bind
    fun es k3 h3 => Ens.pure ?_
  · unfold readMapEntry
    refine (Ens.withEntry (hrec _ _ false _)).bind fun k k4 h4 =>
      (Ens.withEntry (hrec _ _ false _)).bind fun v k5 h5 => Ens.pure ?_
    have a : weigh l u k ≤ e + c * k4 := h4
    have b : weigh l u v ≤ e + c * k5 := h5
    simp only [Nat.mul_add]
    omega
  · have hx := imExtend_sum (same := sameKey) (weigh l u) (weigh l u) es []
    have hd := imExtend_distinct (same := sameKey) es [] (by simp)
    rw [weigh, weighMap_eq, (C36_map_new_keeps _ _ _ _ hd).2.2.2]
    simp only [List.map_nil, List.sum_nil] at hx
    simp only [Nat.mul_add] at h3 ⊢
    omega

theorem ens_textW (n : Nat) : Ens st (FText.read env.cv n) (fun _ k => 1 ≤ k) := by
  cases n with
  | zero => exact Ens.outOfFuel
  | succ n =>
    unfold FText.read
    exact ens_u32.bind fun _ k1 h1 => (ens_history (ens_text n)).bind fun _ k2 _ =>
      Ens.pure (by omega)

theorem ens_multicastW : Ens st readMulticast (fun _ k => 1 ≤ k) := by
  unfold readMulticast
  exact ens_u32.bind fun n k1 h1 => (Ens.replicate ens_delegate n.toNat).mono fun _ k _ => by omega

theorem ens_fieldPathW : Ens st FieldPath.read (fun _ k => 1 ≤ k) := by
  unfold FieldPath.read
  exact ens_u32.bind fun n k1 h1 => (Ens.replicate (P := StrOK)
    (w := fun s => (writeString s).bytes.length) (ens_string.mono fun _ _ h => ⟨h.1, h.2.2⟩)
    n.toNat).bind fun v k2 h2 => ens_string.bind fun o k3 h3 => Ens.pure (by omega)

theorem headerW {α : Type} (hs : Scale l u c e) {hdr : R α} {body : UInt32 → α → R Property}
    {P : α → Nat → Prop} (h1 : Ens st hdr P)
    (h2 : ∀ len a, Ens st (body len a) (fun p k => weigh l u p ≤ l + c * k)) :
    Ens st (readHeader hdr body) (WPost l u c e true) := by
  refine (ens_header h1 fun len a _ _ => h2 len a).mono ?_
  rintro p k ⟨a, k1, k2, -, h, rfl⟩
  have := hs.known
  simp only [WPost, if_true, Nat.mul_add]
  omega

theorem ens_kindW {rec : String → Bool → Option UInt32 → R Property} (hs : Scale l u c e)
    (hrec : RecW l u c e rec) {fuel : Nat} {hdr : Bool} {sug : Option UInt32} (k : Kind) :
    Ens st (readKind env fuel rec hdr sug k) (WPost l u c e hdr) := by
  cases k <;> simp only [readKind]
  case int8 => exact leafW hs (ens_fixedW ens_i8 (by omega)) fun _ => by simp only [weigh]
  case byte => exact ens_byteW hs
  case int16 => exact leafW hs (ens_fixedW ens_i16 (by omega)) fun _ => by simp only [weigh]
  case uint16 => exact leafW hs (ens_fixedW ens_u16 (by omega)) fun _ => by simp only [weigh]
  case int => exact leafW hs (ens_fixedW ens_i32 (by omega)) fun _ => by simp only [weigh]
  case uint32 => exact leafW hs (ens_fixedW ens_u32 (by omega)) fun _ => by simp only [weigh]
  case int64 => exact leafW hs (ens_fixedW ens_i64 (by omega)) fun _ => by simp only [weigh]
  case uint64 => exact leafW hs (ens_fixedW ens_u64 (by omega)) fun _ => by simp only [weigh]
  case float => exact leafW hs (ens_fixedW ens_f32 (by omega)) fun _ => by simp only [weigh]
  case double => exact leafW hs (ens_fixedW ens_f64 (by omega)) fun _ => by simp only [weigh]
  case bool =>
    refine leafW hs ?_ fun _ => by simp only [weigh]
    unfold readBoolProperty
    exact (Ens.onlyIf ens_checkSize).bind fun _ k1 _ => ens_bool.bind fun v k2 h2 =>
      (Ens.onlyIf ens_separator).bind fun _ k3 _ => Ens.pure (by omega)
  case enum =>
    unfold readEnumProperty
    cases hdr
    · rw [if_neg (by simp)]
      exact leafW hs (ens_string.mono fun _ _ h => by omega) fun _ => by simp only [weigh]
    · rw [if_pos rfl]
      refine headerW hs ens_string fun len a => ?_
      exact ens_string.bind fun s k hk => Ens.pure (by simp only [weigh]; omega)
  case str =>
    exact leafW hs (ens_plainW (ens_fstring.mono fun _ _ h => by omega)) fun _ => by simp only [weigh]
  case text => exact leafW hs (ens_plainW (ens_textW fuel)) fun _ => by simp only [weigh]
  case name =>
    unfold readNameProperty
    cases hdr
    · rw [if_neg (by simp)]
      exact leafW hs (ens_fstring.mono fun _ _ h => by omega) fun _ => by simp only [weigh]
    · rw [if_pos rfl]
      refine ens_u32.bind fun _ k1 h1 => ens_u32.bind fun idx k2 h2 => ens_terminator.bind
        fun _ k3 h3 => (ens_sized (ens_fstring.bind (Q := fun p k => weigh l u p ≤ l)
          fun s k hk => Ens.pure (by simp only [weigh]; omega))).mono fun p k hk => ?_
      have := leaf_le hs (k := k1 + (k2 + (k3 + k))) (by omega)
      simp only [WPost, if_true]
      omega
  case object =>
    exact leafW hs (ens_plainW (ens_string.mono fun _ _ h => by omega)) fun _ => by simp only [weigh]
  case delegate =>
    refine leafW hs (ens_plainW ?_) fun _ => by simp only [weigh]
    unfold Delegate.read
    exact ens_string.bind fun _ _ _ => ens_string.bind fun _ _ _ => Ens.pure (by omega)
  case multicastInlineDelegate =>
    exact leafW hs (ens_plainW ens_multicastW) fun _ => by simp only [weigh]
  case multicastSparseDelegate =>
    exact leafW hs (ens_plainW ens_multicastW) fun _ => by simp only [weigh]
  case fieldPath => exact leafW hs (ens_plainW ens_fieldPathW) fun _ => by simp only [weigh]
  case struct =>
    unfold readStructProperty
    cases hdr
    · rw [if_neg (by simp)]
      refine Ens.getStack.bind fun s k1 h1 => ?_
      simp only []
      split
      · refine (ens_structBodyW hs hrec).bind fun v k hk => Ens.pure ?_
        simp only [WPost, weigh, Nat.mul_add]
        omega
      · exact Ens.failPos
    · rw [if_pos rfl]
      refine headerW (P := fun _ _ => True) hs
        (ens_string.bind fun _ _ _ => ens_guid.bind fun _ _ _ => Ens.pure trivial) fun _ x =>
        (ens_structBodyW hs hrec).bind fun v k hk => Ens.pure ?_
      simp only [weigh, Nat.add_zero]
      omega
  case array =>
    unfold readArrayProperty
    cases hdr
    · exact Ens.failPos
    · rw [if_pos rfl]
      refine headerW hs ens_string fun len a => ?_
      exact (ens_arrayBodyW hs hrec).bind fun s k hk => Ens.pure (by
        simp only [weigh, Nat.add_zero]
        omega)
  case set =>
    unfold readSetProperty
    cases hdr
    · exact Ens.failPos
    · rw [if_pos rfl]
      exact headerW hs ens_string fun len a => ens_setBodyW hs hrec
  case map =>
    unfold readMapProperty
    cases hdr
    · exact Ens.failPos
    · rw [if_pos rfl]
      exact headerW (P := fun _ _ => True) hs
        (ens_string.bind fun _ _ _ => ens_string.bind fun _ _ _ => Ens.pure trivial) fun _ _ =>
        ens_mapBodyW hs hrec

theorem ens_unknownW {hdr : Bool} {ty : String} {sug : Option UInt32} (hs : Scale l u c e) :
    Ens st (readUnknown ty hdr sug) (WPost l u c e hdr) := by
  unfold readUnknown
  cases hdr
  · rw [if_neg (by simp)]
    cases sug with
    | none => exact Ens.failPos
    | some n =>
      refine Ens.take.bind fun raw k1 h1 => Ens.pure ?_
      have := hs.unknown raw
      rw [h1.1] at this
      simp only [WPost, weigh, Nat.add_zero, h1.2]
      simpa using this
  · rw [if_pos rfl]
    refine ens_u32.bind fun len k1 h1 => ens_assertedIndex.bind fun _ k2 h2 => ens_separator.bind
      fun _ k3 h3 => Ens.take.bind fun raw k4 h4 => Ens.pure ?_
    have := hs.unknown raw
    have := hs.extra
    rw [h4.1, ← h4.2] at *
    subst h1
    simp only [WPost, weigh, if_true, Nat.mul_add]
    omega

/-- What `Property::new` returns weighs no more than the bytes it has read. -/
theorem weight_property (hs : Scale l u c e) (n : Nat) :
    RecW l u c e (Property.read env n) := by
  induction n with
  | zero => exact fun _ _ _ _ => Ens.outOfFuel
  | succ n ih =>
    intro st ty hdr sug
    show Ens st (Property.readStep env (n + 1) (Property.read env n) ty hdr sug) _
    unfold Property.readStep
    refine Ens.withEntry ?_
    split
    · exact ens_kindW hs ih _
    · exact ens_unknownW hs

theorem ens_topW {rec : String → Bool → Option UInt32 → R Property}
    (hrec : RecW l u c e rec) (n : Nat) (ps : List (String × Property)) :
    Ens st (readTop rec n ps) (fun qs k =>
      (qs.map fun x => weigh l u x.2).sum ≤ (ps.map fun x => weigh l u x.2).sum + c * k) := by
  induction n generalizing ps with
  | zero => exact Ens.outOfFuel
  | succ n ih =>
    rw [readTop]
    refine ens_string.bind fun name k1 h1 => ?_
    split
    · exact Ens.pure (by omega)
    · refine ens_string.bind fun ty k2 h2 => (Ens.withEntry (hrec _ _ true none)).bind
        fun p k3 h3 => (ih _).mono fun qs k4 h4 => ?_
      have hx := imInsert_sum (same := fun a b : String => a == b) (fun _ => 0) (weigh l u) name p ps
      simp only [Nat.zero_add] at hx
      simp only [WPost, if_true] at h3
      simp only [Nat.mul_add]
      omega

end

/-- What is read from a file weighs no more than its bytes. -/
theorem weight_data {debug : Bool} {hints : String → Option String} {data : Bytes}
    {h : GvasHeader} {ps : List (String × Property)} (hs : Scale l u c e)
    (hr : (readData debug hints data).1 = .ok (h, ps)) :
    (ps.map fun x => weigh l u x.2).sum ≤ c * data.length := by
  have e : readContents debug hints (data.length + 1) (RS.init data) =
      (.ok (h, ps), (readData debug hints data).2) := by
    rw [← hr]; rfl
  have hens : Ens [] (readContents debug hints (data.length + 1))
      (fun x k => (x.2.map fun x => weigh l u x.2).sum ≤ c * k) := by
    unfold readContents
    refine ens_gvasHeader.bind fun h k1 h1 => ?_
    refine (ens_topW (weight_property hs _) _ []).bind fun ps k2 h2 => Ens.pure ?_
    simp only [List.map_nil, List.sum_nil] at h2
    simp only [Nat.mul_add]
    omega
  obtain ⟨_, k, hk, hw⟩ := hens _ _ _ _ e
  obtain ⟨pre, h4, h5, _⟩ := (readContents_good debug hints (data.length + 1) (RS.init data)).consumes
  rw [e] at h4 h5
  simp only [RS.init] at h4 h5
  have h6 := congrArg List.length h4
  simp only [List.length_append] at h6
  exact Nat.le_trans hw (Nat.mul_le_mul_left c (by omega))

end Gvas
