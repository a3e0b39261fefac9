import Verif.Lemmas.Accept

/-! # Arrays, sets, maps and whole properties that were read are representable -/

namespace Gvas

open Spec

variable {env : Env} {st : List String}

/-! ## Compact representations -/

section collect

variable {α β : Type} {f : α → Option β}

theorem collect_spec (l : List α) (bs : List β) (h : collect f l = some bs) :
    bs.length = l.length ∧ ∀ b ∈ bs, ∃ a ∈ l, f a = some b := by
  induction l generalizing bs with
  | nil => simp only [collect, Option.some.injEq] at h; subst h; simp
  | cons a l ih =>
    simp only [collect] at h
    split at h
    · rename_i b bs' h1 h2
      cases h
      obtain ⟨e, hall⟩ := ih _ h2
      refine ⟨by simp [e], ?_⟩
      intro x hx
      rcases List.mem_cons.mp hx with rfl | hx
      · exact ⟨a, by simp, h1⟩
      · obtain ⟨y, hy, hf⟩ := hall x hx
        exact ⟨y, by simp [hy], hf⟩
    · cases h

theorem collect_sum {w : α → Nat} {w' : β → Nat} (hw : ∀ a b, f a = some b → w' b = w a)
    (l : List α) (bs : List β) (h : collect f l = some bs) : (bs.map w').sum = (l.map w).sum := by
  induction l generalizing bs with
  | nil => simp only [collect, Option.some.injEq] at h; subst h; simp
  | cons a l ih =>
    simp only [collect] at h
    split at h
    · rename_i b bs' h1 h2
      cases h
      simp only [List.map_cons, List.sum_cons, ih _ h2, hw a b h1]
    · cases h

end collect

/-! ## Elements of a given type -/

theorem bare_bool {p : Property} (h : BareOK env st "BoolProperty" p) : ∃ v, p = .bool v := by
  cases p <;> simp [BareOK] at h ⊢
  exact absurd (h.1 ▸ h.2) (by decide)
theorem bare_int {p : Property} (h : BareOK env st "IntProperty" p) : ∃ v, p = .int v := by
  cases p <;> simp [BareOK] at h ⊢
  exact absurd (h.1 ▸ h.2) (by decide)
theorem bare_float {p : Property} (h : BareOK env st "FloatProperty" p) : ∃ v, p = .float v := by
  cases p <;> simp [BareOK] at h ⊢
  exact absurd (h.1 ▸ h.2) (by decide)
theorem bare_enum {p : Property} (h : BareOK env st "EnumProperty" p) :
    ∃ v, p = .enum none v ∧ StrOK v := by
  cases p <;> simp [BareOK] at h ⊢
  · obtain ⟨rfl, h⟩ := h
    exact ⟨_, ⟨rfl, rfl⟩, h⟩
  · exact absurd (h.1 ▸ h.2) (by decide)
theorem bare_name {p : Property} (h : BareOK env st "NameProperty" p) :
    ∃ v, p = .name 0 v ∧ FStrOK v := by
  cases p <;> simp [BareOK] at h ⊢
  · obtain ⟨rfl, h⟩ := h
    exact ⟨_, ⟨rfl, rfl⟩, h⟩
  · exact absurd (h.1 ▸ h.2) (by decide)
theorem bare_str {p : Property} (h : BareOK env st "StrProperty" p) :
    ∃ v, p = .str v ∧ FStrOK v := by
  cases p <;> simp [BareOK] at h ⊢
  · exact h
  · exact absurd (h.1 ▸ h.2) (by decide)
theorem bare_byte {p : Property} (h : BareOK env st "ByteProperty" p) :
    ∃ v, p = .byte none v ∧ ByteOK v := by
  cases p <;> simp [BareOK] at h ⊢
  · obtain ⟨rfl, h⟩ := h
    exact ⟨_, ⟨rfl, rfl⟩, h⟩
  · exact absurd (h.1 ▸ h.2) (by decide)

/-! ## Arrays -/

/-- What `ArrayProperty::new` returns for elements that were read. -/
def ArrayPost (env : Env) (st : List String) (ty : String) (total : Nat) (v : ArrayProperty) :
    Prop :=
  ArrayOK env st v ∧ v.propertyType = ty ∧ outLen (v.writeBody env.cv) ≤ 4 + total

/-- Bytes of elements without headers. -/
def bareSize (cv : List (Guid × UInt32)) (p : Property) : Nat := outLen (p.write cv false)

theorem outLen_list (cv : List (Guid × UInt32)) (ps : List Property) :
    outLen (writeList cv ps) ≤ (ps.map (bareSize cv)).sum := by
  rw [writeList_eq]
  exact outLen_each ps

theorem array_new {ty : String} {ps : List Property} {v : ArrayProperty} {c : Option Nat}
    (hty : StrOK ty) (hns : ty ≠ "StructProperty") (hlen : ps.length < 2 ^ 32)
    (hps : ∀ p ∈ ps, BareOK env st ty p ∧ sizeClass p = c)
    (h : ArrayProperty.new ty none ps = .ok v) :
    ArrayPost env st ty (ps.map (bareSize env.cv)).sum v := by
  have huni : Uniform ps := fun p hp q hq => by rw [(hps p hp).2, (hps q hq).2]
  have hbares : BaresOK env st ty ps := baresOK_iff.mpr fun p hp => (hps p hp).1
  have hwl := outLen_list env.cv ps
  have hprops : ∀ hc : ty ∉ compactArrayTypes, ∀ hb : (ty = "ByteProperty" → ∃ p ∈ ps, isNamespaced p),
      ArrayPost env st ty (ps.map (bareSize env.cv)).sum (.properties ty ps) := by
    intro hc hb
    refine ⟨?_, rfl, ?_⟩
    · simp only [ArrayOK]
      exact ⟨hty, hns, hc, hb, hlen, huni, hbares⟩
    · simp only [ArrayProperty.writeBody]
      refine outLen_map hwl fun o ho => ?_
      simp
      omega
  simp only [ArrayProperty.new] at h
  split at h
  · rename_i e; subst e
    unfold compactArray at h
    split at h
    · rename_i bs hbs
      cases h
      obtain ⟨hl, hall⟩ := collect_spec _ _ hbs
      have hsum := collect_sum (w := bareSize env.cv) (w' := fun _ => 1) (f := asBool) (by
        intro a b hab
        cases a <;> simp only [asBool] at hab <;> cases hab
        rfl) ps bs hbs
      refine ⟨by simp only [ArrayOK]; omega, rfl, ?_⟩
      simp only [ArrayProperty.writeBody, outLen, Out.app_bytes, List.length_append, u32O_bytes,
        u32B_length, concatOut_length, boolB_length]
      omega
    · rename_i hn
      obtain ⟨a, ha, hf⟩ := collect_none.mp hn
      obtain ⟨x, rfl⟩ := bare_bool (hps a ha).1
      simp [asBool] at hf
  split at h
  · rename_i e; subst e
    unfold compactArray at h
    split at h
    · rename_i bs hbs
      cases h
      obtain ⟨hl, hall⟩ := collect_spec _ _ hbs
      have hsum := collect_sum (w := bareSize env.cv) (w' := fun _ => 1) (f := asByte) (by
        intro a b hab
        unfold asByte at hab
        split at hab <;> cases hab
        rfl) ps bs hbs
      refine ⟨by simp only [ArrayOK]; omega, rfl, ?_⟩
      simp only [ArrayProperty.writeBody, outLen, Out.app_bytes, List.length_append, u32O_bytes,
        u32B_length, concatOut_length, u8B_length]
      omega
    · rename_i hn
      cases h
      obtain ⟨a, ha, hf⟩ := collect_none.mp hn
      refine hprops (by decide) fun _ => ⟨a, ha, ?_⟩
      obtain ⟨x, rfl, _⟩ := bare_byte (hps a ha).1
      cases x
      · simp [asByte] at hf
      · trivial
  split at h
  · rename_i e; subst e
    unfold compactArray at h
    split at h
    · rename_i bs hbs
      cases h
      obtain ⟨hl, hall⟩ := collect_spec _ _ hbs
      have hsum := collect_sum (w := bareSize env.cv) (w' := fun s => (writeString s).bytes.length)
        (f := asEnum) (by
          intro a b hab
          unfold asEnum at hab
          split at hab <;> cases hab
          rfl) ps bs hbs
      refine ⟨?_, rfl, ?_⟩
      · simp only [ArrayOK]
        refine ⟨by omega, fun s hs => ?_⟩
        obtain ⟨a, ha, hf⟩ := hall s hs
        obtain ⟨x, rfl, hx⟩ := bare_enum (hps a ha).1
        simp only [asEnum, Option.some.injEq] at hf
        subst hf; exact hx
      · simp only [ArrayProperty.writeBody, outLen, Out.app_bytes, List.length_append, u32O_bytes,
          u32B_length, concatOut_length]
        omega
    · rename_i hn
      obtain ⟨a, ha, hf⟩ := collect_none.mp hn
      obtain ⟨x, rfl, _⟩ := bare_enum (hps a ha).1
      simp [asEnum] at hf
  split at h
  · rename_i e; subst e
    unfold compactArray at h
    split at h
    · rename_i bs hbs
      cases h
      obtain ⟨hl, hall⟩ := collect_spec _ _ hbs
      have hsum := collect_sum (w := bareSize env.cv) (w' := fun _ => 4) (f := asInt) (by
        intro a b hab
        cases a <;> simp only [asInt] at hab <;> cases hab
        simp [bareSize, Property.write, outLen, headed_false]) ps bs hbs
      refine ⟨by simp only [ArrayOK]; omega, rfl, ?_⟩
      simp only [ArrayProperty.writeBody, outLen, Out.app_bytes, List.length_append, u32O_bytes,
        u32B_length, concatOut_length, i32B_length]
      omega
    · rename_i hn
      obtain ⟨a, ha, hf⟩ := collect_none.mp hn
      obtain ⟨x, rfl⟩ := bare_int (hps a ha).1
      simp [asInt] at hf
  split at h
  · rename_i e; subst e
    unfold compactArray at h
    split at h
    · rename_i bs hbs
      cases h
      obtain ⟨hl, hall⟩ := collect_spec _ _ hbs
      have hsum := collect_sum (w := bareSize env.cv) (w' := fun _ => 4) (f := asFloat) (by
        intro a b hab
        cases a <;> simp only [asFloat] at hab <;> cases hab
        simp [bareSize, Property.write, outLen, headed_false]) ps bs hbs
      refine ⟨by simp only [ArrayOK]; omega, rfl, ?_⟩
      simp only [ArrayProperty.writeBody, outLen, Out.app_bytes, List.length_append, u32O_bytes,
        u32B_length, concatOut_length, f32B_length]
      omega
    · rename_i hn
      obtain ⟨a, ha, hf⟩ := collect_none.mp hn
      obtain ⟨x, rfl⟩ := bare_float (hps a ha).1
      simp [asFloat] at hf
  split at h
  · rename_i e; subst e
    unfold compactArray at h
    split at h
    · rename_i bs hbs
      cases h
      obtain ⟨hl, hall⟩ := collect_spec _ _ hbs
      have hsum := collect_sum (w := bareSize env.cv) (w' := fun s => (writeFString s).bytes.length)
        (f := asName) (by
          intro a b hab
          unfold asName at hab
          split at hab
          · split at hab <;> cases hab
            rfl
          · cases hab) ps bs hbs
      refine ⟨?_, rfl, ?_⟩
      · simp only [ArrayOK]
        refine ⟨by omega, fun s hs => ?_⟩
        obtain ⟨a, ha, hf⟩ := hall s hs
        obtain ⟨x, rfl, hx⟩ := bare_name (hps a ha).1
        simp only [asName, if_true, Option.some.injEq] at hf
        subst hf; exact hx
      · simp only [ArrayProperty.writeBody, outLen, Out.app_bytes, List.length_append, u32O_bytes,
          u32B_length, concatOut_length]
        omega
    · rename_i hn
      obtain ⟨a, ha, hf⟩ := collect_none.mp hn
      obtain ⟨x, rfl, _⟩ := bare_name (hps a ha).1
      simp [asName] at hf
  split at h
  · rename_i e; subst e
    unfold compactArray at h
    split at h
    · rename_i bs hbs
      cases h
      obtain ⟨hl, hall⟩ := collect_spec _ _ hbs
      have hsum := collect_sum (w := bareSize env.cv) (w' := fun s => (writeFString s).bytes.length)
        (f := asStr) (by
          intro a b hab
          unfold asStr at hab
          split at hab <;> cases hab
          rfl) ps bs hbs
      refine ⟨?_, rfl, ?_⟩
      · simp only [ArrayOK]
        refine ⟨by omega, fun s hs => ?_⟩
        obtain ⟨a, ha, hf⟩ := hall s hs
        obtain ⟨x, rfl, hx⟩ := bare_str (hps a ha).1
        simp only [asStr, Option.some.injEq] at hf
        subst hf; exact hx
      · simp only [ArrayProperty.writeBody, outLen, Out.app_bytes, List.length_append, u32O_bytes,
          u32B_length, concatOut_length]
        omega
    · rename_i hn
      obtain ⟨a, ha, hf⟩ := collect_none.mp hn
      obtain ⟨x, rfl, _⟩ := bare_str (hps a ha).1
      simp [asStr] at hf
  · cases h
    refine hprops ?_ (by intro e; contradiction)
    simp only [compactArrayTypes, List.mem_cons, List.not_mem_nil, or_false, not_or]
    exact ⟨‹_›, ‹_›, ‹_›, ‹_›, ‹_›, ‹_›⟩

theorem collect_structValue (vs : List StructPropertyValue) :
    collect asStructValue (vs.map Property.structValue) = some vs := by
  induction vs with
  | nil => rfl
  | cons v vs ih => simp only [List.map_cons, collect, asStructValue, ih]

theorem ens_structInfo : Ens st readStructInfo
    (fun x k => StrOK x.1 ∧ StrOK x.2.2.1 ∧
      25 + (writeString x.1).bytes.length + (writeString "StructProperty").bytes.length +
        (writeString x.2.2.1).bytes.length ≤ 2 * k) := by
  unfold readStructInfo
  refine ens_string.bind fun f k1 h1 => ens_string.bind fun i k2 h2 =>
    (Ens.ensure Ens.panic).bind fun _ k3 h3 => ens_u64.bind fun sz k4 h4 =>
    ens_string.bind fun ty k5 h5 => ens_guid.bind fun g k6 h6 => ens_terminator.bind fun _ k7 h7 =>
    Ens.pure ?_
  obtain ⟨rfl, h3⟩ := h3
  refine ⟨h1.1, h5.1, ?_⟩
  simp only
  omega

theorem ens_arrayBody {rec : String → Bool → Option UInt32 → R Property} (hrec : RecPost env rec)
    {fuel : Nat} {length : UInt32} {ty : String} (hty : StrOK ty) :
    Ens st (readArrayBody env fuel rec length ty)
      (fun v k => ArrayOK env st v ∧ v.propertyType = ty ∧ outLen (v.writeBody env.cv) ≤ 2 * k) := by
  unfold readArrayBody
  refine ens_u32.bind fun count k0 h0 => ?_
  have hcount := count.toNat_lt
  split
  · rename_i e; subst e
    refine ens_structInfo.bind fun x k1 h1 => ?_
    obtain ⟨field, size, sty, guid⟩ := x
    simp only []
    refine Ens.position.bind fun _ k2 h2 => ?_
    refine (Ens.replicate (ens_structBody hrec) count.toNat).bind fun vs k3 h3 => ?_
    refine Ens.position.bind fun _ k4 h4 => (Ens.ensure Ens.failPos).bind fun _ k5 h5 => ?_
    refine Ens.lift fun v hv => ?_
    simp only [ArrayProperty.new, if_true, collect_structValue, Res.ok.injEq] at hv
    subst hv
    refine ⟨?_, rfl, ?_⟩
    · simp only [ArrayOK]
      exact ⟨h1.1, h1.2.1, by omega, structsOK_iff.mpr h3.2.1⟩
    · simp only [ArrayProperty.writeBody]
      have hw : outLen (writeStructs env.cv vs) ≤ 2 * k3 := by
        rw [writeStructs_eq]
        exact Nat.le_trans (outLen_each vs) h3.2.2
      refine outLen_map hw fun o ho => ?_
      have := h1.2.2
      simp only [structArrayBody, List.length_append, u32B_length, u64B_length, guidB_length,
        u8B_length] at this ⊢
      omega
  · rename_i hns
    refine (Ens.replicate (P := fun p => BareOK env st ty p ∧
        sizeClass p = classOf ty (arraySuggested length count)) (w := bareSize env.cv)
      ((hrec.bare _ _ _).mono fun p k hp => ⟨⟨hp.1, hp.2.1⟩, hp.2.2⟩) count.toNat).bind
      fun ps k1 h1 => ?_
    refine Ens.lift fun v hv => ?_
    obtain ⟨a1, a2, a3⟩ := array_new hty hns (by omega) h1.2.1 hv
    exact ⟨a1, a2, by omega⟩

/-! ## Maps -/

theorem map_compact {ν : Type} {kt vt : String} {fl : UInt32} {m : List (Property × Property)}
    {fk : Property → Option String} {fv : Property → Option ν}
    {mk : List (String × ν) → MapProperty} {wv : ν → Nat} {total : Nat} {Pv : ν → Prop}
    (hlen : m.length < 2 ^ 32)
    (hk : ∀ e ∈ m, ∀ s, fk e.1 = some s → StrOK s) (hv : ∀ e ∈ m, ∀ x, fv e.2 = some x → Pv x)
    (hwk : ∀ p s, fk p = some s → (writeString s).bytes.length = bareSize env.cv p)
    (hwv : ∀ p x, fv p = some x → wv x = bareSize env.cv p)
    (htot : (m.map fun e => bareSize env.cv e.1 + bareSize env.cv e.2).sum ≤ total) :
    (∃ v, compactMap kt vt fl m fk fv mk = mk v ∧ KeysOK v ∧ (∀ e ∈ v, Pv e.2) ∧
      (v.map fun e => (writeString e.1).bytes.length + wv e.2).sum ≤ total) ∨
    (compactMap kt vt fl m fk fv mk = .properties kt vt fl m ∧
      ∃ e ∈ m, fk e.1 = none ∨ fv e.2 = none) := by
  unfold compactMap
  split
  · rename_i es hes
    left
    obtain ⟨hl, hall⟩ := collect_spec _ _ hes
    have hentry : ∀ e ∈ es, StrOK e.1 ∧ Pv e.2 := by
      intro e he
      obtain ⟨a, ha, hf⟩ := hall e he
      unfold asEntry at hf
      split at hf
      · rename_i k v h1 h2
        cases hf
        exact ⟨hk a ha k h1, hv a ha v h2⟩
      · cases hf
    have hsum := collect_sum (w := fun e : Property × Property =>
        bareSize env.cv e.1 + bareSize env.cv e.2)
      (w' := fun e : String × ν => (writeString e.1).bytes.length + wv e.2) (by
        intro a b hab
        unfold asEntry at hab
        split at hab
        · rename_i k v h1 h2
          cases hab
          simp only [hwk _ _ h1, hwv _ _ h2]
        · cases hab) m es hes
    have hf := imExtend_forall (same := fun a b : String => a == b) es [] (by simp) hentry
    have h1 := imExtend_length (same := fun a b : String => a == b) es []
    have h2 := imExtend_sum (same := fun a b : String => a == b)
      (fun s => (writeString s).bytes.length) wv es []
    have h3 := imExtend_distinct (same := fun a b : String => a == b) es [] (by simp)
    refine ⟨_, rfl, ⟨?_, nodup_of_beq h3, fun e he => (hf e he).1⟩, fun e he => (hf e he).2, ?_⟩
    · simp only [List.length_nil] at h1; omega
    · simp only [List.map_nil, List.sum_nil] at h2; omega
  · rename_i hn
    right
    refine ⟨rfl, ?_⟩
    obtain ⟨e, he, hf⟩ := collect_none.mp hn
    refine ⟨e, he, ?_⟩
    unfold asEntry at hf
    split at hf
    · cases hf
    · rename_i hnn
      cases h1 : fk e.1 with
      | none => exact .inl rfl
      | some k =>
        cases h2 : fv e.2 with
        | none => exact .inr rfl
        | some v => exact absurd h2 (hnn k v h1)

/-- What `MapProperty::new` returns for entries that were read. -/
def MapPost (env : Env) (st : List String) (kt vt : String) (total : Nat) (v : MapProperty) :
    Prop :=
  MapOK env st v ∧ v.keyType = kt ∧ v.valueType = vt ∧ outLen (v.writeBody env.cv) ≤ 8 + total

theorem outLen_strProps (cv : List (Guid × UInt32)) (l : List (String × Property)) :
    outLen (writeStrProps cv l) ≤
      (l.map fun e => (writeString e.1).bytes.length + bareSize cv e.2).sum := by
  induction l with
  | nil => simp [writeStrProps, outLen]
  | cons a l ih =>
    obtain ⟨k, v⟩ := a
    simp only [writeStrProps, List.map_cons, List.sum_cons]
    refine outLen_map2 (Nat.le_refl _) ih fun o o' h h' => ?_
    simp only [Out.app_bytes, List.length_append, bareSize] at h h' ⊢
    omega

theorem outLen_pairs (cv : List (Guid × UInt32)) (l : List (Property × Property)) :
    outLen (writePairs cv l) ≤ (l.map fun e => bareSize cv e.1 + bareSize cv e.2).sum := by
  induction l with
  | nil => simp [writePairs, outLen]
  | cons a l ih =>
    obtain ⟨k, v⟩ := a
    simp only [writePairs, List.map_cons, List.sum_cons]
    cases hk : k.write cv false with
    | bad f => exact Nat.zero_le _
    | ok a =>
      refine outLen_map2 (Nat.le_refl _) ih fun o o' h h' => ?_
      have : bareSize cv k = a.bytes.length := by simp [bareSize, hk, outLen]
      have h2 : outLen (v.write cv false) = bareSize cv v := rfl
      simp only [Out.app_bytes, List.length_append] at h h' ⊢
      omega

theorem mapHead_length (fl : UInt32) (n : Nat) : (mapHead fl n).bytes.length = 8 := by
  simp [mapHead]

theorem asEnum_size {p : Property} {s : String} (h : asEnum p = some s) :
    (writeString s).bytes.length = bareSize env.cv p := by
  unfold asEnum at h
  split at h <;> cases h
  rfl
theorem asNameKey_size {p : Property} {s : String} (h : asNameKey p = some s) :
    (writeString s).bytes.length = bareSize env.cv p := by
  unfold asNameKey at h
  split at h
  · split at h <;> cases h
    rfl
  · cases h
theorem asStrKey_size {p : Property} {s : String} (h : asStrKey p = some s) :
    (writeString s).bytes.length = bareSize env.cv p := by
  unfold asStrKey at h
  split at h <;> cases h
  rfl
theorem asBool_size {p : Property} {s : Bool} (h : asBool p = some s) :
    1 = bareSize env.cv p := by
  unfold asBool at h
  split at h <;> cases h
  rfl
theorem asInt_size {p : Property} {s : Int32} (h : asInt p = some s) :
    4 = bareSize env.cv p := by
  unfold asInt at h
  split at h <;> cases h
  simp [bareSize, Property.write, outLen, headed_false]
theorem asStr_size {p : Property} {s : Option String} (h : asStr p = some s) :
    (writeFString s).bytes.length = bareSize env.cv p := by
  unfold asStr at h
  split at h <;> cases h
  rfl

theorem map_new {kt vt : String} {fl : UInt32} {m : List (Property × Property)} {total : Nat}
    (hkt : StrOK kt) (hvt : StrOK vt) (hlen : m.length < 2 ^ 32)
    (hd : (m.map Prod.fst).Pairwise (fun a b => sameKey a b = false))
    (hm : ∀ e ∈ m, (SizeFree e.1 ∧ BareOK env (st ++ ["Key"]) kt e.1) ∧
      (SizeFree e.2 ∧ BareOK env (st ++ ["Value"]) vt e.2))
    (htot : (m.map fun e => bareSize env.cv e.1 + bareSize env.cv e.2).sum ≤ total) :
    MapPost env st kt vt total (MapProperty.new kt vt fl m) := by
  have hprops : (fl = 0 → kt ≠ "EnumProperty") →
      (fl = 0 → kt ∈ ["NameProperty", "StrProperty"] → ∃ e ∈ m, isNullKey e.1) →
      MapPost env st kt vt total (.properties kt vt fl m) := by
    intro h1 h2
    refine ⟨?_, rfl, rfl, ?_⟩
    · simp only [MapOK]
      exact ⟨hkt, hvt, hlen, hd, h1, h2, entriesOK_iff.mpr hm⟩
    · simp only [MapProperty.writeBody]
      refine outLen_map (Nat.le_trans (outLen_pairs env.cv m) htot) fun o ho => ?_
      simp only [Out.app_bytes, List.length_append, mapHead_length]
      omega
  have hvals : ∀ v : List (String × Property),
      (∀ e ∈ v, SizeFree e.2 ∧ BareOK env (st ++ ["Value"]) vt e.2) →
      ValuesOK env (st ++ ["Value"]) vt v := fun v h => valuesOK_iff.mpr h
  have hstr : ∀ v : List (String × Property),
      (v.map fun e => (writeString e.1).bytes.length + bareSize env.cv e.2).sum ≤ total →
      outLen (writeStrProps env.cv v >>= fun es => pure (mapHead 0 v.length ++ es)) ≤ 8 + total := by
    intro v hv
    refine outLen_map (Nat.le_trans (outLen_strProps env.cv v) hv) fun o ho => ?_
    simp only [Out.app_bytes, List.length_append, mapHead_length]
    omega
  have key_enum : ∀ e ∈ m, kt = "EnumProperty" → ∃ s, e.1 = .enum none s ∧ StrOK s := by
    rintro e he rfl; exact bare_enum (hm e he).1.2
  have key_name : ∀ e ∈ m, kt = "NameProperty" → ∃ s, e.1 = .name 0 s ∧ FStrOK s := by
    rintro e he rfl; exact bare_name (hm e he).1.2
  have key_str : ∀ e ∈ m, kt = "StrProperty" → ∃ s, e.1 = .str s ∧ FStrOK s := by
    rintro e he rfl; exact bare_str (hm e he).1.2
  have val_bool : ∀ e ∈ m, vt = "BoolProperty" → asBool e.2 ≠ none := by
    rintro e he rfl
    obtain ⟨v, hv⟩ := bare_bool (hm e he).2.2
    rw [hv]; simp [asBool]
  have val_int : ∀ e ∈ m, vt = "IntProperty" → asInt e.2 ≠ none := by
    rintro e he rfl
    obtain ⟨v, hv⟩ := bare_int (hm e he).2.2
    rw [hv]; simp [asInt]
  have val_str : ∀ e ∈ m, vt = "StrProperty" → ∃ s, e.2 = .str s ∧ FStrOK s := by
    rintro e he rfl; exact bare_str (hm e he).2.2
  -- keys
  have enumOK : kt = "EnumProperty" → ∀ e ∈ m, ∀ s, asEnum e.1 = some s → StrOK s := by
    intro hk e he s hs
    obtain ⟨x, hx, hok⟩ := key_enum e he hk
    rw [hx] at hs; simp only [asEnum, Option.some.injEq] at hs
    exact hs ▸ hok
  have nameOK : kt = "NameProperty" → ∀ e ∈ m, ∀ s, asNameKey e.1 = some s → StrOK s := by
    intro hk e he s hs
    obtain ⟨x, hx, hok⟩ := key_name e he hk
    rw [hx] at hs
    cases x with
    | none => simp [asNameKey] at hs
    | some x => simp only [asNameKey, if_true, Option.some.injEq] at hs; exact hs ▸ hok x rfl
  have strOK : kt = "StrProperty" → ∀ e ∈ m, ∀ s, asStrKey e.1 = some s → StrOK s := by
    intro hk e he s hs
    obtain ⟨x, hx, hok⟩ := key_str e he hk
    rw [hx] at hs
    cases x with
    | none => simp [asStrKey] at hs
    | some x => simp only [asStrKey, Option.some.injEq] at hs; exact hs ▸ hok x rfl
  have enumSome : kt = "EnumProperty" → ∀ e ∈ m, asEnum e.1 ≠ none := by
    intro hk e he hs
    obtain ⟨x, hx, hok⟩ := key_enum e he hk
    rw [hx] at hs; simp [asEnum] at hs
  have nameNull : kt = "NameProperty" → ∀ e ∈ m, asNameKey e.1 = none → isNullKey e.1 := by
    intro hk e he hs
    obtain ⟨x, hx, hok⟩ := key_name e he hk
    rw [hx] at hs ⊢
    cases x with
    | none => trivial
    | some x => simp [asNameKey] at hs
  have strNull : kt = "StrProperty" → ∀ e ∈ m, asStrKey e.1 = none → isNullKey e.1 := by
    intro hk e he hs
    obtain ⟨x, hx, hok⟩ := key_str e he hk
    rw [hx] at hs ⊢
    cases x with
    | none => trivial
    | some x => simp [asStrKey] at hs
  unfold MapProperty.new
  split
  · rename_i hfl
    exact hprops (fun h => absurd h hfl) (fun h => absurd h hfl)
  rename_i hfl
  have hfl : fl = 0 := by simpa using hfl
  split
  · rename_i ek; subst ek
    split
    · rename_i ev; subst ev
      rcases map_compact (kt := "EnumProperty") (vt := "BoolProperty") (fl := fl)
        (fk := asEnum) (fv := asBool) (mk := .enumBool) (wv := fun _ => 1)
        (Pv := fun _ => True) hlen (enumOK rfl) (fun _ _ _ _ => trivial)
        (fun _ _ => asEnum_size) (fun _ _ => asBool_size) htot with
        ⟨v, e, hv, _, hsz⟩ | ⟨_, e, he, h | h⟩
      · rw [e]
        refine ⟨by simpa [MapOK] using hv, rfl, rfl, ?_⟩
        simp only [MapProperty.writeBody, outLen, Out.app_bytes, List.length_append,
          mapHead_length, concatOut_length, boolB_length]
        omega
      · exact absurd h (enumSome rfl e he)
      · exact absurd h (val_bool e he rfl)
    split
    · rename_i ev; subst ev
      rcases map_compact (kt := "EnumProperty") (vt := "IntProperty") (fl := fl)
        (fk := asEnum) (fv := asInt) (mk := .enumInt) (wv := fun _ => 4)
        (Pv := fun _ => True) hlen (enumOK rfl) (fun _ _ _ _ => trivial)
        (fun _ _ => asEnum_size) (fun _ _ => asInt_size) htot with
        ⟨v, e, hv, _, hsz⟩ | ⟨_, e, he, h | h⟩
      · rw [e]
        refine ⟨by simpa [MapOK] using hv, rfl, rfl, ?_⟩
        simp only [MapProperty.writeBody, outLen, Out.app_bytes, List.length_append,
          mapHead_length, concatOut_length, i32B_length]
        omega
      · exact absurd h (enumSome rfl e he)
      · exact absurd h (val_int e he rfl)
    · rename_i hb hi
      rcases map_compact (kt := "EnumProperty") (vt := vt) (fl := fl)
        (fk := asEnum) (fv := some) (mk := .enumProperty vt) (wv := bareSize env.cv)
        (Pv := fun p => SizeFree p ∧ BareOK env (st ++ ["Value"]) vt p) hlen (enumOK rfl)
        (fun e he x hx => by cases hx; exact (hm e he).2)
        (fun _ _ => asEnum_size) (fun _ _ h => by cases h; rfl) htot with
        ⟨v, e, hv, hp, hsz⟩ | ⟨_, e, he, h | h⟩
      · rw [e]
        refine ⟨?_, rfl, rfl, ?_⟩
        · simp only [MapOK]
          exact ⟨hvt, by simp [hb, hi], hv, hvals v hp⟩
        · simp only [MapProperty.writeBody]
          exact hstr v hsz
      · exact absurd h (enumSome rfl e he)
      · cases h
  split
  · rename_i hne ek; subst ek
    split
    · rename_i ev; subst ev
      rcases map_compact (kt := "NameProperty") (vt := "BoolProperty") (fl := fl)
        (fk := asNameKey) (fv := asBool) (mk := .nameBool) (wv := fun _ => 1)
        (Pv := fun _ => True) hlen (nameOK rfl) (fun _ _ _ _ => trivial)
        (fun _ _ => asNameKey_size) (fun _ _ => asBool_size) htot with
        ⟨v, e, hv, _, hsz⟩ | ⟨e0, e, he, h | h⟩
      · rw [e]
        refine ⟨by simpa [MapOK] using hv, rfl, rfl, ?_⟩
        simp only [MapProperty.writeBody, outLen, Out.app_bytes, List.length_append,
          mapHead_length, concatOut_length, boolB_length]
        omega
      · rw [e0]; exact hprops (fun _ => by decide) fun _ _ => ⟨e, he, nameNull rfl e he h⟩
      · exact absurd h (val_bool e he rfl)
    split
    · rename_i ev; subst ev
      rcases map_compact (kt := "NameProperty") (vt := "IntProperty") (fl := fl)
        (fk := asNameKey) (fv := asInt) (mk := .nameInt) (wv := fun _ => 4)
        (Pv := fun _ => True) hlen (nameOK rfl) (fun _ _ _ _ => trivial)
        (fun _ _ => asNameKey_size) (fun _ _ => asInt_size) htot with
        ⟨v, e, hv, _, hsz⟩ | ⟨e0, e, he, h | h⟩
      · rw [e]
        refine ⟨by simpa [MapOK] using hv, rfl, rfl, ?_⟩
        simp only [MapProperty.writeBody, outLen, Out.app_bytes, List.length_append,
          mapHead_length, concatOut_length, i32B_length]
        omega
      · rw [e0]; exact hprops (fun _ => by decide) fun _ _ => ⟨e, he, nameNull rfl e he h⟩
      · exact absurd h (val_int e he rfl)
    · rename_i hb hi
      rcases map_compact (kt := "NameProperty") (vt := vt) (fl := fl)
        (fk := asNameKey) (fv := some) (mk := .nameProperty vt) (wv := bareSize env.cv)
        (Pv := fun p => SizeFree p ∧ BareOK env (st ++ ["Value"]) vt p) hlen (nameOK rfl)
        (fun e he x hx => by cases hx; exact (hm e he).2)
        (fun _ _ => asNameKey_size) (fun _ _ h => by cases h; rfl) htot with
        ⟨v, e, hv, hp, hsz⟩ | ⟨e0, e, he, h | h⟩
      · rw [e]
        refine ⟨?_, rfl, rfl, ?_⟩
        · simp only [MapOK]
          exact ⟨hvt, by simp [hb, hi], hv, hvals v hp⟩
        · simp only [MapProperty.writeBody]
          exact hstr v hsz
      · rw [e0]; exact hprops (fun _ => by decide) fun _ _ => ⟨e, he, nameNull rfl e he h⟩
      · cases h
  split
  · rename_i hne hnn ek; subst ek
    split
    · rename_i ev; subst ev
      rcases map_compact (kt := "StrProperty") (vt := "BoolProperty") (fl := fl)
        (fk := asStrKey) (fv := asBool) (mk := .strBool) (wv := fun _ => 1)
        (Pv := fun _ => True) hlen (strOK rfl) (fun _ _ _ _ => trivial)
        (fun _ _ => asStrKey_size) (fun _ _ => asBool_size) htot with
        ⟨v, e, hv, _, hsz⟩ | ⟨e0, e, he, h | h⟩
      · rw [e]
        refine ⟨by simpa [MapOK] using hv, rfl, rfl, ?_⟩
        simp only [MapProperty.writeBody, outLen, Out.app_bytes, List.length_append,
          mapHead_length, concatOut_length, boolB_length]
        omega
      · rw [e0]; exact hprops (fun _ => by decide) fun _ _ => ⟨e, he, strNull rfl e he h⟩
      · exact absurd h (val_bool e he rfl)
    split
    · rename_i ev; subst ev
      rcases map_compact (kt := "StrProperty") (vt := "IntProperty") (fl := fl)
        (fk := asStrKey) (fv := asInt) (mk := .strInt) (wv := fun _ => 4)
        (Pv := fun _ => True) hlen (strOK rfl) (fun _ _ _ _ => trivial)
        (fun _ _ => asStrKey_size) (fun _ _ => asInt_size) htot with
        ⟨v, e, hv, _, hsz⟩ | ⟨e0, e, he, h | h⟩
      · rw [e]
        refine ⟨by simpa [MapOK] using hv, rfl, rfl, ?_⟩
        simp only [MapProperty.writeBody, outLen, Out.app_bytes, List.length_append,
          mapHead_length, concatOut_length, i32B_length]
        omega
      · rw [e0]; exact hprops (fun _ => by decide) fun _ _ => ⟨e, he, strNull rfl e he h⟩
      · exact absurd h (val_int e he rfl)
    split
    · rename_i ev; subst ev
      rcases map_compact (kt := "StrProperty") (vt := "StrProperty") (fl := fl)
        (fk := asStrKey) (fv := asStr) (mk := .strStr) (wv := fun s => (writeFString s).bytes.length)
        (Pv := FStrOK) hlen (strOK rfl)
        (fun e he x hx => by
          obtain ⟨s, hs, hok⟩ := val_str e he rfl
          rw [hs] at hx; cases hx; exact hok)
        (fun _ _ => asStrKey_size) (fun _ _ => asStr_size) htot with
        ⟨v, e, hv, hp, hsz⟩ | ⟨e0, e, he, h | h⟩
      · rw [e]
        refine ⟨by simp only [MapOK]; exact ⟨hv, hp⟩, rfl, rfl, ?_⟩
        simp only [MapProperty.writeBody, outLen, Out.app_bytes, List.length_append,
          mapHead_length, concatOut_length]
        omega
      · rw [e0]; exact hprops (fun _ => by decide) fun _ _ => ⟨e, he, strNull rfl e he h⟩
      · obtain ⟨s, hs, hok⟩ := val_str e he rfl
        rw [hs] at h; cases h
    · rename_i hb hi hs
      rcases map_compact (kt := "StrProperty") (vt := vt) (fl := fl)
        (fk := asStrKey) (fv := some) (mk := .strProperty vt) (wv := bareSize env.cv)
        (Pv := fun p => SizeFree p ∧ BareOK env (st ++ ["Value"]) vt p) hlen (strOK rfl)
        (fun e he x hx => by cases hx; exact (hm e he).2)
        (fun _ _ => asStrKey_size) (fun _ _ h => by cases h; rfl) htot with
        ⟨v, e, hv, hp, hsz⟩ | ⟨e0, e, he, h | h⟩
      · rw [e]
        refine ⟨?_, rfl, rfl, ?_⟩
        · simp only [MapOK]
          exact ⟨hvt, by simp [hb, hi, hs], hv, hvals v hp⟩
        · simp only [MapProperty.writeBody]
          exact hstr v hsz
      · rw [e0]; exact hprops (fun _ => by decide) fun _ _ => ⟨e, he, strNull rfl e he h⟩
      · cases h
  · rename_i h1 h2 h3
    exact hprops (fun _ => h1) fun _ h => by simp [h2, h3] at h

theorem ens_mapBody {rec : String → Bool → Option UInt32 → R Property} (hrec : RecPost env rec)
    {kt vt : String} (hkt : StrOK kt) (hvt : StrOK vt) :
    Ens st (readMapBody rec kt vt)
      (fun p k => ∃ v, p = .map v ∧ MapOK env st v ∧ v.keyType = kt ∧ v.valueType = vt ∧
        outLen (v.writeBody env.cv) ≤ 2 * k) := by
  unfold readMapBody
  refine ens_u32.bind fun fl k1 h1 => ens_u32.bind fun count k2 h2 => ?_
  have hcount := count.toNat_lt
  refine (Ens.replicate (P := fun e : Property × Property =>
      (SizeFree e.1 ∧ BareOK env (st ++ ["Key"]) kt e.1) ∧
      (SizeFree e.2 ∧ BareOK env (st ++ ["Value"]) vt e.2))
    (w := fun e => bareSize env.cv e.1 + bareSize env.cv e.2) ?_ count.toNat).bind
    fun es k3 h3 => Ens.pure ?_
  · unfold readMapEntry
    refine (Ens.withEntry (hrec.bare _ _ _)).bind fun k k4 h4 =>
      (Ens.withEntry (hrec.bare _ _ _)).bind fun v k5 h5 => Ens.pure ?_
    refine ⟨⟨⟨sizeFree_of_class h4.1 h4.2.1, h4.1⟩, sizeFree_of_class h5.1 h5.2.1, h5.1⟩, ?_⟩
    have a := h4.2.2
    have b := h5.2.2
    simp only [bareSize]
    omega
  · have hf := imExtend_forall (same := sameKey)
      (Pk := fun p => SizeFree p ∧ BareOK env (st ++ ["Key"]) kt p)
      (Pv := fun p => SizeFree p ∧ BareOK env (st ++ ["Value"]) vt p) es [] (by simp) h3.2.1
    have hl := imExtend_length (same := sameKey) es []
    have hs := imExtend_sum (same := sameKey) (bareSize env.cv) (bareSize env.cv) es []
    have hd := imExtend_distinct (same := sameKey) es [] (by simp)
    simp only [List.length_nil] at hl
    simp only [List.map_nil, List.sum_nil] at hs
    obtain ⟨a1, a2, a3, a4⟩ := map_new (env := env) (st := st) (fl := fl) hkt hvt (by omega) hd hf
      (Nat.le_trans hs (by omega : _ ≤ 2 * k3))
    exact ⟨_, rfl, a1, a2, a3, by omega⟩

/-! ## Sets -/

theorem ens_setBody {rec : String → Bool → Option UInt32 → R Property} (hrec : RecPost env rec)
    {length : UInt32} {ty : String} :
    Ens st (readSetBody env.debug rec length ty)
      (fun p k => ∃ fl ps, p = .set ty fl ps ∧ ps.length < 2 ^ 32 ∧ Uniform ps ∧
        BaresOK env st ty ps ∧ 8 + outLen (writeList env.cv ps) ≤ 2 * k) := by
  unfold readSetBody
  refine ens_u32.bind fun fl k1 h1 => ens_u32.bind fun count k2 h2 => ?_
  have hcount := count.toNat_lt
  refine Ens.bind (P := fun ps k => ps.length < 2 ^ 32 ∧ Uniform ps ∧ BaresOK env st ty ps ∧
    outLen (writeList env.cv ps) ≤ 2 * k) ?_ fun ps k3 h3 => Ens.pure
      ⟨fl, ps, rfl, h3.1, h3.2.1, h3.2.2.1, by omega⟩
  unfold readSetElems
  split
  · refine ens_subU32.bind fun avail k4 h4 => ?_
    refine (Ens.replicate (P := fun p => BareOK env st ty p ∧
        sizeClass p = classOf ty (some (avail / count))) (w := bareSize env.cv)
      ((hrec.bare _ _ _).mono fun p k hp => ⟨⟨hp.1, hp.2.1⟩, hp.2.2⟩) count.toNat).mono
      fun ps k5 h5 => ?_
    have := outLen_list env.cv ps
    refine ⟨by omega, fun p hp q hq => ?_, baresOK_iff.mpr fun p hp => (h5.2.1 p hp).1, by omega⟩
    rw [(h5.2.1 p hp).2, (h5.2.1 q hq).2]
  · exact Ens.rpure ⟨by decide, by simp [Uniform], by simp [BaresOK], by simp [writeList, outLen]⟩

/-! ## Whole properties -/

theorem head_fixed {α : Type} {mk : α → Property} {n : Nat} {m : R α} {ty : String} {b : α → Bytes}
    (hm : Ens st m (fun _ k => k = n)) (hok : ∀ a, HeadOK env st' (mk a))
    (hty : ∀ a, typeName (mk a) = ty)
    (hw : ∀ a, (mk a).write env.cv true = .ok (headed true ty Out.nil ⟨b a, n⟩))
    (hb : ∀ a, (b a).length = n) :
    Ens st (do return mk (← readFixed true n m)) (HeadPost env st' ty) := by
  refine (ens_fixed hm true).bind fun a k hk => Ens.pure ⟨hok a, hty a, ?_⟩
  rw [hw]
  simp only [outLen, headed_true_length, Out.nil_bytes, List.length_nil, hb]
  simp at hk
  omega

theorem bare_fixed {α : Type} {mk : α → Property} {n : Nat} {m : R α} {ty : String} {b : α → Bytes}
    (hm : Ens st m (fun _ k => k = n)) (hok : ∀ a, BareOK env st' ty (mk a))
    (hc : ∀ a, sizeClass (mk a) = classOf ty sug)
    (hw : ∀ a, (mk a).write env.cv false = .ok (headed false ty Out.nil ⟨b a, n⟩))
    (hb : ∀ a, (b a).length = n) :
    Ens st (do return mk (← readFixed false n m)) (BarePost env st' ty sug) := by
  refine (ens_fixed hm false).bind fun a k hk => Ens.pure ⟨hok a, hc a, ?_⟩
  rw [hw]
  simp only [outLen, headed_false, hb]
  simp at hk
  omega

theorem head_plain {α : Type} {mk : α → Property} {m : R α} {ty : String} {b : α → Res Out}
    {P : α → Prop} (hm : Ens st m (fun a k => P a ∧ outLen (b a) ≤ 2 * k))
    (hok : ∀ a, P a → HeadOK env st' (mk a)) (hty : ∀ a, typeName (mk a) = ty)
    (hw : ∀ a, (mk a).write env.cv true = (b a >>= fun o => pure (headed true ty Out.nil o))) :
    Ens st (do return mk (← readPlain true m)) (HeadPost env st' ty) := by
  refine (ens_plain hm).bind fun a k hk => Ens.pure ?_
  obtain ⟨k', ⟨hP, hl⟩, rfl⟩ := hk
  refine ⟨hok a hP, hty a, ?_⟩
  rw [hw]
  refine outLen_map hl fun o ho => ?_
  simp only [headed_true_length, Out.nil_bytes, List.length_nil]
  omega

theorem bare_plain {α : Type} {mk : α → Property} {m : R α} {ty : String} {b : α → Res Out}
    {P : α → Prop} (hm : Ens st m (fun a k => P a ∧ outLen (b a) ≤ 2 * k))
    (hok : ∀ a, P a → BareOK env st' ty (mk a)) (hc : ∀ a, sizeClass (mk a) = classOf ty sug)
    (hw : ∀ a, (mk a).write env.cv false = (b a >>= fun o => pure o)) :
    Ens st (do return mk (← readPlain false m)) (BarePost env st' ty sug) := by
  unfold readPlain
  rw [if_neg (by simp)]
  refine hm.bind fun a k hk => Ens.pure ⟨hok a hk.1, hc a, ?_⟩
  rw [hw]
  exact outLen_map hk.2 fun o ho => by omega

set_option maxHeartbeats 1000000 in
theorem accept_head {rec : String → Bool → Option UInt32 → R Property} (hrec : RecPost env rec)
    {fuel : Nat} {sug : Option UInt32} (k : Kind) :
    Ens (st ++ [k.typeName]) (readKind env fuel rec true sug k) (HeadPost env st k.typeName) := by
  cases k <;> simp only [readKind, Kind.typeName]
  case int8 => exact head_fixed (b := i8B) ens_i8 (by simp [HeadOK]) (fun _ => rfl) (fun _ => rfl) (by simp)
  case byte => exact ens_byte_head
  case int16 => exact head_fixed (b := i16B) ens_i16 (by simp [HeadOK]) (fun _ => rfl) (fun _ => rfl) (by simp)
  case uint16 => exact head_fixed (b := u16B) ens_u16 (by simp [HeadOK]) (fun _ => rfl) (fun _ => rfl) (by simp)
  case int => exact head_fixed (b := i32B) ens_i32 (by simp [HeadOK]) (fun _ => rfl) (fun _ => rfl) (by simp)
  case uint32 => exact head_fixed (b := u32B) ens_u32 (by simp [HeadOK]) (fun _ => rfl) (fun _ => rfl) (by simp)
  case int64 => exact head_fixed (b := i64B) ens_i64 (by simp [HeadOK]) (fun _ => rfl) (fun _ => rfl) (by simp)
  case uint64 => exact head_fixed (b := u64B) ens_u64 (by simp [HeadOK]) (fun _ => rfl) (fun _ => rfl) (by simp)
  case float => exact head_fixed (b := f32B) ens_f32 (by simp [HeadOK]) (fun _ => rfl) (fun _ => rfl) (by simp)
  case double => exact head_fixed (b := f64B) ens_f64 (by simp [HeadOK]) (fun _ => rfl) (fun _ => rfl) (by simp)
  case bool =>
    unfold readBoolProperty
    simp only [R.onlyIf, if_true]
    refine Ens.bind (P := fun _ k => k = 10) ?_ fun v k hk => Ens.pure ?_
    · exact ens_checkSize.bind fun _ _ _ => ens_bool.bind fun _ _ _ => ens_separator.bind
        fun _ _ _ => Ens.pure (by omega)
    · refine ⟨by simp [HeadOK], rfl, ?_⟩
      simp [Property.write, writeBoolProperty, outLen]
      omega
  case enum =>
    unfold readEnumProperty
    rw [if_pos rfl]
    refine (ens_header ens_string (Q := fun ty p k => ∃ s, p = .enum (some ty) s ∧ StrOK s ∧
      (writeString s).bytes.length ≤ 2 * k) fun _ a _ _ => ens_string.bind fun s k hk =>
        Ens.pure ⟨s, rfl, hk.1, by omega⟩).mono ?_
    rintro p k ⟨a, k1, k2, h1, ⟨s, rfl, h2, h3⟩, rfl⟩
    refine ⟨by simp [HeadOK, h1.1, h2], rfl, ?_⟩
    simp only [Property.write, outLen, headed_true_length, writeFString]
    omega
  case str =>
    exact head_plain (P := FStrOK) (b := fun s => .ok (writeFString s))
      (ens_fstring.mono fun _ _ h => ⟨h.1, h.2.2⟩) (by simp [HeadOK]) (fun _ => rfl) (fun _ => rfl)
  case text =>
    exact head_plain (P := TextOK env.cv) (b := fun t => t.write env.cv)
      (ens_text fuel) (by simp [HeadOK]) (fun _ => rfl) (fun _ => by rw [Property.write])
  case name =>
    unfold readNameProperty
    rw [if_pos rfl]
    refine ens_u32.bind fun _ k1 h1 => ens_u32.bind fun idx k2 h2 => ens_terminator.bind
      fun _ k3 h3 => (ens_sized (ens_fstring.bind (Q := fun p k => ∃ s, p = .name idx s ∧ FStrOK s ∧
        (writeFString s).bytes.length ≤ 2 * k) fun s k hk => Ens.pure ⟨s, rfl, hk.1, by omega⟩)).mono ?_
    rintro p k ⟨s, rfl, h4, h5⟩
    refine ⟨by simp [HeadOK, h4], rfl, ?_⟩
    simp [Property.write, outLen, withHeaderIndex]
    omega
  case object =>
    exact head_plain (P := StrOK) (b := fun s => .ok (writeString s))
      (ens_string.mono fun _ _ h => ⟨h.1, h.2.2⟩) (by simp [HeadOK]) (fun _ => rfl) (fun _ => rfl)
  case delegate =>
    exact head_plain (P := DelegateOK) (b := fun s => .ok s.write)
      ens_delegate (by simp [HeadOK]) (fun _ => rfl) (fun _ => rfl)
  case multicastInlineDelegate =>
    exact head_plain (P := MulticastOK) (b := fun s => .ok (writeMulticast s))
      ens_multicast (by simp [HeadOK]) (fun _ => rfl) (fun _ => rfl)
  case multicastSparseDelegate =>
    exact head_plain (P := MulticastOK) (b := fun s => .ok (writeMulticast s))
      ens_multicast (by simp [HeadOK]) (fun _ => rfl) (fun _ => rfl)
  case fieldPath =>
    exact head_plain (P := FieldPathOK) (b := fun s => .ok s.write)
      ens_fieldPath (by simp [HeadOK]) (fun _ => rfl) (fun _ => rfl)
  case struct =>
    unfold readStructProperty
    rw [if_pos rfl]
    refine (ens_header (P := fun x k => StrOK x.1 ∧ (writeString x.1).bytes.length + 16 ≤ 2 * k)
      (Q := fun x p k => ∃ v, p = .struct x.2 x.1 v ∧
        StructOK env (st ++ ["StructProperty"]) x.1 v ∧ outLen (v.writeBody env.cv) ≤ 2 * k)
      (ens_string.bind fun s k1 h1 => ens_guid.bind fun g k2 h2 => Ens.pure ⟨h1.1, by
        simp only; omega⟩)
      fun _ x _ _ => (ens_structBody hrec).bind fun v k hk =>
        Ens.pure ⟨v, rfl, hk.1, by omega⟩).mono ?_
    rintro p k ⟨x, k1, k2, h1, ⟨v, rfl, h2, h3⟩, rfl⟩
    refine ⟨by simp only [HeadOK]; exact ⟨h1.1, h2⟩, rfl, ?_⟩
    simp only [Property.write]
    refine outLen_map h3 fun o ho => ?_
    simp only [headed_true_length, Out.app_bytes, List.length_append, guidB_length]
    omega
  case array =>
    unfold readArrayProperty
    rw [if_pos rfl]
    refine (ens_header ens_string (Q := fun ty p k => ∃ v, p = .array v ∧
      ArrayOK env (st ++ ["ArrayProperty"]) v ∧ v.propertyType = ty ∧
      outLen (v.writeBody env.cv) ≤ 2 * k) fun len ty _ hty => (ens_arrayBody hrec hty.1).bind
        fun v k hk => Ens.pure ⟨v, rfl, hk.1, hk.2.1, by omega⟩).mono ?_
    rintro p k ⟨ty, k1, k2, h1, ⟨v, rfl, h2, rfl, h3⟩, rfl⟩
    refine ⟨by simp only [HeadOK]; exact h2, rfl, ?_⟩
    simp only [Property.write]
    refine outLen_map h3 fun o ho => ?_
    simp only [headed_true_length]
    omega
  case set =>
    unfold readSetProperty
    rw [if_pos rfl]
    refine (ens_header ens_string (Q := fun ty p k => ∃ fl ps, p = .set ty fl ps ∧
      ps.length < 2 ^ 32 ∧ Uniform ps ∧ BaresOK env (st ++ ["SetProperty"]) ty ps ∧
      8 + outLen (writeList env.cv ps) ≤ 2 * k) fun len ty _ _ => ens_setBody hrec).mono ?_
    rintro p k ⟨ty, k1, k2, h1, ⟨fl, ps, rfl, h2, h3, h4, h5⟩, rfl⟩
    refine ⟨by simp only [HeadOK]; exact ⟨h1.1, h2, h3, h4⟩, rfl, ?_⟩
    simp only [Property.write]
    refine outLen_map (Nat.le_refl _) fun o ho => ?_
    simp only [headed_true_length, Out.app_bytes, List.length_append, u32O_bytes, u32B_length]
    omega
  case map =>
    unfold readMapProperty
    rw [if_pos rfl]
    refine (ens_header (P := fun x k => StrOK x.1 ∧ StrOK x.2 ∧
        (writeString x.1).bytes.length + (writeString x.2).bytes.length ≤ 2 * k)
      (Q := fun x p k => ∃ v, p = .map v ∧ MapOK env (st ++ ["MapProperty"]) v ∧ v.keyType = x.1 ∧
        v.valueType = x.2 ∧ outLen (v.writeBody env.cv) ≤ 2 * k)
      (ens_string.bind fun s k1 h1 => ens_string.bind fun g k2 h2 => Ens.pure ⟨h1.1, h2.1, by
        simp only; omega⟩)
      fun _ x _ hx => ens_mapBody hrec hx.1 hx.2.1).mono ?_
    rintro p k ⟨⟨kt, vt⟩, k1, k2, h1, ⟨v, rfl, h2, h3, h4, h5⟩, rfl⟩
    refine ⟨by simp only [HeadOK]; exact h2, rfl, ?_⟩
    simp only [Property.write]
    have := h1.2.2
    refine outLen_map h5 fun o ho => ?_
    simp only [headed_true_length, Out.app_bytes, List.length_append, h3, h4] at this ⊢
    omega

theorem accept_bare {rec : String → Bool → Option UInt32 → R Property} (hrec : RecPost env rec)
    {fuel : Nat} {sug : Option UInt32} (k : Kind) :
    Ens (st ++ [k.typeName]) (readKind env fuel rec false sug k)
      (BarePost env st k.typeName sug) := by
  cases k <;> simp only [readKind, Kind.typeName]
  case int8 => exact bare_fixed (b := i8B) ens_i8 (by simp [BareOK]) (fun _ => rfl) (fun _ => rfl) (by simp)
  case byte => exact ens_byte_bare
  case int16 => exact bare_fixed (b := i16B) ens_i16 (by simp [BareOK]) (fun _ => rfl) (fun _ => rfl) (by simp)
  case uint16 => exact bare_fixed (b := u16B) ens_u16 (by simp [BareOK]) (fun _ => rfl) (fun _ => rfl) (by simp)
  case int => exact bare_fixed (b := i32B) ens_i32 (by simp [BareOK]) (fun _ => rfl) (fun _ => rfl) (by simp)
  case uint32 => exact bare_fixed (b := u32B) ens_u32 (by simp [BareOK]) (fun _ => rfl) (fun _ => rfl) (by simp)
  case int64 => exact bare_fixed (b := i64B) ens_i64 (by simp [BareOK]) (fun _ => rfl) (fun _ => rfl) (by simp)
  case uint64 => exact bare_fixed (b := u64B) ens_u64 (by simp [BareOK]) (fun _ => rfl) (fun _ => rfl) (by simp)
  case float => exact bare_fixed (b := f32B) ens_f32 (by simp [BareOK]) (fun _ => rfl) (fun _ => rfl) (by simp)
  case double => exact bare_fixed (b := f64B) ens_f64 (by simp [BareOK]) (fun _ => rfl) (fun _ => rfl) (by simp)
  case bool =>
    unfold readBoolProperty
    simp only [R.onlyIf]
    refine Ens.bind (P := fun _ k => k = 1) ?_ fun v k hk => Ens.pure ?_
    · exact (Ens.rpure (Q := fun _ k => k = 0) rfl).bind fun _ _ _ => ens_bool.bind fun _ _ _ =>
        (Ens.rpure (Q := fun _ k => k = 0) rfl).bind fun _ _ _ => Ens.pure (by omega)
    · refine ⟨by simp [BareOK], rfl, ?_⟩
      simp [Property.write, writeBoolProperty, outLen]
      omega
  case enum =>
    unfold readEnumProperty
    rw [if_neg (by simp)]
    refine ens_string.bind fun s k h => Ens.pure ⟨by simp [BareOK, h.1], rfl, ?_⟩
    simp only [Property.write, outLen, headed_false]
    omega
  case str =>
    exact bare_plain (P := FStrOK) (b := fun s => .ok (writeFString s))
      (ens_fstring.mono fun _ _ h => ⟨h.1, h.2.2⟩) (by simp [BareOK]) (fun _ => rfl) (fun _ => rfl)
  case text =>
    exact bare_plain (P := TextOK env.cv) (b := fun t => t.write env.cv)
      (ens_text fuel) (by simp [BareOK]) (fun _ => rfl) (fun _ => by rw [Property.write]; rfl)
  case name =>
    unfold readNameProperty
    rw [if_neg (by simp)]
    refine ens_fstring.bind fun s k h => Ens.pure ⟨by simp [BareOK, h.1], rfl, ?_⟩
    simp [Property.write, outLen]
    omega
  case object =>
    exact bare_plain (P := StrOK) (b := fun s => .ok (writeString s))
      (ens_string.mono fun _ _ h => ⟨h.1, h.2.2⟩) (by simp [BareOK]) (fun _ => rfl) (fun _ => rfl)
  case delegate =>
    exact bare_plain (P := DelegateOK) (b := fun s => .ok s.write)
      ens_delegate (by simp [BareOK]) (fun _ => rfl) (fun _ => rfl)
  case multicastInlineDelegate =>
    exact bare_plain (P := MulticastOK) (b := fun s => .ok (writeMulticast s))
      ens_multicast (by simp [BareOK]) (fun _ => rfl) (fun _ => rfl)
  case multicastSparseDelegate =>
    exact bare_plain (P := MulticastOK) (b := fun s => .ok (writeMulticast s))
      ens_multicast (by simp [BareOK]) (fun _ => rfl) (fun _ => rfl)
  case fieldPath =>
    exact bare_plain (P := FieldPathOK) (b := fun s => .ok s.write)
      ens_fieldPath (by simp [BareOK]) (fun _ => rfl) (fun _ => rfl)
  case struct =>
    unfold readStructProperty
    rw [if_neg (by simp)]
    refine Ens.getStack.bind fun s k1 h1 => ?_
    obtain ⟨rfl, h1⟩ := h1
    simp only []
    split
    · rename_i hint hh
      refine (ens_structBody hrec).bind fun v k hk => Ens.pure ?_
      refine ⟨by simp only [BareOK]; exact ⟨trivial, hint, hh, hk.1⟩, rfl, ?_⟩
      simp only [Property.write]
      have := hk.2
      simp
      omega
    · exact Ens.failPos
  case array => exact Ens.failPos
  case set => exact Ens.failPos
  case map => exact Ens.failPos

/-- Whatever `Property::new` returns is representable, and is written to at most twice as many
bytes as were read. -/
theorem accept_property (n : Nat) : RecPost env (Property.read env n) := by
  induction n with
  | zero => exact ⟨fun _ _ _ => Ens.outOfFuel, fun _ _ _ => Ens.outOfFuel⟩
  | succ n ih =>
    refine ⟨fun st ty hty => ?_, fun st ty sug => ?_⟩
    · show Ens st (Property.readStep env (n + 1) (Property.read env n) ty true none) _
      unfold Property.readStep
      refine Ens.withEntry ?_
      split
      · rename_i k hk
        have := kind_some hk
        subst this
        exact accept_head ih k
      · rename_i hk
        exact ens_unknown_head hty (kind_none_iff.mp hk)
    · show Ens st (Property.readStep env (n + 1) (Property.read env n) ty false sug) _
      unfold Property.readStep
      refine Ens.withEntry ?_
      split
      · rename_i k hk
        have := kind_some hk
        subst this
        exact accept_bare ih k
      · rename_i hk
        exact ens_unknown_bare (kind_none_iff.mp hk)

end Gvas
