import Verif.Model.Build
import Verif.Props.Construct
import Verif.Spec.Wf
import Verif.Spec.LastWins

/-!
# What `ArrayProperty::new` and `MapProperty::new` build of representable elements is representable
-/

namespace Gvas

open Spec

theorem baresOK_mem {env : Env} {st : List String} {ty : String} {ps : List Property}
    (h : BaresOK env st ty ps) : ∀ p ∈ ps, BareOK env st ty p := by
  induction ps with
  | nil => simp
  | cons a l ih =>
    simp only [BaresOK] at h
    intro p hp
    rcases List.mem_cons.mp hp with rfl | hp
    · exact h.1
    · exact ih h.2 p hp

theorem baresOK_of_mem {env : Env} {st : List String} {ty : String} {ps : List Property}
    (h : ∀ p ∈ ps, BareOK env st ty p) : BaresOK env st ty ps := by
  induction ps with
  | nil => simp [BaresOK]
  | cons a l ih =>
    simp only [BaresOK]
    exact ⟨h a (by simp), ih fun p hp => h p (by simp [hp])⟩

theorem structsOK_of_map {env : Env} {st : List String} {ty : String}
    {vs : List StructPropertyValue} (h : ∀ v ∈ vs, StructOK env st ty v) :
    StructsOK env st ty vs := by
  induction vs with
  | nil => simp [StructsOK]
  | cons a l ih =>
    simp only [StructsOK]
    exact ⟨h a (by simp), ih fun v hv => h v (by simp [hv])⟩

/-- All elements convert when each does. -/
theorem collect_all {α β : Type} {f : α → Option β} {l : List α} (h : ∀ a ∈ l, ∃ b, f a = some b) :
    ∃ bs, collect f l = some bs := by
  cases hc : collect f l with
  | some bs => exact ⟨bs, rfl⟩
  | none =>
    obtain ⟨a, ha, hn⟩ := collect_none.mp hc
    obtain ⟨b, hb⟩ := h a ha
    rw [hb] at hn
    cases hn

theorem collect_length {α β : Type} {f : α → Option β} {l : List α} {bs : List β}
    (h : collect f l = some bs) : bs.length = l.length := by
  induction l generalizing bs with
  | nil => simp [collect] at h; subst h; rfl
  | cons a l ih =>
    simp only [collect] at h
    split at h
    · rename_i b bs' h1 h2
      simp only [Option.some.injEq] at h
      subst h
      simp [ih h2]
    · cases h

/-- What a collected element comes from. -/
theorem collect_mem {α β : Type} {f : α → Option β} {l : List α} {bs : List β}
    (h : collect f l = some bs) : ∀ b ∈ bs, ∃ a ∈ l, f a = some b := by
  induction l generalizing bs with
  | nil => simp [collect] at h; subst h; simp
  | cons a l ih =>
    simp only [collect] at h
    split at h
    · rename_i b bs' h1 h2
      simp only [Option.some.injEq] at h
      subst h
      intro x hx
      rcases List.mem_cons.mp hx with rfl | hx
      · exact ⟨a, by simp, h1⟩
      · obtain ⟨y, hy, e⟩ := ih h2 x hx
        exact ⟨y, by simp [hy], e⟩
    · cases h

theorem bareOK_bool {env : Env} {st : List String} {p : Property}
    (h : BareOK env st "BoolProperty" p) : ∃ b, asBool p = some b := by
  cases p <;> simp_all [BareOK, asBool, knownTypes]
  obtain ⟨rfl, h⟩ := h
  simp at h
theorem bareOK_enum {env : Env} {st : List String} {p : Property}
    (h : BareOK env st "EnumProperty" p) : ∃ b, asEnum p = some b := by
  cases p <;> simp_all [BareOK, asEnum, knownTypes]
  obtain ⟨rfl, h⟩ := h
  simp at h
theorem bareOK_int {env : Env} {st : List String} {p : Property}
    (h : BareOK env st "IntProperty" p) : ∃ b, asInt p = some b := by
  cases p <;> simp_all [BareOK, asInt, knownTypes]
  obtain ⟨rfl, h⟩ := h
  simp at h
theorem bareOK_float {env : Env} {st : List String} {p : Property}
    (h : BareOK env st "FloatProperty" p) : ∃ b, asFloat p = some b := by
  cases p <;> simp_all [BareOK, asFloat, knownTypes]
  obtain ⟨rfl, h⟩ := h
  simp at h
theorem bareOK_name {env : Env} {st : List String} {p : Property}
    (h : BareOK env st "NameProperty" p) : ∃ b, asName p = some b := by
  cases p <;> simp_all [BareOK, asName, knownTypes]
  obtain ⟨rfl, h⟩ := h
  simp at h
theorem bareOK_str {env : Env} {st : List String} {p : Property}
    (h : BareOK env st "StrProperty" p) : ∃ b, asStr p = some b := by
  cases p <;> simp_all [BareOK, asStr, knownTypes]
  obtain ⟨rfl, h⟩ := h
  simp at h

/-- An array without struct metadata. -/
theorem arrayNew_ok {env : Env} {st : List String} {ty : String} {ps : List Property}
    (hty : StrOK ty) (hs : ty ≠ "StructProperty") (hn : ps.length < 2 ^ 32) (hu : Uniform ps)
    (h : BaresOK env st ty ps) :
    ∃ a, ArrayProperty.new ty none ps = .ok a ∧ ArrayOK env st a := by
  have hm := baresOK_mem h
  unfold ArrayProperty.new
  simp only []
  split
  · subst_vars
    obtain ⟨bs, hb⟩ := collect_all fun p hp => bareOK_bool (hm p hp)
    exact ⟨_, by rw [compactArray, hb], by simp only [ArrayOK]; rw [collect_length hb]; exact hn⟩
  split
  · subst_vars
    cases hb : collect asByte ps with
    | some bs =>
      exact ⟨_, by rw [compactArray, hb], by simp only [ArrayOK]; rw [collect_length hb]; exact hn⟩
    | none =>
      refine ⟨_, by rw [compactArray, hb], ?_⟩
      simp only [ArrayOK]
      refine ⟨hty, hs, by decide, fun _ => ?_, hn, hu, h⟩
      obtain ⟨p, hp, hx⟩ := collect_none.mp hb
      refine ⟨p, hp, ?_⟩
      have := hm p hp
      cases p <;> simp_all [BareOK, asByte, knownTypes, isNamespaced]
      · rename_i v
        cases v <;> simp_all
      · obtain ⟨rfl, h⟩ := this
        simp at h
  split
  · subst_vars
    obtain ⟨bs, hb⟩ := collect_all fun p hp => bareOK_enum (hm p hp)
    refine ⟨_, by rw [compactArray, hb], ?_⟩
    simp only [ArrayOK]
    refine ⟨by rw [collect_length hb]; exact hn, fun s hs => ?_⟩
    obtain ⟨p, hp, e⟩ := collect_mem hb s hs
    have := hm p hp
    rw [← asEnum_some e] at this
    simpa [BareOK] using this
  split
  · subst_vars
    obtain ⟨bs, hb⟩ := collect_all fun p hp => bareOK_int (hm p hp)
    exact ⟨_, by rw [compactArray, hb], by simp only [ArrayOK]; rw [collect_length hb]; exact hn⟩
  split
  · subst_vars
    obtain ⟨bs, hb⟩ := collect_all fun p hp => bareOK_float (hm p hp)
    exact ⟨_, by rw [compactArray, hb], by simp only [ArrayOK]; rw [collect_length hb]; exact hn⟩
  split
  · subst_vars
    obtain ⟨bs, hb⟩ := collect_all fun p hp => bareOK_name (hm p hp)
    refine ⟨_, by rw [compactArray, hb], ?_⟩
    simp only [ArrayOK]
    refine ⟨by rw [collect_length hb]; exact hn, fun s hs => ?_⟩
    obtain ⟨p, hp, e⟩ := collect_mem hb s hs
    have := hm p hp
    rw [← asName_some e] at this
    simpa [BareOK] using this
  split
  · subst_vars
    obtain ⟨bs, hb⟩ := collect_all fun p hp => bareOK_str (hm p hp)
    refine ⟨_, by rw [compactArray, hb], ?_⟩
    simp only [ArrayOK]
    refine ⟨by rw [collect_length hb]; exact hn, fun s hs => ?_⟩
    obtain ⟨p, hp, e⟩ := collect_mem hb s hs
    have := hm p hp
    rw [← asStr_some e] at this
    simpa [BareOK] using this
  · refine ⟨_, rfl, ?_⟩
    simp only [ArrayOK]
    refine ⟨hty, hs, ?_, fun e => by contradiction, hn, hu, h⟩
    simp_all [compactArrayTypes]

/-- An array of structs. -/
theorem arrayNew_structs_ok {env : Env} {st : List String} {field ty : String} {guid : Guid}
    {vs : List StructPropertyValue} (hf : StrOK field) (hty : StrOK ty) (hn : vs.length < 2 ^ 32)
    (h : ∀ v ∈ vs, StructOK env st ty v) :
    ∃ a, ArrayProperty.new "StructProperty" (some (field, ty, guid)) (vs.map .structValue) = .ok a ∧
      ArrayOK env st a := by
  have hc : collect asStructValue (vs.map .structValue) = some vs := by
    induction vs with
    | nil => rfl
    | cons a l ih =>
      simp only [List.map_cons, collect, asStructValue,
        ih (by simp at hn; omega) fun v hv => h v (by simp [hv])]
  refine ⟨.structs field ty guid vs, ?_, ?_⟩
  · simp only [ArrayProperty.new, if_true, hc]
  · simp only [ArrayOK]
    exact ⟨hf, hty, hn, structsOK_of_map h⟩

theorem entriesOK_mem {env : Env} {st : List String} {kt vt : String}
    {m : List (Property × Property)} (h : EntriesOK env st kt vt m) :
    ∀ e ∈ m, SizeFree e.1 ∧ BareOK env (st ++ ["Key"]) kt e.1 ∧ SizeFree e.2 ∧
      BareOK env (st ++ ["Value"]) vt e.2 := by
  induction m with
  | nil => simp
  | cons a l ih =>
    obtain ⟨k, p⟩ := a
    simp only [EntriesOK] at h
    intro e he
    rcases List.mem_cons.mp he with rfl | he
    · exact ⟨h.1, h.2.1, h.2.2.1, h.2.2.2.1⟩
    · exact ih h.2.2.2.2 e he

theorem entriesOK_of_mem {env : Env} {st : List String} {kt vt : String}
    {m : List (Property × Property)} (h : ∀ e ∈ m, SizeFree e.1 ∧
      BareOK env (st ++ ["Key"]) kt e.1 ∧ SizeFree e.2 ∧ BareOK env (st ++ ["Value"]) vt e.2) :
    EntriesOK env st kt vt m := by
  induction m with
  | nil => simp [EntriesOK]
  | cons a l ih =>
    obtain ⟨k, p⟩ := a
    simp only [EntriesOK]
    obtain ⟨h1, h2, h3, h4⟩ := h (k, p) (by simp)
    exact ⟨h1, h2, h3, h4, ih fun e he => h e (by simp [he])⟩

/-- The first occurrences are among the elements. -/
theorem firsts_subset {κ : Type} {same : κ → κ → Bool} {l : List κ} {k : κ}
    (h : k ∈ firsts same l) : k ∈ l := by
  induction l with
  | nil => simp [firsts] at h
  | cons a l ih =>
    simp only [firsts, List.mem_cons, List.mem_filter] at h
    rcases h with rfl | h
    · simp
    · exact List.mem_cons_of_mem _ (ih h.1)

theorem valuesOK_of_mem {env : Env} {st : List String} {vt : String}
    {m : List (String × Property)} (h : ∀ e ∈ m, SizeFree e.2 ∧ BareOK env st vt e.2) :
    ValuesOK env st vt m := by
  induction m with
  | nil => simp [ValuesOK]
  | cons a l ih =>
    obtain ⟨k, p⟩ := a
    simp only [ValuesOK]
    exact ⟨(h (k, p) (by simp)).1, (h (k, p) (by simp)).2, ih fun e he => h e (by simp [he])⟩

theorem asEntry_inv {κ ν : Type} {fk : Property → Option κ} {fv : Property → Option ν}
    {e : Property × Property} {x : κ × ν} (h : asEntry fk fv e = some x) :
    fk e.1 = some x.1 ∧ fv e.2 = some x.2 := by
  unfold asEntry at h
  split at h
  · rename_i k v h1 h2
    simp only [Option.some.injEq] at h
    subst h
    exact ⟨h1, h2⟩
  · cases h

/-- The compact form of a map, when it is chosen: its entries are those given. -/
theorem compactMap_ok {ν : Type} {kt vt : String} {fl : UInt32} {m : List (Property × Property)}
    {fk : Property → Option String} {fv : Property → Option ν}
    {mk : List (String × ν) → MapProperty} {P : MapProperty → Prop}
    (hk : ∀ p q b, fk p = some b → fk q = some b → sameKey p q = true)
    (hd : (m.map Prod.fst).Pairwise fun a b => sameKey a b = false)
    (hnone : (∃ e ∈ m, asEntry fk fv e = none) → P (.properties kt vt fl m))
    (hsome : ∀ es : List (String × ν), es.length = m.length → (es.map Prod.fst).Nodup →
      (∀ x ∈ es, ∃ e ∈ m, fk e.1 = some x.1 ∧ fv e.2 = some x.2) → P (mk es)) :
    P (compactMap kt vt fl m fk fv mk) := by
  unfold compactMap
  split
  · rename_i es hc
    have hnd : (es.map Prod.fst).Nodup := by
      clear hnone hsome
      induction m generalizing es with
      | nil => simp [collect] at hc; subst hc; simp
      | cons a l ih =>
        simp only [collect] at hc
        split at hc
        · rename_i b bs h1 h2
          simp only [Option.some.injEq] at hc
          subst hc
          rw [List.map_cons, List.pairwise_cons] at hd
          rw [List.map_cons, List.nodup_cons]
          refine ⟨fun hmem => ?_, ih hd.2 _ h2⟩
          obtain ⟨x, hx, e⟩ := List.mem_map.mp hmem
          obtain ⟨y, hy, hxy⟩ := collect_mem h2 x hx
          have h3 := hk a.1 y.1 b.1 (asEntry_inv h1).1 (e ▸ (asEntry_inv hxy).1)
          rw [hd.1 y.1 (List.mem_map_of_mem hy)] at h3
          cases h3
        · cases hc
    have hf : imExtend (· == ·) [] es = es := by
      apply imExtend_nil_fresh
      exact hnd.imp (by simp)
    rw [hf]
    refine hsome es (collect_length hc) hnd fun x hx => ?_
    obtain ⟨e, he, hxe⟩ := collect_mem hc x hx
    exact ⟨e, he, asEntry_inv hxe⟩
  · rename_i hc
    exact hnone (collect_none.mp hc)

theorem sameKey_self (p : Property) : sameKey p p = true := by simp [sameKey]

/-- A map. -/
theorem mapNew_ok {env : Env} {st : List String} {kt vt : String} {fl : UInt32}
    {m : List (Property × Property)} (hkt : StrOK kt) (hvt : StrOK vt) (hn : m.length < 2 ^ 32)
    (hd : (m.map Prod.fst).Pairwise fun a b => sameKey a b = false)
    (h : EntriesOK env st kt vt m) : MapOK env st (MapProperty.new kt vt fl m) := by
  have hm := entriesOK_mem h
  have key : ∀ {f : Property → Option String} {g : String → Property},
      (∀ p b, f p = some b → g b = p) → ∀ p q b, f p = some b → f q = some b →
        sameKey p q = true := fun hf p q b h1 h2 => by
    rw [← hf p b h1, hf q b h2]; exact sameKey_self _
  have enumK := key (f := asEnum) (g := fun b => .enum none b) fun _ _ => asEnum_some
  have nameK := key (f := asNameKey) (g := fun b => .name 0 (some b)) fun _ _ => asNameKey_some
  have strK := key (f := asStrKey) (g := fun b => .str (some b)) fun _ _ => asStrKey_some
  -- the keys of a compact map
  have keysOK : ∀ {ν : Type} {f : Property → Option String} {fv : Property → Option ν}
      {es : List (String × ν)}, (∀ p b, BareOK env (st ++ ["Key"]) kt p → f p = some b → StrOK b) →
      es.length = m.length → (es.map Prod.fst).Nodup →
      (∀ x ∈ es, ∃ e ∈ m, f e.1 = some x.1 ∧ fv e.2 = some x.2) → KeysOK es :=
    fun hf h1 h2 h3 => ⟨by omega, h2, fun x hx => by
      obtain ⟨e, he, h4, _⟩ := h3 x hx
      exact hf _ _ (hm e he).2.1 h4⟩
  have enumS : ∀ p b, BareOK env (st ++ ["Key"]) kt p → asEnum p = some b → StrOK b :=
    fun p b h1 h2 => by rw [← asEnum_some h2] at h1; exact h1.2.2
  have nameS : ∀ p b, BareOK env (st ++ ["Key"]) kt p → asNameKey p = some b → StrOK b :=
    fun p b h1 h2 => by rw [← asNameKey_some h2] at h1; simpa [FStrOK] using h1.2.2
  have strS : ∀ p b, BareOK env (st ++ ["Key"]) kt p → asStrKey p = some b → StrOK b :=
    fun p b h1 h2 => by rw [← asStrKey_some h2] at h1; simpa [FStrOK] using h1.2
  -- the values of a map to properties
  have vals : ∀ {f : Property → Option String} {es : List (String × Property)},
      (∀ x ∈ es, ∃ e ∈ m, f e.1 = some x.1 ∧ some e.2 = some x.2) →
      ValuesOK env (st ++ ["Value"]) vt es := fun h3 => valuesOK_of_mem fun x hx => by
    obtain ⟨e, he, _, h5⟩ := h3 x hx
    rw [← Option.some.inj h5]
    exact (hm e he).2.2
  -- the general form, by the key type
  have enumNo : kt = "EnumProperty" → ∀ {ν : Type} {fv : Property → Option ν},
      (∀ e ∈ m, ∃ b, fv e.2 = some b) → ¬ ∃ e ∈ m, asEntry asEnum fv e = none := by
    rintro rfl ν fv hv ⟨e, he, hx⟩
    obtain ⟨a, ha⟩ := bareOK_enum (hm e he).2.1
    obtain ⟨b, hb⟩ := hv e he
    simp [asEntry, ha, hb] at hx
  have general : (fl = 0 → kt ≠ "EnumProperty") →
      (fl = 0 → kt ∈ ["NameProperty", "StrProperty"] → ∃ e ∈ m, isNullKey e.1) →
      MapOK env st (.properties kt vt fl m) := fun h1 h2 => by
    simp only [MapOK]
    exact ⟨hkt, hvt, hn, hd, h1, h2, h⟩
  have nameNull : kt = "NameProperty" → ∀ {ν : Type} {fv : Property → Option ν},
      (∀ e ∈ m, ∃ b, fv e.2 = some b) → (∃ e ∈ m, asEntry asNameKey fv e = none) →
      MapOK env st (.properties kt vt fl m) := by
    rintro rfl ν fv hv ⟨e, he, hx⟩
    refine general (fun _ => by decide) fun _ _ => ⟨e, he, ?_⟩
    obtain ⟨a, ha⟩ := bareOK_name (hm e he).2.1
    obtain ⟨b, hb⟩ := hv e he
    have := asName_some ha
    simp only [asEntry] at hx
    rw [← this] at hx ⊢
    cases a <;> simp [asNameKey, hb] at hx
    simp [isNullKey]
  have strNull : kt = "StrProperty" → ∀ {ν : Type} {fv : Property → Option ν},
      (∀ e ∈ m, ∃ b, fv e.2 = some b) → (∃ e ∈ m, asEntry asStrKey fv e = none) →
      MapOK env st (.properties kt vt fl m) := by
    rintro rfl ν fv hv ⟨e, he, hx⟩
    refine general (fun _ => by decide) fun _ _ => ⟨e, he, ?_⟩
    obtain ⟨a, ha⟩ := bareOK_str (hm e he).2.1
    obtain ⟨b, hb⟩ := hv e he
    have := asStr_some ha
    simp only [asEntry] at hx
    rw [← this] at hx ⊢
    cases a <;> simp [asStrKey, hb] at hx
    simp [isNullKey]
  -- the values are of the type named
  have vBool : vt = "BoolProperty" → ∀ e ∈ m, ∃ b, asBool e.2 = some b := by
    rintro rfl e he; exact bareOK_bool (hm e he).2.2.2
  have vInt : vt = "IntProperty" → ∀ e ∈ m, ∃ b, asInt e.2 = some b := by
    rintro rfl e he; exact bareOK_int (hm e he).2.2.2
  have vStr : vt = "StrProperty" → ∀ e ∈ m, ∃ b, asStr e.2 = some b := by
    rintro rfl e he; exact bareOK_str (hm e he).2.2.2
  have vAny : ∀ e ∈ m, ∃ b, some e.2 = some b := fun e _ => ⟨_, rfl⟩
  unfold MapProperty.new
  split
  · rename_i hfl
    exact general (fun e => absurd e hfl) fun e => absurd e hfl
  rename_i hfl
  have hfl : fl = 0 := by simpa using hfl
  split
  · rename_i hk
    split
    · rename_i hv
      exact compactMap_ok enumK hd (fun e => absurd e (enumNo hk (vBool hv))) fun es h1 h2 h3 => by
        simp only [MapOK]; exact keysOK enumS h1 h2 h3
    split
    · rename_i hv
      exact compactMap_ok enumK hd (fun e => absurd e (enumNo hk (vInt hv))) fun es h1 h2 h3 => by
        simp only [MapOK]; exact keysOK enumS h1 h2 h3
    · exact compactMap_ok enumK hd (fun e => absurd e (enumNo hk vAny)) fun es h1 h2 h3 => by
        simp only [MapOK]
        exact ⟨hvt, by simp_all, keysOK enumS h1 h2 h3, vals h3⟩
  split
  · rename_i hk
    split
    · rename_i hv
      exact compactMap_ok nameK hd (nameNull hk (vBool hv)) fun es h1 h2 h3 => by
        simp only [MapOK]; exact keysOK nameS h1 h2 h3
    split
    · rename_i hv
      exact compactMap_ok nameK hd (nameNull hk (vInt hv)) fun es h1 h2 h3 => by
        simp only [MapOK]; exact keysOK nameS h1 h2 h3
    · exact compactMap_ok nameK hd (nameNull hk vAny) fun es h1 h2 h3 => by
        simp only [MapOK]
        exact ⟨hvt, by simp_all, keysOK nameS h1 h2 h3, vals h3⟩
  split
  · rename_i hk
    split
    · rename_i hv
      exact compactMap_ok strK hd (strNull hk (vBool hv)) fun es h1 h2 h3 => by
        simp only [MapOK]; exact keysOK strS h1 h2 h3
    split
    · rename_i hv
      exact compactMap_ok strK hd (strNull hk (vInt hv)) fun es h1 h2 h3 => by
        simp only [MapOK]; exact keysOK strS h1 h2 h3
    split
    · rename_i hv
      exact compactMap_ok strK hd (strNull hk (vStr hv)) fun es h1 h2 h3 => by
        simp only [MapOK]
        refine ⟨keysOK strS h1 h2 h3, fun x hx => ?_⟩
        obtain ⟨e, he, _, h5⟩ := h3 x hx
        have h6 := (hm e he).2.2.2
        rw [← asStr_some h5] at h6
        exact h6.2
    · exact compactMap_ok strK hd (strNull hk vAny) fun es h1 h2 h3 => by
        simp only [MapOK]
        exact ⟨hvt, by simp_all, keysOK strS h1 h2 h3, vals h3⟩
  · exact general (fun _ => by assumption) fun _ => by simp_all

end Gvas
