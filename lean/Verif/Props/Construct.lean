import Verif.Model.Construct
import Verif.Lemmas.IndexMap

/-!
# C35, C36: `ArrayProperty::new` and `MapProperty::new` lose nothing
-/

namespace Gvas

namespace Spec

/-- The elements of an array, one property each, whatever the representation. -/
def elements : ArrayProperty → List Property
  | .bools v => v.map .bool
  | .bytes v => v.map fun b => .byte none (.byte b)
  | .enums v => v.map fun s => .enum none s
  | .floats v => v.map .float
  | .ints v => v.map .int
  | .names v => v.map fun s => .name 0 s
  | .strings v => v.map .str
  | .structs _ _ _ v => v.map .structValue
  | .properties _ v => v

/-- The struct metadata of an array. -/
def structInfo : ArrayProperty → Option (String × String × Guid)
  | .structs f t g _ => some (f, t, g)
  | _ => none

/-- The entries of a map, as properties, whatever the representation. -/
def entries : MapProperty → List (Property × Property)
  | .enumBool v => v.map fun e => (.enum none e.1, .bool e.2)
  | .enumInt v => v.map fun e => (.enum none e.1, .int e.2)
  | .enumProperty _ v => v.map fun e => (.enum none e.1, e.2)
  | .nameBool v => v.map fun e => (.name 0 (some e.1), .bool e.2)
  | .nameInt v => v.map fun e => (.name 0 (some e.1), .int e.2)
  | .nameProperty _ v => v.map fun e => (.name 0 (some e.1), e.2)
  | .properties _ _ _ v => v
  | .strBool v => v.map fun e => (.str (some e.1), .bool e.2)
  | .strInt v => v.map fun e => (.str (some e.1), .int e.2)
  | .strProperty _ v => v.map fun e => (.str (some e.1), e.2)
  | .strStr v => v.map fun e => (.str (some e.1), .str e.2)

/-- The allocation flags of a map; the compact forms have none. -/
def mapFlags : MapProperty → UInt32
  | .properties _ _ fl _ => fl
  | _ => 0

/-- A map whose keys are pairwise different keys, as in every `IndexMap`. -/
def DistinctPropKeys (m : List (Property × Property)) : Prop :=
  (m.map Prod.fst).Pairwise fun a b => sameKey a b = false

end Spec

open Spec

theorem collect_some {α β : Type} {f : α → Option β} {g : β → α}
    (hf : ∀ a b, f a = some b → g b = a) {l : List α} {bs : List β}
    (h : collect f l = some bs) : bs.map g = l := by
  induction l generalizing bs with
  | nil => simp [collect] at h; subst h; rfl
  | cons a l ih =>
    simp only [collect] at h
    split at h
    · rename_i b bs' h1 h2
      simp only [Option.some.injEq] at h
      subst h
      rw [List.map_cons, hf _ _ h1, ih h2]
    · cases h

theorem collect_none {α β : Type} {f : α → Option β} {l : List α} :
    collect f l = none ↔ ∃ a ∈ l, f a = none := by
  induction l with
  | nil => simp [collect]
  | cons a l ih =>
    simp only [collect]
    cases h1 : f a with
    | none => simp [h1]
    | some b =>
      cases h2 : collect f l with
      | none => simp [h1, ih.mp h2]
      | some bs =>
        simp only [reduceCtorEq, List.mem_cons, false_iff]
        rintro ⟨x, rfl | hx, hn⟩
        · rw [h1] at hn; cases hn
        · have := ih.mpr ⟨x, hx, hn⟩
          rw [h2] at this; cases this

theorem asBool_some {p : Property} {b : Bool} (h : asBool p = some b) : .bool b = p := by
  unfold asBool at h; split at h <;> simp_all
theorem asByte_some {p : Property} {b : UInt8} (h : asByte p = some b) :
    .byte none (.byte b) = p := by
  unfold asByte at h; split at h <;> simp_all
theorem asEnum_some {p : Property} {b : String} (h : asEnum p = some b) : .enum none b = p := by
  unfold asEnum at h; split at h <;> simp_all
theorem asInt_some {p : Property} {b : Int32} (h : asInt p = some b) : .int b = p := by
  unfold asInt at h; split at h <;> simp_all
theorem asFloat_some {p : Property} {b : F32} (h : asFloat p = some b) : .float b = p := by
  unfold asFloat at h; split at h <;> simp_all
theorem asName_some {p : Property} {b : Option String} (h : asName p = some b) :
    .name 0 b = p := by
  unfold asName at h; repeat' split at h
  all_goals simp_all
theorem asStr_some {p : Property} {b : Option String} (h : asStr p = some b) : .str b = p := by
  unfold asStr at h; split at h <;> simp_all
theorem asStructValue_some {p : Property} {b : StructPropertyValue}
    (h : asStructValue p = some b) : .structValue b = p := by
  unfold asStructValue at h; split at h <;> simp_all
theorem asNameKey_some {p : Property} {b : String} (h : asNameKey p = some b) :
    .name 0 (some b) = p := by
  unfold asNameKey at h; repeat' split at h
  all_goals simp_all
theorem asStrKey_some {p : Property} {b : String} (h : asStrKey p = some b) :
    .str (some b) = p := by
  unfold asStrKey at h; split at h <;> simp_all

theorem asStructValue_none {p : Property} : asStructValue p = none ↔ ∀ v, p ≠ .structValue v := by
  cases p <;> simp [asStructValue]

private theorem compactArray_spec {β : Type} {ty : String} {ps : List Property}
    {f : Property → Option β} {mk : List β → ArrayProperty} {a : ArrayProperty}
    {g : β → Property} (hf : ∀ p b, f p = some b → g b = p)
    (hmk : ∀ bs, (mk bs).propertyType = ty ∧ elements (mk bs) = bs.map g ∧
      structInfo (mk bs) = none)
    (h : compactArray ty ps f mk = .ok a) :
    a.propertyType = ty ∧ elements a = ps ∧ structInfo a = none := by
  unfold compactArray at h
  split at h
  · rename_i bs hc
    simp only [Res.ok.injEq] at h
    subst h
    obtain ⟨h1, h2, h3⟩ := hmk bs
    exact ⟨h1, by rw [h2, collect_some hf hc], h3⟩
  · simp only [Res.ok.injEq] at h
    subst h
    exact ⟨rfl, rfl, rfl⟩

/-- **C35**: whichever representation is chosen, type name, struct metadata and all elements in
order are kept. -/
theorem C35_array_new_keeps (ty : String) (info : Option (String × String × Guid))
    (ps : List Property) (a : ArrayProperty) (h : ArrayProperty.new ty info ps = .ok a) :
    a.propertyType = ty ∧ elements a = ps ∧ structInfo a = info := by
  unfold ArrayProperty.new at h
  cases info with
  | none =>
    simp only [] at h
    split at h
    · exact compactArray_spec (fun _ _ => asBool_some) (fun bs => ⟨by simp_all [ArrayProperty.propertyType], rfl, rfl⟩) h
    split at h
    · exact compactArray_spec (fun _ _ => asByte_some) (fun bs => ⟨by simp_all [ArrayProperty.propertyType], rfl, rfl⟩) h
    split at h
    · exact compactArray_spec (fun _ _ => asEnum_some) (fun bs => ⟨by simp_all [ArrayProperty.propertyType], rfl, rfl⟩) h
    split at h
    · exact compactArray_spec (fun _ _ => asInt_some) (fun bs => ⟨by simp_all [ArrayProperty.propertyType], rfl, rfl⟩) h
    split at h
    · exact compactArray_spec (fun _ _ => asFloat_some) (fun bs => ⟨by simp_all [ArrayProperty.propertyType], rfl, rfl⟩) h
    split at h
    · exact compactArray_spec (fun _ _ => asName_some) (fun bs => ⟨by simp_all [ArrayProperty.propertyType], rfl, rfl⟩) h
    split at h
    · exact compactArray_spec (fun _ _ => asStr_some) (fun bs => ⟨by simp_all [ArrayProperty.propertyType], rfl, rfl⟩) h
    · simp only [Res.ok.injEq] at h
      subst h
      exact ⟨rfl, rfl, rfl⟩
  | some i =>
    obtain ⟨f, t, g⟩ := i
    simp only [] at h
    split at h
    · split at h
      · rename_i vs hc
        simp only [Res.ok.injEq] at h
        subst h
        refine ⟨by simp_all [ArrayProperty.propertyType], ?_, rfl⟩
        exact collect_some (fun _ _ => asStructValue_some) hc
      · cases h
    · cases h

/-- **C35**: construction fails exactly for struct metadata on an array of another type, or
together with an element that is not a bare struct value; the failure is an error, not a panic. -/
theorem C35_array_new_fails_iff (ty : String) (info : Option (String × String × Guid))
    (ps : List Property) :
    (∃ e, ArrayProperty.new ty info ps = .err e) ↔
      info ≠ none ∧ (ty ≠ "StructProperty" ∨ ∃ p ∈ ps, ∀ v, p ≠ .structValue v) := by
  unfold ArrayProperty.new
  cases info with
  | none =>
    have : ∀ {β : Type} (f : Property → Option β) (mk : List β → ArrayProperty),
        ¬ ∃ e, compactArray ty ps f mk = .err e := by
      intro β f mk
      unfold compactArray
      split <;> simp
    simp only [ne_eq, not_true_eq_false, false_and, iff_false]
    repeat' split
    all_goals first | exact this _ _ | simp
  | some i =>
    obtain ⟨f, t, g⟩ := i
    by_cases ht : ty = "StructProperty"
    · simp only [ht, if_true]
      cases hc : collect asStructValue ps with
      | none =>
        obtain ⟨p, hp, hn⟩ := collect_none.mp hc
        simp only [Res.bad.injEq, Fail.err.injEq, exists_eq', ne_eq, reduceCtorEq,
          not_false_eq_true, true_and, true_iff]
        exact .inr ⟨p, hp, asStructValue_none.mp hn⟩
      | some vs =>
        simp only [reduceCtorEq, exists_false, ne_eq, not_false_eq_true, true_and, false_iff,
          not_true_eq_false, false_or]
        rintro ⟨p, hp, hn⟩
        have := collect_none.mpr ⟨p, hp, asStructValue_none.mpr hn⟩
        rw [hc] at this; cases this
    · simp [ht]

/-- It never panics. -/
theorem C35_array_new_total (ty : String) (info : Option (String × String × Guid))
    (ps : List Property) :
    (∃ a, ArrayProperty.new ty info ps = .ok a) ∨ (∃ e, ArrayProperty.new ty info ps = .err e) := by
  have : ∀ {β : Type} (f : Property → Option β) (mk : List β → ArrayProperty),
      ∃ a, compactArray ty ps f mk = .ok a := by
    intro β f mk
    unfold compactArray
    split <;> exact ⟨_, rfl⟩
  unfold ArrayProperty.new
  cases info with
  | none =>
    left
    simp only []
    repeat' split
    all_goals first | exact this _ _ | exact ⟨_, rfl⟩
  | some i =>
    simp only []
    repeat' split
    all_goals first | exact .inl ⟨_, rfl⟩ | exact .inr ⟨_, rfl⟩

/-- An array of names one of which has an array index stays in the general form, without index
it becomes compact. -/
example :
    ArrayProperty.new "NameProperty" none [.name 0 (some "a"), .name 3 (some "b")] =
      .ok (.properties "NameProperty" [.name 0 (some "a"), .name 3 (some "b")]) ∧
    ArrayProperty.new "NameProperty" none [.name 0 (some "a"), .name 0 none] =
      .ok (.names [some "a", none]) := ⟨rfl, rfl⟩

/-! ## Maps -/

private theorem asEntry_some {κ ν : Type} {fk : Property → Option κ} {fv : Property → Option ν}
    {gk : κ → Property} {gv : ν → Property} (hk : ∀ p b, fk p = some b → gk b = p)
    (hv : ∀ p b, fv p = some b → gv b = p) (e : Property × Property) (x : κ × ν)
    (h : asEntry fk fv e = some x) : (gk x.1, gv x.2) = e := by
  unfold asEntry at h
  split at h
  · rename_i k v h1 h2
    simp only [Option.some.injEq] at h
    subst h
    simp only [hk _ _ h1, hv _ _ h2]
  · cases h

private theorem compactMap_spec {ν : Type} {kt vt : String} {fl : UInt32}
    {m : List (Property × Property)} {fk : Property → Option String} {fv : Property → Option ν}
    {mk : List (String × ν) → MapProperty} {gk : String → Property} {gv : ν → Property}
    (hk : ∀ p b, fk p = some b → gk b = p) (hv : ∀ p b, fv p = some b → gv b = p)
    (hmk : ∀ es, (mk es).keyType = kt ∧ (mk es).valueType = vt ∧ mapFlags (mk es) = fl ∧
      entries (mk es) = es.map fun e => (gk e.1, gv e.2))
    (hd : DistinctPropKeys m) :
    (compactMap kt vt fl m fk fv mk).keyType = kt ∧
    (compactMap kt vt fl m fk fv mk).valueType = vt ∧
    mapFlags (compactMap kt vt fl m fk fv mk) = fl ∧
    entries (compactMap kt vt fl m fk fv mk) = m := by
  unfold compactMap
  split
  · rename_i es hc
    have he : es.map (fun e => (gk e.1, gv e.2)) = m :=
      collect_some (asEntry_some hk hv) hc
    have hf : imExtend (· == ·) [] es = es := by
      apply imExtend_nil_fresh
      unfold DistinctPropKeys at hd
      rw [← he, List.map_map, List.pairwise_map] at hd
      rw [List.pairwise_map]
      refine hd.imp ?_
      intro a b hab
      rw [beq_eq_false_iff_ne]
      intro h
      simp only [Function.comp] at hab
      rw [h] at hab
      simp [sameKey] at hab
    rw [hf]
    obtain ⟨h1, h2, h3, h4⟩ := hmk es
    exact ⟨h1, h2, h3, h4.trans he⟩
  · exact ⟨rfl, rfl, rfl, rfl⟩

/-- **C36**: whichever representation is chosen, key type, value type, allocation flags and all
entries in order are kept. -/
theorem C36_map_new_keeps (kt vt : String) (fl : UInt32) (m : List (Property × Property))
    (hd : DistinctPropKeys m) :
    (MapProperty.new kt vt fl m).keyType = kt ∧ (MapProperty.new kt vt fl m).valueType = vt ∧
    mapFlags (MapProperty.new kt vt fl m) = fl ∧ entries (MapProperty.new kt vt fl m) = m := by
  have some_id : ∀ p b : Property, some p = some b → id b = p := fun p b h => by simp_all
  unfold MapProperty.new
  split
  · exact ⟨rfl, rfl, rfl, rfl⟩
  · rename_i hfl
    have hfl : fl = 0 := by simpa using hfl
    repeat' split
    all_goals first
      | exact ⟨rfl, rfl, rfl, rfl⟩
      | skip
    · exact compactMap_spec (fun _ _ => asEnum_some) (fun _ _ => asBool_some)
        (fun es => ⟨by simp_all [MapProperty.keyType], by simp_all [MapProperty.valueType],
          by simp_all [mapFlags], rfl⟩) hd
    · exact compactMap_spec (fun _ _ => asEnum_some) (fun _ _ => asInt_some)
        (fun es => ⟨by simp_all [MapProperty.keyType], by simp_all [MapProperty.valueType],
          by simp_all [mapFlags], rfl⟩) hd
    · exact compactMap_spec (fun _ _ => asEnum_some) some_id
        (fun es => ⟨by simp_all [MapProperty.keyType], by simp_all [MapProperty.valueType],
          by simp_all [mapFlags], rfl⟩) hd
    · exact compactMap_spec (fun _ _ => asNameKey_some) (fun _ _ => asBool_some)
        (fun es => ⟨by simp_all [MapProperty.keyType], by simp_all [MapProperty.valueType],
          by simp_all [mapFlags], rfl⟩) hd
    · exact compactMap_spec (fun _ _ => asNameKey_some) (fun _ _ => asInt_some)
        (fun es => ⟨by simp_all [MapProperty.keyType], by simp_all [MapProperty.valueType],
          by simp_all [mapFlags], rfl⟩) hd
    · exact compactMap_spec (fun _ _ => asNameKey_some) some_id
        (fun es => ⟨by simp_all [MapProperty.keyType], by simp_all [MapProperty.valueType],
          by simp_all [mapFlags], rfl⟩) hd
    · exact compactMap_spec (fun _ _ => asStrKey_some) (fun _ _ => asBool_some)
        (fun es => ⟨by simp_all [MapProperty.keyType], by simp_all [MapProperty.valueType],
          by simp_all [mapFlags], rfl⟩) hd
    · exact compactMap_spec (fun _ _ => asStrKey_some) (fun _ _ => asInt_some)
        (fun es => ⟨by simp_all [MapProperty.keyType], by simp_all [MapProperty.valueType],
          by simp_all [mapFlags], rfl⟩) hd
    · exact compactMap_spec (fun _ _ => asStrKey_some) (fun _ _ => asStr_some)
        (fun es => ⟨by simp_all [MapProperty.keyType], by simp_all [MapProperty.valueType],
          by simp_all [mapFlags], rfl⟩) hd
    · exact compactMap_spec (fun _ _ => asStrKey_some) some_id
        (fun es => ⟨by simp_all [MapProperty.keyType], by simp_all [MapProperty.valueType],
          by simp_all [mapFlags], rfl⟩) hd

/-- Two entries with different string keys, stored compactly. -/
example : DistinctPropKeys [(.str (some "a"), .int 1), (.str (some "b"), .int 2)] ∧
    MapProperty.new "StrProperty" "IntProperty" 0
      [(.str (some "a"), .int 1), (.str (some "b"), .int 2)] = .strInt [("a", 1), ("b", 2)] := by
  constructor
  · simp [DistinctPropKeys, sameKey, Property.feed, feedOpt]
  · rfl

end Gvas
