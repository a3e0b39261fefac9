import Verif.Spec.Grammar
import Verif.Props.Construct

/-! # Which form collections take -/

namespace Gvas

open Spec Format

theorem collect_iff {α β : Type} {f : α → Option β} {g : β → α}
    (h : ∀ a b, f a = some b ↔ a = g b) {l : List α} {bs : List β} :
    collect f l = some bs ↔ l = bs.map g := by
  induction l generalizing bs with
  | nil => cases bs <;> simp [collect]
  | cons a l ih =>
    cases bs with
    | nil =>
      simp only [collect]
      split <;> simp
    | cons b bs =>
      simp only [collect]
      constructor
      · intro hc
        split at hc
        · rename_i b' bs' h1 h2
          simp only [Option.some.injEq, List.cons.injEq] at hc
          obtain ⟨rfl, rfl⟩ := hc
          rw [(h _ _).mp h1, ih.mp h2]; rfl
        · cases hc
      · intro hc
        simp only [List.map_cons, List.cons.injEq] at hc
        rw [(h a b).mpr hc.1, ih.mpr hc.2]

theorem asBool_iff (p : Property) (v : Bool) : asBool p = some v ↔ p = .bool v := by
  cases p <;> simp [asBool]
theorem asInt_iff (p : Property) (v : Int32) : asInt p = some v ↔ p = .int v := by
  cases p <;> simp [asInt]
theorem asFloat_iff (p : Property) (v : F32) : asFloat p = some v ↔ p = .float v := by
  cases p <;> simp [asFloat]
theorem asStr_iff (p : Property) (v : Option String) : asStr p = some v ↔ p = .str v := by
  cases p <;> simp [asStr]
theorem asStructValue_iff (p : Property) (v : StructPropertyValue) :
    asStructValue p = some v ↔ p = .structValue v := by
  cases p <;> simp [asStructValue]
theorem asByte_iff (p : Property) (v : UInt8) : asByte p = some v ↔ p = .byte none (.byte v) := by
  unfold asByte; split <;> simp_all
theorem asEnum_iff (p : Property) (v : String) : asEnum p = some v ↔ p = .enum none v := by
  unfold asEnum; split <;> simp_all
theorem asName_iff (p : Property) (v : Option String) : asName p = some v ↔ p = .name 0 v := by
  cases p <;> simp [asName]
theorem asNameKey_iff (p : Property) (v : String) :
    asNameKey p = some v ↔ p = .name 0 (some v) := by
  unfold asNameKey; split <;> simp_all
theorem asStrKey_iff (p : Property) (v : String) : asStrKey p = some v ↔ p = .str (some v) := by
  unfold asStrKey; split <;> simp_all

theorem asEntry_iff {κ ν : Type} {fk : Property → Option κ} {fv : Property → Option ν}
    {gk : κ → Property} {gv : ν → Property} (hk : ∀ p b, fk p = some b ↔ p = gk b)
    (hv : ∀ p b, fv p = some b ↔ p = gv b) (e : Property × Property) (x : κ × ν) :
    asEntry fk fv e = some x ↔ e = (gk x.1, gv x.2) := by
  obtain ⟨a, b⟩ := e
  obtain ⟨k, v⟩ := x
  unfold asEntry
  simp only [Prod.mk.injEq, ← hk, ← hv]
  split
  · rename_i k' v' h1 h2
    simp [h1, h2]
  · rename_i hn
    constructor
    · intro h; cases h
    · rintro ⟨h1, h2⟩
      exact absurd h2 (hn _ _ h1)

/-! ## Arrays -/

theorem compactArray_iff {β : Type} {ty : String} {ps : List Property}
    {f : Property → Option β} {g : β → Property} {mk : List β → ArrayProperty}
    (h : ∀ p b, f p = some b ↔ p = g b) {C : ArrayProperty → Prop}
    (hC : ∀ a, C a ↔ ∃ bs, ps = bs.map g ∧ a = mk bs) (a : ArrayProperty) :
    compactArray ty ps f mk = .ok a ↔ C a ∨ (∀ a', ¬ C a') ∧ a = .properties ty ps := by
  simp only [hC]
  unfold compactArray
  split
  · rename_i bs hb
    have hb := (collect_iff h).mp hb
    constructor
    · intro e; cases e; exact .inl ⟨bs, hb, rfl⟩
    · rintro (⟨bs', e, rfl⟩ | ⟨hn, _⟩)
      · have h1 := (collect_iff h).mpr hb
        have h2 := (collect_iff h).mpr e
        rw [h1] at h2
        cases h2
        rfl
      · exact absurd ⟨bs, hb, rfl⟩ (hn (mk bs))
  · rename_i hn
    constructor
    · intro e; cases e
      refine .inr ⟨?_, rfl⟩
      rintro a ⟨bs, e, rfl⟩
      rw [(collect_iff h).mpr e] at hn
      cases hn
    · rintro (⟨bs, e, rfl⟩ | ⟨_, rfl⟩)
      · rw [(collect_iff h).mpr e] at hn
        cases hn
      · rfl

/-- `ArrayProperty::new` chooses the form the grammar gives. -/
theorem array_new_iff (ty : String) (ps : List Property) (a : ArrayProperty) :
    ArrayProperty.new ty none ps = .ok a ↔ ArrayOf ty ps a := by
  unfold ArrayProperty.new ArrayOf
  simp only []
  have key : ∀ {ty' : String} {a' : ArrayProperty}, CompactArray ty' ps a' → ty' = ty →
      (ty = "BoolProperty" ∧ ∃ bs, ps = bs.map .bool ∧ a' = .bools bs) ∨
      (ty = "ByteProperty" ∧ ∃ bs, ps = bs.map (fun v => .byte none (.byte v)) ∧ a' = .bytes bs) ∨
      (ty = "EnumProperty" ∧ ∃ bs, ps = bs.map (.enum none) ∧ a' = .enums bs) ∨
      (ty = "IntProperty" ∧ ∃ bs, ps = bs.map .int ∧ a' = .ints bs) ∨
      (ty = "FloatProperty" ∧ ∃ bs, ps = bs.map .float ∧ a' = .floats bs) ∨
      (ty = "NameProperty" ∧ ∃ bs, ps = bs.map (.name 0) ∧ a' = .names bs) ∨
      (ty = "StrProperty" ∧ ∃ bs, ps = bs.map .str ∧ a' = .strings bs) := by
    intro ty' a' h e
    cases h with
    | bools vs => exact .inl ⟨e.symm, vs, rfl, rfl⟩
    | bytes vs => exact .inr (.inl ⟨e.symm, vs, rfl, rfl⟩)
    | enums vs => exact .inr (.inr (.inl ⟨e.symm, vs, rfl, rfl⟩))
    | ints vs => exact .inr (.inr (.inr (.inl ⟨e.symm, vs, rfl, rfl⟩)))
    | floats vs => exact .inr (.inr (.inr (.inr (.inl ⟨e.symm, vs, rfl, rfl⟩))))
    | names vs => exact .inr (.inr (.inr (.inr (.inr (.inl ⟨e.symm, vs, rfl, rfl⟩)))))
    | strings vs => exact .inr (.inr (.inr (.inr (.inr (.inr ⟨e.symm, vs, rfl, rfl⟩)))))
  split
  · rename_i e; subst e
    refine compactArray_iff asBool_iff (fun a => ⟨fun h => ?_, ?_⟩) a
    · simpa using key h rfl
    · rintro ⟨bs, rfl, rfl⟩; exact .bools bs
  split
  · rename_i e; subst e
    refine compactArray_iff asByte_iff (fun a => ⟨fun h => ?_, ?_⟩) a
    · simpa using key h rfl
    · rintro ⟨bs, rfl, rfl⟩; exact .bytes bs
  split
  · rename_i e; subst e
    refine compactArray_iff asEnum_iff (fun a => ⟨fun h => ?_, ?_⟩) a
    · simpa using key h rfl
    · rintro ⟨bs, rfl, rfl⟩; exact .enums bs
  split
  · rename_i e; subst e
    refine compactArray_iff asInt_iff (fun a => ⟨fun h => ?_, ?_⟩) a
    · simpa using key h rfl
    · rintro ⟨bs, rfl, rfl⟩; exact .ints bs
  split
  · rename_i e; subst e
    refine compactArray_iff asFloat_iff (fun a => ⟨fun h => ?_, ?_⟩) a
    · simpa using key h rfl
    · rintro ⟨bs, rfl, rfl⟩; exact .floats bs
  split
  · rename_i e; subst e
    refine compactArray_iff asName_iff (fun a => ⟨fun h => ?_, ?_⟩) a
    · simpa using key h rfl
    · rintro ⟨bs, rfl, rfl⟩; exact .names bs
  split
  · rename_i e; subst e
    refine compactArray_iff asStr_iff (fun a => ⟨fun h => ?_, ?_⟩) a
    · simpa using key h rfl
    · rintro ⟨bs, rfl, rfl⟩; exact .strings bs
  · rename_i n1 n2 n3 n4 n5 n6 n7
    have hn : ∀ a', ¬ CompactArray ty ps a' := by
      intro a' h
      have := key h rfl
      simp [n1, n2, n3, n4, n5, n6, n7] at this
    constructor
    · intro e; cases e; exact .inr ⟨hn, rfl⟩
    · rintro (h | ⟨_, rfl⟩)
      · exact absurd h (hn _)
      · rfl

theorem array_new_structs (field ty : String) (g : Guid) (vs : List StructPropertyValue) :
    ArrayProperty.new "StructProperty" (some (field, ty, g)) (vs.map .structValue) =
      .ok (.structs field ty g vs) := by
  unfold ArrayProperty.new
  rw [(collect_iff asStructValue_iff).mpr rfl]
  rfl

/-! ## Maps -/

theorem compactMap_iff {ν : Type} {kt vt : String} {m : List (Property × Property)}
    {fk : Property → Option String} {fv : Property → Option ν} {gk : String → Property}
    {gv : ν → Property} {mk : List (String × ν) → MapProperty}
    (hk : ∀ p b, fk p = some b ↔ p = gk b) (hv : ∀ p b, fv p = some b ↔ p = gv b)
    (hd : (m.map Prod.fst).Pairwise fun a b => sameKey a b = false)
    {C : MapProperty → Prop}
    (hC : ∀ mp, C mp ↔ ∃ es, m = pairs gk gv es ∧ mp = mk es) (mp : MapProperty) :
    compactMap kt vt 0 m fk fv mk = mp ↔
      C mp ∨ ¬ (∃ mp', C mp') ∧ mp = .properties kt vt 0 m := by
  simp only [hC]
  unfold compactMap
  have hi := asEntry_iff hk hv
  split
  · rename_i es hb
    have he := (collect_iff (g := fun e : String × ν => (gk e.1, gv e.2)) hi).mp hb
    have hf : imExtend (· == ·) [] es = es := by
      apply imExtend_nil_fresh
      rw [he, List.map_map, List.pairwise_map] at hd
      rw [List.pairwise_map]
      refine hd.imp ?_
      intro a b hab
      rw [beq_eq_false_iff_ne]
      intro h
      simp only [Function.comp] at hab
      rw [h] at hab
      simp [sameKey] at hab
    rw [hf]
    constructor
    · rintro rfl; exact .inl ⟨es, he, rfl⟩
    · rintro (⟨es', e, rfl⟩ | ⟨hn, _⟩)
      · have h2 := (collect_iff (g := fun e : String × ν => (gk e.1, gv e.2)) hi).mpr e
        rw [hb] at h2
        cases h2
        rfl
      · exact absurd ⟨mk es, es, he, rfl⟩ hn
  · rename_i hn
    have hne : ∀ es, m ≠ pairs gk gv es := by
      intro es e
      rw [(collect_iff (g := fun e : String × ν => (gk e.1, gv e.2)) hi).mpr e] at hn
      cases hn
    constructor
    · rintro rfl
      refine .inr ⟨?_, rfl⟩
      rintro ⟨_, es, e, _⟩
      exact hne es e
    · rintro (⟨es, e, rfl⟩ | ⟨_, rfl⟩)
      · exact absurd e (hne es)
      · rfl

/-- `MapProperty::new` chooses the form the grammar gives. -/
theorem map_new_iff (kt vt : String) (fl : UInt32) (m : List (Property × Property))
    (mp : MapProperty) (hd : (m.map Prod.fst).Pairwise fun a b => sameKey a b = false) :
    MapProperty.new kt vt fl m = mp ↔ MapOf kt vt fl m mp := by
  unfold MapProperty.new MapOf
  split
  · rename_i hfl
    simp only [hfl, false_and, not_false_eq_true, true_and, false_or]
    exact eq_comm
  rename_i hfl
  have hfl : fl = 0 := by simpa using hfl
  subst hfl
  simp only [true_and]
  have some_iff : ∀ p b : Property, some p = some b ↔ p = id b := by simp
  have key : ∀ {kt' vt' : String} {mp' : MapProperty}, CompactMap kt' vt' m mp' → kt' = kt →
      vt' = vt →
      (kt = "EnumProperty" ∧
        ((vt = "BoolProperty" ∧ ∃ es, m = pairs (.enum none) .bool es ∧ mp' = .enumBool es) ∨
         (vt = "IntProperty" ∧ ∃ es, m = pairs (.enum none) .int es ∧ mp' = .enumInt es) ∨
         (vt ≠ "BoolProperty" ∧ vt ≠ "IntProperty" ∧
          ∃ es, m = pairs (.enum none) id es ∧ mp' = .enumProperty vt es))) ∨
      (kt = "NameProperty" ∧
        ((vt = "BoolProperty" ∧
          ∃ es, m = pairs (fun s => .name 0 (some s)) .bool es ∧ mp' = .nameBool es) ∨
         (vt = "IntProperty" ∧
          ∃ es, m = pairs (fun s => .name 0 (some s)) .int es ∧ mp' = .nameInt es) ∨
         (vt ≠ "BoolProperty" ∧ vt ≠ "IntProperty" ∧
          ∃ es, m = pairs (fun s => .name 0 (some s)) id es ∧ mp' = .nameProperty vt es))) ∨
      (kt = "StrProperty" ∧
        ((vt = "BoolProperty" ∧
          ∃ es, m = pairs (fun s => .str (some s)) .bool es ∧ mp' = .strBool es) ∨
         (vt = "IntProperty" ∧
          ∃ es, m = pairs (fun s => .str (some s)) .int es ∧ mp' = .strInt es) ∨
         (vt = "StrProperty" ∧
          ∃ es, m = pairs (fun s => .str (some s)) .str es ∧ mp' = .strStr es) ∨
         (vt ≠ "BoolProperty" ∧ vt ≠ "IntProperty" ∧ vt ≠ "StrProperty" ∧
          ∃ es, m = pairs (fun s => .str (some s)) id es ∧ mp' = .strProperty vt es))) := by
    intro kt' vt' mp' h e1 e2
    cases h with
    | enumBool es => exact .inl ⟨e1.symm, .inl ⟨e2.symm, es, rfl, rfl⟩⟩
    | enumInt es => exact .inl ⟨e1.symm, .inr (.inl ⟨e2.symm, es, rfl, rfl⟩)⟩
    | enumProperty _ es h1 h2 =>
      subst e2; exact .inl ⟨e1.symm, .inr (.inr ⟨h1, h2, es, rfl, rfl⟩)⟩
    | nameBool es => exact .inr (.inl ⟨e1.symm, .inl ⟨e2.symm, es, rfl, rfl⟩⟩)
    | nameInt es => exact .inr (.inl ⟨e1.symm, .inr (.inl ⟨e2.symm, es, rfl, rfl⟩)⟩)
    | nameProperty _ es h1 h2 =>
      subst e2; exact .inr (.inl ⟨e1.symm, .inr (.inr ⟨h1, h2, es, rfl, rfl⟩)⟩)
    | strBool es => exact .inr (.inr ⟨e1.symm, .inl ⟨e2.symm, es, rfl, rfl⟩⟩)
    | strInt es => exact .inr (.inr ⟨e1.symm, .inr (.inl ⟨e2.symm, es, rfl, rfl⟩)⟩)
    | strStr es => exact .inr (.inr ⟨e1.symm, .inr (.inr (.inl ⟨e2.symm, es, rfl, rfl⟩))⟩)
    | strProperty _ es h1 h2 h3 =>
      subst e2; exact .inr (.inr ⟨e1.symm, .inr (.inr (.inr ⟨h1, h2, h3, es, rfl, rfl⟩))⟩)
  split
  · rename_i e; subst e
    split
    · rename_i e; subst e
      refine compactMap_iff asEnum_iff asBool_iff hd (fun a => ⟨fun h => ?_, ?_⟩) mp
      · simpa using key h rfl rfl
      · rintro ⟨es, rfl, rfl⟩; exact .enumBool es
    split
    · rename_i e; subst e
      refine compactMap_iff asEnum_iff asInt_iff hd (fun a => ⟨fun h => ?_, ?_⟩) mp
      · simpa using key h rfl rfl
      · rintro ⟨es, rfl, rfl⟩; exact .enumInt es
    · rename_i h1 h2
      refine compactMap_iff asEnum_iff some_iff hd (fun a => ⟨fun h => ?_, ?_⟩) mp
      · simpa [h1, h2] using key h rfl rfl
      · rintro ⟨es, rfl, rfl⟩; exact .enumProperty _ es h1 h2
  split
  · rename_i e; subst e
    split
    · rename_i e; subst e
      refine compactMap_iff asNameKey_iff asBool_iff hd (fun a => ⟨fun h => ?_, ?_⟩) mp
      · simpa using key h rfl rfl
      · rintro ⟨es, rfl, rfl⟩; exact .nameBool es
    split
    · rename_i e; subst e
      refine compactMap_iff asNameKey_iff asInt_iff hd (fun a => ⟨fun h => ?_, ?_⟩) mp
      · simpa using key h rfl rfl
      · rintro ⟨es, rfl, rfl⟩; exact .nameInt es
    · rename_i h1 h2
      refine compactMap_iff asNameKey_iff some_iff hd (fun a => ⟨fun h => ?_, ?_⟩) mp
      · simpa [h1, h2] using key h rfl rfl
      · rintro ⟨es, rfl, rfl⟩; exact .nameProperty _ es h1 h2
  split
  · rename_i e; subst e
    split
    · rename_i e; subst e
      refine compactMap_iff asStrKey_iff asBool_iff hd (fun a => ⟨fun h => ?_, ?_⟩) mp
      · simpa using key h rfl rfl
      · rintro ⟨es, rfl, rfl⟩; exact .strBool es
    split
    · rename_i e; subst e
      refine compactMap_iff asStrKey_iff asInt_iff hd (fun a => ⟨fun h => ?_, ?_⟩) mp
      · simpa using key h rfl rfl
      · rintro ⟨es, rfl, rfl⟩; exact .strInt es
    split
    · rename_i e; subst e
      refine compactMap_iff asStrKey_iff asStr_iff hd (fun a => ⟨fun h => ?_, ?_⟩) mp
      · simpa using key h rfl rfl
      · rintro ⟨es, rfl, rfl⟩; exact .strStr es
    · rename_i h1 h2 h3
      refine compactMap_iff asStrKey_iff some_iff hd (fun a => ⟨fun h => ?_, ?_⟩) mp
      · simpa [h1, h2, h3] using key h rfl rfl
      · rintro ⟨es, rfl, rfl⟩; exact .strProperty _ es h1 h2 h3
  · rename_i n1 n2 n3
    have hn : ∀ mp', ¬ CompactMap kt vt m mp' := by
      intro a' h
      have := key h rfl rfl
      simp [n1, n2, n3] at this
    constructor
    · rintro rfl; exact .inr ⟨fun ⟨_, h⟩ => hn _ h, rfl⟩
    · rintro (h | ⟨_, rfl⟩)
      · exact absurd h (hn _)
      · rfl

end Gvas
