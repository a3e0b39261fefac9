import Verif.Lemmas.Place
import Verif.Lemmas.Hints
import Verif.Lemmas.Asks

/-!
# Putting a value from one place into another: what is looked at
-/

namespace Gvas

open Spec

/-- `t` can stand where `s` stands (`h`: with a header), if the hints suit it there. -/
structure Carries (env : Env) (h : Bool) (s t : Property) : Prop where
  head : h = true → ∀ st, HeadOK env st s → (∀ n ∈ needs st t, Suits env.hints n) → HeadOK env st t
  index : h = true → storedIndex t = storedIndex s
  bare : h = false → ∀ st ty, BareOK env st ty s → (∀ n ∈ needs st t, Suits env.hints n) →
    BareOK env st ty t
  size : h = false → sizeClass t = sizeClass s
  free : h = false → SizeFree s → SizeFree t
  spaced : h = false → isNamespaced s → isNamespaced t

theorem carries_of_head {env : Env} {h : Bool} {s t : Property}
    (head : ∀ st, HeadOK env st s → (∀ n ∈ needs st t, Suits env.hints n) → HeadOK env st t)
    (bare : ∀ st ty, BareOK env st ty s → (∀ n ∈ needs st t, Suits env.hints n) →
      BareOK env st ty t)
    (hs : storedIndex s = 0 ∧ sizeClass s = none ∧ ¬ isNamespaced s)
    (ht : storedIndex t = 0 ∧ sizeClass t = none ∧ SizeFree t) : Carries env h s t :=
  ⟨fun _ => head, fun _ => by rw [hs.1, ht.1], fun _ => bare, fun _ => by rw [hs.2.1, ht.2.1],
    fun _ _ => ht.2.2, fun _ h => absurd h hs.2.2⟩

theorem carries_uniform {env : Env} {s t : Property} (h : Carries env false s t)
    (l r : List Property) (hu : Uniform (l ++ s :: r)) : Uniform (l ++ t :: r) := by
  have hs : ∀ p ∈ l ++ t :: r, sizeClass p = sizeClass s := by
    intro p hp
    simp only [List.mem_append, List.mem_cons] at hp
    rcases hp with hp | hp | hp
    · exact hu p (by simp [hp]) s (by simp)
    · rw [hp]; exact h.size rfl
    · exact hu p (by simp [hp]) s (by simp)
  intro p hp q hq
  rw [hs p hp, hs q hq]

theorem carries_bares {env : Env} {s t : Property} (h : Carries env false s t) {st : List String}
    {ty : String} (l r : List Property) (hb : BaresOK env st ty (l ++ s :: r))
    (hn : ∀ n ∈ elemsNeeds st (l ++ t :: r), Suits env.hints n) :
    BaresOK env st ty (l ++ t :: r) := by
  rw [baresOK_iff] at hb ⊢
  rw [elemsNeeds_eq] at hn
  intro p hp
  simp only [List.mem_append, List.mem_cons] at hp
  rcases hp with hp | hp | hp
  · exact hb p (by simp [hp])
  · subst hp
    exact h.bare rfl _ _ (hb s (by simp)) fun n hm => hn n (by simp [hm])
  · exact hb p (by simp [hp])

theorem carries_values {env : Env} {s t : Property} (h : Carries env false s t) {st : List String}
    {ty k : String} (l r : List (String × Property)) (hb : ValuesOK env st ty (l ++ (k, s) :: r))
    (hn : ∀ n ∈ valuesNeeds st (l ++ (k, t) :: r), Suits env.hints n) :
    ValuesOK env st ty (l ++ (k, t) :: r) := by
  rw [valuesOK_iff] at hb ⊢
  rw [valuesNeeds_eq] at hn
  intro e he
  simp only [List.mem_append, List.mem_cons] at he
  rcases he with he | he | he
  · exact hb e (by simp [he])
  · subst he
    have := hb (k, s) (by simp)
    exact ⟨h.free rfl this.1, h.bare rfl _ _ this.2 fun n hm => hn n (by simp [hm])⟩
  · exact hb e (by simp [he])

theorem carries_vals {env : Env} {s t : Property} (h : Carries env true s t) {st : List String}
    (l r : List Property) (i : Nat) (hb : ValsOK env st i (l ++ s :: r))
    (hn : ∀ n ∈ elemsNeeds st (l ++ t :: r), Suits env.hints n) :
    ValsOK env st i (l ++ t :: r) := by
  induction l generalizing i with
  | nil =>
    simp only [List.nil_append, ValsOK, elemsNeeds] at hb hn ⊢
    rw [h.index rfl]
    exact ⟨hb.1, h.head rfl _ hb.2.1 fun n hm => hn n (by simp [hm]), hb.2.2⟩
  | cons p l ih =>
    simp only [List.cons_append, ValsOK, elemsNeeds] at hb hn ⊢
    exact ⟨hb.1, hb.2.1, ih _ hb.2.2 fun n hm => hn n (by simp [hm])⟩

theorem carries_fields {env : Env} {s t : Property} (h : Carries env true s t) {st : List String}
    (k : String) (l r : List Property) (fs gs : List (String × List Property))
    (hb : FieldsOK env st (fs ++ (k, l ++ s :: r) :: gs))
    (hn : ∀ n ∈ fieldsNeeds st (fs ++ (k, l ++ t :: r) :: gs), Suits env.hints n) :
    FieldsOK env st (fs ++ (k, l ++ t :: r) :: gs) := by
  induction fs with
  | nil =>
    simp only [List.nil_append, FieldsOK, fieldsNeeds] at hb hn ⊢
    exact ⟨hb.1, hb.2.1, by simp, carries_vals h l r 0 hb.2.2.2.1
      fun n hm => hn n (List.mem_append_left _ hm), hb.2.2.2.2⟩
  | cons e fs ih =>
    obtain ⟨e, es⟩ := e
    simp only [List.cons_append, FieldsOK, fieldsNeeds] at hb hn ⊢
    exact ⟨hb.1, hb.2.1, hb.2.2.1, hb.2.2.2.1, ih hb.2.2.2.2
      fun n hm => hn n (List.mem_append_right _ hm)⟩

theorem carries_struct {env : Env} {s t : Property} (h : Carries env true s t) {st : List String}
    {ty : String} (k : String) (l r : List Property) (fs gs : List (String × List Property))
    (hb : StructOK env st ty (structWith fs k l s r gs))
    (hn : ∀ n ∈ structNeeds st (structWith fs k l t r gs), Suits env.hints n) :
    StructOK env st ty (structWith fs k l t r gs) := by
  simp only [structWith, StructOK, structNeeds] at hb hn ⊢
  exact ⟨hb.1, by simpa using hb.2.1, carries_fields h k l r fs gs hb.2.2 hn⟩

theorem carries_structs {env : Env} {s t : Property} (h : Carries env true s t) {st : List String}
    {ty : String} (vs ws : List StructPropertyValue) (k : String) (l r : List Property)
    (fs gs : List (String × List Property))
    (hb : StructsOK env st ty (vs ++ structWith fs k l s r gs :: ws))
    (hn : ∀ n ∈ structsNeeds st (vs ++ structWith fs k l t r gs :: ws), Suits env.hints n) :
    StructsOK env st ty (vs ++ structWith fs k l t r gs :: ws) := by
  induction vs with
  | nil =>
    simp only [List.nil_append, StructsOK, structsNeeds] at hb hn ⊢
    exact ⟨carries_struct h k l r fs gs hb.1 fun n hm => hn n (List.mem_append_left _ hm), hb.2⟩
  | cons v vs ih =>
    simp only [List.cons_append, StructsOK, structsNeeds] at hb hn ⊢
    exact ⟨hb.1, ih hb.2 fun n hm => hn n (List.mem_append_right _ hm)⟩

theorem carries_entries {env : Env} {s t : Property} (h : Carries env false s t) {st : List String}
    {kt vt : String} (k : Property) (l r : List (Property × Property))
    (hb : EntriesOK env st kt vt (l ++ (k, s) :: r))
    (hn : ∀ n ∈ entriesNeeds st (l ++ (k, t) :: r), Suits env.hints n) :
    EntriesOK env st kt vt (l ++ (k, t) :: r) := by
  induction l with
  | nil =>
    simp only [List.nil_append, EntriesOK, entriesNeeds] at hb hn ⊢
    exact ⟨hb.1, hb.2.1, h.free rfl hb.2.2.1, h.bare rfl _ _ hb.2.2.2.1
      fun n hm => hn n (by simp [hm]), hb.2.2.2.2⟩
  | cons e l ih =>
    obtain ⟨a, b⟩ := e
    simp only [List.cons_append, EntriesOK, entriesNeeds] at hb hn ⊢
    exact ⟨hb.1, hb.2.1, hb.2.2.1, hb.2.2.2.1, ih hb.2.2.2.2
      fun n hm => hn n (List.mem_append_right _ hm)⟩

theorem differ_carries {b h : Bool} {p q s t : Property} (env : Env)
    (hd : Differ false b p q h s t) (ha : Carries env b p q) : Carries env h s t := by
  induction hd with
  | here => exact ha
  | array ty l r _ ih =>
    refine carries_of_head ?_ (by simp [BareOK]) (by simp [storedIndex, sizeClass, isNamespaced])
      (by simp [storedIndex, sizeClass, SizeFree])
    intro st
    simp only [HeadOK, ArrayOK, needs, arrayNeeds]
    rintro ⟨h1, h2, h3, h4, h5, h6, h7⟩ hn
    refine ⟨h1, h2, h3, ?_, by simpa using h5, carries_uniform ih l r h6, carries_bares ih l r h7 hn⟩
    intro hty
    obtain ⟨p, hp, hx⟩ := h4 hty
    simp only [List.mem_append, List.mem_cons] at hp
    rcases hp with hp | hp | hp
    · exact ⟨p, by simp [hp], hx⟩
    · subst hp; exact ⟨_, by simp, ih.spaced rfl hx⟩
    · exact ⟨p, by simp [hp], hx⟩
  | set ty fl l r _ ih =>
    refine carries_of_head ?_ (by simp [BareOK]) (by simp [storedIndex, sizeClass, isNamespaced])
      (by simp [storedIndex, sizeClass, SizeFree])
    intro st
    simp only [HeadOK, needs]
    rintro ⟨h1, h5, h6, h7⟩ hn
    exact ⟨h1, by simpa using h5, carries_uniform ih l r h6, carries_bares ih l r h7 hn⟩
  | struct g ty fs gs k l r _ ih =>
    refine carries_of_head ?_ (by simp [BareOK]) (by simp [storedIndex, sizeClass, isNamespaced])
      (by simp [storedIndex, sizeClass, SizeFree])
    intro st
    simp only [HeadOK, needs]
    exact fun ⟨h1, h2⟩ hn => ⟨h1, carries_struct ih k l r fs gs h2 hn⟩
  | structValue fs gs k l r _ ih =>
    refine carries_of_head (by simp [HeadOK]) ?_ (by simp [storedIndex, sizeClass, isNamespaced])
      (by simp [storedIndex, sizeClass, SizeFree])
    intro st ty
    simp only [BareOK, needs]
    exact fun ⟨h1, hint, h2, h3⟩ hn =>
      ⟨h1, hint, h2, carries_struct ih k l r fs gs h3 fun n hm => hn n (List.mem_cons_of_mem _ hm)⟩
  | structs f ty g vs ws fs gs k l r _ ih =>
    refine carries_of_head ?_ (by simp [BareOK]) (by simp [storedIndex, sizeClass, isNamespaced])
      (by simp [storedIndex, sizeClass, SizeFree])
    intro st
    simp only [HeadOK, ArrayOK, needs, arrayNeeds]
    exact fun ⟨h1, h2, h3, h4⟩ hn =>
      ⟨h1, h2, by simpa using h3, carries_structs ih vs ws k l r fs gs h4 hn⟩
  | enumMap ty k l r _ ih | nameMap ty k l r _ ih | strMap ty k l r _ ih =>
    refine carries_of_head ?_ (by simp [BareOK]) (by simp [storedIndex, sizeClass, isNamespaced])
      (by simp [storedIndex, sizeClass, SizeFree])
    intro st
    simp only [HeadOK, MapOK, needs, mapNeeds]
    exact fun ⟨h1, h2, h3, h4⟩ hn => ⟨h1, h2, similar_keys h3, carries_values ih l r h4 hn⟩
  | mapKey kt vt fl v l r hk => cases hk
  | mapValue kt vt fl k l r _ ih =>
    refine carries_of_head ?_ (by simp [BareOK]) (by simp [storedIndex, sizeClass, isNamespaced])
      (by simp [storedIndex, sizeClass, SizeFree])
    intro st
    simp only [HeadOK, MapOK, needs, mapNeeds]
    rintro ⟨h1, h2, h3, h4, h5, h6, h7⟩ hn
    refine ⟨h1, h2, by simpa using h3, by simpa using h4, h5, ?_, carries_entries ih k l r h7 hn⟩
    intro hf hk
    obtain ⟨e, he, hx⟩ := h6 hf hk
    simp only [List.mem_append, List.mem_cons] at he
    rcases he with he | he | he
    · exact ⟨e, by simp [he], hx⟩
    · subst he; exact ⟨_, List.mem_append_right _ List.mem_cons_self, hx⟩
    · exact ⟨e, by simp [he], hx⟩

/-- A value that can be represented somewhere (`b`: with a header). -/
def Stands (env : Env) (b : Bool) (q : Property) : Prop :=
  (b = true → ∃ st, HeadOK env st q) ∧ (b = false → ∃ st ty, BareOK env st ty q)

theorem stands_fields {env : Env} {k : String} {l r : List Property} {s : Property}
    {st : List String} (fs gs : List (String × List Property))
    (h : FieldsOK env st (fs ++ (k, l ++ s :: r) :: gs)) : ∃ st', HeadOK env st' s := by
  induction fs with
  | nil =>
    simp only [List.nil_append, FieldsOK] at h
    have hv := h.2.2.2.1
    clear h
    generalize 0 = i at hv
    induction l generalizing i with
    | nil => simp only [List.nil_append, ValsOK] at hv; exact ⟨_, hv.2.1⟩
    | cons p l ih => simp only [List.cons_append, ValsOK] at hv; exact ih _ hv.2.2
  | cons e fs ih =>
    obtain ⟨e, es⟩ := e
    simp only [List.cons_append, FieldsOK] at h
    exact ih h.2.2.2.2

/-- What stands in a place of a value that can be represented can be represented, too. -/
theorem place_stands {keys b h : Bool} {q x s t : Property} {env : Env}
    (hd : Differ keys b q x h s t) (hs : Stands env h s) : Stands env b q := by
  induction hd with
  | here => exact hs
  | @array h s t ty l r _ ih =>
    refine ih ⟨nofun, fun _ => ?_⟩
    cases h with
    | true =>
      obtain ⟨st, h1⟩ := hs.1 rfl
      simp only [HeadOK, ArrayOK, baresOK_iff] at h1
      exact ⟨_, _, h1.2.2.2.2.2.2 s (by simp)⟩
    | false => obtain ⟨st, ty, h1⟩ := hs.2 rfl; simp [BareOK] at h1
  | @set h s t ty fl l r _ ih =>
    refine ih ⟨nofun, fun _ => ?_⟩
    cases h with
    | true =>
      obtain ⟨st, h1⟩ := hs.1 rfl
      simp only [HeadOK, baresOK_iff] at h1
      exact ⟨_, _, h1.2.2.2 s (by simp)⟩
    | false => obtain ⟨st, ty, h1⟩ := hs.2 rfl; simp [BareOK] at h1
  | @struct h s t g ty fs gs k l r _ ih =>
    refine ih ⟨fun _ => ?_, nofun⟩
    cases h with
    | true =>
      obtain ⟨st, h1⟩ := hs.1 rfl
      simp only [HeadOK, structWith, StructOK] at h1
      exact stands_fields _ _ h1.2.2.2
    | false => obtain ⟨st, ty, h1⟩ := hs.2 rfl; simp [BareOK] at h1
  | structValue fs gs k l r _ ih =>
    refine ih ⟨fun _ => ?_, nofun⟩
    obtain ⟨st, ty, h1⟩ := hs.2 rfl
    simp only [BareOK, structWith, StructOK] at h1
    obtain ⟨-, hint, -, h2⟩ := h1
    exact stands_fields _ _ h2.2.2
  | @structs h s t f ty g vs ws fs gs k l r _ ih =>
    refine ih ⟨fun _ => ?_, nofun⟩
    cases h with
    | true =>
      obtain ⟨st, h1⟩ := hs.1 rfl
      simp only [HeadOK, ArrayOK, structsOK_iff] at h1
      have := h1.2.2.2 (structWith fs k l s r gs) (by simp)
      simp only [structWith, StructOK] at this
      exact stands_fields _ _ this.2.2
    | false => obtain ⟨st, ty, h1⟩ := hs.2 rfl; simp [BareOK] at h1
  | @enumMap h s t ty k l r _ ih | @nameMap h s t ty k l r _ ih | @strMap h s t ty k l r _ ih =>
    refine ih ⟨nofun, fun _ => ?_⟩
    cases h with
    | true =>
      obtain ⟨st, h1⟩ := hs.1 rfl
      simp only [HeadOK, MapOK, valuesOK_iff] at h1
      exact ⟨_, _, (h1.2.2.2 (k, s) (by simp)).2⟩
    | false => obtain ⟨st, ty, h1⟩ := hs.2 rfl; simp [BareOK] at h1
  | @mapKey h s t kt vt fl v l r _ _ ih =>
    refine ih ⟨nofun, fun _ => ?_⟩
    cases h with
    | true =>
      obtain ⟨st, h1⟩ := hs.1 rfl
      simp only [HeadOK, MapOK, entriesOK_iff] at h1
      exact ⟨_, _, (h1.2.2.2.2.2.2 (s, v) (by simp)).1.2⟩
    | false => obtain ⟨st, ty, h1⟩ := hs.2 rfl; simp [BareOK] at h1
  | @mapValue h s t kt vt fl k l r _ ih =>
    refine ih ⟨nofun, fun _ => ?_⟩
    cases h with
    | true =>
      obtain ⟨st, h1⟩ := hs.1 rfl
      simp only [HeadOK, MapOK, entriesOK_iff] at h1
      exact ⟨_, _, (h1.2.2.2.2.2.2 (k, s) (by simp)).2.2⟩
    | false => obtain ⟨st, ty, h1⟩ := hs.2 rfl; simp [BareOK] at h1

theorem bare_typeName {env : Env} {st : List String} {ty : String} {p : Property}
    (h : BareOK env st ty p) : ty = typeName p := by
  cases p <;> simp only [BareOK, typeName] at h ⊢ <;> first | exact h | exact h.1 | exact h.elim

theorem typeName_known {p : Property} (h : SizeFree p ∨ isNamespaced p) : typeName p ∈ knownTypes := by
  cases p <;> simp [typeName, knownTypes, SizeFree, isNamespaced] at h ⊢

/-- A value from one place can stand in another. -/
theorem stands_carries {env env' : Env} {b : Bool} {p q : Property} (hcv : env'.cv = env.cv)
    (hdb : env'.debug = env.debug) (hq : Stands env' b q)
    (hi : b = true → storedIndex q = storedIndex p)
    (hs : b = false → typeName q = typeName p ∧ sizeClass q = sizeClass p) :
    Carries env b p q := by
  have he : ({ env' with hints := env.hints } : Env) = env := by
    obtain ⟨d, h, c⟩ := env
    simp_all
  have hbare : b = false → ¬ (∃ n r, q = .unknown n r ∧ n ∈ knownTypes) := by
    rintro hb ⟨n, r, rfl, hn⟩
    obtain ⟨st, ty, h1⟩ := hq.2 hb
    simp only [BareOK] at h1
    exact h1.2 hn
  refine ⟨fun hb st hp hn => ?_, hi, fun hb st ty hp hn => ?_, fun hb => (hs hb).2,
    fun hb hp => ?_, fun hb hp => ?_⟩
  · obtain ⟨st0, h0⟩ := hq.1 hb
    rw [← he]
    exact (head_hints st0 st q h0).mpr hn
  · obtain ⟨st0, ty0, h0⟩ := hq.2 hb
    have : ty0 = ty := by rw [bare_typeName h0, bare_typeName hp, (hs hb).1]
    subst this
    rw [← he]
    exact (bare_hints st0 st ty0 q h0).mpr hn
  · have hk := typeName_known (.inl hp)
    rw [← (hs hb).1] at hk
    have hz := (hs hb).2
    cases q
    case byte n v =>
      cases v
      case byte => simp [SizeFree]
      case namespaced =>
        exfalso
        cases p
        case byte m w => cases w <;> simp [sizeClass, SizeFree] at hz hp
        all_goals simp [sizeClass, SizeFree] at hz hp
    case unknown n r => exact absurd ⟨n, r, rfl, hk⟩ (hbare hb)
    all_goals simp [SizeFree]
  · have hk := typeName_known (.inr hp)
    rw [← (hs hb).1] at hk
    have hz := (hs hb).2
    cases p
    case byte m w =>
      cases w
      case byte => simp [isNamespaced] at hp
      case namespaced =>
        cases q
        case byte n v => cases v <;> simp [sizeClass, isNamespaced] at hz ⊢
        case unknown n r => exact absurd ⟨n, r, rfl, hk⟩ (hbare hb)
        all_goals simp [sizeClass] at hz
    all_goals simp [isNamespaced] at hp

mutual
theorem needs_nowhere (st st' : List String) : ∀ p : Property, needs st p = [] → needs st' p = []
  | .array v, h => arrayNeeds_nowhere _ _ v h
  | .map v, h => mapNeeds_nowhere _ _ v h
  | .set _ _ ps, h => elemsNeeds_nowhere _ _ ps h
  | .struct _ _ v, h => structNeeds_nowhere _ _ v h
  | .structValue _, h => by simp [needs] at h
  | .bool _, _ => rfl
  | .byte _ _, _ => rfl
  | .double _, _ => rfl
  | .enum _ _, _ => rfl
  | .float _, _ => rfl
  | .int16 _, _ => rfl
  | .int64 _, _ => rfl
  | .int8 _, _ => rfl
  | .int _, _ => rfl
  | .name _ _, _ => rfl
  | .object _, _ => rfl
  | .delegate _, _ => rfl
  | .multicastInlineDelegate _, _ => rfl
  | .multicastSparseDelegate _, _ => rfl
  | .fieldPath _, _ => rfl
  | .str _, _ => rfl
  | .text _, _ => rfl
  | .uint16 _, _ => rfl
  | .uint32 _, _ => rfl
  | .uint64 _, _ => rfl
  | .unknown _ _, _ => rfl
theorem arrayNeeds_nowhere (st st' : List String) : ∀ v : ArrayProperty, arrayNeeds st v = [] →
    arrayNeeds st' v = []
  | .structs _ _ _ v, h => structsNeeds_nowhere _ _ v h
  | .properties _ ps, h => elemsNeeds_nowhere _ _ ps h
  | .bools _, _ => rfl
  | .bytes _, _ => rfl
  | .enums _, _ => rfl
  | .floats _, _ => rfl
  | .ints _, _ => rfl
  | .names _, _ => rfl
  | .strings _, _ => rfl
theorem mapNeeds_nowhere (st st' : List String) : ∀ v : MapProperty, mapNeeds st v = [] →
    mapNeeds st' v = []
  | .enumProperty _ v, h => valuesNeeds_nowhere _ _ v h
  | .nameProperty _ v, h => valuesNeeds_nowhere _ _ v h
  | .strProperty _ v, h => valuesNeeds_nowhere _ _ v h
  | .properties _ _ _ m, h => entriesNeeds_nowhere _ _ m h
  | .enumBool _, _ => rfl
  | .enumInt _, _ => rfl
  | .nameBool _, _ => rfl
  | .nameInt _, _ => rfl
  | .strBool _, _ => rfl
  | .strInt _, _ => rfl
  | .strStr _, _ => rfl
theorem structNeeds_nowhere (st st' : List String) : ∀ v : StructPropertyValue,
    structNeeds st v = [] → structNeeds st' v = []
  | .customStruct fs, h => fieldsNeeds_nowhere _ _ fs h
  | .vector2F _ _, _ => rfl
  | .vector2D _ _, _ => rfl
  | .vectorF _ _ _, _ => rfl
  | .vectorD _ _ _, _ => rfl
  | .rotatorF _ _ _, _ => rfl
  | .rotatorD _ _ _, _ => rfl
  | .quatF _ _ _ _, _ => rfl
  | .quatD _ _ _ _, _ => rfl
  | .dateTime _, _ => rfl
  | .timespan _, _ => rfl
  | .guid _, _ => rfl
  | .linearColor _ _ _ _, _ => rfl
  | .intPoint _ _, _ => rfl
  | .gameplayTagContainer _, _ => rfl
theorem elemsNeeds_nowhere (st st' : List String) : ∀ l : List Property, elemsNeeds st l = [] →
    elemsNeeds st' l = []
  | [], _ => rfl
  | p :: l, h => by
    simp only [elemsNeeds, List.append_eq_nil_iff] at h ⊢
    exact ⟨needs_nowhere _ _ p h.1, elemsNeeds_nowhere _ _ l h.2⟩
theorem structsNeeds_nowhere (st st' : List String) : ∀ l : List StructPropertyValue,
    structsNeeds st l = [] → structsNeeds st' l = []
  | [], _ => rfl
  | p :: l, h => by
    simp only [structsNeeds, List.append_eq_nil_iff] at h ⊢
    exact ⟨structNeeds_nowhere _ _ p h.1, structsNeeds_nowhere _ _ l h.2⟩
theorem valuesNeeds_nowhere (st st' : List String) : ∀ l : List (String × Property),
    valuesNeeds st l = [] → valuesNeeds st' l = []
  | [], _ => rfl
  | (_, p) :: l, h => by
    simp only [valuesNeeds, List.append_eq_nil_iff] at h ⊢
    exact ⟨needs_nowhere _ _ p h.1, valuesNeeds_nowhere _ _ l h.2⟩
theorem entriesNeeds_nowhere (st st' : List String) : ∀ l : List (Property × Property),
    entriesNeeds st l = [] → entriesNeeds st' l = []
  | [], _ => rfl
  | (k, p) :: l, h => by
    simp only [entriesNeeds, List.append_eq_nil_iff] at h ⊢
    exact ⟨⟨needs_nowhere _ _ k h.1.1, needs_nowhere _ _ p h.1.2⟩, entriesNeeds_nowhere _ _ l h.2⟩
theorem fieldsNeeds_nowhere (st st' : List String) : ∀ l : List (String × List Property),
    fieldsNeeds st l = [] → fieldsNeeds st' l = []
  | [], _ => rfl
  | (_, ps) :: l, h => by
    simp only [fieldsNeeds, List.append_eq_nil_iff] at h ⊢
    exact ⟨elemsNeeds_nowhere _ _ ps h.1, fieldsNeeds_nowhere _ _ l h.2⟩
end

theorem fieldsNeeds_app (st : List String) (a b : List (String × List Property)) :
    fieldsNeeds st (a ++ b) = fieldsNeeds st a ++ fieldsNeeds st b := by
  induction a with
  | nil => rfl
  | cons e a ih => obtain ⟨k, ps⟩ := e; simp [fieldsNeeds, ih]

/-- Putting in a value that needs no hints adds no need. -/
theorem differ_needs {keys b h : Bool} {p q s t : Property} (hd : Differ keys b p q h s t)
    (hq : ∀ st, needs st q = []) (st : List String) (n : String × Option String)
    (hn : n ∈ needs st t) : n ∈ needs st s := by
  induction hd generalizing st with
  | here => simp [hq] at hn
  | array ty l r _ ih | set ty fl l r _ ih | enumMap ty k l r _ ih | nameMap ty k l r _ ih
  | strMap ty k l r _ ih | mapKey kt vt fl v l r _ _ ih | mapValue kt vt fl k l r _ ih =>
    simp only [needs, arrayNeeds, mapNeeds, elemsNeeds_eq, valuesNeeds_eq, entriesNeeds_eq,
      List.flatMap_append, List.flatMap_cons, List.mem_append] at hn ⊢
    grind
  | struct g ty fs gs k l r _ ih | structValue fs gs k l r _ ih =>
    simp only [needs, structNeeds, structWith, fieldsNeeds_app, fieldsNeeds, elemsNeeds_eq,
      List.flatMap_append, List.flatMap_cons, List.mem_append, List.mem_cons, structName] at hn ⊢
    grind
  | structs f ty g vs ws fs gs k l r _ ih =>
    simp only [needs, arrayNeeds, structsNeeds_eq, structNeeds, structWith, fieldsNeeds_app,
      fieldsNeeds, elemsNeeds_eq, List.flatMap_append, List.flatMap_cons, List.mem_append] at hn ⊢
    grind

end Gvas
