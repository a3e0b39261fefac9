import Verif.Lemmas.JsonLoad
import Verif.Spec.JsonLoad

/-!
# Panics of loading come from GUID texts
-/

namespace Gvas

open Spec

/-- A panic is due to a text with the property `P`. -/
def Load.Blames {α : Type} (l : Load α) (P : String → Prop) : Prop :=
  l = .panic → ∃ s, P s ∧ guidOfStrL s = .panic

namespace Load

theorem blames_lift {α : Type} {P : String → Prop} (o : Option α) : Blames (.lift o) P := by
  intro h; cases o <;> cases h
theorem blames_ok {α : Type} {P : String → Prop} (a : α) : Blames (.ok a) P := by intro h; cases h
theorem blames_pure {α : Type} {P : String → Prop} (a : α) : Blames (pure a) P := by
  intro h; cases h
theorem blames_err {α : Type} {P : String → Prop} : Blames (.err : Load α) P := by intro h; cases h

theorem Blames.mono {α : Type} {l : Load α} {P Q : String → Prop} (h : Blames l P)
    (hi : ∀ s, P s → Q s) : Blames l Q := fun e =>
  let ⟨s, h1, h2⟩ := h e
  ⟨s, hi s h1, h2⟩

theorem Blames.bind {α β : Type} {l : Load α} {f : α → Load β} {P : String → Prop}
    (h : Blames l P) (hf : ∀ a, l = .ok a → Blames (f a) P) : Blames (l >>= f) P := by
  intro e
  cases hl : l with
  | ok a => rw [hl] at e; exact hf a hl e
  | err => rw [hl] at e; cases e
  | panic => exact h hl

theorem Blames.orElse {α : Type} {l m : Load α} {P : String → Prop} (h : Blames l P)
    (h' : Blames m P) : Blames (l.orElse m) P := by
  cases l with
  | ok a => intro e; cases e
  | err => exact h'
  | panic => exact h

theorem blames_mapL {α β : Type} {d : α → Load β} {P : String → Prop} (l : List α)
    (h : ∀ a ∈ l, Blames (d a) P) : Blames (mapL d l) P := by
  induction l with
  | nil => exact blames_pure _
  | cons a l ih =>
    exact (h a (by simp)).bind fun b _ => (ih fun x hx => h x (by simp [hx])).bind fun r _ =>
      blames_pure _

theorem blames_arr {α : Type} {d : J → Load α} {P : String → Prop} (j : J)
    (h : ∀ l, j = .arr l → ∀ a ∈ l, Blames (d a) P) : Blames (j.getArrL d) P := by
  cases j with
  | arr l => exact blames_mapL l (h l rfl)
  | _ => exact blames_err

theorem blames_strMap {α : Type} {d : J → Load α} {P : String → Prop} (j : J)
    (h : ∀ l, j = .obj l → ∀ a ∈ l, Blames (d a.2) P) : Blames (j.getStrMapL d) P := by
  cases j with
  | obj l =>
    exact (blames_mapL l fun a ha => (blames_ok _).bind fun _ _ =>
      (h l rfl a ha).bind fun _ _ => blames_pure _).bind fun _ _ => blames_pure _
  | _ => exact blames_err

theorem blames_pair {α : Type} {d : J → Load α} {P : String → Prop} (j : J)
    (h : ∀ l, j = .arr l → ∀ a ∈ l, Blames (d a) P) : Blames (j.getPairL d) P := by
  match j with
  | .arr [] => exact blames_err
  | .arr [a] => exact (h _ rfl a (by simp)).bind fun _ _ => blames_err
  | .arr (a :: b :: l) =>
    refine (h _ rfl a (by simp)).bind fun _ _ => (h _ rfl b (by simp)).bind fun _ _ => ?_
    split
    · exact blames_pure _
    · exact blames_err
  | .null | .bool _ | .int _ | .float _ | .str _ | .obj _ => exact blames_err

theorem blames_guidStr (s : String) : Blames (guidOfStrL s) (· = s) := fun e => ⟨s, rfl, e⟩

theorem blames_guid (j : J) : Blames j.getGuidL fun s => j = .str s := by
  refine (blames_lift _).bind fun s hs => (blames_guidStr s).mono fun t ht => ?_
  subst ht
  cases j <;> cases hs
  rfl

theorem blames_visit {known : List (String × (J → Load Unit))} {es : List (String × J)}
    {P : String → Prop} (h : ∀ x ∈ known, ∀ j, (x.1, j) ∈ es → Blames (x.2 j) P) :
    Blames (visit known es) P := by
  induction es generalizing known with
  | nil => exact blames_pure _
  | cons e es ih =>
    unfold visit
    split
    · rename_i d hd
      refine (h (e.1, d) (mem_of_lookup hd) e.2 (by simp)).bind fun _ _ => ih fun x hx j hj => ?_
      exact h x (List.mem_filter.1 hx).1 j (by simp [hj])
    · exact ih fun x hx j hj => h x hx j (by simp [hj])

theorem blames_plain {α : Type} {P : String → Prop} (d : J → Option α) (j : J) :
    Blames (plain d j) P := (blames_lift _).bind fun _ _ => blames_pure _

theorem blames_seen {α : Type} {P : String → Prop} {d : J → Load α} {j : J} (h : Blames (d j) P) :
    Blames (seen d j) P := h.bind fun _ _ => blames_pure _

theorem blames_field {α : Type} {P : String → Prop} {d : J → Load α} {es : List (String × J)}
    {k : String} (h : ∀ j, (k, j) ∈ es → Blames (d j) P) : Blames (fieldL es k d) P := by
  refine (blames_lift _).bind fun j hj => h j ?_
  cases hl : es.lookup k with
  | none => rw [hl] at hj; cases hj
  | some j' => rw [hl] at hj; cases hj; exact mem_of_lookup hl

theorem blames_defaultField {α : Type} {P : String → Prop} {d : J → Load α}
    {es : List (String × J)} {k : String} {a : α} (h : ∀ j, (k, j) ∈ es → Blames (d j) P) :
    Blames (defaultFieldL es k a d) P := by
  unfold defaultFieldL
  cases hl : es.lookup k with
  | none => exact blames_ok _
  | some j => exact h j (mem_of_lookup hl)

variable {rec : J → Load Property}

theorem blames_variant (h : ∀ j, Blames (rec j) (GuidEntry j)) (es : List (String × J)) (k : String)
    (j : J) (hm : (k, j) ∈ es) :
    Blames (StructPropertyValue.ofVariantL rec k j) (GuidEntry (.obj es)) := by
  unfold StructPropertyValue.ofVariantL
  split
  · rename_i hk
    refine ((blames_guid j).mono fun s hs => ?_).bind fun _ _ => blames_pure _
    subst hs
    exact .here (.inr hk) hm
  · split
    · rename_i hk
      refine (blames_strMap j fun l hl a ha => blames_arr a.2 fun q hq x hx =>
        (h x).mono fun s => .field hm ?_).bind fun _ _ => blames_pure _
      subst hl
      exact .custom (n := a.1) (q := q) hk (by rw [← hq]; exact ha) hx
    · exact blames_lift _

theorem blames_structJ (h : ∀ j, Blames (rec j) (GuidEntry j)) (j : J) :
    Blames (StructPropertyValue.ofJL rec j) (GuidEntry j) := by
  match j with
  | .obj [(k, j)] => exact blames_variant h [(k, j)] k j (by simp)
  | .obj [] | .obj (_ :: _ :: _) | .null | .bool _ | .int _ | .float _ | .str _ | .arr _ =>
    exact blames_err

theorem blames_structFlat (h : ∀ j, Blames (rec j) (GuidEntry j)) (es : List (String × J)) :
    Blames (StructPropertyValue.ofFlatL rec es) (GuidEntry (.obj es)) := by
  refine (blames_lift _).bind fun e he => blames_variant h es e.1 e.2 ?_
  cases hf : es.find? fun e => structVariants.contains e.1 with
  | none => rw [hf] at he; cases he
  | some e' => rw [hf] at he; cases he; exact List.mem_of_find?_eq_some hf

theorem blames_guidField {es : List (String × J)} {j : J} (hj : ("guid", j) ∈ es) :
    Blames j.getGuidL (GuidEntry (.obj es)) :=
  (blames_guid j).mono fun s hs => by subst hs; exact .here (.inl rfl) hj

theorem blames_structs (h : ∀ j, Blames (rec j) (GuidEntry j)) (es : List (String × J)) :
    Blames (ArrayProperty.structsL rec es) (GuidEntry (.obj es)) := by
  have hs : ∀ j, ("structs", j) ∈ es → Blames (J.getArrL (StructPropertyValue.ofJL rec) j)
    (GuidEntry (.obj es)) := fun j hj => blames_arr j fun l hl a ha =>
      (blames_structJ h a).mono fun s => .field hj (hl ▸ .element (.inr rfl) ha)
  refine (blames_visit ?_).bind fun _ _ => (blames_lift _).bind fun _ _ => (blames_lift _).bind
    fun _ _ => (blames_defaultField fun j hj => blames_guidField hj).bind fun _ _ =>
    (blames_field hs).bind fun _ _ => blames_pure _
  simp only [List.forall_mem_cons, List.not_mem_nil, false_implies, implies_true, and_true]
  exact ⟨fun j _ => blames_plain _ j, fun j _ => blames_plain _ j,
    fun j hj => blames_seen (blames_guidField hj), fun j hj => blames_seen (hs j hj)⟩

theorem blames_arrayProperties (h : ∀ j, Blames (rec j) (GuidEntry j)) (es : List (String × J)) :
    Blames (ArrayProperty.propertiesL rec es) (GuidEntry (.obj es)) := by
  have hs : ∀ j, ("properties", j) ∈ es → Blames (J.getArrL rec j) (GuidEntry (.obj es)) :=
    fun j hj => blames_arr j fun l hl a ha =>
      (h a).mono fun s => .field hj (hl ▸ .element (.inl rfl) ha)
  refine (blames_visit ?_).bind fun _ _ => (blames_lift _).bind fun _ _ =>
    (blames_field hs).bind fun _ _ => blames_pure _
  simp only [List.forall_mem_cons, List.not_mem_nil, false_implies, implies_true, and_true]
  exact ⟨fun j _ => blames_plain _ j, fun j hj => blames_seen (hs j hj)⟩

theorem blames_array (h : ∀ j, Blames (rec j) (GuidEntry j)) (es : List (String × J)) :
    Blames (ArrayProperty.ofEntriesL rec es) (GuidEntry (.obj es)) :=
  (blames_lift _).orElse <| (blames_lift _).orElse <| (blames_lift _).orElse <|
    (blames_lift _).orElse <| (blames_lift _).orElse <| (blames_lift _).orElse <|
    (blames_lift _).orElse <| (blames_structs h es).orElse <| blames_arrayProperties h es

theorem blames_typed (h : ∀ j, Blames (rec j) (GuidEntry j)) (key : String)
    (hk : key = "enum_props" ∨ key = "name_props" ∨ key = "str_props")
    (f : String → List (String × Property) → MapProperty) (es : List (String × J)) :
    Blames (MapProperty.typedL rec key f es) (GuidEntry (.obj es)) := by
  have hs : ∀ j, (key, j) ∈ es → Blames (J.getStrMapL rec j) (GuidEntry (.obj es)) :=
    fun j hj => blames_strMap j fun l hl a ha =>
      (h a.2).mono fun s => .field hj (hl ▸ .value hk ha)
  refine (blames_visit ?_).bind fun _ _ => (blames_lift _).bind fun _ _ =>
    (blames_field hs).bind fun _ _ => blames_pure _
  simp only [List.forall_mem_cons, List.not_mem_nil, false_implies, implies_true, and_true]
  exact ⟨fun j _ => blames_plain _ j, fun j hj => blames_seen (hs j hj)⟩

theorem blames_mapProperties (h : ∀ j, Blames (rec j) (GuidEntry j)) (es : List (String × J)) :
    Blames (MapProperty.propertiesL rec es) (GuidEntry (.obj es)) := by
  have hs : ∀ j, ("value", j) ∈ es → Blames (J.getArrL (J.getPairL rec) j) (GuidEntry (.obj es)) :=
    fun j hj => blames_arr j fun l hl a ha => blames_pair a fun q hq x hx =>
      (h x).mono fun s => .field hj (hl ▸ .pair rfl (hq ▸ ha) hx)
  refine (blames_visit ?_).bind fun _ _ => (blames_lift _).bind fun _ _ => (blames_lift _).bind
    fun _ _ => (blames_lift _).bind fun _ _ => (blames_field hs).bind fun _ _ => blames_pure _
  simp only [List.forall_mem_cons, List.not_mem_nil, false_implies, implies_true, and_true]
  exact ⟨fun j _ => blames_plain _ j, fun j _ => blames_plain _ j, fun j _ => blames_plain _ j,
    fun j hj => blames_seen (hs j hj)⟩

theorem blames_mapProperty (h : ∀ j, Blames (rec j) (GuidEntry j)) (es : List (String × J)) :
    Blames (MapProperty.ofEntriesL rec es) (GuidEntry (.obj es)) :=
  (blames_lift _).orElse <| (blames_lift _).orElse <| (blames_typed h _ (by simp) _ es).orElse <|
    (blames_lift _).orElse <| (blames_lift _).orElse <| (blames_typed h _ (by simp) _ es).orElse <|
    (blames_mapProperties h es).orElse <| (blames_lift _).orElse <| (blames_lift _).orElse <|
    (blames_typed h _ (by simp) _ es).orElse <| blames_lift _

/-- The value stands for the field `k` in an object, or in an array. -/
def Inside (rest : J) (k : String) (j : J) : Prop :=
  match rest with
  | .obj es => (k, j) ∈ es
  | .arr l => j ∈ l
  | _ => False

theorem Inside.guid {rest v j : J} {s : String} (h : Inside rest "properties" v)
    (hv : Holds "properties" v j) (hs : GuidEntry j s) : GuidEntry rest s := by
  cases rest with
  | obj es => exact .field h hv hs
  | arr l => exact .sequence h hv hs
  | _ => exact h.elim

theorem inside_fields {names : List String} {rest : J} {es : List (String × J)}
    (h : rest.getFields names = some es) {k : String} {j : J} (hm : (k, j) ∈ es) :
    Inside rest k j := by
  cases rest with
  | obj l => cases h; exact hm
  | arr l =>
    simp only [J.getFields] at h
    split at h
    · cases h; exact (List.of_mem_zip hm).2
    · cases h
  | _ => cases h

theorem blames_visitFields {α : Type} {P : String → Prop}
    {known : List (String × (J → Load Unit))} {rest : J} {m : List (String × J) → Load α}
    (h : ∀ x ∈ known, ∀ j, Inside rest x.1 j → Blames (x.2 j) P)
    (hm : ∀ es, rest.getFields (known.map Prod.fst) = some es → Blames (m es) P) :
    Blames (rest.visitFields known >>= m) P := by
  cases rest with
  | obj l =>
    refine ((blames_visit fun x hx j hj => h x hx j hj).bind fun _ _ => blames_pure _).bind fun es he => hm es ?_
    cases hv : visit known l with
    | ok u => simp only [hv] at he; cases he; rfl
    | err => simp only [hv] at he; cases he
    | panic => simp only [hv] at he; cases he
  | arr l =>
    refine ((blames_visit fun x hx j hj => h x hx j (List.of_mem_zip hj).2).bind
      fun _ _ => blames_lift _).bind fun es he => hm es ?_
    cases hv : visit known ((known.map Prod.fst).zip l) with
    | ok u =>
      simp only [hv] at he
      cases hf : (J.arr l).getFields (known.map Prod.fst) with
      | none => rw [hf] at he; cases he
      | some es' => rw [hf] at he; cases he; rfl
    | err => simp only [hv] at he; cases he
    | panic => simp only [hv] at he; cases he
  | _ => exact blames_err

theorem blames_set (h : ∀ j, Blames (rec j) (GuidEntry j)) (j : J) :
    Blames (Property.setL rec j) (GuidEntry j) := by
  have hs : ∀ k, Inside j "properties" k → Blames (J.getArrL rec k) (GuidEntry j) :=
    fun k hk => blames_arr k fun l hl a ha =>
      (h a).mono fun s => hk.guid (hl ▸ .element (.inl rfl) ha)
  refine blames_visitFields ?_ fun es he => (blames_lift _).bind fun _ _ => (blames_lift _).bind
    fun _ _ => (blames_field fun k hk => hs k (inside_fields he hk)).bind fun _ _ => blames_pure _
  simp only [List.forall_mem_cons, List.not_mem_nil, false_implies, implies_true, and_true]
  exact ⟨fun j _ => blames_plain _ j, fun j _ => blames_plain _ j, fun j hj => blames_seen (hs j hj)⟩

theorem blames_struct (h : ∀ j, Blames (rec j) (GuidEntry j)) (es : List (String × J)) :
    Blames (Property.structL rec es) (GuidEntry (.obj es)) := by
  refine (blames_visit ?_).bind fun _ _ => (blames_defaultField fun j hj => blames_guidField hj).bind
    fun _ _ => (blames_lift _).bind fun _ _ => (blames_structFlat h es).bind fun _ _ => blames_pure _
  simp only [List.forall_mem_cons, List.not_mem_nil, false_implies, implies_true, and_true]
  exact ⟨fun j hj => blames_seen (blames_guidField hj), fun j _ => blames_plain _ j⟩

theorem blames_entries {α : Type} {rest : J} {f : List (String × J) → Load α}
    (h : ∀ es, Blames (f es) (GuidEntry (.obj es))) :
    Blames (Load.lift rest.getEntries >>= f) (GuidEntry rest) := by
  refine (blames_lift _).bind fun es he => ?_
  cases rest with
  | obj l => cases he; exact h _
  | _ => cases he

theorem blames_tag (h : ∀ j, Blames (rec j) (GuidEntry j)) (text : List (String × J) → Option FText)
    (rest : J) (tag : String) : Blames (Property.ofTagL text rec rest tag) (GuidEntry rest) := by
  unfold Property.ofTagL
  split
  · exact blames_entries fun es => (blames_array h es).bind fun _ _ => blames_pure _
  split
  · exact blames_entries fun es => (blames_mapProperty h es).bind fun _ _ => blames_pure _
  split
  · exact blames_set h rest
  split
  · exact blames_entries fun es => blames_struct h es
  split
  · refine blames_entries fun es => ((blames_structJ h _).mono fun s hs => ?_).bind
      fun _ _ => blames_pure _
    cases hs with
    | here h1 h2 => exact .here h1 (List.mem_filter.1 h2).1
    | field h1 h2 h3 => exact .field (List.mem_filter.1 h1).1 h2 h3
  · exact (blames_lift _).bind fun _ _ => blames_lift _

theorem splitTag_guid {key : String} {tagOf : J → Option String} {j : J} {p : String × J}
    (h : j.splitTag key tagOf = some p) {s : String} (hs : GuidEntry p.2 s) : GuidEntry j s := by
  match j with
  | .obj es =>
    simp only [J.splitTag] at h
    cases hl : es.lookup key with
    | none => rw [hl] at h; cases h
    | some t =>
      rw [hl] at h
      cases ht : tagOf t with
      | none => simp [ht] at h
      | some tag =>
        simp only [Option.bind_some, ht, Option.map_some, Option.some.injEq] at h
        subst h; exact hs
  | .arr (t :: l) =>
    simp only [J.splitTag] at h
    cases ht : tagOf t with
    | none => simp [ht] at h
    | some tag =>
      simp only [ht, Option.map_some, Option.some.injEq] at h
      subst h
      cases hs with
      | sequence h1 h2 h3 => exact .sequence (by simp [h1]) h2 h3
  | .arr [] | .null | .bool _ | .int _ | .float _ | .str _ => cases h

theorem blames_step (h : ∀ j, Blames (rec j) (GuidEntry j)) (tagOf : J → Option String)
    (text : List (String × J) → Option FText) (j : J) :
    Blames (Property.ofJStepL tagOf text rec j) (GuidEntry j) := by
  refine (blames_lift _).bind fun p hp => (blames_tag h text p.2 p.1).mono fun s hs => ?_
  cases hj : j.splitTag "type" tagOf with
  | none => rw [hj] at hp; cases hp
  | some q => rw [hj] at hp; cases hp; exact splitTag_guid hj hs

theorem blames_property (n : Nat) (j : J) : Blames (Property.ofJL n j) (GuidEntry j) := by
  induction n generalizing j with
  | zero => exact blames_err
  | succ n ih => exact blames_step ih _ _ j

theorem blames_propertyJson (n : Nat) (j : J) : Blames (Property.ofJsonL n j) (GuidEntry j) := by
  cases n with
  | zero => exact blames_err
  | succ n => exact blames_step (blames_property n) _ _ j

theorem blames_customVersions (j : J) :
    Blames j.getCustomVersionsL fun s => ∃ vs v, j = .obj vs ∧ (s, v) ∈ vs := by
  cases j with
  | obj l =>
    refine (blames_mapL l fun a ha => ((blames_guidStr a.1).mono fun s hs => ?_).bind fun _ _ =>
      (blames_lift _).bind fun _ _ => blames_pure _).bind fun _ _ => blames_pure _
    subst hs
    exact ⟨l, a.2, rfl, ha⟩
  | _ => exact blames_err

theorem Inside.version {rest j : J} {s : String} (h : Inside rest "custom_versions" j)
    (hs : ∃ vs v, j = .obj vs ∧ (s, v) ∈ vs) : VersionName rest s := by
  obtain ⟨vs, v, rfl, hv⟩ := hs
  cases rest with
  | obj l => exact ⟨vs, v, h, hv⟩
  | arr l => exact ⟨vs, v, h, hv⟩
  | _ => exact h.elim

theorem blames_headerTag (rest : J) (tag : String) :
    Blames (GvasHeader.ofTagL rest tag) (VersionName rest) := by
  unfold GvasHeader.ofTagL
  split
  · refine blames_visitFields ?_ fun es he => (blames_lift _).bind fun _ _ =>
      (blames_lift _).bind fun _ _ => (blames_lift _).bind fun _ _ => (blames_field fun j hj =>
      (blames_customVersions j).mono fun s hs => (inside_fields he hj).version hs).bind fun _ _ =>
      (blames_lift _).bind fun _ _ => blames_pure _
    simp only [List.forall_mem_cons, List.not_mem_nil, false_implies, implies_true, and_true]
    exact ⟨fun j _ => blames_plain _ j, fun j _ => blames_plain _ j, fun j _ => blames_plain _ j,
      fun j hj => blames_seen ((blames_customVersions j).mono fun s hs => Inside.version hj hs),
      fun j _ => blames_plain _ j⟩
  split
  · refine blames_visitFields ?_ fun es he => (blames_lift _).bind fun _ _ =>
      (blames_lift _).bind fun _ _ => (blames_lift _).bind fun _ _ => (blames_lift _).bind fun _ _ =>
      (blames_field fun j hj =>
      (blames_customVersions j).mono fun s hs => (inside_fields he hj).version hs).bind fun _ _ =>
      (blames_lift _).bind fun _ _ => blames_pure _
    simp only [List.forall_mem_cons, List.not_mem_nil, false_implies, implies_true, and_true]
    exact ⟨fun j _ => blames_plain _ j, fun j _ => blames_plain _ j, fun j _ => blames_plain _ j,
      fun j _ => blames_plain _ j,
      fun j hj => blames_seen ((blames_customVersions j).mono fun s hs => Inside.version hj hs),
      fun j _ => blames_plain _ j⟩
  · exact blames_err

theorem splitTag_version {key : String} {tagOf : J → Option String} {j : J} {p : String × J}
    (h : j.splitTag key tagOf = some p) {s : String} (hs : VersionName p.2 s) : VersionName j s := by
  match j with
  | .obj es =>
    simp only [J.splitTag] at h
    cases hl : es.lookup key with
    | none => rw [hl] at h; cases h
    | some t =>
      rw [hl] at h
      cases ht : tagOf t with
      | none => simp [ht] at h
      | some tag =>
        simp only [Option.bind_some, ht, Option.map_some, Option.some.injEq] at h
        subst h; exact hs
  | .arr (t :: l) =>
    simp only [J.splitTag] at h
    cases ht : tagOf t with
    | none => simp [ht] at h
    | some tag =>
      simp only [ht, Option.map_some, Option.some.injEq] at h
      subst h
      obtain ⟨vs, v, h1, h2⟩ := hs
      exact ⟨vs, v, by simp [h1], h2⟩
  | .arr [] | .null | .bool _ | .int _ | .float _ | .str _ => cases h

theorem blames_header (j : J) : Blames (GvasHeader.ofJL j) (VersionName j) := by
  refine (blames_lift _).bind fun p hp => (blames_headerTag p.2 p.1).mono fun s hs => ?_
  cases hj : j.splitTag "type" J.getStr with
  | none => rw [hj] at hp; cases hp
  | some q => rw [hj] at hp; cases hp; exact splitTag_version hj hs

theorem blames_file (j : J) : Blames (GvasFile.load j) (GuidText j) := by
  have hh : ∀ k, Inside j "header" k → Blames (GvasHeader.ofJL k) (GuidText j) := by
    intro k hk
    refine (blames_header k).mono fun s hs => ?_
    cases j with
    | obj es => exact .inl ⟨k, hk, hs⟩
    | arr l => exact ⟨k, hk, .inl hs⟩
    | _ => exact hk.elim
  have hp : ∀ k n, Inside j "properties" k →
      Blames (J.getStrMapL (Property.ofJsonL n) k) (GuidText j) := by
    intro k n hk
    refine blames_strMap k fun l hl a ha => (blames_propertyJson n a.2).mono fun s hs => ?_
    subst hl
    cases j with
    | obj es => exact .inr ⟨_, hk, a.1, a.2, ha, hs⟩
    | arr l => exact ⟨_, hk, .inr ⟨a.1, a.2, ha, hs⟩⟩
    | _ => exact hk.elim
  refine blames_visitFields ?_ fun es he => (blames_lift _).bind fun _ _ =>
    (blames_field fun k hk => hh k (inside_fields he hk)).bind fun _ _ =>
    (blames_field fun k hk => hp k _ (inside_fields he hk)).bind fun _ _ => blames_pure _
  simp only [List.forall_mem_cons, List.not_mem_nil, false_implies, implies_true, and_true]
  exact ⟨fun j _ => blames_plain _ j, fun k hk => blames_seen (hh k hk),
    fun k hk => blames_seen (hp k _ hk)⟩

end Load

end Gvas
