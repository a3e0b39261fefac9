import Verif.Lemmas.JsonBlame
import Verif.Lemmas.JsonSaved
import Verif.Props.GuidExact
import Verif.Props.Json

/-!
# C87: loading JSON and panics
-/

namespace Gvas

open Spec

/-- A text the parser of GUIDs panics at: without dashes, white space around it and a brace on
either side it has 32 bytes, and behind pairs of digits the next two bytes are not whole
characters. -/
def Spec.Unparsable (s : String) : Prop :=
  ∃ core, CoreOf s.toList core ∧ (core.map Char.utf8Size).sum = 32 ∧ Misaligned core

theorem unparsable_iff (s : String) : guidOfStrL s = .panic ↔ Unparsable s := by
  obtain ⟨core, hc, _, hp⟩ := C11_parse_exact_partial s.toList
  constructor
  · intro h
    unfold guidOfStrL at h
    split at h
    · rename_i g _
      cases g <;> cases h
    · rename_i f hf
      exact ⟨core, (hc core).2 rfl, ((hp f).1 hf).2⟩
  · rintro ⟨core', h1, h2⟩
    rw [hc] at h1
    subst h1
    unfold guidOfStrL
    rw [(hp _).2 ⟨rfl, h2⟩]

/-- A document with one struct. -/
def structDoc (es : List (String × J)) : J :=
  .obj [("header", jsonHeader.toJ),
    ("properties", .obj [("a", .obj (("type", .str "StructProperty") :: es))])]

/-- A document with one array. -/
def arrayDoc (es : List (String × J)) : J :=
  .obj [("header", jsonHeader.toJ),
    ("properties", .obj [("a", .obj (("type", .str "ArrayProperty") :: es))])]

/-- 32 bytes with a character of two bytes behind one digit. -/
def badGuid : String := "1é23456789012345678901234567890"

theorem badGuid_unparsable : Unparsable badGuid :=
  (unparsable_iff badGuid).1 (by decide +kernel)

/-! ## When it panics -/

/-- **C87**, what does hold: a panic of loading comes from a text that stands for a GUID and at which
the parser of GUIDs panics.  Missing: such panics do happen (`C87_struct_panics`). -/
theorem C87_panics_explained_partial (j : J) (h : GvasFile.load j = .panic) :
    ∃ s, GuidText j s ∧ Unparsable s := by
  obtain ⟨s, h1, h2⟩ := Load.blames_file j h
  exact ⟨s, h1, (unparsable_iff s).1 h2⟩

/-- **C87**, what does hold: without such a text, loading gives the file or error described by
`GvasFile.ofJson` (which C53 and C56 to C58 are about).  Missing: the panics. -/
theorem C87_no_panic_partial (j : J) (h : ∀ s, GuidText j s → ¬ Unparsable s) :
    GvasFile.load j = .lift (GvasFile.ofJson j) := by
  rcases Load.agrees_file j with h' | h'
  · obtain ⟨s, h1, h2⟩ := C87_panics_explained_partial j h'
    exact absurd h2 (h s h1)
  · exact h'

/-- **C87**, what does hold: a file that is loaded, and an error, are those described by
`GvasFile.ofJson`, whatever else is in the document. -/
theorem C87_outcomes_partial (j : J) :
    (∀ f, GvasFile.load j = .ok f → GvasFile.ofJson j = some f) ∧
    (GvasFile.load j = .err → GvasFile.ofJson j = none) := by
  rcases Load.agrees_file j with h | h
  · rw [h]
    exact ⟨fun f e => (nomatch e), fun e => (nomatch e)⟩
  · rw [h]
    cases GvasFile.ofJson j with
    | none => exact ⟨fun f e => (nomatch e), fun _ => rfl⟩
    | some g => exact ⟨fun f e => (by cases e; rfl), fun e => (nomatch e)⟩

/-- **C87** for saved JSON: what `toJson` produces is never a reason to panic. -/
theorem C87_saved_partial (f : GvasFile) :
    GvasFile.load f.toJson = .lift (GvasFile.ofJson f.toJson) := by
  refine C87_no_panic_partial _ fun s hs hu => ?_
  obtain ⟨g, rfl⟩ := Saved.saved_file hs
  rw [← unparsable_iff] at hu
  unfold guidOfStrL at hu
  rw [String.toList_ofList, C10_guid_display_roundtrip] at hu
  cases hu

/-- Together with C53: a file whose maps have distinct keys is loaded back from its JSON if all its
floats are finite, and otherwise an error is returned. -/
theorem C87_saved_outcome_partial (f : GvasFile) (hm : FileMaps f) :
    GvasFile.load f.toJson = if fileFinite f then .ok f else .err := by
  rw [C87_saved_partial, C53_json_roundtrip_partial f hm]
  split <;> rfl

example : GvasFile.load nestedFile.toJson = .ok nestedFile := by
  rw [C87_saved_outcome_partial _ nestedFile_maps, if_pos (by decide +kernel)]

/-- **C87** for JSON in which all texts that stand for GUIDs are ASCII: it is loaded without a
panic. -/
theorem C87_ascii_partial (j : J) (h : ∀ s, GuidText j s → ∀ c ∈ s.toList, c.toNat < 128) :
    GvasFile.load j = .lift (GvasFile.ofJson j) := by
  refine C87_no_panic_partial _ fun s hs hu => ?_
  rw [← unparsable_iff] at hu
  obtain ⟨r, hr⟩ := C11_parse_total_partial s.toList (h s hs)
  unfold guidOfStrL at hu
  rw [hr] at hu
  cases r <;> cases hu

/-- Is it an error? -/
def Spec.isError {α : Type} : Load α → Bool
  | .err => true
  | _ => false

/-- A struct whose GUID is no GUID but ASCII. -/
example : isError (GvasFile.load (structDoc [("guid", .str "x"), ("type_name", .str "T"),
    ("IntPoint", .obj [("x", .int 1), ("y", .int 2)])])) = true := by decide +kernel

/-! ## That it panics -/

theorem jsonHeader_load : GvasHeader.ofJL jsonHeader.toJ = .ok jsonHeader := by
  decide +kernel

theorem ok_bind {α β : Type} (a : α) (f : α → Load β) : ((Load.ok a) >>= f) = f a := rfl
theorem err_bind {α β : Type} (f : α → Load β) : ((Load.err : Load α) >>= f) = .err := rfl
theorem panic_bind {α β : Type} (f : α → Load β) : ((Load.panic : Load α) >>= f) = .panic := rfl
theorem lift_some {α : Type} (a : α) : Load.lift (some a) = .ok a := rfl
theorem lift_none {α : Type} : Load.lift (none : Option α) = .err := rfl
theorem load_pure {α : Type} (a : α) : (pure a : Load α) = .ok a := rfl

theorem visit_some {known : List (String × (J → Load Unit))} {k : String} {d : J → Load Unit}
    (h : known.lookup k = some d) (j : J) (es : List (String × J)) :
    visit known ((k, j) :: es) = (do d j; visit (known.filter fun x => x.1 != k) es) := by
  rw [visit, h]

theorem visit_none {known : List (String × (J → Load Unit))} {k : String}
    (h : known.lookup k = none) (j : J) (es : List (String × J)) :
    visit known ((k, j) :: es) = visit known es := by
  rw [visit, h]

theorem visit_two (d₀ d₁ d₂ : J → Load Unit) (h p : J) :
    visit [("deserialized_game_version", d₀), ("header", d₁), ("properties", d₂)]
      [("header", h), ("properties", p)] = (do d₁ h; d₂ p) := by
  rw [visit_some (d := d₁) rfl]
  congr 1
  funext _
  rw [visit_some (d := d₂) rfl]
  cases d₂ p <;> rfl

theorem visit_header (d₀ d₁ d₂ : J → Load Unit) (h : J) (es : List (String × J))
    (hp : d₁ h = .panic) :
    visit [("deserialized_game_version", d₀), ("header", d₁), ("properties", d₂)]
      (("header", h) :: es) = .panic := by
  rw [visit_some (d := d₁) rfl, hp]; rfl

theorem visit_versions (d₁ d₂ d₃ d₄ d₅ : J → Load Unit) (t v : J) (es : List (String × J))
    (hp : d₄ v = .panic) :
    visit [("package_file_version", d₁), ("engine_version", d₂), ("custom_version_format", d₃),
      ("custom_versions", d₄), ("save_game_class_name", d₅)]
      (("type", t) :: ("custom_versions", v) :: es) = .panic := by
  rw [visit_none rfl, visit_some (d := d₄) rfl, hp]; rfl

theorem value_load (v : J) (r : Load Property)
    (hr : ∀ n, v.depth ≤ n + 1 → Property.ofJsonL (n + 1) v = r) :
    GvasFile.load (.obj [("header", jsonHeader.toJ), ("properties", .obj [("a", v)])]) =
      r.bind fun p => .ok ⟨.default, jsonHeader, [("a", p)]⟩ := by
  have hd : ∃ n, (J.obj [("header", jsonHeader.toJ), ("properties", .obj [("a", v)])]).depth =
      n + 1 ∧ v.depth ≤ n + 1 := by
    refine ⟨_, rfl, ?_⟩
    simp only [depthEntries, J.depth]
    omega
  obtain ⟨n, hn, hle⟩ := hd
  unfold GvasFile.load
  rw [hn]
  have hh := jsonHeader_load
  generalize jsonHeader.toJ = jh at hh
  have hp : J.getStrMapL (Property.ofJsonL (n + 1)) (.obj [("a", v)]) =
      r.bind fun p => .ok [("a", p)] := by
    simp only [J.getStrMapL, J.getMapL, mapL, hr n hle]
    cases r <;> rfl
  simp only [J.visitFields, visit_two]
  have e1 : seen GvasHeader.ofJL jh = .ok () := by unfold seen; rw [hh]; rfl
  have l1 : [("header", jh), ("properties", J.obj [("a", v)])].lookup
    "deserialized_game_version" = none := by simp [List.lookup_cons]
  have l2 : [("header", jh), ("properties", J.obj [("a", v)])].lookup
    "header" = some jh := by simp
  have l3 : [("header", jh), ("properties", J.obj [("a", v)])].lookup
    "properties" = some (.obj [("a", v)]) := by simp [List.lookup_cons]
  cases r with
  | ok p =>
    have e2 : seen (J.getStrMapL (Property.ofJsonL (n + 1))) (.obj [("a", v)]) = .ok () := by
      unfold seen; rw [hp]; rfl
    simp only [e1, e2, ok_bind, load_pure, defaultField_eq, l1, lift_some, fieldL, l2, l3, hh, hp,
      Load.bind]
  | err =>
    have e2 : seen (J.getStrMapL (Property.ofJsonL (n + 1))) (.obj [("a", v)]) = .err := by
      unfold seen; rw [hp]; rfl
    simp only [e1, e2, ok_bind, err_bind, Load.bind]
  | panic =>
    have e2 : seen (J.getStrMapL (Property.ofJsonL (n + 1))) (.obj [("a", v)]) = .panic := by
      unfold seen; rw [hp]; rfl
    simp only [e1, e2, ok_bind, panic_bind, Load.bind]

theorem doc_load (es : List (String × J)) (r : Load Property)
    (hr : ∀ n, depthEntries es ≤ n → Property.ofJsonL (n + 1) (.obj es) = r) :
    GvasFile.load (.obj [("header", jsonHeader.toJ), ("properties", .obj [("a", .obj es)])]) =
      r.bind fun p => .ok ⟨.default, jsonHeader, [("a", p)]⟩ :=
  value_load _ r fun n hn => hr n (by simp only [J.depth] at hn; omega)

/-- **C87 is false**: a struct with such a text as its GUID makes loading panic, whatever else is
in it. -/
theorem C87_struct_panics (s : String) (hs : Unparsable s) (es : List (String × J)) :
    GvasFile.load (structDoc (("guid", .str s) :: es)) = .panic := by
  rw [← unparsable_iff] at hs
  refine doc_load _ .panic fun n _ => ?_
  simp [Property.ofJsonL, Property.ofJStepL, J.splitTag, List.lookup_cons, Property.ofTagL,
    Property.structL, J.getEntries, visit, seen, J.getGuidL, J.getStr, hs, ok_bind, panic_bind,
    lift_some]

example : Unparsable badGuid := badGuid_unparsable

/-- **C87 is false** also for the names of custom versions. -/
theorem C87_version_panics (s : String) (hs : Unparsable s) (vs es es' : List (String × J)) (v : J) :
    GvasFile.load (.obj (("header", .obj (("type", .str "Version2") ::
      ("custom_versions", .obj ((s, v) :: vs)) :: es)) :: es')) = .panic := by
  rw [← unparsable_iff] at hs
  have hv : J.getCustomVersionsL (.obj ((s, v) :: vs)) = .panic := by
    simp only [J.getCustomVersionsL, J.getMapL, mapL, hs, panic_bind]
  have hh : GvasHeader.ofJL (.obj (("type", .str "Version2") ::
      ("custom_versions", .obj ((s, v) :: vs)) :: es)) = .panic := by
    simp only [GvasHeader.ofJL, J.splitTag, List.lookup_cons, beq_self_eq_true, Option.bind_some,
      J.getStr, Option.map_some, lift_some, ok_bind, GvasHeader.ofTagL, if_true, J.visitFields]
    rw [visit_versions]
    · rfl
    · unfold seen; rw [hv]; rfl
  simp only [GvasFile.load, J.visitFields]
  rw [visit_header]
  · rfl
  · unfold seen; rw [hh]; rfl

/-- It matters what comes first: an error in front of the text is returned. -/
theorem C87_error_first (s : String) (es : List (String × J)) :
    GvasFile.load (structDoc (("type_name", .null) :: ("guid", .str s) :: es)) = .err := by
  refine doc_load _ .err fun n _ => ?_
  simp [Property.ofJsonL, Property.ofJStepL, J.splitTag, List.lookup_cons, Property.ofTagL,
    Property.structL, J.getEntries, visit, plain, J.getStr, ok_bind, err_bind,
    lift_some, lift_none]

/-- An array of properties with an unused entry `guid`. -/
def unusedDoc (s : String) : J :=
  arrayDoc [("guid", .str s), ("property_type", .str "IntProperty"), ("properties", .arr [])]

/-- The panic is not avoided where the text is not needed: an array of properties with an unused
entry `guid` is loaded if the entry is any other text, be it a GUID or not, and makes loading panic
if it is such a text.  This is because `Structs` is tried first. -/
theorem C87_unused_text (s : String) :
    (¬ Unparsable s → GvasFile.load (unusedDoc s) =
      .ok ⟨.default, jsonHeader, [("a", .array (.properties "IntProperty" []))]⟩) ∧
    (Unparsable s → GvasFile.load (unusedDoc s) = .panic) := by
  rw [← unparsable_iff]
  constructor
  · intro hs
    refine doc_load _ (.ok (.array (.properties "IntProperty" []))) fun n _ => ?_
    cases hg : guidOfStrL s with
    | panic => exact absurd hg hs
    | ok g =>
      simp [Property.ofJsonL, Property.ofJStepL, J.splitTag, List.lookup_cons, Property.ofTagL,
        ArrayProperty.ofEntriesL, ArrayProperty.structsL, ArrayProperty.propertiesL, field_eq, fieldL,
        defaultFieldL, J.getArrL, mapL,
        J.getEntries, visit, seen, plain, J.getGuidL, J.getStr, hg, ok_bind, err_bind,
        lift_some, lift_none, Load.orElse, load_pure]
    | err =>
      simp [Property.ofJsonL, Property.ofJStepL, J.splitTag, List.lookup_cons, Property.ofTagL,
        ArrayProperty.ofEntriesL, ArrayProperty.structsL, ArrayProperty.propertiesL, field_eq, fieldL,
        defaultFieldL, J.getArrL, mapL,
        J.getEntries, visit, seen, plain, J.getGuidL, J.getStr, hg, ok_bind, err_bind,
        lift_some, lift_none, Load.orElse, load_pure]
  · intro hs
    refine doc_load _ .panic fun n _ => ?_
    simp [Property.ofJsonL, Property.ofJStepL, J.splitTag, List.lookup_cons, Property.ofTagL,
      ArrayProperty.ofEntriesL, ArrayProperty.structsL, field_eq,
      J.getEntries, visit, seen, J.getGuidL, J.getStr, hs, ok_bind, panic_bind,
      lift_some, lift_none, Load.orElse]

example : Unparsable badGuid ∧ ¬ Unparsable "x" := by
  refine ⟨badGuid_unparsable, ?_⟩
  rw [← unparsable_iff]
  decide +kernel

/-- A document with an array of two structs that are GUIDs. -/
def twoDoc (s t : String) : J :=
  arrayDoc [("field_name", .str "a"), ("type_name", .str "Guid"),
    ("structs", .arr [.obj [("Guid", .str s)], .obj [("Guid", .str t)]])]

/-- Elements are looked at in order: the first one that is no GUID decides between an error and a
panic. -/
theorem C87_first_decides (s t : String) (ht : Unparsable t) :
    (∀ g, Guid.parse s.toList = .ok (some g) → GvasFile.load (twoDoc s t) = .panic) ∧
    (Guid.parse s.toList = .ok none → GvasFile.load (twoDoc s t) = .err) ∧
    (Unparsable s → GvasFile.load (twoDoc s t) = .panic) := by
  rw [← unparsable_iff] at ht ⊢
  have key : ∀ r : Load ArrayProperty, r = (guidOfStrL s).bind (fun _ => .panic) →
      GvasFile.load (twoDoc s t) = r.bind fun p => .ok ⟨.default, jsonHeader, [("a", .array p)]⟩ := by
    rintro r rfl
    refine (doc_load _ ((guidOfStrL s).bind fun _ => .panic) fun n _ => ?_).trans ?_
    · cases hg : guidOfStrL s with
      | ok g =>
        simp [Property.ofJsonL, Property.ofJStepL, J.splitTag, List.lookup_cons, Property.ofTagL,
          ArrayProperty.ofEntriesL, ArrayProperty.structsL, ArrayProperty.propertiesL, field_eq, fieldL,
          J.getArrL, mapL, StructPropertyValue.ofJL, StructPropertyValue.ofVariantL,
          J.getEntries, visit, seen, plain, J.getGuidL, J.getStr, hg, ht, ok_bind, err_bind,
          panic_bind, lift_some, lift_none, Load.orElse, load_pure, Load.bind]
      | err =>
        simp [Property.ofJsonL, Property.ofJStepL, J.splitTag, List.lookup_cons, Property.ofTagL,
          ArrayProperty.ofEntriesL, ArrayProperty.structsL, ArrayProperty.propertiesL, field_eq, fieldL,
          J.getArrL, mapL, StructPropertyValue.ofJL, StructPropertyValue.ofVariantL,
          J.getEntries, visit, seen, plain, J.getGuidL, J.getStr, hg, ok_bind, err_bind,
          lift_some, lift_none, Load.orElse, load_pure, Load.bind]
      | panic =>
        simp [Property.ofJsonL, Property.ofJStepL, J.splitTag, List.lookup_cons, Property.ofTagL,
          ArrayProperty.ofEntriesL, ArrayProperty.structsL, field_eq,
          J.getArrL, mapL, StructPropertyValue.ofJL, StructPropertyValue.ofVariantL,
          J.getEntries, visit, seen, plain, J.getGuidL, J.getStr, hg, ok_bind,
          panic_bind, lift_some, lift_none, Load.orElse, load_pure, Load.bind]
    · cases guidOfStrL s <;> rfl
  refine ⟨fun g hg => ?_, fun hg => ?_, fun hg => ?_⟩
  · rw [key _ rfl, show guidOfStrL s = .ok g by unfold guidOfStrL; rw [hg]; rfl]; rfl
  · rw [key _ rfl, show guidOfStrL s = .err by unfold guidOfStrL; rw [hg]; rfl]; rfl
  · rw [key _ rfl, hg]; rfl

example : Guid.parse "0".toList = .ok (some (Guid.fromU128 0)) ∧
    Guid.parse "x".toList = .ok none ∧ Unparsable badGuid :=
  ⟨by decide, by decide, badGuid_unparsable⟩

/-- A struct with a GUID and nothing else. -/
def bareStruct (s : String) : J := .obj [("type", .str "StructProperty"), ("guid", .str s)]

theorem bareStruct_load (s : String) (hs : guidOfStrL s = .panic) (n : Nat) :
    Property.ofJL (n + 1) (bareStruct s) = .panic := by
  simp [Property.ofJL, bareStruct, Property.ofJStepL, J.splitTag, List.lookup_cons, J.getTag,
    propertyTags, Property.ofTagL, Property.structL, J.getEntries, visit, seen, J.getGuidL,
    J.getStr, hs, ok_bind, panic_bind, lift_some]

/-- The entries of a map whose only pair is the elements given. -/
def pairEntries (q : List J) : List (String × J) :=
  [("type", .str "MapProperty"), ("key_type", .str "StructProperty"),
    ("value_type", .str "IntProperty"), ("allocation_flags", .int 0), ("value", .arr [.arr q])]

/-- A document with this map. -/
def pairDoc (q : List J) : J :=
  .obj [("header", jsonHeader.toJ), ("properties", .obj [("a", .obj (pairEntries q))])]

theorem pair_load (q : List J) (n : Nat) : Property.ofJsonL (n + 1) (.obj (pairEntries q)) =
    Property.ofTagL (FText.ofEntries (n + 1)) (Property.ofJL n) (.obj (pairEntries q))
      "MapProperty" := rfl

theorem pair_variants (rec : J → Load Property) (q : List J) :
    MapProperty.ofEntriesL rec (pairEntries q) =
      (MapProperty.propertiesL rec (pairEntries q)).orElse .err := rfl

theorem pair_visit (d₁ d₂ d₃ d₄ : J → Load Unit) (q : List J) :
    visit [("key_type", d₁), ("value_type", d₂), ("allocation_flags", d₃), ("value", d₄)]
      (pairEntries q) = (do
        d₁ (.str "StructProperty")
        d₂ (.str "IntProperty")
        d₃ (.int 0)
        d₄ (.arr [.arr q])) := by
  unfold pairEntries
  rw [visit_none rfl, visit_some (d := d₁) rfl]
  congr 1; funext _
  rw [visit_some (d := d₂) rfl]
  congr 1; funext _
  rw [visit_some (d := d₃) rfl]
  congr 1; funext _
  rw [visit_some (d := d₄) rfl]
  cases d₄ (.arr [.arr q]) <;> rfl

theorem pair_bad {n : Nat} {q : List J} {r : Load (List (Property × Property))}
    (hr : J.getArrL (J.getPairL (Property.ofJL n)) (.arr [.arr q]) = r) :
    (r = .panic → Property.ofJsonL (n + 1) (.obj (pairEntries q)) = .panic) ∧
    (r = .err → Property.ofJsonL (n + 1) (.obj (pairEntries q)) = .err) := by
  have e : ∀ (u : Load Unit) (x : Load MapProperty), (u = .panic ∨ u = .err) → seen (J.getArrL
      (J.getPairL (Property.ofJL n))) (.arr [.arr q]) = u →
      MapProperty.propertiesL (Property.ofJL n) (pairEntries q) =
        u.bind fun _ => x := by
    intro u x hu hs
    unfold MapProperty.propertiesL
    simp only [pair_visit, hs]
    rcases hu with rfl | rfl <;> rfl
  rw [pair_load]
  unfold Property.ofTagL
  rw [if_neg (by decide), if_pos rfl]
  constructor
  · rintro rfl
    have := e .panic .err (.inl rfl) (by unfold seen; rw [hr]; rfl)
    simp only [J.getEntries, lift_some, ok_bind, pair_variants, this]; rfl
  · rintro rfl
    have := e .err .err (.inr rfl) (by unfold seen; rw [hr]; rfl)
    simp only [J.getEntries, lift_some, ok_bind, pair_variants, this]; rfl

/-- What there is of a pair is read before its length is found wrong: a lone key with such a text
makes loading panic, no key is an error. -/
theorem C87_half_pair (s : String) (hs : Unparsable s) :
    GvasFile.load (pairDoc [bareStruct s]) = .panic ∧ GvasFile.load (pairDoc []) = .err := by
  rw [← unparsable_iff] at hs
  have hd : depthEntries (pairEntries [bareStruct s]) = 3 := by
    simp [depthEntries, J.depth, depthList, bareStruct, pairEntries]
  constructor
  · refine doc_load _ .panic fun n hn => ?_
    obtain ⟨m, rfl⟩ : ∃ m, n = m + 1 := ⟨n - 1, by omega⟩
    refine (pair_bad rfl).1 ?_
    simp only [J.getArrL, mapL, J.getPairL, bareStruct_load s hs, panic_bind]
  · exact doc_load _ .err fun n _ => (pair_bad rfl).2 rfl

/-- A set as an array with its fields in order, and something behind them. -/
def setDoc (ps : List J) (tail : List J) : J :=
  .obj [("header", jsonHeader.toJ), ("properties", .obj [("a", .arr (.str "SetProperty" ::
    .str "StructProperty" :: .int 0 :: .arr ps :: tail))])]

/-- Likewise the elements of a set are read before it is found too long. -/
theorem C87_long_set (s : String) (hs : Unparsable s) (ps tail : List J) :
    GvasFile.load (setDoc (bareStruct s :: ps) tail) = .panic := by
  rw [← unparsable_iff] at hs
  refine value_load _ .panic fun n hn => ?_
  obtain ⟨m, rfl⟩ : ∃ m, n = m + 1 := by
    refine ⟨n - 1, ?_⟩
    simp only [J.depth, depthList, depthEntries, bareStruct] at hn
    omega
  have e : Property.ofJsonL (m + 1 + 1) (.arr (.str "SetProperty" ::
      .str "StructProperty" :: .int 0 :: .arr (bareStruct s :: ps) :: tail)) =
      Property.setL (Property.ofJL (m + 1))
        (.arr (.str "StructProperty" :: .int 0 :: .arr (bareStruct s :: ps) :: tail)) := rfl
  rw [e]
  have hv : ∀ d₁ d₂ d₃ : J → Load Unit, d₁ (.str "StructProperty") = .ok () →
      d₂ (.int 0) = .ok () → d₃ (.arr (bareStruct s :: ps)) = .panic →
      J.visitFields [("property_type", d₁), ("allocation_flags", d₂), ("properties", d₃)]
        (.arr (.str "StructProperty" :: .int 0 :: .arr (bareStruct s :: ps) :: tail)) = .panic := by
    intro d₁ d₂ d₃ h1 h2 h3
    simp only [J.visitFields, List.map_cons, List.map_nil, List.zip_cons_cons, List.zip_nil_left]
    rw [visit_some (d := d₁) rfl, h1, ok_bind, visit_some (d := d₂) rfl, h2, ok_bind,
      visit_some (d := d₃) rfl, h3]
    rfl
  unfold Property.setL
  rw [hv _ _ _ rfl rfl (by
    simp only [seen, J.getArrL, mapL, bareStruct_load s hs, panic_bind])]
  rfl

end Gvas
