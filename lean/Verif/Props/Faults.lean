import Verif.Lemmas.Faults
import Verif.Lemmas.AcceptFile
import Verif.Props.Container
import Verif.Spec.Sample

/-! # C98: what a failed save says is true of the file -/

namespace Gvas

open Spec Format

/-- **C98** for properties: writing fails if and only if there is something in the property that
cannot be saved with these versions, and the failure is that of the first such thing, in the order in
which it would be stored. -/
theorem C98_property (cv : List (Guid × UInt32)) (h : Bool) (p : Property) (e : Fail) :
    Property.write cv h p = .bad e ↔ FirstUnfit cv (demands h p) e := by
  rw [firstUnfit_iff, ← blame_property h p, Res.fault_eq]

/-- **C98**: saving a file fails if and only if there is something in it that cannot be saved with its
versions, and the failure is that of the first such thing.  The output is left as it was. -/
theorem C98_file (z : Codec) (f : GvasFile) (s s' : Sink) (e : Fail) :
    f.write z s = (.bad e, s') ↔
      FirstUnfit f.header.customVersions (fileDemands f) e ∧ s' = s := by
  have hf : f.encode = .bad e ↔ FirstUnfit f.header.customVersions (fileDemands f) e := by
    rw [firstUnfit_iff, ← blame_file f, Res.fault_eq]
  constructor
  · intro h
    have hs := C41_failed_write_untouched z f s s' e h
    refine ⟨hf.mp ?_, hs⟩
    unfold GvasFile.write at h
    cases he : f.encode with
    | bad e' =>
      rw [he] at h
      simp only [Prod.mk.injEq, Res.bad.injEq] at h
      rw [h.1]
    | ok d =>
      rw [he] at h
      cases hg : f.gameVersion <;> simp [hg] at h
  · rintro ⟨h, rfl⟩
    unfold GvasFile.write
    rw [hf.mpr h]

/-- **C98**: what was read can be saved: nothing in it is unfit for the versions it was read with. -/
theorem C98_read_fits (debug : Bool) (hints : String → Option String) (data : Bytes)
    (h : GvasHeader) (ps : List (String × Property)) (gv : DeserializedGameVersion)
    (hr : (readData debug hints data).1 = .ok (h, ps)) :
    ∀ d ∈ fileDemands ⟨gv, h, ps⟩, ∀ e, ¬ Unfit h.customVersions d e := by
  obtain ⟨_, d, hd, _⟩ := accept_data hr gv
  have hb := blame_file ⟨gv, h, ps⟩
  rw [Blame, hd] at hb
  intro x hx e he
  have := (List.findSome?_eq_none_iff.mp hb.symm) x hx
  rw [unfit_iff.mp he] at this
  cases this

/-- **C98**: what was read is saved with other versions unless coordinates or integer arguments get
another width by them, and there are some in the file. -/
theorem C98_other_versions (debug : Bool) (hints : String → Option String) (data : Bytes)
    (h h' : GvasHeader) (ps : List (String × Property)) (gv : DeserializedGameVersion)
    (hr : (readData debug hints data).1 = .ok (h, ps)) :
    (∃ d, GvasFile.encode ⟨gv, h', ps⟩ = .ok d) ↔
      ((LargeWorld h.customVersions ↔ LargeWorld h'.customVersions) ∨
        ∀ d ∈ fileDemands ⟨gv, h', ps⟩, ∀ n m, d ≠ .small n m ∧ d ≠ .large n m) ∧
      ((WideArguments h.customVersions ↔ WideArguments h'.customVersions) ∨
        ∀ d ∈ fileDemands ⟨gv, h', ps⟩, ∀ n, d ≠ .narrow n ∧ d ≠ .wide n) := by
  have hfit := C98_read_fits debug hints data h ps gv hr
  have hds : fileDemands ⟨gv, h, ps⟩ = fileDemands ⟨gv, h', ps⟩ := rfl
  rw [hds] at hfit
  have hb := blame_file ⟨gv, h', ps⟩
  have hok : (∃ d, GvasFile.encode ⟨gv, h', ps⟩ = .ok d) ↔
      ∀ d ∈ fileDemands ⟨gv, h', ps⟩, ∀ e, ¬ Unfit h'.customVersions d e := by
    rw [Blame] at hb
    constructor
    · rintro ⟨b, hb'⟩ x hx e he
      rw [hb'] at hb
      have := (List.findSome?_eq_none_iff.mp hb.symm) x hx
      rw [unfit_iff.mp he] at this
      cases this
    · intro hall
      cases he : GvasFile.encode ⟨gv, h', ps⟩ with
      | ok d => exact ⟨d, rfl⟩
      | bad e =>
        rw [he] at hb
        obtain ⟨x, hx, hxe⟩ := List.exists_of_findSome?_eq_some hb.symm
        exact absurd (unfit_iff.mpr hxe) (hall x hx e)
  rw [hok]
  generalize fileDemands ⟨gv, h', ps⟩ = ds at *
  constructor
  · intro hall
    refine ⟨?_, ?_⟩
    · by_cases hc : LargeWorld h.customVersions ↔ LargeWorld h'.customVersions
      · exact .inl hc
      · refine .inr fun d hd n m => ⟨?_, ?_⟩
        · rintro rfl
          exact hc (iff_of_false (fun hl => hfit _ hd _ (.small _ _ hl))
            fun hl => hall _ hd _ (.small _ _ hl))
        · rintro rfl
          exact hc (iff_of_true (Classical.byContradiction fun hl => hfit _ hd _ (.large _ _ hl))
            (Classical.byContradiction fun hl => hall _ hd _ (.large _ _ hl)))
    · by_cases hc : WideArguments h.customVersions ↔ WideArguments h'.customVersions
      · exact .inl hc
      · refine .inr fun d hd n => ⟨?_, ?_⟩
        · rintro rfl
          exact hc (iff_of_false (fun hl => hfit _ hd _ (.narrow _ hl))
            fun hl => hall _ hd _ (.narrow _ hl))
        · rintro rfl
          exact hc (iff_of_true (Classical.byContradiction fun hl => hfit _ hd _ (.wide _ hl))
            (Classical.byContradiction fun hl => hall _ hd _ (.wide _ hl)))
  · rintro ⟨hc, hi⟩ d hd e he
    have h1 := hfit d hd
    cases he with
    | small n m hl =>
      rcases hc with hc | hc
      · exact h1 _ (.small n m (hc.mpr hl))
      · exact (hc _ hd n m).1 rfl
    | large n m hl =>
      rcases hc with hc | hc
      · exact h1 _ (.large n m fun h => hl (hc.mp h))
      · exact (hc _ hd n m).2 rfl
    | narrow n hl =>
      rcases hi with hi | hi
      · exact h1 _ (.narrow n (hi.mpr hl))
      · exact (hi _ hd n).1 rfl
    | wide n hl =>
      rcases hi with hi | hi
      · exact h1 _ (.wide n fun h => hl (hi.mp h))
      · exact (hi _ hd n).2 rfl
    | bare => exact h1 _ .bare

/-- A text with an integer argument of 64 bits. -/
def wideText : Property := .text (.mk 0 (.asNumber (.int64 5) none none))

/-- A vector of doubles. -/
def largeVector : Property := .struct editorGuid "Vector" (.vectorD ⟨0⟩ ⟨0⟩ ⟨0⟩)

theorem faults_empty : ¬ LargeWorld [] ∧ ¬ WideArguments [] :=
  ⟨fun ⟨_, h, _⟩ => (by cases h), fun ⟨_, h, _⟩ => (by cases h)⟩

/-- The order decides: without any versions, saving a text with an argument of 64 bits and then a
vector of doubles panics because of the text, and in the other order the vector is reported. -/
example (z : Codec) (s : Sink) (h : GvasHeader) (hc : h.customVersions = []) :
    (GvasFile.write z ⟨.default, h, [("a", .bool true), ("t", wideText), ("v", largeVector)]⟩ s).1 =
      .panic "FormatArgumentValue::Int64 requires TextFormatArgumentData64bitSupport" ∧
    (GvasFile.write z ⟨.default, h, [("a", .bool true), ("v", largeVector), ("t", wideText)]⟩ s).1 =
      .err (.serializeInvalidValue "VectorD not supported when LWC is disabled, use VectorF") := by
  have h1 := (C98_file z ⟨.default, h, [("a", .bool true), ("t", wideText), ("v", largeVector)]⟩ s s
    (.panic "FormatArgumentValue::Int64 requires TextFormatArgumentData64bitSupport")).mpr
      ⟨⟨[], .wide "Int64", [.large "VectorD" "VectorF"], rfl, by simp,
        hc ▸ .wide "Int64" faults_empty.2⟩, rfl⟩
  have h2 := (C98_file z ⟨.default, h, [("a", .bool true), ("v", largeVector), ("t", wideText)]⟩ s s
    (.err (.serializeInvalidValue "VectorD not supported when LWC is disabled, use VectorF"))).mpr
      ⟨⟨[], .large "VectorD" "VectorF", [.wide "Int64"], rfl, by simp,
        hc ▸ .large "VectorD" "VectorF" faults_empty.1⟩, rfl⟩
  exact ⟨by rw [h1], by rw [h2]⟩

/-- A struct with a bare struct as a field cannot be saved with any versions. -/
example (cv : List (Guid × UInt32)) : Property.write cv true
      (.struct editorGuid "S" (.customStruct [("f", [.structValue (.intPoint 1 2)])])) =
    .err (.serializeInvalidValue "StructPropertyValue can not be serialized with a header") :=
  (C98_property cv true _ _).mpr ⟨[], .bare, [], rfl, by simp, .bare⟩

/-- A vector of floats in a save without custom versions. -/
def smallVectorBytes : Bytes :=
  ascii "v" ++ ascii "StructProperty" ++ [12, 0, 0, 0, 0, 0, 0, 0] ++ ascii "Vector" ++
    List.replicate 16 0 ++ [0] ++ [0, 0, 128, 63, 0, 0, 0, 64, 0, 0, 64, 64]

/-- What a save asks for. -/
def demandsRead : Res (GvasHeader × List (String × Property)) → List Demand
  | .ok (h, ps) => fileDemands ⟨.default, h, ps⟩
  | .bad _ => []

/-- A save with a vector of floats is read, and cannot be saved after the versions were replaced by
those of a game with large coordinates; with the version before that, it can. -/
example : ∃ h ps, (readData true noHints (saveBytes smallVectorBytes)).1 = .ok (h, ps) ∧
    ∀ h' : GvasHeader, (h'.customVersions = [(ue5ReleaseGuid, 28)] →
        ¬ ∃ d, GvasFile.encode ⟨.default, h', ps⟩ = .ok d) ∧
      (h'.customVersions = [(ue5ReleaseGuid, 27)] →
        ∃ d, GvasFile.encode ⟨.default, h', ps⟩ = .ok d) := by
  obtain ⟨⟨h, ps⟩, hr⟩ := eq_ok (r := (readData true noHints (saveBytes smallVectorBytes)).1)
    (by decide +kernel)
  have hd : demandsRead (readData true noHints (saveBytes smallVectorBytes)).1 =
      [.small "VectorF" "VectorD"] := by decide +kernel
  have hfit := C98_read_fits true noHints _ h ps .default hr
  rw [hr] at hd
  have hd : ∀ g, fileDemands ⟨.default, g, ps⟩ = [.small "VectorF" "VectorD"] := fun _ => hd
  rw [hd h] at hfit
  have hl : ¬ LargeWorld h.customVersions := fun hl => hfit _ (List.mem_singleton.mpr rfl) _ (.small _ _ hl)
  refine ⟨h, ps, hr, fun h' => ⟨fun hc => ?_, fun hc => ?_⟩⟩
  · rw [C98_other_versions true noHints _ h h' ps .default hr, hd h']
    rintro ⟨h1 | h1, _⟩
    · exact hl (h1.mpr (hc ▸ largeWorld_iff.mpr (by decide +kernel)))
    · exact (h1 _ (List.mem_singleton.mpr rfl) _ _).1 rfl
  · rw [C98_other_versions true noHints _ h h' ps .default hr, hd h']
    refine ⟨.inl (iff_of_false hl (hc ▸ mt largeWorld_iff.mp (by decide +kernel))), .inr ?_⟩
    intro d hd n
    rw [List.mem_singleton.mp hd]
    exact ⟨by simp, by simp⟩

end Gvas
