import Verif.Lemmas.EqualOk
import Verif.Props.Equality

/-!
# C80: equal files are saved alike
-/

namespace Gvas

open Spec

private theorem alike_ok {r s : Res Out} (h : Alike r s) {o : Out} (hr : r = .ok o) :
    ∃ o', s = .ok o' ∧ o'.bytes.length = o.bytes.length ∧ o'.n = o.n := by
  subst hr
  cases s with
  | bad f => cases h
  | ok o' =>
    simp only [Alike, outSize, Option.some.injEq, Prod.mk.injEq] at h
    exact ⟨o', rfl, h.1.symm, h.2.symm⟩

private theorem lookup_perm {l m : List (Guid × UInt32)} (hp : l.Perm m)
    (hm : (m.map Prod.fst).Nodup) (g : Guid) : l.lookup g = m.lookup g := by
  have hl : (l.map Prod.fst).Nodup := (hp.map _).nodup_iff.mpr hm
  cases h : l.lookup g with
  | none =>
    cases h' : m.lookup g with
    | none => rfl
    | some v =>
      rw [lookup_of_mem hl (hp.mem_iff.mpr (lookup_mem h'))] at h
      cases h
  | some v => exact (lookup_of_mem hm (hp.mem_iff.mp (lookup_mem h))).symm

private theorem versions_perm {l m : List (Guid × UInt32)} (hp : l.Perm m)
    (hm : (m.map Prod.fst).Nodup) : SameVersions l m := by
  simp only [SameVersions, lwc, text64, cultureInvariant, supportsVersion, getCustomVersion,
    lookup_perm hp hm]
  exact ⟨rfl, rfl, rfl⟩

private theorem top_like {cv cv' : List (Guid × UInt32)} (hv : SameVersions cv cv')
    {l p : List (String × Property)} (hl : ∀ e ∈ l, MapsDistinct e.2)
    (hp : ∀ e ∈ p, MapsDistinct e.2)
    (h : Pairs (fun a b => a.1 = b.1 ∧ a.2.eqv b.2 = true) l p) :
    Alike (writeTop cv l) (writeTop cv' p) := by
  induction h with
  | nil => exact .refl _
  | @cons a b as bs hab _ ih =>
    obtain ⟨k, v⟩ := a
    obtain ⟨k', v'⟩ := b
    obtain ⟨rfl, hab⟩ := hab
    rw [List.forall_mem_cons] at hl hp
    rw [writeTop, writeTop]
    exact (prop_like hv true v v' hl.1 hp.1 hab).bind fun o o' ho =>
      (ih hl.2 hp.2).map fun b b' hb => ((SameSize.refl _).app ho).app hb

private theorem header_length {a b : GvasHeader} (h : withoutVersions a = withoutVersions b)
    (hp : a.customVersions.Perm b.customVersions) :
    a.write.bytes.length = b.write.bytes.length := by
  have e : ∀ cv cv' : List (Guid × UInt32), cv.Perm cv' → ∀ ev fmt name,
      (writeHeaderTail ev fmt cv name).bytes.length = (writeHeaderTail ev fmt cv' name).bytes.length :=
    fun cv cv' h ev fmt name =>
      ((((SameSize.refl _).app (size_u32 ..)).app (.concat_perm _ h)).app (.refl _)).1
  cases a <;> cases b <;>
    simp only [withoutVersions, GvasHeader.version2.injEq, GvasHeader.version3.injEq,
      reduceCtorEq] at h
  · obtain ⟨rfl, rfl, rfl, -, rfl⟩ := h
    simp only [GvasHeader.write, Out.app_bytes, List.length_append]
    congr 1
    exact e _ _ hp _ _ _
  · obtain ⟨rfl, rfl, rfl, rfl, -, rfl⟩ := h
    simp only [GvasHeader.write, Out.app_bytes, List.length_append]
    congr 1
    exact e _ _ hp _ _ _

/-- **C80**: of two equal properties, if one can be written so can the other, in the same number of
bytes and with the same count returned. -/
theorem C80_properties (cv : List (Guid × UInt32)) (h : Bool) (a b : Property)
    (ha : MapsDistinct a) (hb : MapsDistinct b) (e : a.eqv b = true) (o : Out)
    (ho : a.write cv h = .ok o) :
    ∃ o', b.write cv h = .ok o' ∧ o'.bytes.length = o.bytes.length ∧ o'.n = o.n :=
  alike_ok (prop_like (.refl _) h a b ha hb e) ho

/-- **C80**: of two equal files, if one can be saved so can the other, in the same number of bytes
(before any compression). -/
theorem C80_files (f g : GvasFile) (hf : FileMaps f) (hg : FileMaps g) (e : f.eqv g = true)
    (d : Bytes) (hd : f.encode = .ok d) : ∃ d', g.encode = .ok d' ∧ d'.length = d.length := by
  obtain ⟨-, hh, hc, p, hp, hq⟩ := (C64_files f g hf hg).mp e
  have hv := versions_perm hc hg.1
  have ht := (top_like hv hf.2.2 (fun e he => hg.2.2 e (hp.mem_iff.mp he)) hq).trans
    (top_perm g.header.customVersions hp)
  unfold GvasFile.encode at hd ⊢
  cases hw : writeTop f.header.customVersions f.properties with
  | bad x => rw [hw] at hd; cases hd
  | ok o =>
    obtain ⟨o', h1, h2, -⟩ := alike_ok ht hw
    rw [hw] at hd
    rw [h1]
    refine ⟨_, rfl, ?_⟩
    injection hd with hd
    rw [← hd]
    simp only [List.length_append, header_length hh hc, h2]

private theorem headerOK_like {a b : GvasHeader} (h : withoutVersions a = withoutVersions b)
    (hp : a.customVersions.Perm b.customVersions) (ha : HeaderOK a) : HeaderOK b := by
  have e : ∀ cv cv' : List (Guid × UInt32), cv.Perm cv' → ∀ ev fmt name,
      HeaderTailOK ev fmt cv name → HeaderTailOK ev fmt cv' name :=
    fun cv cv' h ev fmt name ⟨h1, h2, h3, h4, h5⟩ =>
      ⟨h1, h2, (h.map _).nodup_iff.mp h3, h.length_eq ▸ h4, h5⟩
  cases a <;> cases b <;>
    simp only [withoutVersions, GvasHeader.version2.injEq, GvasHeader.version3.injEq,
      reduceCtorEq] at h
  · obtain ⟨rfl, rfl, rfl, -, rfl⟩ := h
    exact ⟨ha.1, ha.2.1, e _ _ hp _ _ _ ha.2.2⟩
  · obtain ⟨rfl, rfl, rfl, rfl, -, rfl⟩ := h
    exact ⟨ha.1, ha.2.1, ha.2.2.1, ha.2.2.2.1, e _ _ hp _ _ _ ha.2.2.2.2⟩

private theorem pairs_right {α β : Type} {r : α → β → Prop} {l : List α} {p : List β}
    (h : Pairs r l p) : ∀ b ∈ p, ∃ a ∈ l, r a b := by
  induction h with
  | nil => simp
  | @cons a b as bs hab _ ih =>
    intro b' hb'
    rcases List.mem_cons.mp hb' with rfl | hb'
    · exact ⟨a, List.mem_cons_self .., hab⟩
    · obtain ⟨a', h1, h2⟩ := ih b' hb'
      exact ⟨a', List.mem_cons_of_mem _ h1, h2⟩

/-- **C80**: of two equal files, one is representable exactly if the other is. -/
theorem C80_representable (debug : Bool) (hints : String → Option String) (f g : GvasFile)
    (hf : FileMaps f) (hg : FileMaps g) (e : f.eqv g = true) :
    FileOK debug hints f ↔ FileOK debug hints g := by
  have key : ∀ f g : GvasFile, FileMaps f → FileMaps g → f.eqv g = true →
      FileOK debug hints f → FileOK debug hints g := by
    intro f g hf hg e ⟨h1, h2, h3⟩
    obtain ⟨-, hh, hc, p, hp, hq⟩ := (C64_files f g hf hg).mp e
    refine ⟨headerOK_like hh hc h1, hg.2.1, fun x hx => ?_⟩
    obtain ⟨y, hy, hk, he⟩ := pairs_right hq x (hp.mem_iff.mpr hx)
    obtain ⟨g1, g2, g3⟩ := h3 y hy
    rw [hk] at g1 g2 g3
    have hs : SameEnv (fileEnv debug hints f.header) (fileEnv debug hints g.header) :=
      ⟨rfl, rfl, versions_perm hc hg.1⟩
    exact ⟨g1, g2, oh_prop hs _ _ _ (hf.2.2 y hy) (hg.2.2 x hx) he g3⟩
  exact ⟨key f g hf hg e, key g f hg hf ((C64_equivalence_files f g g hf hg).2.1 e)⟩

/-- **C80**: equal files can stand in for each other: if `f` can be saved and read back, an equal
`g` can be saved in as many bytes, and reading these gives a file equal to `f`. -/
theorem C80_interchangeable (z : Codec) (debug : Bool) (hints : String → Option String)
    (f g : GvasFile) (hf : FileOK debug hints f) (hg : FileMaps g) (e : f.eqv g = true)
    (hv : f.gameVersion = .default) (h32 : EachFits f) :
    ∃ d d' g', f.encode = .ok d ∧ g.encode = .ok d' ∧ d'.length = d.length ∧
      GvasFile.read z debug .default hints 0 d' = .ok g' ∧ f.eqv g' = true := by
  have hfm := Js.fileOK_maps hf
  have hgo := (C80_representable debug hints f g hfm hg e).mp hf
  obtain ⟨d, hd⟩ := fileOK_encodes hf
  obtain ⟨d', hd', hl⟩ := C80_files f g hfm hg e d hd
  have hgv : g.gameVersion = .default := by rw [← hv, ((C64_files f g hfm hg).mp e).1]
  have hge : EachFits g := by
    intro x hx o ho
    obtain ⟨-, -, hc, p, hp, hq⟩ := (C64_files f g hfm hg).mp e
    obtain ⟨y, hy, -, he⟩ := pairs_right hq x (hp.mem_iff.mpr hx)
    obtain ⟨o', h1, h2, -⟩ := alike_ok
      (prop_like (versions_perm hc hg.1) true _ _ (hfm.2.2 y hy) (hg.2.2 x hx) he).symm ho
    rw [← h2]
    exact h32 y hy o' h1
  refine ⟨d, d', g, hd, hd', hl, ?_, e⟩
  have := fileOK_reads_each hgo hd' hge []
  rw [List.append_nil] at this
  simp only [GvasFile.read]
  rw [this]
  show Res.ok _ = _
  rw [← hgv]

/-! ## Such files -/

theorem reversed_equal : (sampleFile .default).eqv reversedSample = true :=
  (C64_files _ _ (Js.fileOK_maps (sampleFile_ok _)) (Js.fileOK_maps reversedSample_ok)).mpr
    ⟨rfl, rfl, .refl _, _, (List.reverse_perm _).symm, pairs_self _ fun e he =>
      ⟨rfl, (C64_equivalence _ e.2 e.2 ((Js.fileOK_maps (sampleFile_ok .default)).2.2 e he)
        ((Js.fileOK_maps (sampleFile_ok .default)).2.2 e he)).1⟩⟩

/-- The sample and its reversal: equal, different bytes, as many of them. -/
example : ∃ d d', (sampleFile .default).encode = .ok d ∧ reversedSample.encode = .ok d' ∧
    d'.length = d.length ∧ d ≠ d' := by
  obtain ⟨d, hd⟩ := fileOK_encodes (sampleFile_ok .default)
  obtain ⟨d', hd', hl⟩ := C80_files _ _ (Js.fileOK_maps (sampleFile_ok _))
    (Js.fileOK_maps reversedSample_ok) reversed_equal d hd
  refine ⟨d, d', hd, hd', hl, ?_⟩
  rintro rfl
  have hne : (match (sampleFile .default).encode, reversedSample.encode with
    | .ok a, .ok b => a == b | _, _ => true) = false := by decide +kernel
  rw [hd, hd'] at hne
  simp at hne

/-- Two equal maps of different order, one of whose keys and one of whose values is a zero of the
other sign. -/
example :
    let a := Property.map (.properties "FloatProperty" "DoubleProperty" 0
      [(.float ⟨0⟩, .double ⟨0⟩), (.float ⟨1⟩, .double ⟨2⟩)])
    let b := Property.map (.properties "FloatProperty" "DoubleProperty" 0
      [(.float ⟨1⟩, .double ⟨2⟩), (.float ⟨0x80000000⟩, .double ⟨0x8000000000000000⟩)])
    MapsDistinct a ∧ MapsDistinct b ∧ a.eqv b = true ∧ ∃ o, a.write [] true = .ok o := by
  refine ⟨?_, ?_, by decide +kernel, _, rfl⟩ <;>
    simp only [MapsDistinct, MapMaps, EntriesMaps, and_true, List.map_cons, List.map_nil] <;>
    decide +kernel

end Gvas
