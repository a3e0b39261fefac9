import Verif.Lemmas.EqualSize
import Verif.Lemmas.JsonMaps
import Verif.Props.File
import Verif.Spec.Sample

/-!
# C64, C65: what `==` on properties and files means
-/

namespace Gvas

open Spec

theorem header_tree_distinct (h : GvasHeader) (hc : (h.customVersions.map Prod.fst).Nodup) :
    h.tree.Distinct := by
  have hv : (treeVersions h.customVersions).Distinct := by
    refine ⟨?_, ?_⟩
    · have := nodup_inj (fun g : Guid => g.bytes.map (fun b => Tok.n b.toNat))
        (fun _ _ h => guid_key_inj h) hc
      simpa [List.map_map, Function.comp_def] using this
    · clear hc
      induction h.customVersions with
      | nil => trivial
      | cons e l ih => exact ⟨trivial, ih⟩
  cases h <;> exact ⟨trivial, trivial, trivial, hv, trivial, trivial⟩

theorem file_tree_distinct {f : GvasFile} (h : FileMaps f) : f.tree.Distinct := by
  obtain ⟨h1, h2, h3⟩ := h
  refine ⟨trivial, header_tree_distinct _ h1, ⟨?_, ?_⟩, trivial⟩
  · rw [treeStrProps_keys]; exact nodup_str h2
  · clear h1 h2
    revert h3
    induction f.properties with
    | nil => exact fun _ => trivial
    | cons e l ih =>
      exact fun h3 => ⟨prop_distinct _ (h3 e (List.mem_cons_self ..)),
        ih fun e he => h3 e (List.mem_cons_of_mem _ he)⟩

/-- **C64**: `==` on properties is reflexive, symmetric and transitive, NaNs included. -/
theorem C64_equivalence (a b c : Property) (ha : MapsDistinct a) (hb : MapsDistinct b) :
    a.eqv a = true ∧ (a.eqv b = true → b.eqv a = true) ∧
      (a.eqv b = true → b.eqv c = true → a.eqv c = true) :=
  ⟨Tree.eqv_refl _ (prop_distinct a ha),
   Tree.eqv_symm _ _ (prop_distinct a ha) (prop_distinct b hb), Tree.eqv_trans _ _ _⟩

/-- **C64**: and so is `==` on files. -/
theorem C64_equivalence_files (f g h : GvasFile) (hf : FileMaps f) (hg : FileMaps g) :
    f.eqv f = true ∧ (f.eqv g = true → g.eqv f = true) ∧
      (f.eqv g = true → g.eqv h = true → f.eqv h = true) :=
  ⟨Tree.eqv_refl _ (file_tree_distinct hf),
   Tree.eqv_symm _ _ (file_tree_distinct hf) (file_tree_distinct hg), Tree.eqv_trans _ _ _⟩

/-- **C64**: if the keys of all maps in two properties come in the same order, the properties are
equal exactly if they have the same data, up to NaNs and the sign of zeros. -/
theorem C64_same_order (a b : Property) (hb : MapsDistinct b) (hk : keysOf a = keysOf b) :
    a.eqv b = true ↔ norm a = norm b := by
  rw [← tree_eq_iff]
  exact ⟨prop_order a b hb hk, fun h => by
    rw [Property.eqv, h]; exact Tree.eqv_refl _ (prop_distinct b hb)⟩

/-- **C64**: two maps are equal exactly if they have the same types and the entries of one can be
reordered so that they have the keys and equal values of the other.  A key is the same if it holds
the same data in the same order; if there is one entry only, it is enough that it is equal. -/
theorem C64_maps (kt kt' vt vt' : String) (fl fl' : UInt32) (l m : List (Property × Property))
    (hl : MapsDistinct (.map (.properties kt vt fl l)))
    (hm : MapsDistinct (.map (.properties kt' vt' fl' m))) :
    (Property.map (.properties kt vt fl l)).eqv (.map (.properties kt' vt' fl' m)) = true ↔
      kt = kt' ∧ vt = vt' ∧ fl = fl' ∧ ∃ p, p.Perm m ∧
        Pairs (fun a b => (norm a.1 = norm b.1 ∨ l.length = 1 ∧ a.1.eqv b.1 = true) ∧
          a.2.eqv b.2 = true) l p := by
  simp only [Property.eqv, Property.tree, MapProperty.tree, eqv_node_iff, eqvList_cons_iff,
    eqv_leaf_iff]
  rw [pairs_iff hl.1 hm.1 hm.2]
  simp only [List.cons.injEq, Tok.s.injEq, Tok.n.injEq, true_and, and_true, UInt32.toNat_inj,
    eqvList_nil]
  have e : ∀ x y : Property, x.feed = y.feed ↔ norm x = norm y := fun x y => by
    rw [← sameKey_iff, sameKey, beq_iff_eq]
  simp only [e, and_assoc]

/-- **C64**: two maps of one entry are equal exactly if they have the same types, equal keys and
equal values. -/
theorem C64_single_entry (kt kt' vt vt' : String) (fl fl' : UInt32) (k k' v v' : Property) :
    (Property.map (.properties kt vt fl [(k, v)])).eqv (.map (.properties kt' vt' fl' [(k', v')]))
        = true ↔
      kt = kt' ∧ vt = vt' ∧ fl = fl' ∧ k.eqv k' = true ∧ v.eqv v' = true := by
  simp only [Property.eqv, Property.tree, MapProperty.tree, treeKeys, treePairs, pairTree,
    eqv_node_iff, eqvList_cons_iff, eqv_leaf_iff, eqvList_nil, List.cons.injEq, Tok.s.injEq,
    Tok.n.injEq, true_and, and_true, UInt32.toNat_inj, and_assoc]

/-- **C64**: equal maps need not stay equal when the same entry is added to both: the keys of a map
of two entries are hashed, and equal structs with their fields in different orders are hashed
differently. -/
theorem C64_one_more_entry : ∃ k k' v : Property, ∀ kt vt fl,
    (Property.map (.properties kt vt fl [(k, v)])).eqv (.map (.properties kt vt fl [(k', v)])) = true ∧
    ∀ e : Property × Property, sameKey k e.1 = false → sameKey k' e.1 = false →
      MapsDistinct e.1 → MapsDistinct e.2 →
      (Property.map (.properties kt vt fl [(k, v), e])).eqv
        (.map (.properties kt vt fl [(k', v), e])) = false := by
  refine ⟨.structValue (.customStruct [("x", [.int 1]), ("y", [.int 2])]),
    .structValue (.customStruct [("y", [.int 2]), ("x", [.int 1])]), .int 0, fun kt vt fl => ⟨?_, ?_⟩⟩
  · rw [C64_single_entry]
    exact ⟨rfl, rfl, rfl, by decide +kernel, by decide +kernel⟩
  · intro e h1 h2 h3 h4
    have hd : ∀ k, sameKey k e.1 = false → MapsDistinct k →
        MapsDistinct (.map (.properties kt vt fl [(k, .int 0), e])) := fun k h hk =>
      ⟨by simpa using h, hk, trivial, h3, h4, trivial⟩
    have g1 : MapsDistinct (.structValue (.customStruct [("x", [.int 1]), ("y", [.int 2])])) :=
      ⟨by unfold KeysDistinct; decide +kernel, ⟨trivial, trivial⟩, ⟨trivial, trivial⟩, trivial⟩
    have g2 : MapsDistinct (.structValue (.customStruct [("y", [.int 2]), ("x", [.int 1])])) :=
      ⟨by unfold KeysDistinct; decide +kernel, ⟨trivial, trivial⟩, ⟨trivial, trivial⟩, trivial⟩
    rw [Bool.eq_false_iff]
    intro h
    obtain ⟨-, -, -, p, hp, hq⟩ := (C64_maps _ _ _ _ _ _ _ _ (hd _ h1 g1) (hd _ h2 g2)).mp h
    obtain ⟨b, hb, hc⟩ := (pairs_mem hq).2 _ (List.mem_cons_self ..)
    have hc : norm (.structValue (.customStruct [("x", [.int 1]), ("y", [.int 2])])) = norm b.1 :=
      hc.1.elim id fun h => by simp at h
    rcases List.mem_cons.mp (hp.mem_iff.mp hb) with rfl | hb
    · have := (sameKey_iff _ _).mpr hc
      revert this
      decide +kernel
    · rw [List.mem_singleton.mp hb, ← sameKey_iff, h1] at hc
      exact absurd hc (by simp)

/-- **C64**: two custom structs are equal exactly if the fields of one can be reordered so that
they have the names of the other's and equal values, one by one. -/
theorem C64_structs (l m : List (String × List Property))
    (hl : MapsDistinct (.structValue (.customStruct l)))
    (hm : MapsDistinct (.structValue (.customStruct m))) :
    (Property.structValue (.customStruct l)).eqv (.structValue (.customStruct m)) = true ↔
      ∃ p, p.Perm m ∧ Pairs (fun a b => a.1 = b.1 ∧
        Pairs (fun x y => x.eqv y = true) a.2 b.2) l p := by
  have hl' := nodup_str hl.1
  have hm' := nodup_str hm.1
  simp only [Property.eqv, Property.tree, StructPropertyValue.tree, eqv_node_iff, eqvList_cons_iff,
    eqv_leaf_iff, treeFields_map]
  rw [umap_iff _ _ _ _ _ _ (by simpa [List.map_map, Function.comp_def] using hl')
    (by simpa [List.map_map, Function.comp_def] using hm')]
  simp only [eqv_list_iff, props_iff, List.cons.injEq, Tok.s.injEq, and_true, true_and, eqvList_nil]
  rfl

/-- **C64**: sets are vectors: equal exactly if their elements are equal in order. -/
theorem C64_sets (t t' : String) (fl fl' : UInt32) (l m : List Property) :
    (Property.set t fl l).eqv (.set t' fl' m) = true ↔
      t = t' ∧ fl = fl' ∧ Pairs (fun x y => x.eqv y = true) l m := by
  simp only [Property.eqv, Property.tree, eqv_node_iff, eqvList_cons_iff, eqv_leaf_iff,
    eqv_list_iff, props_iff, List.cons.injEq, Tok.s.injEq, Tok.n.injEq, UInt32.toNat_inj, true_and,
    and_true, eqvList_nil, and_assoc]

/-- The header without its custom versions. -/
def Spec.withoutVersions : GvasHeader → GvasHeader
  | .version2 pkg ev format _ name => .version2 pkg ev format [] name
  | .version3 pkg ue5 ev format _ name => .version3 pkg ue5 ev format [] name

private theorem header_iff {a b : GvasHeader} (ha : (a.customVersions.map Prod.fst).Nodup)
    (hb : (b.customVersions.map Prod.fst).Nodup) : a.tree.eqv b.tree = true ↔
      withoutVersions a = withoutVersions b ∧ a.customVersions.Perm b.customVersions := by
  cases a <;> cases b <;> simp only [GvasHeader.tree, GvasHeader.customVersions, withoutVersions,
      eqv_node_iff, eqvList_cons_iff, eqv_leaf_iff, List.cons.injEq, Tok.n.injEq,
      GvasHeader.version2.injEq, GvasHeader.version3.injEq, UInt32.toNat_inj, Tok.s.injEq, true_and,
      and_true, eqvList_nil, reduceCtorEq, false_and, and_false] at ha hb ⊢
  · rw [versions_iff ha hb]
    constructor
    · rintro ⟨h1, h2, h3, h4, h5⟩
      exact ⟨⟨h1, engine_feed_inj h2, h3, h5⟩, h4⟩
    · rintro ⟨⟨h1, h2, h3, h5⟩, h4⟩
      exact ⟨h1, by rw [h2], h3, h4, h5⟩
  · rw [versions_iff ha hb]
    constructor
    · rintro ⟨⟨h1, h1'⟩, h2, h3, h4, h5⟩
      exact ⟨⟨h1, h1', engine_feed_inj h2, h3, h5⟩, h4⟩
    · rintro ⟨⟨h1, h1', h2, h3, h5⟩, h4⟩
      exact ⟨⟨h1, h1'⟩, by rw [h2], h3, h4, h5⟩

/-- **C64**: two files are equal exactly if they have the same container, the same header up to
the order of the custom versions, and the properties of one can be reordered so that they have the
names and equal values of the other's. -/
theorem C64_files (f g : GvasFile) (hf : FileMaps f) (hg : FileMaps g) :
    f.eqv g = true ↔ f.gameVersion = g.gameVersion ∧
      withoutVersions f.header = withoutVersions g.header ∧
      f.header.customVersions.Perm g.header.customVersions ∧
      ∃ p, p.Perm g.properties ∧
        Pairs (fun a b => a.1 = b.1 ∧ a.2.eqv b.2 = true) f.properties p := by
  simp only [GvasFile.eqv, GvasFile.tree, eqv_node_iff, eqvList_cons_iff, eqv_leaf_iff]
  rw [header_iff hf.1 hg.1, strProps_iff hf.2.1 hg.2.1]
  simp only [eqvList_nil, and_true, and_assoc]
  exact ⟨fun h => ⟨game_feed_inj h.1, h.2⟩, fun h => ⟨by rw [h.1], h.2⟩⟩

/-! ## C65 -/

/-- **C65**: equal files whose maps are in the same order are the same but for NaNs and the sign of
zeros. -/
theorem C65_same_order_partial (f g : GvasFile) (hf : FileMaps f) (hg : FileMaps g)
    (h : f.eqv g = true) (hv : f.header.customVersions.map Prod.fst = g.header.customVersions.map Prod.fst)
    (hk : f.properties.map (fun e => (e.1, keysOf e.2)) =
      g.properties.map fun e => (e.1, keysOf e.2)) :
    f.gameVersion = g.gameVersion ∧ f.header = g.header ∧
      f.properties.map (fun e => (e.1, norm e.2)) = g.properties.map fun e => (e.1, norm e.2) := by
  have hh := (C64_files f g hf hg).mp h
  refine ⟨hh.1, ?_, ?_⟩
  · have hp : f.header.customVersions = g.header.customVersions := by
      have hp := hh.2.2.1
      have hg1 := hg.1
      revert hv hp hg1
      generalize f.header.customVersions = l
      generalize g.header.customVersions = m
      intro hv hp hm
      have hmem : ∀ e ∈ l, e ∈ m := fun e he => hp.mem_iff.mp he
      clear hp
      induction l generalizing m with
      | nil => cases m <;> simp_all
      | cons a l ih =>
        cases m with
        | nil => simp at hv
        | cons b m =>
          simp only [List.map_cons, List.cons.injEq, List.nodup_cons] at hv hm
          have hab : a = b := by
            rcases List.mem_cons.mp (hmem a (List.mem_cons_self ..)) with h | h
            · exact h
            · exact absurd (hv.1 ▸ List.mem_map.mpr ⟨a, h, rfl⟩) hm.1
          subst hab
          rw [ih m hv.2 hm.2 fun e he => ?_]
          rcases List.mem_cons.mp (hmem e (List.mem_cons_of_mem _ he)) with h | h
          · subst h
            exact absurd (hv.2 ▸ List.mem_map.mpr ⟨e, he, rfl⟩) hm.1
          · exact h
    have hw := hh.2.1
    revert hw hp
    cases f.header <;> cases g.header <;> simp only [withoutVersions, GvasHeader.customVersions] <;>
      intro h1 h2 <;> simp_all
  · have hs := h
    simp only [GvasFile.eqv, GvasFile.tree, eqv_node_iff, eqvList_cons_iff] at hs
    have hs := hs.2.2.1
    have hn := hg.2.1
    have hd := hg.2.2
    clear h hh hf hg hv
    revert hk hs hn hd
    generalize f.properties = l
    generalize g.properties = m
    intro hk hs hn hd
    have hfst : l.map Prod.fst = m.map Prod.fst := by
      have := congrArg (List.map Prod.fst) hk
      simpa [List.map_map, Function.comp_def] using this
    have hv := umap_order (by rw [treeStrProps_keys]; exact nodup_str hn)
      (by rw [treeStrProps_keys, treeStrProps_keys, hfst]) hs
    clear hs hn hfst
    induction l generalizing m with
    | nil => cases m <;> simp_all
    | cons a l ih =>
      cases m with
      | nil => simp at hk
      | cons b m =>
        obtain ⟨a1, a2⟩ := a
        obtain ⟨b1, b2⟩ := b
        simp only [List.map_cons, List.cons.injEq, Prod.mk.injEq, treeStrProps,
          eqvList_cons_iff] at hk hv ⊢
        have hb : MapsDistinct b2 := hd (b1, b2) (List.mem_cons_self ..)
        exact ⟨⟨hk.1.1, (C64_same_order a2 b2 hb hk.1.2).mp hv.1⟩,
          ih m hk.2 (fun e he => hd e (List.mem_cons_of_mem _ he)) hv.2⟩

/-- **C65**: equal files with maps in the same order and without NaNs and negative zeros (no value
is changed by normalisation) are saved as the same bytes. -/
theorem C65_same_bytes_partial (f g : GvasFile) (hf : FileMaps f) (hg : FileMaps g)
    (h : f.eqv g = true)
    (hv : f.header.customVersions.map Prod.fst = g.header.customVersions.map Prod.fst)
    (hk : f.properties.map (fun e => (e.1, keysOf e.2)) =
      g.properties.map fun e => (e.1, keysOf e.2))
    (hfn : ∀ e ∈ f.properties, norm e.2 = e.2) (hgn : ∀ e ∈ g.properties, norm e.2 = e.2)
    (z : Codec) (s : Sink) : f.write z s = g.write z s := by
  obtain ⟨h1, h2, h3⟩ := C65_same_order_partial f g hf hg h hv hk
  have e : ∀ l : List (String × Property), (∀ e ∈ l, norm e.2 = e.2) →
      l.map (fun e => (e.1, norm e.2)) = l := by
    intro l hl
    induction l with
    | nil => rfl
    | cons a l ih =>
      rw [List.map_cons, ih fun e he => hl e (List.mem_cons_of_mem _ he),
        hl a (List.mem_cons_self ..)]
  rw [e _ hfn, e _ hgn] at h3
  have : f = g := by cases f; cases g; simp_all
  rw [this]

/-- **C65**, exactly when equal files have the same contents: when they are identical, down to the
order of entries and the bits of floats.  Missing: that equal files are, which is false. -/
theorem C65_same_contents_iff_partial (debug : Bool) (hints : String → Option String)
    (f g : GvasFile) (d : Bytes) (hf : FileOK debug hints f) (hg : FileOK debug hints g)
    (h : f.eqv g = true) (hd : f.encode = .ok d) (h32 : d.length < 2 ^ 32) :
    g.encode = .ok d ↔ f = g := by
  constructor
  · intro hgd
    obtain ⟨h1, h2⟩ := C20_contents_injective debug hints f g d hf hg h32 hd hgd
    have h3 := ((C64_files f g (Js.fileOK_maps hf) (Js.fileOK_maps hg)).mp h).1
    cases f; cases g; simp_all
  · rintro rfl; exact hd

/-- Such files: the sample is equal to itself. -/
example : ∃ d, (sampleFile .default).encode = .ok d ∧ d.length < 2 ^ 32 ∧
    FileOK true sampleHints (sampleFile .default) ∧
    (sampleFile .default).eqv (sampleFile .default) = true := by
  refine ⟨_, rfl, ?_, sampleFile_ok _, ?_⟩ <;> decide +kernel

/-- The sample with its properties in the opposite order. -/
def reversedSample : GvasFile :=
  { sampleFile .default with properties := (sampleFile .default).properties.reverse }

theorem reversedSample_ok : FileOK true sampleHints reversedSample := by
  obtain ⟨h1, h2, h3⟩ := sampleFile_ok .default
  refine ⟨h1, ?_, fun e he => h3 e (List.mem_reverse.mp he)⟩
  simp only [reversedSample, List.map_reverse]
  exact (List.reverse_perm _).nodup_iff.mpr h2

/-- **C65**, as stated: equal files are saved as the same bytes.  It fails for the order of
properties. -/
theorem C65_order_matters : ¬ ∀ f g : GvasFile, FileOK true sampleHints f →
    FileOK true sampleHints g → f.eqv g = true → f.encode = g.encode := by
  intro h
  have := h (sampleFile .default) reversedSample (sampleFile_ok _) reversedSample_ok
    ((C64_files _ _ (Js.fileOK_maps (sampleFile_ok _)) (Js.fileOK_maps reversedSample_ok)).mpr
      ⟨rfl, rfl, .refl _, _, (List.reverse_perm _).symm, pairs_self _ fun e he =>
        ⟨rfl, (C64_equivalence _ e.2 e.2 ((Js.fileOK_maps (sampleFile_ok .default)).2.2 e he)
          ((Js.fileOK_maps (sampleFile_ok .default)).2.2 e he)).1⟩⟩)
  revert this
  have hne : (match (sampleFile .default).encode, reversedSample.encode with
    | .ok a, .ok b => a == b | _, _ => true) = false := by decide +kernel
  intro this
  rw [this] at hne
  cases hr : reversedSample.encode <;> rw [hr] at hne <;> simp at hne

/-- A save with one float. -/
def zeroFile (b : UInt32) : GvasFile :=
  { sampleFile .default with properties := [("Health", .float ⟨b⟩)] }

theorem zeroFile_ok (b : UInt32) : FileOK true sampleHints (zeroFile b) := by
  refine ⟨(sampleFile_ok .default).1, by simp [zeroFile], ?_⟩
  simp only [zeroFile, List.forall_mem_cons]
  exact ⟨⟨by decide +kernel, by decide, by simp only [HeadOK]⟩, by simp⟩

/-- **C65** fails for the sign of zeros too. -/
theorem C65_zero_sign : (zeroFile 0).eqv (zeroFile 0x80000000) = true ∧
    (zeroFile 0).encode ≠ (zeroFile 0x80000000).encode := by
  refine ⟨?_, ?_⟩
  · refine (C64_files _ _ (Js.fileOK_maps (zeroFile_ok _)) (Js.fileOK_maps (zeroFile_ok _))).mpr
      ⟨rfl, rfl, .refl _, _, .refl _, .cons ⟨rfl, ?_⟩ .nil⟩
    exact (C64_same_order (.float ⟨0⟩) (.float ⟨0x80000000⟩) trivial rfl).mpr
      (congrArg Property.float (by decide))
  · intro this
    have hne : (match (zeroFile 0).encode, (zeroFile 0x80000000).encode with
      | .ok a, .ok b => a == b | _, _ => true) = false := by decide +kernel
    rw [this] at hne
    cases hr : (zeroFile 0x80000000).encode <;> rw [hr] at hne <;> simp at hne

/-- **C64**/**C48**: `==` and the keys of maps disagree: two structs with the same fields in a
different order are equal, and yet are two keys of one map. -/
theorem C64_equal_not_same_key : ∃ a b : Property, MapsDistinct a ∧ MapsDistinct b ∧
    a.eqv b = true ∧ sameKey a b = false := by
  refine ⟨.structValue (.customStruct [("x", [.int 1]), ("y", [.int 2])]),
    .structValue (.customStruct [("y", [.int 2]), ("x", [.int 1])]), ?_, ?_, ?_, ?_⟩
  · exact ⟨by unfold KeysDistinct; decide +kernel, ⟨trivial, trivial⟩, ⟨trivial, trivial⟩, trivial⟩
  · exact ⟨by unfold KeysDistinct; decide +kernel, ⟨trivial, trivial⟩, ⟨trivial, trivial⟩, trivial⟩
  · decide +kernel
  · decide +kernel

/-! ## The hypotheses can be met -/

/-- Two maps with the same entries in a different order. -/
example : (Property.map (.properties "IntProperty" "FloatProperty" 0
      [(.int 1, .float ⟨0x3F800000⟩), (.int 2, .float ⟨0x7FC00001⟩)])).eqv
    (.map (.properties "IntProperty" "FloatProperty" 0
      [(.int 2, .float ⟨0xFFC00000⟩), (.int 1, .float ⟨0x3F800000⟩)])) = true := by decide +kernel
example : MapsDistinct (.map (.properties "IntProperty" "FloatProperty" 0
      [(.int 1, .float ⟨0x3F800000⟩), (.int 2, .float ⟨0x7FC00001⟩)])) :=
  ⟨by decide +kernel, trivial, trivial, trivial, trivial, trivial⟩
/-- A changed value is noticed. -/
example : (Property.map (.properties "IntProperty" "IntProperty" 0
      [(.int 1, .int 3), (.int 2, .int 4)])).eqv
    (.map (.properties "IntProperty" "IntProperty" 0
      [(.int 1, .int 4), (.int 2, .int 3)])) = false := by decide +kernel
/-- One entry whose key is an equal struct, its fields in another order. -/
example : (Property.map (.properties "StructProperty" "IntProperty" 0
      [(.structValue (.customStruct [("x", [.int 1]), ("y", [.int 2])]), .int 3)])).eqv
    (.map (.properties "StructProperty" "IntProperty" 0
      [(.structValue (.customStruct [("y", [.int 2]), ("x", [.int 1])]), .int 3)])) = true := by
  decide +kernel
/-- Sets keep their order. -/
example : (Property.set "IntProperty" 0 [.int 1, .int 2]).eqv
    (.set "IntProperty" 0 [.int 2, .int 1]) = false := by decide +kernel
example : FileMaps (sampleFile .default) ∧ FileMaps reversedSample :=
  ⟨Js.fileOK_maps (sampleFile_ok _), Js.fileOK_maps reversedSample_ok⟩
example : keysOf (.structValue (.customStruct [("x", [.float ⟨0⟩]), ("y", [.int 2])])) =
    keysOf (.structValue (.customStruct [("x", [.float ⟨0x80000000⟩]), ("y", [.int 2])])) := rfl
/-- Equal files with maps in the same order, NaNs apart. -/
example : (zeroFile 0x7FC00001).eqv (zeroFile 0xFFC00000) = true ∧
    (zeroFile 0x7FC00001).properties.map (fun e => (e.1, keysOf e.2)) =
      (zeroFile 0xFFC00000).properties.map fun e => (e.1, keysOf e.2) :=
  ⟨by decide +kernel, rfl⟩
/-- Files without NaNs and negative zeros. -/
example : ∀ e ∈ (zeroFile 0x3F800000).properties, norm e.2 = e.2 := by
  simp only [zeroFile, List.forall_mem_cons]
  exact ⟨congrArg Property.float (by decide), by simp⟩

end Gvas
