import Verif.Lemmas.Hashed

/-!
# C101: what is hashed, and what a map takes for the same key

`sameKey`, by which maps are filled throughout the model, compares the data of two keys with the
numbers of entries of the maps inside them.  indexmap compares hashes, for which these numbers are not
fed, and then the keys.  The two tests agree on all keys but those that hold a map with keys that hold
maps themselves.
-/

namespace Gvas

open Spec

/-- **C101**: keys that agree up to the sign of zeros and the bits of NaNs are hashed alike and are
equal: the entry is found. -/
theorem C101_found (a b : Property) (ha : MapsDistinct a) (h : norm a = norm b) :
    sameEntry a b = true := by
  have ht : a.tree = b.tree := (tree_eq_iff a b).mpr h
  rw [sameEntry, Bool.and_eq_true, beq_iff_eq, Property.eqv, ← ht]
  exact ⟨by rw [← Property.hashed_norm a, h, Property.hashed_norm],
    Tree.eqv_refl _ (prop_distinct a ha)⟩

/-- **C101**: and no other entry is found, if the maps inside the keys have keys without maps, or a
single entry.  So for these keys the test of the model is that of the library. -/
theorem C101_exact (a b : Property) (ha : MapsDistinct a) (hb : MapsDistinct b) (pa : PlainKeys a)
    (pb : PlainKeys b) : sameEntry a b = true ↔ norm a = norm b := by
  refine ⟨fun h => ?_, C101_found a b ha⟩
  rw [sameEntry, Bool.and_eq_true, beq_iff_eq] at h
  refine (tree_eq_iff a b).mp (raw_inj a.tree b.tree [] [] (prop_keyed a) (prop_keyed b)
    (prop_distinct a ha) (prop_distinct b hb) h.2 ?_).1
  rw [prop_hash a pa, prop_hash b pb, h.1]

/-- **C101**: keys without maps inside are equal exactly if they are hashed alike. -/
theorem C101_hash_decides (a b : Property) (ha : Mapless a) (hb : Mapless b) :
    a.hashed = b.hashed ↔ norm a = norm b := by
  rw [prop_mapless a ha, prop_mapless b hb, ← sameKey_iff, sameKey, beq_iff_eq]

theorem imInsert_agree {κ ν : Type} {f g : κ → κ → Bool} (k : κ) (v : ν) :
    ∀ m : List (κ × ν), (∀ e ∈ m, f e.1 k = g e.1 k) → imInsert f k v m = imInsert g k v m
  | [], _ => rfl
  | (k', v') :: m, h => by
    rw [imInsert, imInsert, h (k', v') (List.mem_cons_self ..),
      imInsert_agree k v m fun e he => h e (List.mem_cons_of_mem _ he)]

theorem imInsert_keyOf {κ ν : Type} {f : κ → κ → Bool} (k : κ) (v : ν) :
    ∀ (m : List (κ × ν)) (x : κ), x ∈ (imInsert f k v m).map Prod.fst → x = k ∨ x ∈ m.map Prod.fst
  | [], x, h => .inl (by simpa [imInsert] using h)
  | (k', v') :: m, x, h => by
    rw [imInsert] at h
    split at h
    · exact .inr h
    · rw [List.map_cons, List.mem_cons] at h
      rcases h with rfl | h
      · exact .inr (List.mem_cons_self ..)
      · exact (imInsert_keyOf k v m x h).imp id (List.mem_cons_of_mem _)

theorem imExtend_agree {κ ν : Type} {f g : κ → κ → Bool} (P : κ → Prop)
    (hfg : ∀ a b, P a → P b → f a b = g a b) : ∀ (es m : List (κ × ν)),
    (∀ k ∈ m.map Prod.fst, P k) → (∀ k ∈ es.map Prod.fst, P k) → imExtend f m es = imExtend g m es
  | [], _, _, _ => rfl
  | (k, v) :: es, m, hm, he => by
    have hk : P k := he k (List.mem_cons_self ..)
    have h1 : imInsert f k v m = imInsert g k v m :=
      imInsert_agree k v m fun e h => hfg _ _ (hm e.1 (List.mem_map.mpr ⟨e, h, rfl⟩)) hk
    have h2 := imExtend_agree P hfg es (imInsert g k v m)
      (fun x hx => (imInsert_keyOf k v m x hx).elim (fun h => h ▸ hk) (hm x))
      (fun x hx => he x (List.mem_cons_of_mem _ hx))
    simp only [imExtend, List.foldl_cons] at h2 ⊢
    rw [h1, h2]

/-- **C101**: a map filled with such keys one by one, as reading does, is the same by either test. -/
theorem C101_filled (es : List (Property × Property))
    (h : ∀ k ∈ es.map Prod.fst, MapsDistinct k ∧ PlainKeys k) :
    imExtend sameEntry [] es = imExtend sameKey [] es := by
  refine imExtend_agree (fun k => MapsDistinct k ∧ PlainKeys k) (fun a b pa pb => ?_) es []
    (by simp) h
  rw [Bool.eq_iff_iff, C101_exact a b pa.1 pb.1 pa.2 pb.2, sameKey_iff]

/-- Three keys with a map of structs inside, two of them one: the map has two entries. -/
example :
    let k : Int32 → Property := fun i => .structValue (.customStruct
      [("m", [.map (.properties "IntProperty" "StrProperty" 0
        [(.int i, .str none), (.int 7, .structValue (.customStruct []))])])])
    (∀ i, (i ≠ 7 → MapsDistinct (k i)) ∧ PlainKeys (k i)) ∧
    imExtend sameEntry [] [(k 1, Property.int 1), (k 2, .int 2), (k 1, .int 3)] =
      [(k 1, .int 3), (k 2, .int 2)] := by
  intro k
  have hp : ∀ i, PlainKeys (k i) := fun i => by
    simp [k, PlainKeys, StructPlain, FieldsPlain, PropsPlain, MapPlain, EntriesPlain, Mapless]
  have hd : ∀ i, i ≠ 7 → MapsDistinct (k i) := fun i hi => by
    simp [k, MapsDistinct, StructMaps, FieldsMaps, PropsMaps, MapMaps, EntriesMaps, KeysDistinct,
      ← Bool.not_eq_true, sameKey_iff, norm, hi]
  refine ⟨fun i => ⟨hd i, hp i⟩, ?_⟩
  rw [C101_filled _ (by
    simp only [List.map_cons, List.map_nil, List.mem_cons, List.not_mem_nil, or_false]
    rintro x (rfl | rfl | rfl)
    · exact ⟨hd 1 (by decide), hp 1⟩
    · exact ⟨hd 2 (by decide), hp 2⟩
    · exact ⟨hd 1 (by decide), hp 1⟩)]
  have h12 : sameKey (k 1) (k 2) = false := by decide +kernel
  have h21 : sameKey (k 2) (k 1) = false := by decide +kernel
  have h11 : sameKey (k 1) (k 1) = true := (sameKey_iff _ _).mpr rfl
  simp [imExtend, imInsert, h12, h11]

/-- A struct with a map from structs to structs. -/
private def nest (m : List (Property × Property)) : Property :=
  .structValue (.customStruct [("f", [.map (.properties "StructProperty" "StructProperty" 0 m)])])

/-- **C101** does not hold further: there are equal keys that are hashed alike, yet hold their data
in different orders.  indexmap takes them for one, and the model for two. -/
theorem C101_beyond : ∃ a b : Property, MapsDistinct a ∧ MapsDistinct b ∧
    sameEntry a b = true ∧ sameKey a b = false ∧ ¬ PlainKeys a := by
  let z := nest []
  let y := nest [(z, z)]
  have hz : MapsDistinct z := by
    simp [z, nest, MapsDistinct, StructMaps, FieldsMaps, PropsMaps, MapMaps, EntriesMaps,
      KeysDistinct]
  have hy : MapsDistinct y := by
    simpa [y, nest, MapsDistinct, StructMaps, FieldsMaps, PropsMaps, MapMaps, EntriesMaps,
      KeysDistinct] using hz
  have hyz : sameKey y z = false := by decide +kernel
  have hzy : sameKey z y = false := by decide +kernel
  refine ⟨nest [(y, z), (z, z)], nest [(z, z), (y, z)], ?_, ?_, by decide +kernel,
    by decide +kernel, ?_⟩
  · simp [nest, MapsDistinct, StructMaps, FieldsMaps, PropsMaps, MapMaps, EntriesMaps,
      KeysDistinct, hy, hz, hyz]
  · simp [nest, MapsDistinct, StructMaps, FieldsMaps, PropsMaps, MapMaps, EntriesMaps,
      KeysDistinct, hy, hz, hzy]
  · intro h
    rcases h.1.1.1 with h | h
    · simp at h
    · exact h (y, z) (List.mem_cons_self ..)

end Gvas
