import Verif.Lemmas.Feed
import Verif.Lemmas.AcceptRec
import Verif.Props.Duplicates
import Verif.Spec.Sample

/-!
# C48: which keys of a map are kept apart
-/

namespace Gvas

open Spec

/-- **C48**: two properties are one map key exactly if they are equal up to the sign of zeros and
the bits of NaNs in them. -/
theorem C48_same_key_iff (a b : Property) : sameKey a b = true ↔ norm a = norm b := sameKey_iff a b

example : sameKey (.structValue (.vectorF ⟨0⟩ ⟨1⟩ ⟨0x80000000⟩))
    (.structValue (.vectorF ⟨0⟩ ⟨1⟩ ⟨0⟩)) = true :=
  (C48_same_key_iff _ _).mpr (by
    rw [norm, norm, normStruct, normStruct, show norm32 ⟨0x80000000⟩ = norm32 ⟨0⟩ by decide])

example : sameKey (.str (some "a")) (.str (some "b")) = false :=
  Bool.eq_false_iff.mpr fun h => by simpa [norm] using (C48_same_key_iff _ _).mp h

/-- The key types that contain floats. -/
def floatKeyTypes : List String :=
  ["FloatProperty", "DoubleProperty", "StructProperty", "TextProperty"]

private theorem norm_of_bare {env : Env} {st : List String} {kt : String} {k : Property}
    (h : BareOK env st kt k) (hk : kt ∉ floatKeyTypes) : norm k = k := by
  cases k <;> simp only [BareOK] at h <;> try rfl
  · subst h; exact absurd (by decide) hk
  · subst h; exact absurd (by decide) hk
  · obtain ⟨rfl, -⟩ := h; exact absurd (by decide) hk
  · obtain ⟨rfl, -⟩ := h; exact absurd (by decide) hk

/-- **C48** for all but float keys: reading a map keeps every stored entry exactly if no two keys
agree up to the sign of zeros and the bits of NaNs; for key types without floats, exactly if no two
keys are equal.  Missing from the full claim: float keys that agree in this sense, and keys equal
as values but stored in different bytes, for which it is false (`C48_zeros_merge`,
`C48_spellings_merge`). -/
theorem C48_keys_kept_partial (env : Env) (n : Nat) (kt vt : String) (s s' : RS) (p : Property)
    (h : readMapBody (Property.read env n) kt vt s = (.ok p, s')) :
    ∃ fl es s1 mp, s.rest = u32B fl ++ u32B (UInt32.ofNat es.length) ++ s1.rest ∧
      Items (readMapEntry (Property.read env n) kt vt) s1 es s' ∧ p = .map mp ∧
      (entries mp = es ↔ (es.map Prod.fst).Pairwise (fun a b => norm a ≠ norm b)) ∧
      (kt ∉ floatKeyTypes → (entries mp = es ↔ (es.map Prod.fst).Nodup)) := by
  obtain ⟨fl, es, s1, mp, h1, h2, h3, h4, -⟩ := C37_map_duplicates _ _ _ _ _ _ h
  have key : entries mp = es ↔ (es.map Prod.fst).Pairwise (fun a b => norm a ≠ norm b) := by
    constructor
    · intro e
      have := LastWins.pairwise h4
      rw [e] at this
      exact this.imp fun h hn => by rw [(sameKey_iff _ _).mpr hn] at h; cases h
    · intro hp
      have hw := lastWins_imExtend sameKey_equiv es
      rw [imExtend_nil_fresh es (hp.imp fun h => Bool.eq_false_iff.mpr
        fun h' => h ((sameKey_iff _ _).mp h'))] at hw
      exact lastWins_unique h4 hw
  refine ⟨fl, es, s1, mp, h1, h2, h3, key, fun hk => key.trans ?_⟩
  have hn : ∀ k ∈ es.map Prod.fst, norm k = k := by
    clear h4 key h3 h1 h
    induction h2 with
    | nil => simp
    | cons ha _ ih =>
      intro k hm
      rcases List.mem_cons.mp hm with rfl | hm
      · unfold readMapEntry at ha
        rbind ha => a s2 h5
        rbind ha => b s3 h6
        obtain ⟨rfl, -⟩ := R.pure_inv ha
        obtain ⟨-, _, -, hp⟩ := (Ens.withEntry ((accept_property n).bare _ kt none)) _ _ _ _ h5
        exact norm_of_bare hp.1 hk
      · exact ih k hm
  exact List.Pairwise.iff_of_mem fun {a b} ha hb => by rw [hn a ha, hn b hb]

/-- The number of entries of each map read. -/
def mapSizes : Res (GvasHeader × List (String × Property)) → List Nat
  | .ok (_, ps) => ps.filterMap fun e => match e.2 with
    | .map mp => some (entries mp).length
    | _ => none
  | .bad _ => []

/-- A property named `a`: a map of two entries to the integers 1 and 2, with the given keys. -/
def twoKeyMap (kt : String) (k1 k2 : Bytes) : Bytes :=
  ascii "a" ++ ascii "MapProperty" ++ leBytes 4 (16 + k1.length + k2.length) ++ [0, 0, 0, 0] ++
    ascii kt ++ ascii "IntProperty" ++ [0] ++ [0, 0, 0, 0] ++ [2, 0, 0, 0] ++
    k1 ++ [1, 0, 0, 0] ++ k2 ++ [2, 0, 0, 0]

/-- Different integer keys stay apart. -/
example : mapSizes (readData true noHints
    (saveBytes (twoKeyMap "IntProperty" [0, 0, 0, 0] [0, 0, 0, 0x80]))).1 = [2] := by decide +kernel

/-- **C48** is false for floats: the keys 0 and -0 differ in bytes, but become one entry. -/
theorem C48_zeros_merge : mapSizes (readData true noHints
    (saveBytes (twoKeyMap "FloatProperty" [0, 0, 0, 0] [0, 0, 0, 0x80]))).1 = [1] := by
  decide +kernel

/-- **C48** is false for strings: the same text stored as ASCII and as UTF-16 becomes one entry. -/
theorem C48_spellings_merge : mapSizes (readData true noHints
    (saveBytes (twoKeyMap "StrProperty" [2, 0, 0, 0, 0x61, 0]
      [0xFE, 0xFF, 0xFF, 0xFF, 0x61, 0, 0, 0]))).1 = [1] := by
  decide +kernel

end Gvas
