import Verif.Lemmas.GrammarComplete
import Verif.Props.File
import Verif.Props.Robust
import Verif.Spec.Sample

/-!
# C69: the accepted saves are those of the grammar

`Spec/Grammar.lean` says which bytes stand for which value without mentioning a reader.  The
library accepts exactly those bytes, with exactly those values.
-/

namespace Gvas

open Spec Format

/-- `data` is a save with the header `h` and the properties `ps`: the header, named properties up to
the name `None` - of those with equal names the last counts - and anything behind them. -/
def Save (debug : Bool) (hints : String → Option String) (data : Bytes) (h : GvasHeader)
    (ps : List (String × Property)) : Prop :=
  ∃ b es rest, HeaderAt data h (b ++ rest) ∧ Fields ⟨debug, hints, h.customVersions⟩ [] b es ∧
    LastWins (· == ·) es ps

/-- **C69**: `data` is accepted with the header `h` and the properties `ps` if and only if the
grammar says that it is a save with them. -/
theorem C69_accepts_iff (debug : Bool) (hints : String → Option String) (data : Bytes)
    (h : GvasHeader) (ps : List (String × Property)) :
    (readData debug hints data).1 = .ok (h, ps) ↔ Save debug hints data h ps := by
  constructor
  · intro hr
    unfold readData readContents at hr
    generalize hs : (GvasHeader.read >>= _) (RS.init data) = x at hr
    obtain ⟨r, s'⟩ := x
    simp only at hr
    subst hr
    rbind hs => h' s1 h1
    rbind hs => ps' s2 h2
    obtain ⟨e, e'⟩ := R.pure_inv hs
    cases e
    clear e'
    obtain ⟨rest1, pos1, st1⟩ := s1
    have hst : st1 = [] := readHeader_stack h1
    subst hst
    obtain ⟨es, hn, he⟩ := readTop_named h2
    obtain ⟨b, e1, _, _, hf⟩ := named_fields (gives_property _ _) hn
    simp only at e1 hf
    subst e1 he
    exact ⟨b, es, s2.rest, (C13_accepts_iff _ _ 0 [] _).mp ⟨pos1, h1⟩, hf,
      lastWins_imExtend equiv_beq es⟩
  · rintro ⟨b, es, rest, hh, hf, hw⟩
    obtain ⟨pos', hr⟩ := (C13_accepts_iff _ _ 0 [] _).mpr hh
    obtain ⟨n0, hn⟩ := reads_fields_of hf
    have key := named_readTop (n := n0 + es.length + data.length + 1) (ps := [])
      (hn (n0 + es.length + data.length + 1) (by omega) rest pos') (by omega)
    rw [← C25_fuel_irrelevant debug hints data (n0 + es.length + data.length + 1) (by omega)]
    unfold readContents
    rw [R.bind_ok (show GvasHeader.read (RS.init data) = _ from hr), R.bind_ok key]
    rw [lastWins_unique hw (lastWins_imExtend equiv_beq es)]
    rfl

/-- **C69** for single properties with their header: what is read from a position on is what the
grammar has there. -/
theorem C69_property_iff (env : Env) (ty : String) (input rest : Bytes) (pos pos' : Nat)
    (st : List String) (p : Property) :
    (∃ n, Property.read env n ty true none ⟨input, pos, st⟩ = (.ok p, ⟨rest, pos', st⟩)) ↔
      ∃ b, input = b ++ rest ∧ pos' = pos + b.length ∧ Full env st ty b p := by
  constructor
  · rintro ⟨n, hr⟩
    obtain ⟨b, rest', rfl, e, hf⟩ := (gives_property env n).full st ty none _ _ _ _ hr
    cases e
    exact ⟨b, rfl, rfl, hf⟩
  · rintro ⟨b, rfl, rfl, hf⟩
    obtain ⟨n, hn⟩ := reads_full_of hf
    exact ⟨n, (hn n (Nat.le_refl n)).run rest pos⟩

/-- **C69** for single properties without a header, as in arrays, sets and maps. -/
theorem C69_bare_iff (env : Env) (ty : String) (sug : Option UInt32) (input rest : Bytes)
    (pos pos' : Nat) (st : List String) (p : Property) :
    (∃ n, Property.read env n ty false sug ⟨input, pos, st⟩ = (.ok p, ⟨rest, pos', st⟩)) ↔
      ∃ b, input = b ++ rest ∧ pos' = pos + b.length ∧ Bare env st ty sug b p := by
  constructor
  · rintro ⟨n, hr⟩
    obtain ⟨b, rest', rfl, e, hf⟩ := (gives_property env n).bare st ty sug _ _ _ _ hr
    cases e
    exact ⟨b, rfl, rfl, hf⟩
  · rintro ⟨b, rfl, rfl, hf⟩
    obtain ⟨n, hn⟩ := reads_bare_of hf
    exact ⟨n, (hn n (Nat.le_refl n)).run rest pos⟩

/-- **C69**: the grammar is unambiguous: of one input, at most one beginning is a property of a
given type, and it has one value. -/
theorem C69_unambiguous (env : Env) (st : List String) (ty : String) (b b' rest rest' : Bytes)
    (p p' : Property) (h : Full env st ty b p) (h' : Full env st ty b' p')
    (e : b ++ rest = b' ++ rest') : b = b' ∧ rest = rest' ∧ p = p' := by
  obtain ⟨n, hn⟩ := (reads_full_of h).and (reads_full_of h')
  have r1 := ((hn n (Nat.le_refl n)).1).run rest 0
  have r2 := ((hn n (Nat.le_refl n)).2).run rest' 0
  rw [e, r2] at r1
  simp only [Prod.mk.injEq, Res.ok.injEq, RS.mk.injEq] at r1
  obtain ⟨rfl, rfl, _⟩ := r1
  exact ⟨List.append_cancel_right e, rfl, rfl⟩

/-- **C69**: a save has one header and one list of properties. -/
theorem C69_one_meaning (debug : Bool) (hints : String → Option String) (data : Bytes)
    (h h' : GvasHeader) (ps ps' : List (String × Property)) (hs : Save debug hints data h ps)
    (hs' : Save debug hints data h' ps') : h = h' ∧ ps = ps' := by
  have e := (C69_accepts_iff ..).mpr hs
  rw [(C69_accepts_iff ..).mpr hs'] at e
  cases e
  exact ⟨rfl, rfl⟩

/-- **C69**: what the library writes of a well-formed file is a save with the header and the
properties of the file. -/
theorem C69_written_saves (debug : Bool) (hints : String → Option String) (f : GvasFile)
    (data rest : Bytes) (h : FileOK debug hints f) (he : f.encode = .ok data)
    (h32 : data.length < 2 ^ 32) : Save debug hints (data ++ rest) f.header f.properties :=
  (C69_accepts_iff ..).mp (fileOK_reads h he h32 rest)

/-! ## C35 and C36: which representation is chosen -/

/-- **C35**: an array without struct metadata gets the compact representation of its type whenever
its elements have one, and the generic one otherwise. -/
theorem C35_representation (ty : String) (ps : List Property) (a : ArrayProperty) :
    ArrayProperty.new ty none ps = .ok a ↔ ArrayOf ty ps a := array_new_iff ty ps a

/-- **C36**: a map (its keys differ) gets the compact representation of its types whenever its
entries have one and the allocation flags are zero, and the generic one otherwise. -/
theorem C36_representation (kt vt : String) (fl : UInt32) (m : List (Property × Property))
    (mp : MapProperty) (hd : (m.map Prod.fst).Pairwise fun a b => sameKey a b = false) :
    MapProperty.new kt vt fl m = mp ↔ MapOf kt vt fl m mp := map_new_iff kt vt fl m mp hd

/-- Integers have a compact representation; names with an array index have none. -/
example : ArrayOf "IntProperty" [.int 1, .int 2] (.ints [1, 2]) ∧
    ArrayOf "NameProperty" [.name 3 none] (.properties "NameProperty" [.name 3 none]) := by
  refine ⟨.inl (.ints [1, 2]), (C35_representation _ _ _).mp rfl⟩

/-- Entries from strings to switches have a compact representation, unless there are flags. -/
example : MapOf "StrProperty" "BoolProperty" 0 [(.str (some "k"), .bool true)] (.strBool [("k", true)]) ∧
    MapOf "StrProperty" "BoolProperty" 5 [(.str (some "k"), .bool true)]
      (.properties "StrProperty" "BoolProperty" 5 [(.str (some "k"), .bool true)]) :=
  ⟨.inl ⟨rfl, .strBool [("k", true)]⟩, .inr ⟨fun h => absurd h.1 (by decide), rfl⟩⟩

/-! ## Examples -/

/-- An integer property of the grammar. -/
example (env : Env) : Full env ["a"] "IntProperty"
    ([4, 0, 0, 0, 0, 0, 0, 0] ++ [0] ++ [7, 0, 0, 0]) (.int 7) :=
  at_eq (.number (.int 7)) (by decide)

theorem str_ascii_a : Str (ascii "a") (some "a") := at_eq (.narrow "a" 1 (by decide) (by decide)) (by decide)
theorem str_ascii_none : Str (ascii "None") (some "None") :=
  at_eq (.narrow "None" 4 (by decide) (by decide)) (by decide)
theorem str_ascii_int : Str (ascii "IntProperty") (some "IntProperty") :=
  at_eq (.narrow "IntProperty" 11 (by decide) (by decide)) (by decide)
theorem str_ascii_array : Str (ascii "ArrayProperty") (some "ArrayProperty") :=
  at_eq (.narrow "ArrayProperty" 13 (by decide) (by decide)) (by decide)

/-- Two properties of one name: an integer, then an array of two integers. -/
theorem sample_fields (env : Env) : Fields env [] (intBytes ++ (ascii "a" ++ ascii "ArrayProperty" ++
      ([12, 0, 0, 0, 0, 0, 0, 0] ++ ascii "IntProperty" ++ [0] ++
        [2, 0, 0, 0, 1, 0, 0, 0, 2, 0, 0, 0]) ++ ascii "None"))
    [("a", .int 7), ("a", .array (.ints [1, 2]))] := by
  refine at_eq (.entry str_ascii_a (by decide) str_ascii_int (.number (.int 7))
    (.entry str_ascii_a (by decide) str_ascii_array
      (.array str_ascii_int (by decide) (by decide)
        (.cons (.number (.int 1)) (.cons (.number (.int 2)) .nil))
        (.inl (.ints [1, 2])) (by decide))
      (.done str_ascii_none))) (by decide)

/-- A save of the grammar: of the two properties the last is kept. -/
theorem sample_save (debug : Bool) (hints : String → Option String) :
    Save debug hints (headerBytes [] ++ ((intBytes ++ (ascii "a" ++ ascii "ArrayProperty" ++
      ([12, 0, 0, 0, 0, 0, 0, 0] ++ ascii "IntProperty" ++ [0] ++
        [2, 0, 0, 0, 1, 0, 0, 0, 2, 0, 0, 0]) ++ ascii "None")) ++ [0, 0, 0, 0]))
      (.version2 0x205 ⟨4, 27, 2, 0, "++UE4"⟩ 3 [] "Save")
      [("a", .array (.ints [1, 2]))] := by
  refine ⟨_, _, [0, 0, 0, 0], ?_, sample_fields _, lastWins_imExtend equiv_beq _⟩
  rw [show headerBytes [] =
    (GvasHeader.version2 0x205 ⟨4, 27, 2, 0, "++UE4"⟩ 3 [] "Save").write.bytes from by decide]
  exact (C13_accepts_iff _ _ 0 [] _).mp ⟨_, C12_headers_roundtrip _ (by
    refine ⟨by decide, by decide, rfl, by decide, ?_, by decide, by decide⟩; simp) _ _ _⟩

/-- An integer with the size 5 is no part of any save. -/
example (h : GvasHeader) (ps : List (String × Property)) :
    ¬ Save false noHints (saveBytes (ascii "a" ++ ascii "IntProperty" ++
      [5, 0, 0, 0, 0, 0, 0, 0, 0] ++ [7, 0, 0, 0])) h ps := by
  rw [← C69_accepts_iff]
  intro hr
  have : (failure (readData false noHints (saveBytes (ascii "a" ++ ascii "IntProperty" ++
      [5, 0, 0, 0, 0, 0, 0, 0, 0] ++ [7, 0, 0, 0]))).1).isSome = true := by decide +kernel
  rw [hr] at this
  exact absurd this (by simp [Spec.failure])

end Gvas
