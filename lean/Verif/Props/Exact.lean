import Verif.Props.Accept

/-!
# C22, C52: which values and which inputs come back exactly
-/

namespace Gvas

open Spec

/-! ## C52 -/

/-- **C52**, exact condition for properties: a property that was written (in less than 4 GiB) is
read back if and only if it is representable.  Missing from the full claim: values that are written
although they are not representable, for which it is false (`C52_not_every_value`). -/
theorem C52_property_readable_iff_partial (env : Env) (st : List String) (p : Property) (out : Out)
    (hw : Property.write env.cv true p = .ok out) (h32 : out.bytes.length < 2 ^ 32) :
    (∀ n, out.bytes.length < n → ReadsBackAt st (readTyped env n) out.bytes p) ↔ HeadOK env st p := by
  constructor
  · intro h
    have h := h (out.bytes.length + 1) (by omega) [] 0
    unfold readTyped at h
    rbind h => ty s1 h1
    obtain ⟨e1, hty, _⟩ := readString_ok h1
    obtain ⟨rest1, pos1, st1⟩ := s1
    cases e1
    exact ((accept_property (out.bytes.length + 1)).head st ty hty _ _ _ _ h).2.choose_spec.2.1
  · intro h
    obtain ⟨out', h1, h2⟩ := C15_properties_roundtrip env st p h
    rw [hw] at h1; cases h1
    exact h2 h32

/-- **C52**, exact condition for files: contents that were written (in less than 4 GiB) are read
back if and only if the file is representable. -/
theorem C52_file_readable_iff_partial (debug : Bool) (hints : String → Option String) (f : GvasFile)
    (data : Bytes) (he : f.encode = .ok data) (h32 : data.length < 2 ^ 32) :
    (readData debug hints data).1 = .ok (f.header, f.properties) ↔ FileOK debug hints f := by
  constructor
  · intro h
    exact (accept_data h f.gameVersion).1
  · intro h
    have := fileOK_reads h he h32 []
    rwa [List.append_nil] at this

/-- A custom struct with a field that has no value. -/
def emptyField : Property := .struct (Guid.fromU32 0 0 0 0) "S" (.customStruct [("x", [])])

/-- An enum property without its type. -/
def untypedEnum : Property := .enum none "E::A"

/-- **C52** is false: there are properties that are written, but not read back - one loses a field,
the other is refused. -/
theorem C52_not_every_value (env : Env) :
    (∃ out, Property.write env.cv true emptyField = .ok out ∧
      ¬ ∀ n, out.bytes.length < n → ReadsBackAt [] (readTyped env n) out.bytes emptyField) ∧
    (∃ out, Property.write env.cv true untypedEnum = .ok out ∧
      ¬ ∀ n, out.bytes.length < n → ReadsBackAt [] (readTyped env n) out.bytes untypedEnum) := by
  refine ⟨⟨_, rfl, fun h => ?_⟩, ⟨_, rfl, fun h => ?_⟩⟩
  · have := (C52_property_readable_iff_partial env [] emptyField _ rfl (by decide +kernel)).mp h
    simp [emptyField, HeadOK, StructOK, FieldsOK] at this
  · have := (C52_property_readable_iff_partial env [] untypedEnum _ rfl (by decide +kernel)).mp h
    simp [untypedEnum, HeadOK] at this

/-- What becomes of the second one. -/
example : (match Property.write [] true untypedEnum with
    | .ok out => Spec.failure (readTyped ⟨true, noHints, []⟩ 100 ⟨out.bytes, 0, []⟩).1
    | .bad _ => none) = some (.err (.invalidString 0 25)) := by decide +kernel

/-- The sample tree meets the condition, so it is read back. -/
example (out : Out) (hw : Property.write newVersions true sampleTree = .ok out)
    (h32 : out.bytes.length < 2 ^ 32) : ∀ n, out.bytes.length < n →
      ReadsBackAt ["Inventory"] (readTyped (fileEnv true sampleHints (sampleFile .default).header) n)
        out.bytes sampleTree :=
  (C52_property_readable_iff_partial _ _ _ _ hw h32).mpr sampleTree_ok

/-! ## C22 -/

/-- **C22** is false: a save with a string stored as UTF-8, or with anything behind the end marker
other than four zero bytes, is accepted but not reproduced. -/
theorem C22_not_every_input :
    (∃ h ps d, (readData true noHints foreignInput).1 = .ok (h, ps) ∧
      GvasFile.encode ⟨.default, h, ps⟩ = .ok d ∧ d ≠ foreignInput) ∧
    (∃ h ps d, (readData true noHints (saveBytes intBytes ++ [1])).1 = .ok (h, ps) ∧
      GvasFile.encode ⟨.default, h, ps⟩ = .ok d ∧ d ≠ saveBytes intBytes ++ [1]) := by
  have key : ∀ input : Bytes, (match (readData true noHints input).1 with
      | .ok (h, ps) => (match GvasFile.encode ⟨.default, h, ps⟩ with
        | .ok d => some d
        | .bad _ => none)
      | .bad _ => none).any (· != input) = true →
      ∃ h ps d, (readData true noHints input).1 = .ok (h, ps) ∧
      GvasFile.encode ⟨.default, h, ps⟩ = .ok d ∧ d ≠ input := by
    intro input h
    cases h1 : (readData true noHints input).1 with
    | bad f => simp [h1] at h
    | ok x =>
      obtain ⟨hd, ps⟩ := x
      simp only [h1] at h
      cases h2 : GvasFile.encode ⟨.default, hd, ps⟩ with
      | bad f => simp [h2] at h
      | ok d =>
        simp [h2] at h
        exact ⟨hd, ps, d, rfl, h2, h⟩
  exact ⟨key _ (by decide +kernel), key _ (by decide +kernel)⟩

/-- **C22** from the second time on: what was read (from less than 2 GiB) and written is reproduced
byte for byte by every further read and write.  Missing from the full claim: the first time, for
which it is false (`C22_not_every_input`). -/
theorem C22_second_save_partial (debug : Bool) (hints : String → Option String) (input : Bytes)
    (hin : input.length < 2 ^ 31) (h : GvasHeader) (ps : List (String × Property))
    (hr : (readData debug hints input).1 = .ok (h, ps)) (gv : DeserializedGameVersion) :
    ∃ d, GvasFile.encode ⟨gv, h, ps⟩ = .ok d ∧
      ∀ tail, ∃ h' ps', (readData debug hints (d ++ tail)).1 = .ok (h', ps') ∧
        GvasFile.encode ⟨gv, h', ps'⟩ = .ok d := by
  obtain ⟨hok, d, hd, hl⟩ := accept_data hr gv
  exact ⟨d, hd, fun tail => ⟨h, ps, fileOK_reads hok hd (by omega) tail, hd⟩⟩

/-- **C22**, exact condition: an input (of less than 2 GiB) is reproduced if and only if it is what
some file is written as. -/
theorem C22_reproduced_iff_partial (debug : Bool) (hints : String → Option String) (input : Bytes)
    (hin : input.length < 2 ^ 31) (gv : DeserializedGameVersion) :
    (∃ h ps, (readData debug hints input).1 = .ok (h, ps) ∧
      GvasFile.encode ⟨gv, h, ps⟩ = .ok input) ↔
    ∃ f : GvasFile, FileOK debug hints f ∧ f.encode = .ok input := by
  constructor
  · rintro ⟨h, ps, hr, he⟩
    exact ⟨_, (accept_data hr gv).1, he⟩
  · rintro ⟨f, hok, he⟩
    have := fileOK_reads hok he (by omega) []
    rw [List.append_nil] at this
    exact ⟨_, _, this, he⟩

end Gvas
