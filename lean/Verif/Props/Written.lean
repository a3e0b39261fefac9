import Verif.Lemmas.WrittenBack
import Verif.Props.Grammar

/-!
# C79: what is written of every value; C22: which inputs are reproduced

`Spec/Written.lean` gives every value one form without mentioning a writer.  The library writes
exactly this form, of every value whatsoever, and fails if there is none.
-/

namespace Gvas

open Spec

/-- **C79**: what is written of a property with its header is its type name and its form, and
nothing is written of a property without a form. -/
theorem C79_property_written (cv : List (Guid × UInt32)) (p : Property) (b : Bytes) :
    (∃ o, Property.write cv true p = .ok o ∧ o.bytes = b) ↔
      ∃ ty t b', Own.Str t (some ty) ∧ Own.Full cv ty b' p ∧ b = t ++ b' := by
  constructor
  · rintro ⟨o, h, rfl⟩
    obtain ⟨ty, b', hf, e⟩ := own_property true p o h
    exact ⟨ty, _, b', own_string ty, hf, e⟩
  · rintro ⟨ty, t, b', ht, hf, rfl⟩
    rw [own_string_eq ht]
    exact wrote_full hf

/-- **C79** for properties without a header, as in arrays, sets and maps. -/
theorem C79_bare_written (cv : List (Guid × UInt32)) (p : Property) (b : Bytes) :
    (∃ o, Property.write cv false p = .ok o ∧ o.bytes = b) ↔ Own.Bare cv b p := by
  constructor
  · rintro ⟨o, h, rfl⟩
    exact own_property false p o h
  · exact wrote_bare

/-- **C79** for files: what is written of a file is its form. -/
theorem C79_contents_written (f : GvasFile) (data : Bytes) :
    f.encode = .ok data ↔ Own.Contents data f.header f.properties := by
  constructor
  · intro h
    rw [GvasFile.encode] at h
    obtain ⟨a, h1, h⟩ := Res.bind_inv h
    cases h
    exact .mk (own_header f.header) (own_top _ _ h1) (own_string "None")
  · intro h
    generalize hp : f.header = hd at h
    generalize hq : f.properties = ps at h
    cases h with
    | mk h1 h2 h3 =>
      obtain ⟨o, ho, rfl⟩ := wrote_fields h2
      rw [GvasFile.encode, hp, hq, ho, own_header_eq h1, own_string_eq h3]
      rfl

/-- **C79**: every value has at most one form. -/
theorem C79_one_form (h : GvasHeader) (ps : List (String × Property)) (b b' : Bytes)
    (h1 : Own.Contents b h ps) (h2 : Own.Contents b' h ps) : b = b' := by
  have e1 := (C79_contents_written ⟨.default, h, ps⟩ b).mpr h1
  rw [(C79_contents_written ⟨.default, h, ps⟩ b').mpr h2] at e1
  cases e1
  rfl

/-- **C22**, exact condition without any limit: an input is accepted and reproduced if and only if
it is a save and has the form its own contents are stored in.  Missing from the full claim: the
other saves, which are not reproduced (`C22_not_every_input`). -/
theorem C22_canonical_partial (debug : Bool) (hints : String → Option String) (input : Bytes)
    (gv : DeserializedGameVersion) :
    (∃ h ps, (readData debug hints input).1 = .ok (h, ps) ∧
      GvasFile.encode ⟨gv, h, ps⟩ = .ok input) ↔
    ∃ h ps, Save debug hints input h ps ∧ Own.Contents input h ps := by
  constructor
  · rintro ⟨h, ps, h1, h2⟩
    exact ⟨h, ps, (C69_accepts_iff ..).mp h1, (C79_contents_written ⟨gv, h, ps⟩ input).mp h2⟩
  · rintro ⟨h, ps, h1, h2⟩
    exact ⟨h, ps, (C69_accepts_iff ..).mpr h1, (C79_contents_written ⟨gv, h, ps⟩ input).mpr h2⟩

/-! ## Examples -/

/-- The form of a map from names to switches: a compact one is stored like a generic one. -/
example (cv : List (Guid × UInt32)) : Own.Bare cv
    ([0, 0, 0, 0] ++ [1, 0, 0, 0] ++ [3, 0, 0, 0, 0x48, 0x70, 0] ++ [1])
      (.map (.nameBool [("Hp", true)])) ∧
    Own.Bare cv ([0, 0, 0, 0] ++ [1, 0, 0, 0] ++ [3, 0, 0, 0, 0x48, 0x70, 0] ++ [1])
      (.map (.properties "NameProperty" "BoolProperty" 0 [(.name 0 (some "Hp"), .bool true)])) := by
  have hp : Own.Str [3, 0, 0, 0, 0x48, 0x70, 0] (some "Hp") :=
    Format.at_eq (.bytes "Hp" (by decide)) (by decide)
  have es : Own.Entries cv ([3, 0, 0, 0, 0x48, 0x70, 0] ++ [1] ++ [])
      [(.name 0 (some "Hp"), .bool true)] := .cons (.name 0 hp) (.bool true) .nil
  exact ⟨Format.at_eq (.map (.nameBool [("Hp", true)]) es) (by decide),
    Format.at_eq (.map (.properties _ _ 0 _) es) (by decide)⟩

/-- A string with a character beyond ASCII is stored in words. -/
example : Own.Str [0xFE, 0xFF, 0xFF, 0xFF, 0xE9, 0, 0, 0] (some "é") :=
  Format.at_eq (.words "é" 'é' (by decide) (by decide)) (by decide)

/-- A struct value has no form with a header. -/
example (cv : List (Guid × UInt32)) (v : StructPropertyValue) (ty : String) (b : Bytes) :
    ¬ Own.Full cv ty b (.structValue v) := by
  intro h
  have := wrote_full h
  obtain ⟨o, ho, _⟩ := this
  rw [Property.write] at ho
  cases ho

/-- The sample file has a form. -/
example : ∃ data, Own.Contents data (sampleFile .default).header (sampleFile .default).properties :=
  (fileOK_encodes (sampleFile_ok .default)).imp fun data h =>
    (C79_contents_written (sampleFile .default) data).mp h

/-- The save with a single integer is reproduced. -/
example : ∃ h ps, Save true noHints (saveBytes intBytes) h ps ∧
    Own.Contents (saveBytes intBytes) h ps := by
  refine (C22_canonical_partial true noHints (saveBytes intBytes) .default).mp ?_
  have key : (match (readData true noHints (saveBytes intBytes)).1 with
      | .ok (h, ps) => (match GvasFile.encode ⟨.default, h, ps⟩ with
        | .ok d => some d
        | .bad _ => none)
      | .bad _ => none) = some (saveBytes intBytes) := by decide +kernel
  split at key
  · next h ps hr =>
    split at key
    · next d he => cases key; exact ⟨h, ps, hr, he⟩
    · cases key
  · cases key

end Gvas
