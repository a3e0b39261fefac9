import Verif.Model.Access
import Verif.Lemmas.Strip
import Verif.Lemmas.AcceptText
import Verif.Props.Text

/-!
# C33: exactly which texts can be stored, and what is lost of the others
-/

namespace Gvas

open Spec

/-- **C33**: of any text, the versions of the file decide what is kept: all of it when they know
culture invariant strings, all but these otherwise.  What is kept is written and read back exactly,
wherever it stands; what is not kept is lost without error. -/
theorem C33_what_is_kept (cv : List (Guid × UInt32)) (t : FText) (h : TextOK cv (keptText cv t)) :
    ∃ out, FText.write cv t = .ok out ∧
      ∀ n, out.bytes.length < n → ReadsBack (FText.read cv n) out.bytes (keptText cv t) := by
  obtain ⟨out, ho, hr⟩ := C33_texts_roundtrip cv _ h
  refine ⟨out, ?_, hr⟩
  rw [← ho]
  unfold keptText
  cases hc : cultureInvariant cv
  · simp [write_stripText hc t]
  · simp

-- a culture invariant string deep in a text is lost under old versions
example : keptText [] (.mk 0 (.transform (.mk 3 (.none (some "lost"))) .toUpper)) =
    .mk 0 (.transform (.mk 3 .empty) .toUpper) ∧
    TextOK [] (.mk 0 (.transform (.mk 3 .empty) .toUpper)) ∧
    keptText newVersions (.mk 3 (.none (some "kept"))) = .mk 3 (.none (some "kept")) := by
  refine ⟨by rfl, ?_, by rfl⟩
  simp [TextOK, WidthsOK, HistoryWidthsOK, TextShapeOK, HistoryShapeOK]

/-- **C33**, exactly: a text can be stored if and only if it can be the result of reading one, and
if and only if it is written and read back unchanged. -/
theorem C33_exactly (cv : List (Guid × UInt32)) (t : FText) :
    (TextOK cv t ↔ ∃ n s s', FText.read cv n s = (.ok t, s')) ∧
    (TextOK cv t ↔ ∃ out, FText.write cv t = .ok out ∧
      ∃ n, ReadsBack (FText.read cv n) out.bytes t) := by
  have back : ∀ n s s', FText.read cv n s = (.ok t, s') → TextOK cv t := by
    rintro n ⟨rest, pos, st⟩ s' h
    exact (ens_text n rest pos t s' h).2.choose_spec.2.1
  have forth : TextOK cv t → ∃ out, FText.write cv t = .ok out ∧
      ∃ n, ReadsBack (FText.read cv n) out.bytes t := fun h => by
    obtain ⟨out, ho, hr⟩ := C33_texts_roundtrip cv t h
    exact ⟨out, ho, _, hr _ (Nat.lt_succ_self _)⟩
  refine ⟨⟨fun h => ?_, fun ⟨n, s, s', h⟩ => back n s s' h⟩, forth, fun ⟨out, _, n, hr⟩ => ?_⟩
  · obtain ⟨out, _, n, hr⟩ := forth h
    exact ⟨n, _, _, hr [] 0 []⟩
  · exact back n _ _ (hr [] 0 [])

/-- **C73**: a text made by `new_none` is read back as made when the versions know culture
invariant strings, and as made without one when they do not. -/
theorem C73_new_none (cv : List (Guid × UInt32)) (flags : UInt32) (s : Option (Option String))
    (hs : ∀ x ∈ s, FStrOK x) :
    ∃ out, FText.write cv (FText.newNone flags s) = .ok out ∧ ∀ n, out.bytes.length < n →
      ReadsBack (FText.read cv n) out.bytes
        (FText.newNone flags (if cultureInvariant cv then s else none)) := by
  have e : FText.newNone flags (if cultureInvariant cv then s else none) =
      keptText cv (FText.newNone flags s) := by
    unfold keptText
    cases cultureInvariant cv <;> cases s <;> rfl
  rw [e]
  refine C33_what_is_kept cv _ ?_
  rw [← e]
  cases hc : cultureInvariant cv <;> cases s <;>
    simp [FText.newNone, TextOK, WidthsOK, HistoryWidthsOK, TextShapeOK, HistoryShapeOK, hc]
  exact hs _ rfl

/-- **C73**: a text made by `new_base` is read back as made under any versions. -/
theorem C73_new_base (cv : List (Guid × UInt32)) (flags : UInt32) (ns key source : Option String)
    (h1 : FStrOK ns) (h2 : FStrOK key) (h3 : FStrOK source) :
    ∃ out, FText.write cv (FText.newBase flags ns key source) = .ok out ∧
      ∀ n, out.bytes.length < n → ReadsBack (FText.read cv n) out.bytes
        (.mk flags (.base ns key source)) :=
  C33_texts_roundtrip cv _ (by
    simp [FText.newBase, TextOK, WidthsOK, HistoryWidthsOK, TextShapeOK, HistoryShapeOK, h1, h2, h3])

example : FText.newNone 2 (some (some "x")) = .mk 2 (.none (some "x")) ∧
    FText.newNone 2 none = .mk 2 .empty ∧ FStrOK (some "x") :=
  ⟨rfl, rfl, by simp only [FStrOK, StrOK]; decide +kernel⟩

end Gvas
