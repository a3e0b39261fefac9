import Verif.Lemmas.Text
import Verif.Spec.Codec
import Verif.Props.Versions

/-!
# C33, C34: texts
-/

namespace Gvas

open Spec

/-- C34: writing a text succeeds exactly when all its integer arguments have the width the
file's versions ask for, and panics otherwise; it never returns an error. -/
theorem C34_write_ok_iff (cv : List (Guid × UInt32)) (t : FText) :
    ((∃ out, FText.write cv t = .ok out) ↔ WidthsOK cv t) ∧
    ((∃ msg, FText.write cv t = .panic msg) ↔ ¬ WidthsOK cv t) := by
  rcases write_text cv t with ⟨hc, out, ho⟩ | ⟨hc, msg, ho⟩
  · rw [ho]; simp [hc]
  · rw [ho]; simp [hc]

/-- C33: every text that can be represented under the versions is written, and reading the
written bytes returns it, wherever they stand and whatever follows; `n` is any recursion depth
beyond the number of bytes. -/
theorem C33_texts_roundtrip (cv : List (Guid × UInt32)) (t : FText) (h : TextOK cv t) :
    ∃ out, FText.write cv t = .ok out ∧
      ∀ n, out.bytes.length < n → ReadsBack (FText.read cv n) out.bytes t := by
  obtain ⟨out, ho⟩ := (C34_write_ok_iff cv t).1.mpr h.1
  exact ⟨out, ho, fun n hn rest pos st => reads_text n t out h.2 ho hn rest pos⟩

/-! ## A text with three levels of nesting, under both kinds of versions -/

/-- `"{a} of {b}"`, with `a` a number given as integer argument `v` and `b` a nested format. -/
def nestedText (v : FormatArgumentValue) : FText :=
  .mk 2 (.namedFormat (.mk 8 (.base (some "ns") none (some "{a} of {b} ✓")))
    [("a", v),
     ("b", .text (.mk 0 (.orderedFormat (.mk 1 (.stringTableEntry "T" "k"))
        [.double ⟨0x3FF0000000000000⟩,
         .text (.mk 0 (.asCurrency (some "EUR") v
            (some ⟨true, false, .halfToEven, 1, 324, -1, 3⟩) none)),
         .text (.mk 4 (.transform (.mk 0 .empty) .toUpper))])))])

/-- Versions with 64 bit arguments and culture invariant strings. -/
def newVersions : List (Guid × UInt32) := [(ue5ReleaseGuid, 100), (editorGuid, 100)]

example : TextOK newVersions (nestedText (.int64 (-5))) := by
  simp [TextOK, WidthsOK, HistoryWidthsOK, ArgWidthsOK, NamedWidthsOK, ArgsWidthsOK, TextShapeOK,
    HistoryShapeOK, ArgShapeOK, NamedShapeOK, ArgsShapeOK, nestedText, FStrOK, StrOK]
  decide +kernel

example : TextOK [] (nestedText (.int (-5))) := by
  simp [TextOK, WidthsOK, HistoryWidthsOK, ArgWidthsOK, NamedWidthsOK, ArgsWidthsOK, TextShapeOK,
    HistoryShapeOK, ArgShapeOK, NamedShapeOK, ArgsShapeOK, nestedText, FStrOK, StrOK]
  decide +kernel

example : TextOK newVersions (.mk 0 (.none (some "ünvariant"))) := by
  simp [TextOK, WidthsOK, HistoryWidthsOK, TextShapeOK, HistoryShapeOK, FStrOK, StrOK]
  decide +kernel

example : ¬ WidthsOK [] (nestedText (.int64 (-5))) := by
  intro h
  simp only [WidthsOK, HistoryWidthsOK, ArgWidthsOK, NamedWidthsOK, nestedText] at h
  exact absurd h.2.1 (by decide +kernel)

end Gvas
