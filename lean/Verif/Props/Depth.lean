import Verif.Lemmas.Depth
import Verif.Props.Accept

/-!
# C67: how deep a save can nest
-/

namespace Gvas

open Spec

/-- **C67**: what a save holds is nested less deep than half its number of bytes. -/
theorem C67_depth_bounded (debug : Bool) (hints : String → Option String) (data : Bytes)
    (h : GvasHeader) (ps : List (String × Property))
    (hr : (readData debug hints data).1 = .ok (h, ps)) :
    ∀ x ∈ ps, 2 * depth x.2 < data.length := by
  obtain ⟨d, he, hl⟩ := C19_at_most_doubles debug hints data h ps hr .default
  unfold GvasFile.encode at he
  obtain ⟨o, h1, h2⟩ := Res.bind_inv he
  cases h2
  intro x hx
  have := top_depth _ _ o h1 x hx
  have h4 := writeString_four "None"
  simp only [List.length_append, i32B_length] at hl
  omega

/-- A text of `d` transformations, one in the other. -/
def deepText : Nat → FText
  | 0 => .mk 0 (.base none none none)
  | d + 1 => .mk 0 (.transform (deepText d) .toUpper)

/-- A save holding it. -/
def deepFile (d : Nat) : GvasFile :=
  { gameVersion := .default
    header := .version2 522 ⟨0, 0, 0, 0, ""⟩ 3 [] ""
    properties := [("a", .text (deepText d))] }

theorem deepText_depth (d : Nat) : textDepth (deepText d) = d + 1 := by
  induction d with
  | zero => rfl
  | succ d ih => rw [deepText, textDepth, historyDepth, ih]

theorem deepText_ok (cv : List (Guid × UInt32)) (d : Nat) : TextOK cv (deepText d) := by
  constructor
  · induction d with
    | zero => simp [deepText, WidthsOK, HistoryWidthsOK]
    | succ d ih => simpa [deepText, WidthsOK, HistoryWidthsOK] using ih
  · induction d with
    | zero => simp [deepText, TextShapeOK, HistoryShapeOK, FStrOK]
    | succ d ih => simpa [deepText, TextShapeOK, HistoryShapeOK] using ih

theorem deepText_size (cv : List (Guid × UInt32)) (d : Nat) :
    ∃ o, FText.write cv (deepText d) = .ok o ∧ o.bytes.length = 17 + 6 * d := by
  induction d with
  | zero => exact ⟨_, rfl, by decide⟩
  | succ d ih =>
    obtain ⟨o, h1, h2⟩ := ih
    rw [deepText, FText.write, FTextHistory.write, h1]
    refine ⟨_, rfl, ?_⟩
    simp only [Out.app_bytes, List.length_append, u32B_length, historyTag_length, h2, i8B_length]
    omega

private theorem deep_ok (debug : Bool) (d : Nat) : FileOK debug noHints (deepFile d) := by
  refine ⟨?_, by simp [deepFile], ?_⟩
  · simp only [deepFile, HeaderOK]
    exact ⟨by decide, by decide, by decide, by decide, by decide, by decide, by decide⟩
  · simp only [deepFile, List.forall_mem_cons]
    refine ⟨⟨by decide, by decide, ?_⟩, by simp⟩
    simp only [HeadOK]
    exact deepText_ok _ d

/-- **C67**: nothing but the size limits the depth.  Each further level takes six bytes, and every
depth occurs whose text still fits in the 32 bit sizes. -/
theorem C67_every_depth (debug : Bool) (d : Nat) (hd : 6 * d + 102 < 2 ^ 32) :
    ∃ data h p, data.length = 6 * d + 102 ∧ (readData debug noHints data).1 = .ok (h, [("a", p)]) ∧
      depth p = d + 2 := by
  obtain ⟨data, he⟩ := fileOK_encodes (deep_ok debug d)
  have hl : data.length = 6 * d + 102 := by
    have h := he
    obtain ⟨o, h1, h2⟩ := deepText_size [] d
    simp only [GvasFile.encode, deepFile, writeTop, Property.write, GvasHeader.customVersions, h1] at h
    cases h
    simp only [GvasHeader.write, Out.app_bytes, List.length_append, headed_true_length,
      u32O_bytes, u32B_length, i32B_length, Out.nil_bytes, h2,
      List.length_nil]
    have l1 : (writeHeaderTail ⟨0, 0, 0, 0, ""⟩ 3 [] "").bytes.length = 28 := by decide +kernel
    have l2 : (writeString "a").bytes.length = 6 := by decide +kernel
    have l3 : (writeString "TextProperty").bytes.length = 17 := by decide +kernel
    have l4 : (writeString "None").bytes.length = 9 := by decide +kernel
    omega
  have hr := fileOK_reads (deep_ok debug d) he (by omega) []
  rw [List.append_nil] at hr
  refine ⟨data, _, _, hl, hr, ?_⟩
  rw [depth, deepText_depth]

/-- A thousand levels in about six kilobytes; the bound above allows at most 3051. -/
example : ∃ data h p, data.length = 6102 ∧
    (readData true noHints data).1 = .ok (h, [("a", p)]) ∧ depth p = 1002 ∧ 2 * depth p < 6102 := by
  obtain ⟨data, h, p, h1, h2, h3⟩ := C67_every_depth true 1000 (by decide)
  have := C67_depth_bounded true noHints data h _ h2 ("a", p) (List.mem_cons_self ..)
  exact ⟨data, h, p, h1, h2, h3, by simp only [h1] at this; exact this⟩

end Gvas
