import Verif.Lemmas.JsonKept
import Verif.Lemmas.JsonPretty
import Verif.Lemmas.JsonDirect
import Verif.Model.JsonProperty

/-!
# Lemmas: properties by themselves as JSON
-/

namespace Gvas.Text

open Spec Spec.Rfc8259 Sd

mutual
theorem toJ_congr {n m : F32 → F64} : ∀ s : Ser, EveryF32 (fun x => n x = m x) s →
    s.toJ n = s.toJ m
  | .null, _ | .bool _, _ | .int _, _ | .f64 _, _ | .str _, _ => rfl
  | .f32 f, h => by
    have h : n f = m f := h
    simp only [Ser.toJ, h]
  | .arr l, h => by simp only [Ser.toJ, list_congr l h]
  | .obj l, h => by simp only [Ser.toJ, entries_congr l h]
theorem list_congr {n m : F32 → F64} : ∀ l : List Ser, EveryF32Items (fun x => n x = m x) l →
    serList n l = serList m l
  | [], _ => rfl
  | a :: l, h => by simp only [serList, toJ_congr a h.1, list_congr l h.2]
theorem entries_congr {n m : F32 → F64} : ∀ l : List (String × Ser),
    EveryF32Members (fun x => n x = m x) l → serEntries n l = serEntries m l
  | [], _ => rfl
  | (_, a) :: l, h => by simp only [serEntries, toJ_congr a h.1, entries_congr l h.2]
end

end Gvas.Text

namespace Gvas.Kept

open Spec Layout Rfc8259

/-- If a property comes back from its JSON, so does every float. -/
theorem property_json_back [FloatJ] : ∀ (n : Nat) (p : Property), PropertyJ n p.toJ p →
    EveryF32 Back p.toS
  | 0, _, h => h.elim
  | n + 1, p, h => tagged_step (property_back n) (n + 1) _ p h

/-- Every float of a file is in one of its properties. -/
theorem file_every {P : F32 → Prop} (f : GvasFile) :
    EveryF32 P f.toSerde ↔ ∀ e ∈ f.properties, EveryF32 P e.2.toS := by
  have h1 : EveryF32 P f.header.toS := by
    cases f.header <;> simp [GvasHeader.toS, EveryF32, EveryF32Members, FEngineVersion.toS,
      customVersionsS, members_map]
  have h2 : EveryF32Members P (strPropsS f.properties) ↔
      ∀ e ∈ f.properties, EveryF32 P e.2.toS := by
    rw [strPropsS_map]; exact members_map _ _ _
  rw [← h2, GvasFile.toSerde]
  constructor
  · intro h
    exact ((members_append _ _).mp h).2.2.1
  · intro h
    refine (members_append _ _).mpr ⟨?_, h1, h, trivial⟩
    split
    · trivial
    · exact ⟨⟨trivial, trivial⟩, trivial⟩

end Gvas.Kept
