import Verif.Lemmas.AcceptFile
import Verif.Props.File
import Verif.Spec.Sample

/-!
# C19: what was read can be written and is read back
-/

namespace Gvas

open Spec

/-- **C19**: whatever reading returns can be written, and reading the output returns it again, if
its contents take less than 4 GiB.  Missing from the full claim: contents of 4 GiB or more, for
which it is false (`C19_huge_not_reread`). -/
theorem C19_reread_partial (z : Codec) (hz : Lawful z) (debug : Bool) (gv : GameVersion)
    (hints : String → Option String) (start : Nat) (input : Bytes) (f : GvasFile)
    (h : GvasFile.read z debug gv hints start input = .ok f) :
    ∃ data, f.encode = .ok data ∧ ∀ s : Sink, ∃ s', f.write z s = (.ok (), s') ∧
      (data.length < 2 ^ 32 →
        GvasFile.read z debug gv hints s.pos (s'.data.drop s.pos) = .ok f) := by
  have key : ∀ f : GvasFile, FileOK debug hints f →
      (gv = match f.gameVersion with | .default => .default | .palworld _ => .palworld) →
      ∃ data, f.encode = .ok data ∧ ∀ s : Sink, ∃ s', f.write z s = (.ok (), s') ∧
      (data.length < 2 ^ 32 →
        GvasFile.read z debug gv hints s.pos (s'.data.drop s.pos) = .ok f) := by
    intro f hok hg
    cases hv : f.gameVersion with
    | default =>
      rw [hv] at hg; subst hg
      obtain ⟨data, h1, h2⟩ := C17_files_roundtrip z debug hints f hv hok
      refine ⟨data, h1, fun s => ?_⟩
      obtain ⟨s', hs'⟩ : ∃ s', f.write z s = (.ok (), s') :=
        ⟨_, by simp only [GvasFile.write, h1, hv]; rfl⟩
      refine ⟨s', hs', fun h32 => ?_⟩
      obtain ⟨s'', h3, h4⟩ := h2 h32 s
      rw [hs'] at h3; cases h3
      exact h4
    | palworld c =>
      rw [hv] at hg; subst hg
      obtain ⟨data, h1, h2⟩ := C18_palworld_roundtrip z hz debug hints f c hv hok
      refine ⟨data, h1, fun s => ?_⟩
      obtain ⟨s', hs'⟩ : ∃ s', f.write z s = (.ok (), s') :=
        ⟨_, by simp only [GvasFile.write, h1, hv]; rfl⟩
      refine ⟨s', hs', fun h32 => ?_⟩
      obtain ⟨s'', h3, h4⟩ := h2 h32 s
      rw [hs'] at h3; cases h3
      exact h4
  cases gv with
  | default =>
    simp only [GvasFile.read] at h
    obtain ⟨⟨hd, ps⟩, h1, h2⟩ := Res.bind_inv h
    cases h2
    exact key _ (accept_data h1 _).1 rfl
  | palworld =>
    simp only [GvasFile.read] at h
    split at h
    · obtain ⟨data, h1, h2⟩ := Res.bind_inv h
      obtain ⟨⟨hd, ps⟩, h3, h4⟩ := Res.bind_inv h2
      cases h4
      exact key _ (accept_data h3 _).1 rfl
    · cases h

/-- **C19**: the contents written take at most twice the bytes read. -/
theorem C19_at_most_doubles (debug : Bool) (hints : String → Option String) (data : Bytes)
    (h : GvasHeader) (ps : List (String × Property))
    (hr : (readData debug hints data).1 = .ok (h, ps)) (gv : DeserializedGameVersion) :
    ∃ d, GvasFile.encode ⟨gv, h, ps⟩ = .ok d ∧ d.length ≤ 2 * data.length :=
  (accept_data hr gv).2

/-- **C19** in the default container: every accepted input of less than 2 GiB can be written, and
the output is read back to the same file, with no assumption on zlib. -/
theorem C19_default_reread_partial (z : Codec) (debug : Bool) (hints : String → Option String)
    (start : Nat) (input : Bytes) (f : GvasFile) (hin : input.length < 2 ^ 31)
    (h : GvasFile.read z debug .default hints start input = .ok f) :
    ∀ s : Sink, ∃ s', f.write z s = (.ok (), s') ∧
      GvasFile.read z debug .default hints s.pos (s'.data.drop s.pos) = .ok f := by
  simp only [GvasFile.read] at h
  obtain ⟨⟨hd, ps⟩, h1, h2⟩ := Res.bind_inv h
  cases h2
  obtain ⟨hok, d, hd, hl⟩ := accept_data h1 .default
  obtain ⟨data, h2, h3⟩ := C17_files_roundtrip z debug hints _ rfl hok
  rw [hd] at h2; cases h2
  exact h3 (by omega)

/-! ## A concrete case -/

/-- A save whose string is stored as UTF-8 (`"é"`), which is not how it is written back. -/
def foreignInput : Bytes :=
  (GvasHeader.version2 0x205 ⟨4, 27, 2, 0, "++UE4"⟩ 3 [] "S").write.bytes ++
    (writeString "A").bytes ++ (writeString "StrProperty").bytes ++
    [7, 0, 0, 0] ++ [0, 0, 0, 0] ++ [0] ++ [3, 0, 0, 0, 0xC3, 0xA9, 0] ++ (writeString "None").bytes

/-- It is accepted … -/
example : Spec.failure (readData true noHints foreignInput).1 = none := by decide +kernel
/-- … and written with one byte more (and the four bytes that follow the end marker). -/
example : (match (readData true noHints foreignInput).1 with
    | .ok (h, ps) => (match GvasFile.encode ⟨.default, h, ps⟩ with
      | .ok d => (foreignInput.length, d.length)
      | .bad _ => (0, 0))
    | .bad _ => (0, 0)) = (93, 98) := by decide +kernel

end Gvas
