import Verif.Lemmas.Needs
import Verif.Spec.Sample

/-!
# C85: reading looks at no byte beyond those it consumes
-/

namespace Gvas

open Spec

private theorem contents_needs (debug : Bool) (hints : String → Option String) (n : Nat) (s : RS) :
    NeedsAt 0 (readContents debug hints n) s :=
  (needs_closed debug hints).contents (K := 0) (Nat.le_refl n) trivial s (Nat.zero_le _)

/-- **C85**: success, errors and panics alike depend on the bytes up to the position reached and on
nothing behind it (running out of input apart). -/
theorem C85_no_lookahead (debug : Bool) (hints : String → Option String) (data : Bytes)
    (r : Res (GvasHeader × List (String × Property))) (s : RS)
    (h : readData debug hints data = (r, s)) (hr : r ≠ .err .eof) (y : Bytes) :
    readData debug hints (data.take s.pos ++ y) = (r, { s with rest := y }) := by
  obtain ⟨n, hn, hn'⟩ : ∃ n, data.length < n ∧ (data.take s.pos ++ y).length < n :=
    ⟨data.length + (data.take s.pos ++ y).length + 1, by omega, by omega⟩
  have more (d : Bytes) (hd : d.length < n) :
      readData debug hints d = readContents debug hints n (RS.init d) :=
    readContents_more debug hints (by simp [RS.init]) hd
  have hl : (data.take s.pos).length < n := by simp; omega
  rw [more _ hn] at h
  obtain ⟨pre, h1, h2, -⟩ := (contents_needs debug hints n (RS.init data)).consumes
  rw [h] at h1 h2
  simp only [RS.init, Nat.zero_add] at h1 h2
  have ht : data.take s.pos = pre := by rw [h1, h2]; simp
  rw [more _ hn', ht]
  have g := contents_needs debug hints n (RS.init pre)
  have e : RS.init data = { RS.init pre with rest := (RS.init pre).rest ++ s.rest } := by
    simp [RS.init, h1]
  have hp : (readContents debug hints n (RS.init pre)).1 ≠ .err .eof := by
    intro he
    have := g.needs he s.rest (by rw [← e, h]; exact hr)
    rw [← e, h, h2] at this
    simp [RS.init] at this
  have ha := g.append s.rest hp
  rw [← e, h] at ha
  obtain ⟨p', g1, g2, -⟩ := g.consumes
  have e1 : r = (readContents debug hints n (RS.init pre)).1 := congrArg Prod.fst ha
  have e2 : s = { (readContents debug hints n (RS.init pre)).2 with
      rest := (readContents debug hints n (RS.init pre)).2.rest ++ s.rest } := congrArg Prod.snd ha
  have e3 : (readContents debug hints n (RS.init pre)).2.rest = [] := by
    have := congrArg (fun s => s.rest.length) e2
    simp only [List.length_append] at this
    exact List.length_eq_zero_iff.mp (by omega)
  rw [show RS.init (pre ++ y) = { RS.init pre with rest := (RS.init pre).rest ++ y } from rfl,
    g.append y hp, ← e1]
  generalize readContents debug hints n (RS.init pre) = q at e2 e3
  obtain ⟨q1, q2, q3, q4⟩ := q
  simp only at e3 e2 ⊢
  subst e3
  rw [e2]
  rfl

/-- **C85**, as it is seen while a save arrives: with less than the bytes consumed in the end the
outcome is "unexpected end of file", with at least these it is the final one. -/
theorem C85_threshold (debug : Bool) (hints : String → Option String) (data : Bytes)
    (r : Res (GvasHeader × List (String × Property))) (s : RS)
    (h : readData debug hints data = (r, s)) (hr : r ≠ .err .eof) (k : Nat) :
    (readData debug hints (data.take k)).1 = if k < s.pos then .err .eof else r := by
  have hs : s.pos ≤ data.length := by
    obtain ⟨pre, h1, h2, -⟩ := (contents_needs debug hints (data.length + 1) (RS.init data)).consumes
    rw [show readContents debug hints (data.length + 1) (RS.init data) = (r, s) from h] at h1 h2
    have := congrArg List.length h1
    simp only [RS.init, List.length_append] at this h2
    omega
  split
  · rename_i hk
    apply Classical.byContradiction
    intro hne
    obtain ⟨pre, h1, h2, -⟩ :=
      (contents_needs debug hints ((data.take k).length + 1) (RS.init (data.take k))).consumes
    match hq : readData debug hints (data.take k) with
    | (q, t) =>
      rw [hq] at hne
      have hd := hq
      unfold readData at hd
      rw [hd] at h1 h2
      have hl := congrArg List.length h1
      simp only [RS.init, List.length_append] at hl h2
      have := C85_no_lookahead debug hints _ q t hq hne (data.drop t.pos)
      rw [List.take_take, Nat.min_eq_left (by simp at hl; omega), List.take_append_drop, h] at this
      have := congrArg (fun x => x.2.pos) this
      simp only at this
      simp at hl
      omega
  · rename_i hk
    have := C85_no_lookahead debug hints data r s h hr ((data.take k).drop s.pos)
    rw [show data.take s.pos = (data.take k).take s.pos by
      rw [List.take_take, Nat.min_eq_left (by omega)], List.take_append_drop] at this
    rw [this]

/-- **C85** for single properties, read anywhere in a stream. -/
theorem C85_property (env : Env) (n : Nat) (ty : String) (hdr : Bool) (o : Option UInt32) (s s' : RS)
    (r : Res Property) (h : Property.read env n ty hdr o s = (r, s')) (hr : r ≠ .err .eof) (y : Bytes) :
    Property.read env n ty hdr o { s with rest := s.rest.take (s'.pos - s.pos) ++ y } =
      (r, { s' with rest := y }) := by
  have needs (s : RS) : NeedsAt 0 (Property.read env n ty hdr o) s :=
    (needs_closed env.debug env.hints).property (K := 0) env.cv (Nat.le_refl n) trivial ty hdr o s
      (Nat.zero_le _)
  obtain ⟨pre, h1, h2, -⟩ := (needs s).consumes
  rw [h] at h1 h2
  simp only at h1 h2
  have ht : s.rest.take (s'.pos - s.pos) = pre := by rw [h1, h2]; simp
  rw [ht]
  generalize hs0 : { s with rest := pre } = s0
  have e (z : Bytes) : { s with rest := pre ++ z } = { s0 with rest := s0.rest ++ z } := by
    subst hs0; rfl
  have g := needs s0
  have hs : s = { s0 with rest := s0.rest ++ s'.rest } := by rw [← e, ← h1]
  have hp : (Property.read env n ty hdr o s0).1 ≠ .err .eof := by
    intro he
    have := g.needs he s'.rest (by rw [← hs, h]; exact hr)
    rw [← hs, h, h2] at this
    subst hs0
    simp at this
  have ha := g.append s'.rest hp
  rw [← hs, h] at ha
  have e1 : r = (Property.read env n ty hdr o s0).1 := congrArg Prod.fst ha
  have e2 : s' = { (Property.read env n ty hdr o s0).2 with
      rest := (Property.read env n ty hdr o s0).2.rest ++ s'.rest } := congrArg Prod.snd ha
  have e3 : (Property.read env n ty hdr o s0).2.rest = [] := by
    have := congrArg (fun s => s.rest.length) e2
    simp only [List.length_append] at this
    exact List.length_eq_zero_iff.mp (by omega)
  rw [e, g.append y hp, ← e1]
  generalize Property.read env n ty hdr o s0 = q at e2 e3
  obtain ⟨q1, q2, q3, q4⟩ := q
  simp only at e3 e2 ⊢
  subst e3
  rw [e2]
  rfl

/-- An integer property with a wrong size: what follows the size does not matter. -/
example (y : Bytes) : (Property.read ⟨true, noHints, []⟩ 1 "IntProperty" true none
    ⟨[5, 0, 0, 0, 0, 0, 0, 0] ++ y, 3, []⟩).1 = .err (.invalidValueSize 4 5 11) := by
  have h : (Property.read ⟨true, noHints, []⟩ 1 "IntProperty" true none
      ⟨[5, 0, 0, 0, 0, 0, 0, 0, 1, 2], 3, []⟩).1 = .err (.invalidValueSize 4 5 11) :=
    eq_bad (by decide +kernel)
  have hp : (Property.read ⟨true, noHints, []⟩ 1 "IntProperty" true none
      ⟨[5, 0, 0, 0, 0, 0, 0, 0, 1, 2], 3, []⟩).2.pos = 11 := by decide +kernel
  have := C85_property ⟨true, noHints, []⟩ 1 "IntProperty" true none
    ⟨[5, 0, 0, 0, 0, 0, 0, 0, 1, 2], 3, []⟩ _ _ (Prod.eta _).symm (by rw [h]; simp) y
  rw [hp] at this
  exact (congrArg Prod.fst this).trans h

/-- **C85** for files without container: what comes behind the bytes consumed is of no consequence. -/
theorem C85_file (z : Codec) (debug : Bool) (hints : String → Option String) (start : Nat)
    (data y : Bytes) (h : GvasFile.read z debug .default hints start data ≠ .err .eof) :
    GvasFile.read z debug .default hints start
        (data.take (readData debug hints data).2.pos ++ y) =
      GvasFile.read z debug .default hints start data := by
  have hr : (readData debug hints data).1 ≠ .err .eof := by
    intro h'
    simp only [GvasFile.read, h'] at h
    exact h rfl
  have := C85_no_lookahead debug hints data _ _ (Prod.eta _).symm hr y
  simp only [GvasFile.read, this]

/-- A save with a wrong length, and what reading it comes to. -/
private def wrongLength : Bytes :=
  saveBytes (ascii "a" ++ ascii "StrProperty" ++ [5, 0, 0, 0, 0, 0, 0, 0, 0] ++ ascii "b")

/-- The length is reported as soon as the property was read: 86 bytes decide (80 up to the body,
which has 6, and none of what follows). -/
example (k : Nat) : (readData true noHints (wrongLength.take k)).1 =
    if k < 86 then .err .eof else .err (.invalidValueSize 5 6 80) := by
  have h : (readData true noHints wrongLength).1 = .err (.invalidValueSize 5 6 80) :=
    eq_bad (by decide +kernel)
  have hp : (readData true noHints wrongLength).2.pos = 86 := by decide +kernel
  rw [C85_threshold true noHints wrongLength _ _ (Prod.eta _).symm (by rw [h]; simp) k, hp, h]

/-- Anything may follow. -/
example (y : Bytes) : (readData true noHints (wrongLength.take 86 ++ y)).1 =
    .err (.invalidValueSize 5 6 80) := by
  have h : (readData true noHints wrongLength).1 = .err (.invalidValueSize 5 6 80) :=
    eq_bad (by decide +kernel)
  have hp : (readData true noHints wrongLength).2.pos = 86 := by decide +kernel
  have := C85_no_lookahead true noHints wrongLength _ _ (Prod.eta _).symm (by rw [h]; simp) y
  rw [hp] at this
  rw [this, h]

example (z : Codec) (y : Bytes) : GvasFile.read z true .default noHints 7 (wrongLength.take 86 ++ y) =
    .err (.invalidValueSize 5 6 80) := by
  have h : (readData true noHints wrongLength).1 = .err (.invalidValueSize 5 6 80) :=
    eq_bad (by decide +kernel)
  have hp : (readData true noHints wrongLength).2.pos = 86 := by decide +kernel
  have hf : GvasFile.read z true .default noHints 7 wrongLength =
      .err (.invalidValueSize 5 6 80) := by
    simp only [GvasFile.read, h]; rfl
  have := C85_file z true noHints 7 wrongLength y (by rw [hf]; simp)
  rw [hp, hf] at this
  exact this

end Gvas
