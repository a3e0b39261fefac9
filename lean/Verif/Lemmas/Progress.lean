import Verif.Lemmas.Instances

/-! # Where missing hints are reported -/

namespace Gvas

/-- On an input of which `N` bytes exist in total: missing hints are reported at least `e` bytes
after the start, success advances by at least `d`. -/
structure LateAt {α : Type} (N e d : Nat) (m : R α) (s : RS) : Prop where
  later : ∀ ty path p, (m s).1 = .err (.missingHint ty path p) → s.pos + e ≤ p
  advance : ∀ a, (m s).1 = .ok a → s.pos + d ≤ (m s).2.pos ∧
    (m s).2.pos + (m s).2.rest.length = N

theorem LateAt.bind {α β : Type} {N e d d' : Nat} {m : R α} {f : α → R β} {s : RS}
    (h : LateAt N e d m s)
    (h' : ∀ a s', (m s).1 = .ok a → s.pos + d ≤ s'.pos → s'.pos + s'.rest.length = N →
      LateAt N (e - d) d' (f a) s') :
    LateAt N e (d + d') (R.bind m f) s := by
  obtain ⟨h1, h2⟩ := h
  match hm : m s with
  | (.ok a, s') =>
    rw [hm] at h1 h2 h'
    have hr : R.bind m f s = f a s' := by rw [R.bind_run, hm]
    obtain ⟨hp, hN⟩ := h2 a rfl
    simp only at hp hN
    obtain ⟨g1, g2⟩ := h' a s' rfl (by omega) hN
    refine ⟨?_, ?_⟩
    · rw [hr]
      intro ty path p hb
      have := g1 ty path p hb
      omega
    rw [hr]
    intro b hb
    obtain ⟨hp', hN'⟩ := g2 b hb
    exact ⟨by omega, hN'⟩
  | (.bad g, s') =>
    rw [hm] at h1
    have hr : R.bind m f s = (.bad g, s') := by rw [R.bind_run, hm]
    refine ⟨?_, by rw [hr]; simp⟩
    rw [hr]
    intro ty path p hb
    exact h1 ty path p (by simpa using hb)

/-- The relation for `Closed`. -/
def LateJ (N : Nat) (α : Type) (K d : Nat) (_ m : R α) : Prop :=
  ∀ s, K ≤ s.pos → s.pos + s.rest.length = N → LateAt N 0 d m s

theorem late_closed (N : Nat) (debug : Bool) (hints : String → Option String) :
    Closed (fun K => N < K) debug debug hints hints (LateJ N) where
  okMono h h' := by omega
  weaken hk hd h s hs hN := by
    obtain ⟨h1, h2⟩ := h s (Nat.le_trans hk hs) hN
    exact ⟨h1, fun a ha => ⟨by have := (h2 a ha).1; omega, (h2 a ha).2⟩⟩
  pure a s _ hN := ⟨by simp [R.pure], by simp [R.pure, hN]⟩
  bind h h' s hs hN := LateAt.bind (h s hs hN) fun a s' _ hp hN' => by
    rw [Nat.zero_sub]
    exact h' a s' (by omega) hN'
  position h s hs hN := by
    obtain ⟨h1, h2⟩ := h s.pos hs s (Nat.le_refl _) hN
    exact ⟨h1, h2⟩
  getStack h s hs hN := by
    obtain ⟨h1, h2⟩ := h s.stack s hs hN
    exact ⟨h1, h2⟩
  fail he s _ _ := ⟨by
    intro ty path p hb
    simp [R.fail] at hb
    exact absurd hb (he.2.1 _ _ _), by simp [R.fail]⟩
  panic _ s _ _ := ⟨by simp [R.panic], by simp [R.panic]⟩
  fuel _ h s hs hN := by omega
  take n s _ hN := by
    refine ⟨by rw [R.take_run]; split <;> simp, ?_⟩
    rw [R.take_run]
    split
    · intro a _
      simp only [List.length_drop]
      omega
    · simp
  withEntry nm h s hs hN := by
    obtain ⟨h1, h2⟩ := h { s with stack := s.stack ++ [nm] } hs hN
    exact ⟨h1, h2⟩
  hint _ _ h := h
  missing _ s _ _ := ⟨by
    intro ty path p hb
    simp [R.fail, R.bind, R.position] at hb
    omega, by simp [R.fail, R.bind, R.position]⟩
  supplied _ _ _ _ h h' := by rw [h] at h'; simp at h'
  debugRel := .inl rfl
  debugPanic _ _ h h' := by rw [h] at h'; simp at h'

/-- A reader with every hint at hand reports no missing hint. -/
theorem FailsAt.none {α : Type} {debug : Bool} {d : Nat} {m : R α} {s : RS}
    (h : FailsAt debug (fun _ => some "") d m s) (ty path : String) (p : Nat) :
    (m s).1 ≠ .err (.missingHint ty path p) := by
  intro hb
  have := ((h.fails _ hb).2.1 _ _ _ rfl).2
  simp at this

/-- Built-in structs take at least four bytes. -/
theorem builtin_four (N : Nat) (cv : List (Guid × UInt32)) (k : StructKind) (s : RS)
    (hN : s.pos + s.rest.length = N) : LateAt N 4 4 (readBuiltin cv k) s :=
  ⟨fun ty path p h => absurd h (FailsAt.none ((fails_closed true (fun _ => some "")).builtin
      (K := 0) cv k s (Nat.zero_le _)) ty path p),
    ((late_closed N true (fun _ => none)).builtin (K := s.pos) cv k s (Nat.le_refl _) hN).advance⟩

/-- The body of a struct takes at least four bytes, and reports missing hints only after them. -/
theorem structBody_four {N K : Nat} {debug : Bool} {hints : String → Option String}
    {rec : String → Bool → Option UInt32 → R Property} (cv : List (Guid × UInt32))
    (hr : Closed.RecOK (LateJ N) K rec rec) {n : Nat} (hn : N < K + n) (ty : String) (s : RS)
    (hs : K ≤ s.pos) (hN : s.pos + s.rest.length = N) :
    LateAt N 4 4 (readStructBody ⟨debug, hints, cv⟩ n rec ty) s := by
  have C := late_closed N debug hints
  unfold readStructBody
  split
  · exact builtin_four N cv _ s hN
  · refine LateAt.bind (d := 4) (d' := 0) ?_ fun a s' _ _ hN' => C.ret _ s'
      (Nat.le_refl _) hN'
    obtain ⟨k, rfl⟩ : ∃ k, n = k + 1 := ⟨n - 1, by omega⟩
    unfold readCustom
    refine LateAt.bind (d := 4) (d' := 0) ?_ fun name s' _ hp hN' => ?_
    · have h0 := FailsAt.none ((fails_closed true (fun _ => some "")).string (K := 0) s (Nat.zero_le _))
      exact ⟨fun ty path p h => absurd h (h0 ty path p), (C.string s (Nat.le_refl _) hN).advance⟩
    · refine (?_ : LateJ N _ (K + 4) 0 _ _) s' (by omega) hN'
      split
      · exact C.ret _
      · exact C.zero (C.next C.string fun ty => C.next (C.withEntry _ (C.next (hr _ _ _ _ (by omega))
          fun p => C.insertProperty _ _ _)) fun fs' => C.custom (hr.mono (by omega))
            (Nat.le_refl _) (by omega) _)

/-- Either the two readers do the same, or the first misses a hint at some position that the
second has and the second reads four bytes there before it asks for another. -/
structure StepAt {α : Type} (N d : Nat) (m m' : R α)
    (s : RS) : Prop where
  same : m s = m' s ∨ ∃ path p, (m s).1 = .err (.missingHint "StructProperty" path p) ∧
    (∀ a, (m' s).1 = .ok a → p + 4 ≤ (m' s).2.pos) ∧
    ∀ ty path' p', (m' s).1 = .err (.missingHint ty path' p') → p + 4 ≤ p'
  late : LateAt N 0 d m' s

theorem StepAt.bind {α β : Type} {N d d' K : Nat}
    {m m' : R α} {f f' : α → R β} {s : RS} (hs : K ≤ s.pos) (h : StepAt N d m m' s)
    (h' : ∀ a s, K + d ≤ s.pos → s.pos + s.rest.length = N → StepAt N d' (f a) (f' a) s) :
    StepAt N (d + d') (R.bind m f) (R.bind m' f') s := by
  obtain ⟨h1, h2⟩ := h
  refine ⟨?_, LateAt.bind h2 fun a s' _ hp hN' => by
    rw [Nat.zero_sub]
    exact (h' a s' (by omega) hN').late⟩
  rcases h1 with h1 | ⟨path, p, h1, g1, g2⟩
  · rw [R.bind_run, R.bind_run, h1]
    match hm : m' s with
    | (.ok a, s') =>
      obtain ⟨hp, hN⟩ := h2.advance a (by rw [hm])
      rw [hm] at hp hN
      exact (h' a s' (by simp only at hp; omega) hN).same
    | (.bad e, s') => exact .inl rfl
  · refine .inr ⟨path, p, ?_, ?_⟩
    · rw [R.bind_run]
      match hm : m s with
      | (.ok a, s') => rw [hm] at h1; simp at h1
      | (.bad e, s') => rw [hm] at h1; simpa using h1
    · rw [R.bind_run]
      match hm : m' s with
      | (.ok a, s') =>
        obtain ⟨hp, hN⟩ := h2.advance a (by rw [hm])
        have hg := g1 a (by rw [hm])
        rw [hm] at hp hN hg
        simp only at hp hN hg
        have hl := (h' a s' (by omega) hN).late
        refine ⟨fun b hb => ?_, fun ty path' p' hb => ?_⟩
        · have := (hl.advance b hb).1; simp only; omega
        · have := hl.later _ _ _ hb; omega
      | (.bad e, s') =>
        refine ⟨by simp, fun ty path' p' hb => g2 ty path' p' (by rw [hm]; simpa using hb)⟩

theorem step_closed (N : Nat) (debug : Bool) (hints hints' : String → Option String)
    (hh : ∀ p h, hints p = some h → hints' p = some h) :
    Closed (fun K => N < K) debug debug hints hints'
      (fun _ K d m m' => ∀ s, K ≤ s.pos → s.pos + s.rest.length = N →
        StepAt N d m m' s) where
  okMono h h' := by omega
  weaken hk hd h s hs hN := by
    obtain ⟨h1, h2, h3⟩ := h s (Nat.le_trans hk hs) hN
    exact ⟨h1, h2, fun a ha => ⟨by have := (h3 a ha).1; omega, (h3 a ha).2⟩⟩
  pure a s hs hN := ⟨.inl rfl, (late_closed N debug hints').pure a s hs hN⟩
  bind h h' s hs hN := StepAt.bind hs (h s hs hN) h'
  position h s hs hN := by
    obtain ⟨h1, h2, h3⟩ := h s.pos hs s (Nat.le_refl _) hN
    exact ⟨h1, h2, h3⟩
  getStack h s hs hN := by
    obtain ⟨h1, h2, h3⟩ := h s.stack s hs hN
    exact ⟨h1, h2, h3⟩
  fail he s hs hN := ⟨.inl rfl, (late_closed N debug hints').fail he s hs hN⟩
  panic hp s hs hN := ⟨.inl rfl, (late_closed N debug hints').panic hp s hs hN⟩
  fuel _ h s hs hN := by omega
  take n s hs hN := ⟨.inl rfl, (late_closed N debug hints').take n s hs hN⟩
  withEntry nm h s hs hN := by
    obtain ⟨h1, h2, h3⟩ := h { s with stack := s.stack ++ [nm] } hs hN
    refine ⟨?_, h2, h3⟩
    rcases h1 with h1 | h1
    · exact .inl (by simp only [R.withEntry, h1])
    · exact .inr h1
  hint := hh
  missing h s hs hN := by
    refine ⟨.inl rfl, ?_, by simp [R.fail, R.bind, R.position]⟩
    intro ty path p hb
    simp [R.fail, R.bind, R.position] at hb
    omega
  supplied {K _ hint _ n' _ rec'} cv hr hn hok h h' s hs hN := by
    have hl : LateAt N 4 4 (readStructBody ⟨debug, hints', cv⟩ n' rec' hint) s := structBody_four cv
      (fun K' ty hdr o hK s hs hN => (hr K' ty hdr o hK s hs hN).late) (by omega) _ s hs hN
    have hl' := LateAt.bind (d' := 0) hl
      (f := fun v => R.pure (Property.structValue v)) fun a s' _ _ hN' =>
        (late_closed N debug hints').pure _ s' (Nat.le_refl _) hN'
    refine ⟨.inr ⟨_, s.pos, rfl, fun a ha => (hl'.advance a ha).1, fun ty p' q hb =>
      hl'.later _ _ _ hb⟩, fun ty p' q hb => ?_, fun a ha => ⟨?_, (hl'.advance a ha).2⟩⟩
    · exact Nat.le_trans (Nat.le_add_right _ 4) (hl'.later _ _ _ hb)
    · exact Nat.le_trans (Nat.le_add_right _ 4) (hl'.advance a ha).1
  debugRel := .inl rfl
  debugPanic _ _ h h' := by rw [h] at h'; simp at h'

end Gvas
