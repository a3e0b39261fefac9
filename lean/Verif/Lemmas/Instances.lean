import Verif.Lemmas.Closed
import Verif.Lemmas.Inv

/-! # What all readers have in common: instances of `Closed` -/

namespace Gvas

theorem R.bind_run {α β : Type} (m : R α) (f : α → R β) (s : RS) : R.bind m f s =
    match m s with
    | (.ok a, s') => f a s'
    | (.bad e, s') => (.bad e, s') := rfl

/-! ## Stack, consumption, appended input -/

/-- From state `s`, the reader leaves the stack alone, consumes a prefix of the input (at least
`d` bytes when it succeeds), and notices appended input only by running into the end. -/
structure GoodAt {α : Type} (d : Nat) (m : R α) (s : RS) : Prop where
  stack : (m s).2.stack = s.stack
  consumes : ∃ pre, s.rest = pre ++ (m s).2.rest ∧ (m s).2.pos = s.pos + pre.length ∧
    ∀ a, (m s).1 = .ok a → d ≤ pre.length
  append : ∀ y, (m s).1 ≠ .err .eof → m { s with rest := s.rest ++ y } =
    ((m s).1, { (m s).2 with rest := (m s).2.rest ++ y })

theorem GoodAt.still {α : Type} {d : Nat} {m : R α} (r : Res α) (hm : ∀ s, m s = (r, s))
    (hr : ∀ a, r = .ok a → d = 0) (s : RS) : GoodAt d m s where
  stack := by rw [hm]
  consumes := ⟨[], by rw [hm]; rfl, by rw [hm]; rfl, fun a h => by
    rw [hm] at h; exact Nat.le_of_eq (hr a h)⟩
  append y _ := by rw [hm, hm]

theorem GoodAt.bind {α β : Type} {d d' K : Nat} {m : R α} {f : α → R β} {s : RS} (hs : K ≤ s.pos)
    (h : GoodAt d m s) (h' : ∀ a s, K + d ≤ s.pos → GoodAt d' (f a) s) :
    GoodAt (d + d') (R.bind m f) s := by
  obtain ⟨h0, ⟨pre, h1, h2, h3⟩, h4⟩ := h
  match hm : m s with
  | (.ok a, s') =>
    rw [hm] at h0 h1 h2 h3 h4
    have hr : R.bind m f s = f a s' := by rw [R.bind_run, hm]
    have hp := h3 a rfl
    simp only at h0 h1 h2
    obtain ⟨g0, ⟨pre', g1, g2, g3⟩, g4⟩ := h' a s' (by omega)
    refine ⟨by rw [hr, g0, h0], ⟨pre ++ pre', ?_, ?_, ?_⟩, ?_⟩
    · rw [hr, List.append_assoc, ← g1, h1]
    · rw [hr, g2, List.length_append]; omega
    · rw [hr]
      intro b hb
      have := g3 b hb
      rw [List.length_append]; omega
    · intro y hne
      rw [hr] at hne ⊢
      rw [R.bind_run, h4 y (by simp)]
      exact g4 y hne
  | (.bad e, s') =>
    rw [hm] at h0 h1 h2 h3 h4
    have hr : R.bind m f s = (.bad e, s') := by rw [R.bind_run, hm]
    refine ⟨by rw [hr]; exact h0, ⟨pre, by rw [hr]; exact h1, by rw [hr]; exact h2,
      by rw [hr]; simp⟩, ?_⟩
    intro y hne
    rw [hr] at hne ⊢
    rw [R.bind_run, h4 y (by simpa using hne)]

theorem R.take_run (n : Nat) (s : RS) : R.take n s = if n ≤ s.rest.length then
    (.ok (s.rest.take n), { s with rest := s.rest.drop n, pos := s.pos + n })
  else
    (.bad (.err .eof), { s with rest := [], pos := s.pos + s.rest.length }) := rfl

theorem GoodAt.take (n : Nat) (s : RS) : GoodAt n (R.take n) s := by
  refine ⟨?_, ?_, ?_⟩
  · rw [R.take_run]; split <;> rfl
  · rw [R.take_run]
    split
    · exact ⟨s.rest.take n, by simp, by simp; omega, by simp; omega⟩
    · exact ⟨s.rest, by simp, by simp, by simp⟩
  · intro y hne
    rw [R.take_run] at hne
    rw [R.take_run, R.take_run]
    by_cases h : n ≤ s.rest.length
    · simp only [if_pos h, List.length_append, if_pos (Nat.le_trans h (Nat.le_add_right _ _))]
      rw [List.take_append_of_le_length h, List.drop_append_of_le_length h]
    · simp [if_neg h] at hne

theorem GoodAt.withEntry {α : Type} {d : Nat} {m : R α} (nm : String) (s : RS)
    (h : GoodAt d m { s with stack := s.stack ++ [nm] }) : GoodAt d (R.withEntry nm m) s := by
  obtain ⟨h0, ⟨pre, h1, h2, h3⟩, h4⟩ := h
  refine ⟨?_, ⟨pre, h1, h2, h3⟩, ?_⟩
  · simp only [R.withEntry] at h0 ⊢
    rw [h0]; simp
  · intro y hne
    have := h4 y hne
    simp only [R.withEntry] at hne ⊢
    rw [this]

theorem good_closed (debug : Bool) (hints : String → Option String) :
    Closed (fun _ => True) debug debug hints hints
      (fun _ K d m _ => ∀ s, K ≤ s.pos → GoodAt d m s) where
  okMono _ h := h
  weaken hk hd h s hs := by
    obtain ⟨h0, ⟨pre, h1, h2, h3⟩, h4⟩ := h s (Nat.le_trans hk hs)
    exact ⟨h0, ⟨pre, h1, h2, fun a ha => Nat.le_trans hd (h3 a ha)⟩, h4⟩
  pure a s _ := GoodAt.still (.ok a) (fun _ => rfl) (fun _ _ => rfl) s
  bind h h' s hs := GoodAt.bind hs (h s hs) h'
  position h s hs := by
    obtain ⟨h0, h1, h4⟩ := h s.pos hs s (Nat.le_refl _)
    exact ⟨h0, h1, fun y hne => h4 y hne⟩
  getStack h s hs := by
    obtain ⟨h0, h1, h4⟩ := h s.stack s hs
    exact ⟨h0, h1, fun y hne => h4 y hne⟩
  fail _ s _ := GoodAt.still _ (fun _ => rfl) (by simp) s
  panic _ s _ := GoodAt.still _ (fun _ => rfl) (by simp) s
  fuel _ _ s _ := GoodAt.still _ (fun _ => rfl) (by simp) s
  take n s _ := GoodAt.take n s
  withEntry nm h s hs := GoodAt.withEntry nm s (h _ hs)
  hint _ _ h := h
  missing _ s _ := ⟨rfl, ⟨[], rfl, rfl, by simp [R.fail, R.bind, R.position]⟩, fun _ _ => rfl⟩
  supplied _ _ _ _ h h' := by rw [h] at h'; simp at h'
  debugRel := .inl rfl
  debugPanic _ _ h h' := by rw [h] at h'; simp at h'

/-! ## Fuel -/

/-- On an input of which `N` bytes exist in total, the reader does not run out of fuel, and
advances by at least `d` on success. -/
structure FuelAt {α : Type} (N d : Nat) (m : R α) (s : RS) : Prop where
  fuel : (m s).1 ≠ .bad .fuel
  advance : ∀ a, (m s).1 = .ok a → s.pos + d ≤ (m s).2.pos ∧
    (m s).2.pos + (m s).2.rest.length = N

theorem FuelAt.bind {α β : Type} {N d d' K : Nat} {m : R α} {f : α → R β} {s : RS}
    (hs : K ≤ s.pos) (h : FuelAt N d m s)
    (h' : ∀ a s, K + d ≤ s.pos → s.pos + s.rest.length = N → FuelAt N d' (f a) s) :
    FuelAt N (d + d') (R.bind m f) s := by
  obtain ⟨h1, h2⟩ := h
  match hm : m s with
  | (.ok a, s') =>
    rw [hm] at h1 h2
    have hr : R.bind m f s = f a s' := by rw [R.bind_run, hm]
    obtain ⟨hp, hN⟩ := h2 a rfl
    simp only at hp hN
    obtain ⟨g1, g2⟩ := h' a s' (by omega) hN
    refine ⟨by rw [hr]; exact g1, ?_⟩
    rw [hr]
    intro b hb
    obtain ⟨hp', hN'⟩ := g2 b hb
    exact ⟨by omega, hN'⟩
  | (.bad e, s') =>
    rw [hm] at h1
    have hr : R.bind m f s = (.bad e, s') := by rw [R.bind_run, hm]
    exact ⟨by rw [hr]; simpa using h1, by rw [hr]; simp⟩

theorem fuel_closed (N : Nat) (debug debug' : Bool) (hints hints' : String → Option String)
    (hd : debug = debug' ∨ (debug = true ∧ debug' = false))
    (hh : ∀ p h, hints p = some h → hints' p = some h) :
    Closed (fun K => N < K) debug debug' hints hints'
      (fun _ K d m _ => ∀ s, K ≤ s.pos → s.pos + s.rest.length = N → FuelAt N d m s) where
  okMono h h' := by omega
  weaken hk hd h s hs hN := by
    obtain ⟨h1, h2⟩ := h s (Nat.le_trans hk hs) hN
    exact ⟨h1, fun a ha => ⟨by have := (h2 a ha).1; omega, (h2 a ha).2⟩⟩
  pure a s _ hN := ⟨by simp [R.pure], by simp [R.pure, hN]⟩
  bind h h' s hs hN := FuelAt.bind hs (h s hs hN) h'
  position h s hs hN := by
    obtain ⟨h1, h2⟩ := h s.pos hs s (Nat.le_refl _) hN
    exact ⟨h1, h2⟩
  getStack h s hs hN := by
    obtain ⟨h1, h2⟩ := h s.stack s hs hN
    exact ⟨h1, h2⟩
  fail _ s _ _ := ⟨by simp [R.fail], by simp [R.fail]⟩
  panic _ s _ _ := ⟨by simp [R.panic], by simp [R.panic]⟩
  fuel _ h s hs hN := by omega
  take n s _ hN := by
    refine ⟨by rw [R.take_run]; split <;> simp, ?_⟩
    rw [R.take_run]
    split
    · intro a _
      simp only [List.length_drop]
      omega
    · simp
  withEntry nm h s hs hN := by
    obtain ⟨h1, h2⟩ := h { s with stack := s.stack ++ [nm] } hs hN
    exact ⟨h1, h2⟩
  hint := hh
  missing _ s _ _ := ⟨by simp [R.fail, R.bind, R.position], by simp [R.fail, R.bind, R.position]⟩
  supplied _ _ _ _ _ _ s _ _ := ⟨by simp [R.fail, R.bind, R.position], by simp [R.fail, R.bind, R.position]⟩
  debugRel := hd
  debugPanic _ _ _ _ s _ _ := ⟨by simp [R.panic], by simp [R.panic]⟩

/-! ## Two runs that agree up to certain failures -/

/-- `m` fails in the way `E` describes, or the two readers do the same; success advances by at
least `d`. -/
structure SimAt {α : Type} (E : Fail → Prop) (d : Nat) (m m' : R α) (s : RS) : Prop where
  same : (∃ e, (m s).1 = .bad e ∧ E e) ∨ m s = m' s
  advance : ∀ a, (m s).1 = .ok a → s.pos + d ≤ (m s).2.pos

theorem SimAt.bind {α β : Type} {E : Fail → Prop} {K d d' : Nat} {m m' : R α} {f f' : α → R β}
    {s : RS} (hs : K ≤ s.pos) (h : SimAt E d m m' s)
    (h' : ∀ a s, K + d ≤ s.pos → SimAt E d' (f a) (f' a) s) :
    SimAt E (d + d') (R.bind m f) (R.bind m' f') s := by
  obtain ⟨h, ha⟩ := h
  match hm : m s with
  | (.ok a, s') =>
    rw [hm] at h ha
    have hp := ha a rfl
    simp only at hp
    have e1 : R.bind m f s = f a s' := by rw [R.bind_run, hm]
    rcases h with ⟨e, h1, _⟩ | h
    · simp at h1
    · have e2 : R.bind m' f' s = f' a s' := by rw [R.bind_run, ← h]
      obtain ⟨g1, g2⟩ := h' a s' (by omega)
      refine ⟨by rw [e1, e2]; exact g1, ?_⟩
      rw [e1]
      intro b hb
      have := g2 b hb
      omega
  | (.bad e, s') =>
    rw [hm] at h
    have e1 : R.bind m f s = (.bad e, s') := by rw [R.bind_run, hm]
    refine ⟨?_, by rw [e1]; simp⟩
    rcases h with ⟨e', h1, h2⟩ | h
    · simp at h1
      exact .inl ⟨e, by rw [e1], by rw [h1]; exact h2⟩
    · exact .inr (by rw [e1, R.bind_run, ← h])

theorem sim_closed (E : Fail → Prop) (debug debug' : Bool) (hints hints' : String → Option String)
    (hd : debug = debug' ∨ (debug = true ∧ debug' = false))
    (hh : ∀ p h, hints p = some h → hints' p = some h) (hf : E .fuel)
    (hp : debug ≠ debug' → ∀ msg ∈ Spec.panicMessages debug, E (.panic msg))
    (hm : ∀ path pos, hints path = none → hints' path ≠ none →
      E (.err (.missingHint "StructProperty" path pos))) :
    Closed (fun _ => True) debug debug' hints hints'
      (fun _ K d m m' => ∀ s, K ≤ s.pos → SimAt E d m m' s) where
  okMono _ h := h
  weaken hk hd h s hs := by
    obtain ⟨h1, h2⟩ := h s (Nat.le_trans hk hs)
    exact ⟨h1, fun a ha => by have := h2 a ha; omega⟩
  pure a s _ := ⟨.inr rfl, fun _ _ => Nat.le_refl _⟩
  bind h h' s hs := SimAt.bind hs (h s hs) h'
  position h s hs := by
    obtain ⟨h1, h2⟩ := h s.pos hs s (Nat.le_refl _)
    exact ⟨h1, h2⟩
  getStack h s hs := by
    obtain ⟨h1, h2⟩ := h s.stack s hs
    exact ⟨h1, h2⟩
  fail _ s _ := ⟨.inr rfl, by simp [R.fail]⟩
  panic _ s _ := ⟨.inr rfl, by simp [R.panic]⟩
  fuel _ _ s _ := ⟨.inl ⟨_, rfl, hf⟩, by simp [R.outOfFuel]⟩
  take n s _ := ⟨.inr rfl, by rw [R.take_run]; split <;> simp⟩
  withEntry nm h s hs := by
    obtain ⟨h1, h2⟩ := h { s with stack := s.stack ++ [nm] } hs
    refine ⟨?_, h2⟩
    rcases h1 with ⟨e, h1, h2⟩ | h
    · exact .inl ⟨e, h1, h2⟩
    · exact .inr (by simp only [R.withEntry, h])
  hint := hh
  missing _ s _ := ⟨.inr rfl, by simp [R.fail, R.bind, R.position]⟩
  supplied _ _ _ _ h h' s _ := ⟨.inl ⟨_, rfl, hm _ _ h (by rw [h']; simp)⟩, by simp [R.fail, R.bind, R.position]⟩
  debugRel := hd
  debugPanic _ hmem h h' s _ :=
    ⟨.inl ⟨_, rfl, hp (by rw [h, h']; simp) _ hmem⟩, by simp [R.panic]⟩

/-! ## What failures can be -/

/-- A failure with its reader state: positions in errors are not beyond the current position,
missing hints are missing, no other errors than those of readers, panics are known. -/
def FailOK (debug : Bool) (hints : String → Option String) : Fail → RS → Prop
  | .err e, s => (∀ p, Spec.errPos e = some p → p ≤ s.pos) ∧
      (∀ a b c, e = .missingHint a b c → a = "StructProperty" ∧ hints b = none) ∧
      (∀ msg, e ≠ .serializeInvalidValue msg) ∧ e ≠ .io
  | .panic msg, _ => msg ∈ Spec.panicMessages debug
  | .fuel, _ => True

/-- Failures are as described, success advances by at least `d`. -/
structure FailsAt {α : Type} (debug : Bool) (hints : String → Option String) (d : Nat) (m : R α) (s : RS) :
    Prop where
  fails : ∀ f, (m s).1 = .bad f → FailOK debug hints f (m s).2
  advance : ∀ a, (m s).1 = .ok a → s.pos + d ≤ (m s).2.pos

theorem FailsAt.bind {α β : Type} {debug : Bool} {hints : String → Option String} {K d d' : Nat} {m : R α}
    {f : α → R β} {s : RS} (hs : K ≤ s.pos) (h : FailsAt debug hints d m s)
    (h' : ∀ a s, K + d ≤ s.pos → FailsAt debug hints d' (f a) s) :
    FailsAt debug hints (d + d') (R.bind m f) s := by
  obtain ⟨h, ha⟩ := h
  match hm : m s with
  | (.ok a, s') =>
    rw [hm] at h ha
    have hp := ha a rfl
    simp only at hp
    have e1 : R.bind m f s = f a s' := by rw [R.bind_run, hm]
    obtain ⟨g1, g2⟩ := h' a s' (by omega)
    refine ⟨by rw [e1]; exact g1, ?_⟩
    rw [e1]
    intro b hb
    have := g2 b hb
    omega
  | (.bad e, s') =>
    rw [hm] at h
    have e1 : R.bind m f s = (.bad e, s') := by rw [R.bind_run, hm]
    refine ⟨?_, by rw [e1]; simp⟩
    rw [e1]
    intro e' he
    simp at he
    exact he ▸ h e rfl

theorem fails_closed (debug : Bool) (hints : String → Option String) :
    Closed (fun _ => True) debug debug hints hints
      (fun _ K d m _ => ∀ s, K ≤ s.pos → FailsAt debug hints d m s) where
  okMono _ h := h
  weaken hk hd h s hs := by
    obtain ⟨h1, h2⟩ := h s (Nat.le_trans hk hs)
    exact ⟨h1, fun a ha => by have := h2 a ha; omega⟩
  pure a s _ := ⟨by simp [R.pure], fun _ _ => Nat.le_refl _⟩
  bind h h' s hs := FailsAt.bind hs (h s hs) h'
  position h s hs := by
    obtain ⟨h1, h2⟩ := h s.pos hs s (Nat.le_refl _)
    exact ⟨h1, h2⟩
  getStack h s hs := by
    obtain ⟨h1, h2⟩ := h s.stack s hs
    exact ⟨h1, h2⟩
  fail he s hs := ⟨by
    intro f hf
    simp [R.fail] at hf
    subst hf
    exact ⟨fun p hp => Nat.le_trans (he.1 p hp) hs, fun a b c h => absurd h (he.2.1 a b c),
      he.2.2⟩,
    by simp [R.fail]⟩
  panic hmem s _ := ⟨by
    intro f hf
    simp [R.panic] at hf
    subst hf
    exact hmem, by simp [R.panic]⟩
  fuel _ _ s _ := ⟨by
    intro f hf
    simp [R.outOfFuel] at hf
    subst hf
    trivial, by simp [R.outOfFuel]⟩
  take n s _ := by
    refine ⟨?_, by rw [R.take_run]; split <;> simp⟩
    intro f hf
    rw [R.take_run] at hf
    split at hf
    · simp at hf
    · simp at hf
      subst hf
      simp [FailOK, Spec.errPos]
  withEntry nm h s hs := by
    obtain ⟨h1, h2⟩ := h { s with stack := s.stack ++ [nm] } hs
    refine ⟨fun f hf => ?_, h2⟩
    have := h1 f hf
    cases f with
    | err e => exact this
    | panic msg => exact this
    | fuel => trivial
  hint _ _ h := h
  missing hh s hs := ⟨by
    intro f hf
    simp [R.fail, R.bind, R.position] at hf
    subst hf
    refine ⟨fun p hp' => ?_, fun a b c h => ?_, by simp⟩
    · simp [Spec.errPos] at hp'
      simp only [R.fail, R.bind, R.position]
      omega
    · simp at h
      exact ⟨h.1.symm, h.2.1 ▸ hh⟩, by simp [R.fail, R.bind, R.position]⟩
  supplied _ _ _ _ h h' := by rw [h] at h'; simp at h'
  debugRel := .inl rfl
  debugPanic _ _ h h' := by rw [h] at h'; simp at h'

/-! ## The readers of files -/

theorem readContents_good (debug : Bool) (hints : String → Option String) (n : Nat) (s : RS) :
    GoodAt 0 (readContents debug hints n) s :=
  (good_closed debug hints).contents (K := 0) (Nat.le_refl n) trivial s (Nat.zero_le _)

theorem property_good (env : Env) (n : Nat) (ty : String) (hdr : Bool) (o : Option UInt32) (s : RS) :
    GoodAt 0 (Property.read env n ty hdr o) s :=
  (good_closed env.debug env.hints).property (K := 0) env.cv (Nat.le_refl n) trivial ty hdr o s
    (Nat.zero_le _)

theorem readContents_fuel (debug : Bool) (hints : String → Option String) {n : Nat} {s : RS}
    (hn : s.rest.length < n) : (readContents debug hints n s).1 ≠ .bad .fuel :=
  ((fuel_closed (s.pos + s.rest.length) debug debug hints hints (.inl rfl)
    (fun _ _ h => h)).contents (K := s.pos) (Nat.le_refl n) (by omega) s (Nat.le_refl _) rfl).fuel

theorem property_fuel (env : Env) {n : Nat} {s : RS} (hn : s.rest.length < n) (ty : String)
    (hdr : Bool) (o : Option UInt32) : (Property.read env n ty hdr o s).1 ≠ .bad .fuel :=
  ((fuel_closed (s.pos + s.rest.length) env.debug env.debug env.hints env.hints (.inl rfl)
    (fun _ _ h => h)).property (K := s.pos) env.cv (Nat.le_refl n) (by omega) ty hdr o s
    (Nat.le_refl _) rfl).fuel

/-- More fuel changes nothing. -/
theorem readContents_more (debug : Bool) (hints : String → Option String) {n n' : Nat} {s : RS}
    (hn : s.rest.length < n) (hn' : n ≤ n') :
    readContents debug hints n s = readContents debug hints n' s := by
  rcases ((sim_closed (· = .fuel) debug debug hints hints (.inl rfl) (fun _ _ h => h) rfl
    (fun h => absurd rfl h) (fun _ _ h h' => absurd h h')).contents (K := 0) hn' trivial s
    (Nat.zero_le _)).same with ⟨e, h1, rfl⟩ | h
  · exact absurd h1 (readContents_fuel debug hints hn)
  · exact h

theorem property_more (env : Env) {n n' : Nat} {s : RS} (hn : s.rest.length < n) (hn' : n ≤ n')
    (ty : String) (hdr : Bool) (o : Option UInt32) :
    Property.read env n ty hdr o s = Property.read env n' ty hdr o s := by
  rcases ((sim_closed (· = .fuel) env.debug env.debug env.hints env.hints (.inl rfl)
    (fun _ _ h => h) rfl (fun h => absurd rfl h) (fun _ _ h h' => absurd h h')).property (K := 0)
    env.cv hn' trivial ty hdr o s (Nat.zero_le _)).same with ⟨e, h1, rfl⟩ | h
  · exact absurd h1 (property_fuel env hn ty hdr o)
  · exact h

end Gvas
