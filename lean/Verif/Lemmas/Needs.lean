import Verif.Lemmas.Instances

/-! # Readers look at no byte beyond those they consume: an instance of `Closed` -/

namespace Gvas

/-- From state `s`, the reader is as `GoodAt` says; and where it runs into the end of the input
but would not with more input, it would consume more than there was. -/
structure NeedsAt {α : Type} (d : Nat) (m : R α) (s : RS) : Prop extends GoodAt d m s where
  needs : (m s).1 = .err .eof → ∀ y, (m { s with rest := s.rest ++ y }).1 ≠ .err .eof →
    s.pos + s.rest.length < (m { s with rest := s.rest ++ y }).2.pos

theorem NeedsAt.still {α : Type} {d : Nat} {m : R α} (r : Res α) (hm : ∀ s, m s = (r, s))
    (hr : ∀ a, r = .ok a → d = 0) (s : RS) : NeedsAt d m s where
  toGoodAt := GoodAt.still r hm hr s
  needs h y hne := by rw [hm] at h hne; exact absurd h hne

theorem NeedsAt.bind {α β : Type} {d d' K : Nat} {m : R α} {f : α → R β} {s : RS} (hs : K ≤ s.pos)
    (h : ∀ s, K ≤ s.pos → NeedsAt d m s) (h' : ∀ a s, K + d ≤ s.pos → NeedsAt d' (f a) s) :
    NeedsAt (d + d') (R.bind m f) s where
  toGoodAt := GoodAt.bind hs (h s hs).toGoodAt fun a s hs => (h' a s hs).toGoodAt
  needs := by
    intro he y hne
    have hg := h s hs
    have hg' := h { s with rest := s.rest ++ y } hs
    rw [R.bind_run] at he hne ⊢
    match hm : m s with
    | (.ok a, s') =>
      have ha := hg.append y (by simp [hm])
      rw [hm] at he ha
      rw [ha] at hne ⊢
      simp only at he hne ⊢
      obtain ⟨pre, h1, h2, h3⟩ := hg.consumes
      rw [hm] at h1 h2 h3
      have := h3 a rfl
      simp only at h1 h2
      have := (h' a s' (by omega)).needs he y hne
      have hl := congrArg List.length h1
      rw [List.length_append] at hl
      omega
    | (.bad e, s') =>
      rw [hm] at he
      simp only at he
      cases he
      match hy : m { s with rest := s.rest ++ y } with
      | (.ok b, s2) =>
        have hn := hg.needs (by rw [hm]) y (by simp [hy])
        obtain ⟨pre, h1, h2, h3⟩ := hg'.consumes
        rw [hy] at hn h1 h2 h3
        have := h3 b rfl
        simp only at hn h2 ⊢
        obtain ⟨pre', g1, g2, -⟩ := (h' b s2 (by omega)).consumes
        omega
      | (.bad e', s2) =>
        rw [hy] at hne
        have hn := hg.needs (by rw [hm]) y (by simpa [hy] using hne)
        rw [hy] at hn
        exact hn

theorem NeedsAt.take (n : Nat) (s : RS) : NeedsAt n (R.take n) s where
  toGoodAt := GoodAt.take n s
  needs := by
    intro he y hne
    rw [R.take_run] at he hne ⊢
    split at he
    · cases he
    · split at hne
      · rename_i h
        rw [if_pos h]
        simp only
        omega
      · exact absurd rfl hne

theorem NeedsAt.withEntry {α : Type} {d : Nat} {m : R α} (nm : String) (s : RS)
    (h : NeedsAt d m { s with stack := s.stack ++ [nm] }) : NeedsAt d (R.withEntry nm m) s where
  toGoodAt := GoodAt.withEntry nm s h.toGoodAt
  needs he y hne := h.needs he y hne

theorem needs_closed (debug : Bool) (hints : String → Option String) :
    Closed (fun _ => True) debug debug hints hints
      (fun _ K d m _ => ∀ s, K ≤ s.pos → NeedsAt d m s) where
  okMono _ h := h
  weaken hk hd h s hs := by
    have g := h s (Nat.le_trans hk hs)
    obtain ⟨pre, h1, h2, h3⟩ := g.consumes
    exact { g with consumes := ⟨pre, h1, h2, fun a ha => Nat.le_trans hd (h3 a ha)⟩ }
  pure a s _ := NeedsAt.still (.ok a) (fun _ => rfl) (fun _ _ => rfl) s
  bind h h' s hs := NeedsAt.bind hs h h'
  position h s hs :=
    have g := h s.pos hs s (Nat.le_refl _)
    { stack := g.stack, consumes := g.consumes, append := fun y hne => g.append y hne,
      needs := fun he y hne => g.needs he y hne }
  getStack h s hs :=
    have g := h s.stack s hs
    { stack := g.stack, consumes := g.consumes, append := fun y hne => g.append y hne,
      needs := fun he y hne => g.needs he y hne }
  fail _ s _ := NeedsAt.still _ (fun _ => rfl) (by simp) s
  panic _ s _ := NeedsAt.still _ (fun _ => rfl) (by simp) s
  fuel _ _ s _ := NeedsAt.still _ (fun _ => rfl) (by simp) s
  take n s _ := NeedsAt.take n s
  withEntry nm h s hs := NeedsAt.withEntry nm s (h _ hs)
  hint _ _ h := h
  missing _ s _ :=
    { stack := rfl, consumes := ⟨[], rfl, rfl, by simp [R.fail, R.bind, R.position]⟩,
      append := fun _ _ => rfl, needs := fun he => by simp [R.fail, R.bind, R.position] at he }
  supplied _ _ _ _ h h' := by rw [h] at h'; simp at h'
  debugRel := .inl rfl
  debugPanic _ _ h h' := by rw [h] at h'; simp at h'

end Gvas
