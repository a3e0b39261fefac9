import Verif.Lemmas.Instances
import Verif.Lemmas.Parts
import Verif.Spec.Requests

/-!
# What the readers ask for, against what they consume
-/

namespace Gvas

open Spec

theorem asked_append (l l' : List Request) : asked (l ++ l') = asked l + asked l' := by
  simp [asked]

theorem sizable_append (l l' : List Request) :
    askedSizable (l ++ l') = askedSizable l + askedSizable l' := by
  simp [askedSizable]

theorem Log.append_requests (l l' : Log) : (l ++ l').requests = l.requests ++ l'.requests := rfl
theorem Log.append_steps (l l' : Log) : (l ++ l').steps = l.steps + l'.steps := rfl

theorem Log.append_assoc (l l' l'' : Log) : l ++ l' ++ l'' = l ++ (l' ++ l'') := by
  show Log.mk _ _ = Log.mk _ _
  simp [Log.append_requests, Log.append_steps, Nat.add_assoc]

theorem Log.nil_append (l : Log) : (⟨[], 0⟩ : Log) ++ l = l := by
  show Log.mk _ _ = _
  simp

theorem M.bind_assoc {α β γ : Type} (m : M α) (f : α → M β) (g : β → M γ) :
    M.bind (M.bind m f) g = M.bind m fun a => M.bind (f a) g := by
  funext s
  unfold M.bind
  match m s with
  | ((.ok a, s'), l) =>
    simp only
    match f a s' with
    | ((.ok b, s''), l') => simp only [Log.append_assoc]
    | ((.bad e, s''), l') => rfl
  | ((.bad e, s'), l) => rfl

theorem M.pure_bind {α β : Type} (a : α) (f : α → M β) : M.bind (M.pure a) f = f a := by
  funext s
  simp only [M.bind, M.pure, Log.nil_append]

/-- `m` is `m'` with requests: none of them is for 2^32 items or more, 2^30 items for each byte
consumed are not exceeded (but for the last request before a failure), and after a success the sizable
items and `d` more are no more than the bytes consumed. -/
structure CostAt {α : Type} (d : Int) (m : M α) (m' : R α) (s : RS) : Prop where
  same : (m s).1 = m' s
  small : ∀ q ∈ (m s).2.requests, q.count < 2 ^ 32
  total : ∃ k, (m s).1.2.pos = s.pos + k ∧
    match (m s).1.1 with
    | .ok _ => asked (m s).2.requests ≤ 2 ^ 30 * k ∧ (askedSizable (m s).2.requests : Int) + d ≤ k
    | .bad _ => asked (m s).2.requests ≤ 2 ^ 30 * k + 2 ^ 32

def Cost {α : Type} (d : Int) (m : M α) (m' : R α) : Prop := ∀ s, CostAt d m m' s

namespace Cost

variable {α β : Type}

theorem weaken {d d' : Int} {m : M α} {m' : R α} (hd : d' ≤ d) (h : Cost d m m') : Cost d' m m' := by
  intro s
  obtain ⟨h1, h2, k, h3, h4⟩ := h s
  refine ⟨h1, h2, k, h3, ?_⟩
  split at h4
  · exact ⟨h4.1, by omega⟩
  · exact h4

theorem bind {d e : Int} {m : M α} {m' : R α} {f : α → M β} {f' : α → R β} (h : Cost d m m')
    (hf : ∀ a, Cost e (f a) (f' a)) : Cost (d + e) (m >>= f) (m' >>= f') := by
  intro s
  obtain ⟨h1, h2, k, h3, h4⟩ := h s
  show CostAt (d + e) (M.bind m f) (R.bind m' f') s
  match hm : m s with
  | ((.ok a, s'), l) =>
    rw [hm] at h1 h2 h3 h4
    obtain ⟨g1, g2, k', g3, g4⟩ := hf a s'
    have hr : M.bind m f s = ((f a s').1, l ++ (f a s').2) := by unfold M.bind; rw [hm]
    have hr' : R.bind m' f' s = f' a s' := by unfold R.bind; rw [← h1]
    refine ⟨by rw [hr, hr']; exact g1, ?_, k + k', ?_, ?_⟩
    · rw [hr]
      intro q hq
      rcases List.mem_append.mp hq with hq | hq
      · exact h2 q hq
      · exact g2 q hq
    · rw [hr]
      simp only at h3 ⊢
      omega
    · rw [hr]
      simp only [Log.append_requests, asked_append, sizable_append] at h4 ⊢
      split at g4
      · omega
      · omega
  | ((.bad e, s'), l) =>
    rw [hm] at h1 h2 h3 h4
    have hr : M.bind m f s = ((.bad e, s'), l) := by unfold M.bind; rw [hm]
    have hr' : R.bind m' f' s = (.bad e, s') := by unfold R.bind; rw [← h1]
    exact ⟨by rw [hr, hr'], by rw [hr]; exact h2, k, by rw [hr]; exact h3, by rw [hr]; exact h4⟩

theorem next {d : Int} {m : M α} {m' : R α} {f : α → M β} {f' : α → R β} (h : Cost d m m')
    (hf : ∀ a, Cost 0 (f a) (f' a)) : Cost d (m >>= f) (m' >>= f') :=
  weaken (by omega) (bind h hf)

theorem skip {d : Int} {m : M α} {m' : R α} {f : α → M β} {f' : α → R β} (h : Cost 0 m m')
    (hf : ∀ a, Cost d (f a) (f' a)) : Cost d (m >>= f) (m' >>= f') :=
  weaken (by omega) (bind h hf)

theorem pure (a : α) : Cost 0 (M.pure a) (R.pure a) := fun s =>
  ⟨rfl, by simp [M.pure], 0, rfl, by simp [M.pure, asked, askedSizable]⟩

theorem ret (a : α) : Cost 0 (Pure.pure a) (Pure.pure a) := pure a

theorem map {d : Int} {m : M α} {m' : R α} {g : α → β} (h : Cost d m m') :
    Cost d (m >>= fun a => Pure.pure (g a)) (m' >>= fun a => Pure.pure (g a)) :=
  next h fun _ => ret _

theorem lift {d : Nat} {m : R α} (h : ∀ s, 0 ≤ s.pos → GoodAt d m s) : Cost d (M.lift m) m := by
  intro s
  obtain ⟨_, ⟨pre, _, h2, h3⟩, _⟩ := h s (Nat.zero_le _)
  refine ⟨rfl, by simp [M.lift], pre.length, h2, ?_⟩
  simp only [M.lift, asked, askedSizable, List.map_nil, List.sum_nil]
  split
  · rename_i a he
    have := h3 a he
    omega
  · omega

/-- A reader that fails. -/
theorem failing {d : Int} {m : R α} {g : RS → Fail} (h : ∀ s, m s = (.bad (g s), s)) :
    Cost d (M.lift m) m := by
  intro s
  refine ⟨rfl, by simp [M.lift], 0, by simp [M.lift, h], ?_⟩
  simp [M.lift, h, asked]

theorem fail {d : Int} {e : Err} : Cost d (M.lift (R.fail e : R α)) (R.fail e) :=
  failing (g := fun _ => .err e) fun _ => rfl

theorem panic {d : Int} {e : String} : Cost d (M.lift (R.panic e : R α)) (R.panic e) :=
  failing (g := fun _ => .panic e) fun _ => rfl

theorem outOfFuel {d : Int} : Cost d (M.lift (R.outOfFuel : R α)) R.outOfFuel :=
  failing (g := fun _ => .fuel) fun _ => rfl

theorem position : Cost 0 (M.lift R.position) R.position :=
  lift (d := 0) fun _ _ => ⟨rfl, ⟨[], rfl, rfl, fun _ _ => Nat.zero_le _⟩, fun _ _ => rfl⟩

theorem getStack : Cost 0 (M.lift R.getStack) R.getStack :=
  lift (d := 0) fun _ _ => ⟨rfl, ⟨[], rfl, rfl, fun _ _ => Nat.zero_le _⟩, fun _ _ => rfl⟩

theorem failPos {d : Int} {e : Nat → Err} :
    Cost d (M.lift R.position >>= fun p => M.lift (R.fail (e p) : R α))
      (R.position >>= fun p => R.fail (e p)) :=
  skip position fun _ => fail

theorem withEntry {d : Int} {m : M α} {m' : R α} (nm : String) (h : Cost d m m') :
    Cost d (M.withEntry nm m) (R.withEntry nm m') := by
  intro s
  obtain ⟨h1, h2, k, h3, h4⟩ := h { s with stack := s.stack ++ [nm] }
  refine ⟨?_, h2, k, h3, h4⟩
  unfold M.withEntry R.withEntry
  simp only
  rw [← h1]

theorem replicate {m : M α} {m' : R α} {d : Int} (h : Cost d m m') (n : Nat) :
    Cost (n * d) (M.replicate m n) (R.replicate m' n) := by
  induction n with
  | zero => exact weaken (by simp) (pure _)
  | succ n ih =>
    refine weaken (Int.le_of_eq ?_) (bind h fun a => next ih fun as => pure _)
    rw [Int.natCast_succ, Int.add_mul]; omega

theorem loop {m : M α} {m' : R α} {d : Int} (hd : 0 ≤ d) (h : Cost d m m') (n : Nat) :
    Cost 0 (M.replicate m n) (R.replicate m' n) :=
  weaken (Int.mul_nonneg (Int.natCast_nonneg _) hd) (replicate h n)

/-- Asking for room behind four bytes. -/
theorem ask {d : Int} {elem : Option String} {m : R α} {f : α → M β} {f' : α → R β} {g : α → Nat}
    (hm : ∀ s, 0 ≤ s.pos → GoodAt 4 m s) (hg : ∀ a s s', m s = (.ok a, s') → g a < 2 ^ 32)
    (hf : ∀ a, Cost (d - 4 + sizable ⟨elem, g a⟩) (f a) (f' a)) :
    Cost d (M.lift m >>= fun a => M.reserve elem (g a) >>= fun _ => f a) (m >>= f') := by
  intro s
  obtain ⟨_, ⟨pre, _, h2, h3⟩, _⟩ := hm s (Nat.zero_le _)
  show CostAt d (M.bind (M.lift m) fun a => M.bind (M.reserve elem (g a)) fun _ => f a)
    (R.bind m f') s
  match hms : m s with
  | (.ok a, s') =>
    rw [hms] at h2 h3
    have h3 := h3 a rfl
    simp only at h2
    obtain ⟨g1, g2, k', g3, g4⟩ := hf a s'
    have hr : M.bind (M.lift m) (fun a => M.bind (M.reserve elem (g a)) fun _ => f a) s =
        ((f a s').1, ⟨⟨elem, g a⟩ :: (f a s').2.requests, 1 + (0 + (f a s').2.steps)⟩) := by
      unfold M.bind M.lift; rw [hms]; rfl
    have hr' : R.bind m f' s = f' a s' := by unfold R.bind; rw [hms]
    have hga := hg a s s' hms
    refine ⟨by rw [hr, hr']; exact g1, ?_, pre.length + k', ?_, ?_⟩
    · rw [hr]
      intro q hq
      rcases List.mem_cons.mp hq with rfl | hq
      · exact hga
      · exact g2 q hq
    · rw [hr]
      simp only
      omega
    · rw [hr]
      have ea : asked (⟨elem, g a⟩ :: (f a s').2.requests) =
        g a + asked (f a s').2.requests := by simp [asked]
      have es : askedSizable (⟨elem, g a⟩ :: (f a s').2.requests) =
        sizable ⟨elem, g a⟩ + askedSizable (f a s').2.requests := by simp [askedSizable]
      simp only [ea, es]
      split at g4
      · omega
      · omega
  | (.bad e, s') =>
    rw [hms] at h2
    have hr : M.bind (M.lift m) (fun a => M.bind (M.reserve elem (g a)) fun _ => f a) s =
      ((.bad e, s'), ⟨[], 1⟩) := by unfold M.bind M.lift; rw [hms]
    have hr' : R.bind m f' s = (.bad e, s') := by unfold R.bind; rw [hms]
    exact ⟨by rw [hr, hr'], by rw [hr]; simp, pre.length, by rw [hr]; exact h2,
      by rw [hr]; simp [asked]⟩

theorem count {d : Int} {elem : Option String} {f : UInt32 → M β} {f' : UInt32 → R β}
    (hf : ∀ n, Cost (d - 4 + sizable ⟨elem, n.toNat⟩) (f n) (f' n)) :
    Cost d (M.count elem >>= f) (readU32 >>= f') := by
  have G := good_closed false (fun _ => none)
  have h := ask (elem := elem) (g := UInt32.toNat) (G.u32 (K := 0)) (fun n _ _ _ => n.toNat_lt) hf
  have e : (M.count elem >>= f) =
      M.lift readU32 >>= fun a => M.reserve elem a.toNat >>= fun _ => f a := by
    show M.bind (M.bind (M.lift readU32) fun a => M.bind (M.reserve elem a.toNat) fun _ => M.pure a)
      f = M.bind (M.lift readU32) fun a => M.bind (M.reserve elem a.toNat) fun _ => f a
    simp only [M.bind_assoc, M.pure_bind]
  rw [e]
  exact h

theorem signedCount {d : Int} {f : Nat → M β} {f' : Nat → R β}
    (hf : ∀ n : Nat, Cost (d - 4 + n) (f n) (f' n)) :
    Cost d (M.signedCount >>= f) (readI32 >>= fun c => capacity c >>= f') := by
  have G := good_closed false (fun _ => none)
  have h := ask (elem := none) (g := id) (m := do capacity (← readI32)) (f := f) (f' := f')
    (G.next (m' := readI32) (f' := capacity) (G.i32 (K := 0)) fun c => G.capacity c) ?_ hf
  · have e : (M.signedCount >>= f) =
        M.lift (do capacity (← readI32)) >>= fun a => M.reserve none a >>= fun _ => f a := by
      show M.bind (M.bind (M.lift (do capacity (← readI32))) fun a =>
          M.bind (M.reserve none a) fun _ => M.pure a) f =
        M.bind (M.lift (do capacity (← readI32))) fun a => M.bind (M.reserve none a) fun _ => f a
      simp only [M.bind_assoc, M.pure_bind]
    have e' : (readI32 >>= fun c => capacity c >>= f') = (do capacity (← readI32)) >>= f' := by
      funext s
      show R.bind readI32 (fun c => R.bind (capacity c) f') s =
        R.bind (R.bind readI32 fun c => capacity c) f' s
      unfold R.bind
      cases readI32 s with
      | mk r s' => cases r <;> rfl
    rw [e, e']
    exact h
  · intro a s s' hm
    rbind hm => c s1 hc
    unfold capacity at hm
    split at hm
    · simp [R.panic] at hm
    · simp only [R.pure, Prod.mk.injEq, Res.ok.injEq] at hm
      have := c.toInt_lt
      simp only [id_eq, ← hm.1]
      omega

/-- A buffer that is filled. -/
theorem buffer {n : Nat} {m : R α} (hn : n < 2 ^ 32) (h : ∀ s, 0 ≤ s.pos → GoodAt n m s) :
    Cost 0 (M.reserve none n >>= fun _ => M.lift m) m := by
  intro s
  show CostAt 0 (M.bind (M.reserve none n) fun _ => M.lift m) m s
  obtain ⟨_, ⟨pre, _, h2, h3⟩, _⟩ := h s (Nat.zero_le _)
  have hr : M.bind (M.reserve none n) (fun _ => M.lift m) s = (m s, ⟨[⟨none, n⟩], 0 + 1⟩) := rfl
  refine ⟨by rw [hr], by rw [hr]; simpa using hn, pre.length, by rw [hr]; exact h2, ?_⟩
  rw [hr]
  simp only [asked, askedSizable, sizable, List.map_cons, List.map_nil, List.sum_cons, List.sum_nil]
  split
  · rename_i a he
    have := h3 a he
    omega
  · omega

theorem take {n : Nat} (hn : n < 2 ^ 32) : Cost 0 (M.take n) (R.take n) :=
  buffer hn fun s _ => GoodAt.take n s

theorem good_fail {d : Nat} {e : Err} (s : RS) : GoodAt d (R.fail e : R α) s :=
  GoodAt.still _ (fun _ => rfl) (by simp) s

theorem good_panic {d : Nat} {e : String} (s : RS) : GoodAt d (R.panic e : R α) s :=
  GoodAt.still _ (fun _ => rfl) (by simp) s

theorem good_failPos {d : Nat} {e : Nat → Err} (s : RS) :
    GoodAt d (R.position >>= fun p => (R.fail (e p) : R α)) s :=
  ⟨rfl, ⟨[], rfl, rfl, by simp [R.fail, R.bind, R.position, Bind.bind]⟩, fun _ _ => rfl⟩

theorem good_ensure {c : Prop} [Decidable c] {o : R Unit} (h : ∀ s, GoodAt 0 o s) (s : RS) :
    GoodAt 0 (R.ensure c o) s := by
  unfold R.ensure
  split
  · exact GoodAt.still (.ok ()) (fun _ => rfl) (fun _ _ => rfl) s
  · exact h s

theorem ensure {c : Prop} [Decidable c] {o : R Unit} (h : ∀ s, GoodAt 0 o s) :
    Cost 0 (M.lift (R.ensure c o)) (R.ensure c o) :=
  lift (d := 0) fun s _ => good_ensure h s

theorem good_weaken {d d' : Nat} {m : R α} (hd : d' ≤ d) {s : RS} (h : GoodAt d m s) :
    GoodAt d' m s := by
  obtain ⟨h0, ⟨pre, h1, h2, h3⟩, h4⟩ := h
  exact ⟨h0, ⟨pre, h1, h2, fun a ha => Nat.le_trans hd (h3 a ha)⟩, h4⟩

theorem good_seq {d : Nat} {m : R α} {f : α → R β} {s : RS} (h : GoodAt d m s)
    (hf : ∀ a s, GoodAt 0 (f a) s) : GoodAt d (m >>= f) s :=
  GoodAt.bind (K := 0) (d' := 0) (Nat.zero_le _) h fun a s' _ => hf a s'

theorem good_ret (a : α) (s : RS) : GoodAt 0 (Pure.pure a : R α) s :=
  GoodAt.still (.ok a) (fun _ => rfl) (fun _ _ => rfl) s

theorem fstring : Cost 4 M.fstring readFString := by
  have G := good_closed false (fun _ => none)
  unfold M.fstring readFString
  refine skip position fun start => next (lift (d := 4) G.i32) fun len => ?_
  have hl := len.toInt_lt
  have hl' := len.le_toInt
  refine next (ensure good_fail) fun _ => ?_
  split
  · exact ret _
  · split
    · refine buffer (by omega) fun s hs => ?_
      refine good_weaken (by omega) (good_seq (GoodAt.take _ s) fun buf s => good_weaken (Nat.zero_le _)
        (good_seq (G.u16 s (Nat.zero_le _)) fun t s => good_seq (good_ensure good_failPos s)
        fun _ s => ?_))
      split
      · exact good_ret _ _
      · exact good_fail _
    · refine buffer (by omega) fun s hs => ?_
      refine good_weaken (by omega) (good_seq (GoodAt.take _ s) fun buf s => good_weaken (Nat.zero_le _)
        (good_seq (G.u8 s (Nat.zero_le _)) fun t s => good_seq (good_ensure good_failPos s)
        fun _ s => ?_))
      split
      · exact good_ret _ _
      · exact good_fail _

theorem string : Cost 4 M.string readString := by
  unfold M.string readString
  refine skip position fun start => next fstring fun r => ?_
  cases r with
  | some s => exact ret _
  | none => exact fail

/-! ## Texts -/

theorem prim {d : Nat} {m : R α} (h : ∀ s, 0 ≤ s.pos → GoodAt d m s) : Cost 0 (M.lift m) m :=
  weaken (Int.natCast_nonneg _) (lift h)

theorem zero {d : Nat} {m : M α} {m' : R α} (h : Cost d m m') : Cost 0 m m' :=
  weaken (Int.natCast_nonneg _) h

theorem one {d : Nat} {m : M α} {m' : R α} (h : Cost (d + 1 : Nat) m m') : Cost 1 m m' :=
  weaken (by omega) h

theorem argument {cv : List (Guid × UInt32)} {rec : M FText} {rec' : R FText}
    (h : Cost 0 rec rec') : Cost 1 (M.argument cv rec) (FormatArgumentValue.readWith cv rec') := by
  have G := good_closed false (fun _ => none)
  unfold M.argument FormatArgumentValue.readWith
  refine next (lift (d := 1) (G.enum _ _)) fun ty => ?_
  cases ty with
  | int =>
    simp only []
    split
    · exact map (prim G.i64)
    · exact map (prim G.i32)
  | uint =>
    simp only []
    split
    · exact map (prim G.u64)
    · exact map (prim G.u32)
  | float => exact map (prim G.f32)
  | double => exact map (prim G.f64)
  | text => exact map h
  | gender => exact panic

theorem arguments {cv : List (Guid × UInt32)} {rec : M FText} {rec' : R FText}
    (h : Cost 0 rec rec') : Cost 0 (M.arguments cv rec) (readArguments cv rec') := by
  unfold M.arguments readArguments
  refine signedCount fun n => map (weaken ?_ (replicate (d := 1) (weaken (by decide)
    (next string fun k => map (weaken (by decide) (argument h)))) n))
  omega

theorem history {cv : List (Guid × UInt32)} {rec : M FText} {rec' : R FText}
    (h : Cost 0 rec rec') : Cost 0 (M.history cv rec) (FTextHistory.readWith cv rec') := by
  have G := good_closed false (fun _ => none)
  have E : ∀ {γ : Type} (nm : String) (f : Int8 → Option γ),
      Cost 0 (M.lift (readEnum nm f)) (readEnum nm f) := fun nm f => prim (G.enum nm f)
  have F : Cost 0 M.fstring readFString := zero (d := 4) fstring
  have S : Cost 0 M.string readString := zero (d := 4) string
  have A : Cost 0 (M.argument cv rec) (FormatArgumentValue.readWith cv rec') :=
    zero (d := 1) (argument h)
  unfold M.history FTextHistory.readWith
  refine next (E _ _) fun ty => ?_
  cases ty with
  | none =>
    simp only []
    split
    · refine next (prim G.b32) fun b => ?_
      split
      · exact map F
      · exact ret _
    · exact ret _
  | base => exact next F fun _ => next F fun _ => map F
  | namedFormat => exact next h fun _ => map (arguments h)
  | orderedFormat =>
    refine next h fun _ => signedCount fun n => map (weaken ?_ (replicate (argument h) n))
    omega
  | argumentFormat => exact next h fun _ => map (arguments h)
  | asNumber => exact next A fun _ => next (prim G.formatOptions) fun _ => map F
  | asPercent => exact next A fun _ => next (prim G.formatOptions) fun _ => map F
  | asCurrency => exact next F fun _ => next A fun _ => next (prim G.formatOptions) fun _ => map F
  | asDate => exact next (prim G.u64) fun _ => next (E _ _) fun _ => map S
  | asTime => exact next (prim G.u64) fun _ => next (E _ _) fun _ => next S fun _ => map S
  | asDateTime =>
    refine next (prim G.u64) fun _ => next (E _ _) fun _ => ?_
    exact next (E _ _) fun _ => next S fun _ => map S
  | transform => exact next h fun _ => map (E _ _)
  | stringTableEntry => exact next S fun _ => map S
  | textGenerator => exact panic
  | rawText => exact panic

theorem text (cv : List (Guid × UInt32)) (n : Nat) : Cost 1 (M.text cv n) (FText.read cv n) := by
  have G := good_closed false (fun _ => none)
  induction n with
  | zero => exact outOfFuel
  | succ n ih =>
    unfold M.text FText.read
    exact weaken (by decide) (next (lift (d := 4) G.u32) fun _ => map (history (zero (d := 1) ih)))

/-! ## Property headers and leaves -/

theorem sized {len : UInt32} {m : M β} {m' : R β} {d : Int} (h : Cost d m m') :
    Cost d (M.sized len m) (readSized len m') := by
  unfold M.sized readSized
  exact skip position fun p => next h fun r => next position fun p' =>
    next (ensure good_fail) fun _ => ret _

theorem header {hdr : M α} {hdr' : R α} {body : UInt32 → α → M β} {body' : UInt32 → α → R β}
    (h1 : Cost 0 hdr hdr') (h2 : ∀ l a, Cost 0 (body l a) (body' l a)) :
    Cost 1 (M.header hdr body) (readHeader hdr' body') := by
  have G := good_closed false (fun _ => none)
  unfold M.header readHeader
  exact weaken (by decide) (next (lift (d := 4) G.u32) fun len => next (prim G.zeroIndex) fun _ =>
    next h1 fun a => next (prim G.terminator) fun _ => sized (h2 len a))

theorem plain {hdr : Bool} {m : M β} {m' : R β} (h : Cost 1 m m') :
    Cost 1 (M.plain hdr m) (readPlain hdr m') := by
  unfold M.plain readPlain
  split
  · exact header (pure _) fun _ _ => zero (d := 1) h
  · exact h

theorem string1 : Cost 1 M.string readString := weaken (by decide) string
theorem fstring1 : Cost 1 M.fstring readFString := weaken (by decide) fstring
theorem string0 : Cost 0 M.string readString := weaken (by decide) string
theorem fstring0 : Cost 0 M.fstring readFString := weaken (by decide) fstring

theorem byteValue (l : UInt32) : Cost 1 (M.byteValue l) (readByteValue l) := by
  have G := good_closed false (fun _ => none)
  unfold M.byteValue readByteValue
  split
  · exact map (lift (d := 1) G.u8)
  · exact map string1

theorem byteProperty (debug hdr : Bool) (o : Option UInt32) :
    Cost 1 (M.byteProperty debug hdr o) (readByteProperty debug hdr o) := by
  have G := good_closed debug (fun _ => none)
  unfold M.byteProperty readByteProperty
  split
  · exact skip (prim G.u32) fun _ => skip (prim G.assertedIndex) fun _ => skip string0 fun _ =>
      skip (prim G.separator) fun _ => skip (prim (G.byteLength _)) fun _ => map (byteValue _)
  · exact skip (prim (G.byteLength _)) fun _ => map (byteValue _)

theorem enumProperty (hdr : Bool) : Cost 1 (M.enumProperty hdr) (readEnumProperty hdr) := by
  unfold M.enumProperty readEnumProperty
  split
  · exact header string0 fun _ _ => map string0
  · exact map string1

theorem nameProperty (hdr : Bool) : Cost 1 (M.nameProperty hdr) (readNameProperty hdr) := by
  have G := good_closed false (fun _ => none)
  unfold M.nameProperty readNameProperty
  split
  · exact skip (prim G.u32) fun _ => skip (prim G.u32) fun _ => skip (prim G.terminator) fun _ =>
      sized (map fstring1)
  · exact map fstring1

theorem delegate : Cost 1 M.delegate Delegate.read := by
  unfold M.delegate Delegate.read
  exact next string1 fun _ => map string0

theorem multicast : Cost 1 M.multicast readMulticast := by
  unfold M.multicast readMulticast
  refine count fun n => weaken ?_ (replicate delegate _)
  simp only [sizable]; omega

theorem fieldPath : Cost 1 M.fieldPath FieldPath.read := by
  unfold M.fieldPath FieldPath.read
  refine count fun n => weaken ?_ (next (replicate string1 _) fun _ => map string0)
  simp only [sizable]; omega

/-- What a reader of properties costs. -/
def recCost (ty : String) (hdr : Bool) (o : Option UInt32) : Int :=
  if hdr ∨ ty ∈ knownTypes ∨ o = none then 1 else 0

def RecCost (rec : String → Bool → Option UInt32 → M Property)
    (rec' : String → Bool → Option UInt32 → R Property) : Prop :=
  ∀ ty hdr o, Cost (recCost ty hdr o) (rec ty hdr o) (rec' ty hdr o)

theorem unknown (ty : String) (hdr : Bool) (o : Option UInt32) (hty : ty ∉ knownTypes) :
    Cost (recCost ty hdr o) (M.unknown ty hdr o) (readUnknown ty hdr o) := by
  have G := good_closed false (fun _ => none)
  unfold M.unknown readUnknown recCost
  cases hdr with
  | true =>
    simp only [if_true, true_or]
    exact weaken (by decide) (next (lift (d := 4) G.u32) fun n => next (prim G.assertedIndex)
      fun _ => next (prim G.separator) fun _ => map (take n.toNat_lt))
  | false =>
    simp only [Bool.false_eq_true, hty, if_false, false_or]
    cases o with
    | some n =>
      simp only [reduceCtorEq, if_false]
      exact map (take n.toNat_lt)
    | none => exact failPos

/-! ## Structs -/

section

variable {rec : String → Bool → Option UInt32 → M Property}
  {rec' : String → Bool → Option UInt32 → R Property} (hr : RecCost rec rec')
include hr

theorem rec_header (ty : String) (o : Option UInt32) : Cost 1 (rec ty true o) (rec' ty true o) := by
  have := hr ty true o
  simpa [recCost] using this

theorem rec_none (ty : String) (hdr : Bool) : Cost 1 (rec ty hdr none) (rec' ty hdr none) := by
  have := hr ty hdr none
  simpa [recCost] using this

theorem custom (debug : Bool) (n : Nat) (fs : List (String × List Property)) :
    Cost 1 (M.custom debug rec n fs) (readCustom debug rec' n fs) := by
  have G := good_closed debug (fun _ => none)
  induction n generalizing fs with
  | zero => exact outOfFuel
  | succ n ih =>
    unfold M.custom readCustom
    refine weaken (by decide) (next string fun name => ?_)
    split
    · exact ret _
    · exact next string0 fun ty => next (withEntry _ (next (zero (d := 1) (rec_header hr _ _))
        fun p => prim (G.insertProperty _ _ _))) fun fs' => zero (d := 1) (ih _)

omit hr in
theorem builtin (cv : List (Guid × UInt32)) (k : StructKind) :
    Cost 1 (M.builtin cv k) (readBuiltin cv k) := by
  have G := good_closed false (fun _ => none)
  have h : Cost 1 (M.lift (readBuiltin cv k)) (readBuiltin cv k) :=
    weaken (by decide) (lift (d := 4) (G.builtin cv k))
  cases k with
  | gameplayTagContainer =>
    unfold M.builtin readBuiltin
    refine signedCount fun n => map (weaken ?_ (replicate string1 n))
    omega
  | _ => exact h

theorem structBody (env : Env) (n : Nat) (ty : String) :
    Cost 1 (M.structBody env n rec ty) (readStructBody env n rec' ty) := by
  unfold M.structBody readStructBody
  cases StructKind.ofName ty with
  | some k => exact builtin _ _
  | none => exact map (custom hr _ _ _)

theorem structProperty (env : Env) (n : Nat) (hdr : Bool) :
    Cost 1 (M.structProperty env n rec hdr) (readStructProperty env n rec' hdr) := by
  have G := good_closed false (fun _ => none)
  unfold M.structProperty readStructProperty
  split
  · exact header (next string0 fun _ => map (prim G.guid)) fun _ x =>
      map (zero (d := 1) (structBody hr _ _ _))
  · refine skip getStack fun st => ?_
    simp only []
    cases env.hints (joinDots st) with
    | some h => exact map (structBody hr _ _ _)
    | none => exact failPos

/-! ## Arrays, sets, maps -/

omit hr in
theorem structInfo : Cost 0 M.structInfo readStructInfo := by
  have G := good_closed false (fun _ => none)
  unfold M.structInfo readStructInfo
  exact next string0 fun _ => next string0 fun _ => next (ensure good_panic) fun _ =>
    next (prim G.u64) fun _ => next string0 fun _ => next (prim G.guid) fun _ =>
    map (prim G.terminator)

omit hr in
theorem pureLift (r : Res α) : Cost 0 (M.lift (R.lift r)) (R.lift r) := by
  refine lift (d := 0) fun s _ => ?_
  cases r with
  | ok a => exact GoodAt.still (.ok a) (fun _ => rfl) (fun _ _ => rfl) s
  | bad f => exact GoodAt.still (.bad f) (fun _ => rfl) (by simp) s

omit hr in
theorem struct_known : "StructProperty" ∈ knownTypes := by decide

/-- Elements of an array or set. -/
theorem elements (ty : String) (o : Option UInt32) (n : Nat) :
    Cost (sizable ⟨some ty, n⟩) (M.replicate (rec ty false o) n) (R.replicate (rec' ty false o) n) := by
  by_cases h : ty ∈ knownTypes
  · have hc : Cost 1 (rec ty false o) (rec' ty false o) := by
      have := hr ty false o
      simpa [recCost, h] using this
    refine weaken ?_ (replicate hc n)
    simp [sizable, h]
  · have hc : Cost 0 (rec ty false o) (rec' ty false o) :=
      weaken (by unfold recCost; split <;> decide) (hr ty false o)
    refine weaken ?_ (replicate hc n)
    simp [sizable, h]

theorem arrayBody (env : Env) (n : Nat) (len : UInt32) (ty : String) :
    Cost 0 (M.arrayBody env n rec len ty) (readArrayBody env n rec' len ty) := by
  unfold M.arrayBody readArrayBody
  refine count fun c => ?_
  split
  · rename_i hty
    subst hty
    refine skip structInfo fun i => ?_
    obtain ⟨field, size, sty, guid⟩ := i
    refine skip position fun p => weaken ?_ (next (replicate (structBody hr env n sty) c.toNat)
      fun vs => next position fun p' => next (ensure good_failPos) fun _ => pureLift _)
    simp only [sizable, struct_known, if_true]
    omega
  · refine weaken ?_ (next (elements hr ty (arraySuggested len c) c.toNat) fun ps => pureLift _)
    omega

theorem arrayProperty (env : Env) (n : Nat) (hdr : Bool) :
    Cost 1 (M.arrayProperty env n rec hdr) (readArrayProperty env n rec' hdr) := by
  unfold M.arrayProperty readArrayProperty
  split
  · exact header string0 fun _ _ => map (arrayBody hr _ _ _ _)
  · exact failPos

theorem setBody (debug : Bool) (len : UInt32) (ty : String) :
    Cost 0 (M.setBody debug rec len ty) (readSetBody debug rec' len ty) := by
  have G := good_closed debug (fun _ => none)
  unfold M.setBody readSetBody
  refine next (prim G.u32) fun _ => count fun c => map ?_
  unfold M.setElems readSetElems
  split
  · refine skip (prim (G.subU32 _ _)) fun _ => weaken ?_ (elements hr ty _ c.toNat)
    omega
  · rename_i h
    have : c.toNat = 0 := by
      have := UInt32.not_lt.mp h
      have := UInt32.le_iff_toNat_le.mp this
      simpa using this
    refine weaken ?_ (pure _)
    unfold sizable
    simp only [this, ite_self]
    omega

theorem setProperty (debug : Bool) (hdr : Bool) :
    Cost 1 (M.setProperty debug rec hdr) (readSetProperty debug rec' hdr) := by
  unfold M.setProperty readSetProperty
  split
  · exact header string0 fun _ _ => setBody hr _ _ _
  · exact failPos

theorem mapBody (kt vt : String) : Cost 0 (M.mapBody rec kt vt) (readMapBody rec' kt vt) := by
  have G := good_closed false (fun _ => none)
  unfold M.mapBody readMapBody
  refine next (prim G.u32) fun _ => count fun c => map (weaken ?_ (replicate (d := 1) ?_ c.toNat))
  · simp only [sizable]
    omega
  · unfold M.mapEntry readMapEntry
    exact next (withEntry _ (rec_none hr _ _)) fun _ => map (withEntry _ (zero (d := 1) (rec_none hr _ _)))

theorem mapProperty (hdr : Bool) : Cost 1 (M.mapProperty rec hdr) (readMapProperty rec' hdr) := by
  unfold M.mapProperty readMapProperty
  split
  · exact header (next string0 fun _ => map string0) fun _ _ => mapBody hr _ _
  · exact failPos

/-! ## `Property::new` and files -/

theorem kind (env : Env) (n : Nat) (hdr : Bool) (o : Option UInt32) (k : Kind) :
    Cost 1 (M.kind env n rec hdr o k) (readKind env n rec' hdr o k) := by
  have G := good_closed false (fun _ => none)
  cases k with
  | byte => exact byteProperty _ _ _
  | enum => exact enumProperty _
  | str => exact map (plain fstring1)
  | text => exact map (plain (text _ _))
  | name => exact nameProperty _
  | object => exact map (plain string1)
  | delegate => exact map (plain delegate)
  | multicastInlineDelegate => exact map (plain multicast)
  | multicastSparseDelegate => exact map (plain multicast)
  | fieldPath => exact map (plain fieldPath)
  | struct => exact structProperty hr _ _ _
  | array => exact arrayProperty hr _ _ _
  | set => exact setProperty hr _ _
  | map => exact mapProperty hr _
  | int8 => exact map (lift (d := 1) (G.fixed G.i8))
  | int16 => exact map (weaken (by decide) (lift (d := 2) (G.fixed G.i16)))
  | uint16 => exact map (weaken (by decide) (lift (d := 2) (G.fixed G.u16)))
  | int => exact map (weaken (by decide) (lift (d := 4) (G.fixed G.i32)))
  | uint32 => exact map (weaken (by decide) (lift (d := 4) (G.fixed G.u32)))
  | int64 => exact map (weaken (by decide) (lift (d := 8) (G.fixed G.i64)))
  | uint64 => exact map (weaken (by decide) (lift (d := 8) (G.fixed G.u64)))
  | float => exact map (weaken (by decide) (lift (d := 4) (G.fixed G.f32)))
  | double => exact map (weaken (by decide) (lift (d := 8) (G.fixed G.f64)))
  | bool =>
    refine map (lift (d := 1) ?_)
    intro s _
    unfold readBoolProperty
    have h := GoodAt.bind (K := 0) (d := 0) (d' := 1) (Nat.zero_le _)
      (G.onlyIf (m' := checkSize 0) hdr (G.zero (m := checkSize 0) (m' := checkSize 0) G.checkSize) s (Nat.zero_le _))
      fun _ s' _ => good_seq (G.boolean s' (Nat.zero_le _)) fun v s => good_seq
        (G.onlyIf (m' := readSeparator) hdr (G.zero (m' := readSeparator) G.separator) s
          (Nat.zero_le _)) fun _ s => good_ret v s
    exact h

end

theorem property (env : Env) (n : Nat) : RecCost (M.property env n) (Property.read env n) := by
  induction n with
  | zero => exact fun _ _ _ => outOfFuel
  | succ n ih =>
    intro ty hdr o
    show Cost _ (M.propertyStep env (n + 1) (M.property env n) ty hdr o)
      (Property.readStep env (n + 1) (Property.read env n) ty hdr o)
    unfold M.propertyStep Property.readStep
    refine withEntry _ ?_
    cases hk : Kind.ofName ty with
    | some k => exact weaken (by unfold recCost; split <;> decide) (kind ih env _ hdr o k)
    | none => exact unknown ty hdr o (kind_none_iff.mp hk)

theorem engineVersion : Cost 0 M.engineVersion FEngineVersion.read := by
  have G := good_closed false (fun _ => none)
  unfold M.engineVersion FEngineVersion.read
  exact next (prim G.u16) fun _ => next (prim G.u16) fun _ => next (prim G.u16) fun _ =>
    next (prim G.u32) fun _ => map string0

theorem headerTail : Cost 0 M.headerTail readHeaderTail := by
  have G := good_closed false (fun _ => none)
  unfold M.headerTail readHeaderTail
  refine next engineVersion fun _ => next (prim G.u32) fun _ => next (ensure good_fail) fun _ =>
    count fun n => weaken ?_ (next (replicate (d := 1) (weaken (by decide) (lift (d := 16)
      fun s _ => good_seq (G.guid s (Nat.zero_le _)) fun _ s => good_weaken (Nat.zero_le _)
        (good_seq (G.u32 s (Nat.zero_le _)) fun _ s => good_ret _ s))) n.toNat) fun _ => map string0)
  simp only [sizable]
  omega

theorem gvasHeader : Cost 0 M.gvasHeader GvasHeader.read := by
  have G := good_closed false (fun _ => none)
  unfold M.gvasHeader GvasHeader.read
  refine next (prim G.u32) fun _ => next (ensure good_fail) fun _ => next (prim G.u32) fun _ =>
    next (ensure good_fail) fun _ => next (prim G.u32) fun _ => next (ensure good_fail) fun _ => ?_
  split
  · exact next (prim G.u32) fun _ => next (ensure good_fail) fun _ => map headerTail
  · exact map headerTail

theorem top {rec : String → Bool → Option UInt32 → M Property}
    {rec' : String → Bool → Option UInt32 → R Property} (hr : RecCost rec rec') (n : Nat)
    (ps : List (String × Property)) : Cost 0 (M.top rec n ps) (readTop rec' n ps) := by
  induction n generalizing ps with
  | zero => exact outOfFuel
  | succ n ih =>
    unfold M.top readTop
    refine next string0 fun name => ?_
    split
    · exact ret _
    · exact next string0 fun ty => next (withEntry _ (zero (d := 1) (rec_header hr _ _)))
        fun p => ih _

theorem contents (debug : Bool) (hints : String → Option String) (n : Nat) :
    Cost 0 (M.contents debug hints n) (readContents debug hints n) := by
  unfold M.contents readContents
  exact next gvasHeader fun h => map (top (property _ _) _ _)

end Cost

end Gvas
