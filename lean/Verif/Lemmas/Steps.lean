import Verif.Lemmas.Meter
import Verif.Spec.Steps

/-!
# How many steps the readers take, against what they consume
-/

namespace Gvas

open Spec

/-- Four steps for each byte consumed, one for each element of unknown type that was announced, and
`c` more after a success or `b` more after a failure. -/
structure EffortAt {α : Type} (c b : Int) (m : M α) (s : RS) : Prop where
  total : ∃ k, (m s).1.2.pos = s.pos + k ∧
    match (m s).1.1 with
    | .ok _ => ((m s).2.steps : Int) ≤ 4 * k + unsized (m s).2.requests + c
    | .bad _ => ((m s).2.steps : Int) ≤ 4 * k + unsized (m s).2.requests + b

def Effort {α : Type} (c b : Int) (m : M α) : Prop := ∀ s, EffortAt c b m s

theorem unsized_append (l l' : List Request) : unsized (l ++ l') = unsized l + unsized l' := by
  simp [unsized]

namespace Effort

variable {α β : Type} {C B c b : Int}

theorem weaken {m : M α} (h : Effort c b m) (hc : c ≤ C := by omega) (hb : b ≤ B := by omega) :
    Effort C B m := by
  intro s
  obtain ⟨k, h1, h2⟩ := h s
  refine ⟨k, h1, ?_⟩
  split at h2 <;> omega

theorem seq {m : M α} {f : α → M β} (h : Effort c b m)
    (hf : ∀ a, Effort (C - c) (B - c) (f a)) (hb : b ≤ B := by omega) : Effort C B (m >>= f) := by
  intro s
  obtain ⟨k, h1, h2⟩ := h s
  show EffortAt C B (M.bind m f) s
  match hm : m s with
  | ((.ok a, s'), l) =>
    rw [hm] at h1 h2
    obtain ⟨k', g1, g2⟩ := hf a s'
    have hr : M.bind m f s = ((f a s').1, l ++ (f a s').2) := by unfold M.bind; rw [hm]
    refine ⟨k + k', ?_, ?_⟩
    · rw [hr]
      simp only at h1 ⊢
      omega
    · rw [hr]
      simp only [Log.append_requests, Log.append_steps, unsized_append] at h2 ⊢
      split at g2 <;> omega
  | ((.bad e, s'), l) =>
    rw [hm] at h1 h2
    have hr : M.bind m f s = ((.bad e, s'), l) := by unfold M.bind; rw [hm]
    refine ⟨k, by rw [hr]; exact h1, ?_⟩
    rw [hr]
    simp only at h2 ⊢
    omega

theorem pure (a : α) (hc : 0 ≤ C := by omega) : Effort C B (M.pure a) := fun s =>
  ⟨0, rfl, by simp [M.pure, unsized]; omega⟩

theorem ret (a : α) (hc : 0 ≤ C := by omega) : Effort C B (Pure.pure a : M α) := pure a hc

theorem map {m : M α} {g : α → β} (h : Effort c b m) (hc : c ≤ C := by omega)
    (hb : b ≤ B := by omega) : Effort C B (m >>= fun a => Pure.pure (g a)) :=
  seq h (fun _ => ret _ (by omega)) hb

theorem lift {d : Nat} {m : R α} (h : ∀ s, 0 ≤ s.pos → GoodAt d m s) :
    Effort (1 - 4 * d) 1 (M.lift m) := by
  intro s
  obtain ⟨_, ⟨pre, _, h2, h3⟩, _⟩ := h s (Nat.zero_le _)
  refine ⟨pre.length, h2, ?_⟩
  simp only [M.lift, unsized, List.map_nil, List.sum_nil]
  split
  · rename_i a he
    have := h3 a he
    omega
  · omega

/-- A reader that fails. -/
theorem failing {m : R α} {g : RS → Fail} (h : ∀ s, m s = (.bad (g s), s)) (hb : 1 ≤ B := by omega) :
    Effort C B (M.lift m) := by
  intro s
  refine ⟨0, by simp [M.lift, h], ?_⟩
  simp [M.lift, h, unsized]
  omega

theorem fail {e : Err} (hb : 1 ≤ B := by omega) : Effort C B (M.lift (R.fail e : R α)) :=
  failing (g := fun _ => .err e) (fun _ => rfl) hb

theorem panic {e : String} (hb : 1 ≤ B := by omega) : Effort C B (M.lift (R.panic e : R α)) :=
  failing (g := fun _ => .panic e) (fun _ => rfl) hb

theorem outOfFuel (hb : 1 ≤ B := by omega) : Effort C B (M.lift (R.outOfFuel : R α)) :=
  failing (g := fun _ => .fuel) (fun _ => rfl) hb

theorem position : Effort 1 1 (M.lift R.position) :=
  lift (d := 0) fun _ _ => ⟨rfl, ⟨[], rfl, rfl, fun _ _ => Nat.zero_le _⟩, fun _ _ => rfl⟩

theorem getStack : Effort 1 1 (M.lift R.getStack) :=
  lift (d := 0) fun _ _ => ⟨rfl, ⟨[], rfl, rfl, fun _ _ => Nat.zero_le _⟩, fun _ _ => rfl⟩

theorem failPos {e : Nat → Err} (hb : 2 ≤ B := by omega) :
    Effort C B (M.lift R.position >>= fun p => M.lift (R.fail (e p) : R α)) :=
  seq position (fun _ => fail (by omega)) (by omega)

theorem ensure {c : Prop} [Decidable c] {o : R Unit} (h : ∀ s, GoodAt 0 o s) :
    Effort 1 1 (M.lift (R.ensure c o)) :=
  lift (d := 0) fun s _ => Cost.good_ensure h s

theorem withEntry {m : M α} (nm : String) (h : Effort C B m) : Effort C B (M.withEntry nm m) := by
  intro s
  obtain ⟨k, h3, h4⟩ := h { s with stack := s.stack ++ [nm] }
  exact ⟨k, h3, h4⟩

theorem replicate {m : M α} {c b : Int} (hc : 0 ≤ c) (h : Effort c b m) (n : Nat) :
    Effort (n * c) (n * c + max b 0) (M.replicate m n) := by
  induction n with
  | zero => exact weaken (pure (C := 0) (B := 0) []) (by simp) (by simp; omega)
  | succ n ih =>
    have e : ((n + 1 : Nat) : Int) * c = n * c + c := by rw [Int.natCast_succ, Int.add_mul]; omega
    have hn : 0 ≤ (n : Int) * c := Int.mul_nonneg (Int.natCast_nonneg _) hc
    rw [e]
    exact seq h (fun a => seq ih (fun as => pure _ (by omega)) (by omega)) (by omega)

theorem loop {m : M α} (hc : c ≤ 0) (h : Effort c B m) (n : Nat) (hB : 0 ≤ B := by omega) :
    Effort 0 B (M.replicate m n) :=
  weaken (replicate (c := 0) (b := B) (by omega) (weaken h) n) (by omega) (by omega)

theorem reserve {elem : Option String} {n : Nat} :
    Effort (-unsized [⟨elem, n⟩]) 0 (M.reserve elem n) := fun s =>
  ⟨0, rfl, by simp only [M.reserve]; omega⟩

theorem count {elem : Option String} {f : UInt32 → M β}
    (hf : ∀ n, Effort (C + 15 + unsized [⟨elem, n.toNat⟩]) (B + 15 + unsized [⟨elem, n.toNat⟩]) (f n))
    (hb : 1 ≤ B := by omega) : Effort C B (M.count elem >>= f) := by
  have G := good_closed false (fun _ => none)
  have e : (M.count elem >>= f) =
      M.lift readU32 >>= fun a => M.reserve elem a.toNat >>= fun _ => f a := by
    show M.bind (M.bind (M.lift readU32) fun a => M.bind (M.reserve elem a.toNat) fun _ => M.pure a)
      f = M.bind (M.lift readU32) fun a => M.bind (M.reserve elem a.toNat) fun _ => f a
    simp only [M.bind_assoc, M.pure_bind]
  rw [e]
  refine seq (lift (d := 4) G.u32) fun n => seq reserve (fun _ => weaken (hf n)) ?_
  omega

theorem signedCount {f : Nat → M β} (hf : ∀ n : Nat, Effort (C + 15) (B + 15) (f n))
    (hb : 1 ≤ B := by omega) : Effort C B (M.signedCount >>= f) := by
  have G := good_closed false (fun _ => none)
  have e : Effort (-15) 1 M.signedCount := by
    unfold M.signedCount
    refine seq (lift (d := 4) (G.next (m' := readI32) (f' := capacity) (G.i32 (K := 0))
      fun c => G.capacity c)) fun n => seq reserve (fun _ => ret _ ?_) ?_
    · simp [unsized, sizable]
    · simp
  exact seq e fun n => weaken (hf n)

/-- A buffer that is filled. -/
theorem buffer {n d : Nat} {m : R α} (h : ∀ s, 0 ≤ s.pos → GoodAt d m s) (hc : 1 ≤ C := by omega)
    (hb : 1 ≤ B := by omega) : Effort C B (M.reserve none n >>= fun _ => M.lift m) := by
  have e : unsized [⟨none, n⟩] = 0 := by simp [unsized, sizable]
  refine seq reserve (fun _ => weaken (lift h) ?_ ?_) ?_ <;> (try rw [e]) <;> omega

theorem take {n : Nat} (hc : 1 ≤ C := by omega) (hb : 1 ≤ B := by omega) :
    Effort C B (M.take n) :=
  buffer (fun s _ => GoodAt.take n s) hc hb

theorem fstring : Effort (-12) 2 M.fstring := by
  have G := good_closed false (fun _ => none)
  unfold M.fstring
  refine seq position fun start => seq (lift (d := 4) G.i32) fun len => seq (ensure Cost.good_fail)
    fun _ => ?_
  split
  · exact ret _
  · split
    · refine buffer (d := 0) fun s hs => ?_
      refine Cost.good_weaken (Nat.zero_le _) (Cost.good_seq (GoodAt.take _ s) fun buf s =>
        Cost.good_weaken (Nat.zero_le _) (Cost.good_seq (G.u16 s (Nat.zero_le _)) fun t s =>
        Cost.good_seq (Cost.good_ensure Cost.good_failPos s) fun _ s => ?_))
      split
      · exact Cost.good_ret _ _
      · exact Cost.good_fail _
    · refine buffer (d := 0) fun s hs => ?_
      refine Cost.good_weaken (Nat.zero_le _) (Cost.good_seq (GoodAt.take _ s) fun buf s =>
        Cost.good_weaken (Nat.zero_le _) (Cost.good_seq (G.u8 s (Nat.zero_le _)) fun t s =>
        Cost.good_seq (Cost.good_ensure Cost.good_failPos s) fun _ s => ?_))
      split
      · exact Cost.good_ret _ _
      · exact Cost.good_fail _

theorem string : Effort (-11) 3 M.string := by
  unfold M.string
  refine seq position fun start => seq fstring fun r => ?_
  cases r with
  | some s => exact ret _
  | none => exact fail

/-! ## Texts -/

theorem argument {cv : List (Guid × UInt32)} {rec : M FText} (h : Effort (-3) 8 rec) :
    Effort (-3) 8 (M.argument cv rec) := by
  have G := good_closed false (fun _ => none)
  unfold M.argument
  refine seq (lift (d := 1) (G.enum _ _)) fun ty => ?_
  cases ty with
  | int =>
    simp only []
    split
    · exact map (lift (d := 8) G.i64)
    · exact map (lift (d := 4) G.i32)
  | uint =>
    simp only []
    split
    · exact map (lift (d := 8) G.u64)
    · exact map (lift (d := 4) G.u32)
  | float => exact map (lift (d := 4) G.f32)
  | double => exact map (lift (d := 8) G.f64)
  | text => exact map h
  | gender => exact panic

theorem arguments {cv : List (Guid × UInt32)} {rec : M FText} (h : Effort (-3) 8 rec) :
    Effort 0 8 (M.arguments cv rec) := by
  unfold M.arguments
  refine signedCount fun n => map (loop (c := -3) (B := 8) (by decide) ?_ n)
  exact seq string fun k => map (argument h)

theorem history {cv : List (Guid × UInt32)} {rec : M FText} (h : Effort (-3) 8 rec) :
    Effort 0 8 (M.history cv rec) := by
  have G := good_closed false (fun _ => none)
  have E : ∀ {γ : Type} (nm : String) (f : Int8 → Option γ),
      Effort (-3) 1 (M.lift (readEnum nm f)) := fun nm f => lift (d := 1) (G.enum nm f)
  have F := fstring
  have S := string
  have A := argument (cv := cv) h
  have T : Effort (-31) 1 (M.lift readU64) := lift (d := 8) G.u64
  have O : Effort 1 1 (M.lift readFormatOptions) :=
    weaken (lift G.formatOptions)
  unfold M.history
  refine seq (E _ _) fun ty => ?_
  cases ty with
  | none =>
    simp only []
    split
    · refine seq (lift (d := 4) G.b32) fun b => ?_
      split
      · exact map F
      · exact ret _
    · exact ret _
  | base => exact seq F fun _ => seq F fun _ => map F
  | namedFormat => exact seq h fun _ => map (arguments h)
  | orderedFormat =>
    exact seq h fun _ => signedCount fun n => map (loop (B := 8) (by decide) (argument h) n)
  | argumentFormat => exact seq h fun _ => map (arguments h)
  | asNumber => exact seq A fun _ => seq O fun _ => map F
  | asPercent => exact seq A fun _ => seq O fun _ => map F
  | asCurrency => exact seq F fun _ => seq A fun _ => seq O fun _ => map F
  | asDate => exact seq T fun _ => seq (E _ _) fun _ => map S
  | asTime => exact seq T fun _ => seq (E _ _) fun _ => seq S fun _ => map S
  | asDateTime =>
    refine seq T fun _ => seq (E _ _) fun _ => ?_
    exact seq (E _ _) fun _ => seq S fun _ => map S
  | transform => exact seq h fun _ => map (E _ _)
  | stringTableEntry => exact seq S fun _ => map S
  | textGenerator => exact panic
  | rawText => exact panic

theorem text (cv : List (Guid × UInt32)) (n : Nat) : Effort (-3) 8 (M.text cv n) := by
  have G := good_closed false (fun _ => none)
  induction n with
  | zero => exact outOfFuel
  | succ n ih =>
    unfold M.text
    exact seq (lift (d := 4) G.u32) fun _ => map (history ih)

/-! ## Property headers and leaves -/

theorem sized {len : UInt32} {m : M β} (h : Effort (C - 3) (B - 1) m) (hb : 1 ≤ B := by omega)
    (hb' : C ≤ B := by omega) : Effort C B (M.sized len m) := by
  unfold M.sized
  exact seq position fun p => seq h (fun r => seq position (fun p' =>
    seq (ensure Cost.good_fail) (fun _ => ret _ (by omega)) (by omega)) (by omega)) (by omega)

theorem header {hdr : M α} {body : UInt32 → α → M β} (h1 : Effort 0 8 hdr)
    (h2 : ∀ l a, Effort 8 16 (body l a)) : Effort (-2) 8 (M.header hdr body) := by
  have G := good_closed false (fun _ => none)
  unfold M.header
  exact seq (lift (d := 4) G.u32) fun len => seq (lift (d := 4) G.zeroIndex) fun _ =>
    seq h1 fun a => seq (lift (d := 1) G.terminator) fun _ => sized (weaken (h2 len a))

theorem plain {hdr : Bool} {m : M β} (h : Effort (-2) 8 m) : Effort (-2) 8 (M.plain hdr m) := by
  unfold M.plain
  split
  · exact header (pure _) fun _ _ => weaken h
  · exact h

theorem byteValue (l : UInt32) : Effort (-3) 4 (M.byteValue l) := by
  have G := good_closed false (fun _ => none)
  unfold M.byteValue
  split
  · exact map (lift (d := 1) G.u8)
  · exact map string

theorem byteProperty (debug hdr : Bool) (o : Option UInt32) :
    Effort (-2) 8 (M.byteProperty debug hdr o) := by
  have G := good_closed debug (fun _ => none)
  unfold M.byteProperty
  split
  · exact seq (lift (d := 4) G.u32) fun _ => seq (lift G.assertedIndex) fun _ => seq string fun _ =>
      seq (lift G.separator) fun _ => seq (lift (d := 0) (G.byteLength _)) fun _ => map (byteValue _)
  · exact seq (lift (d := 0) (G.byteLength _)) fun _ => map (byteValue _)

theorem enumProperty (hdr : Bool) : Effort (-2) 8 (M.enumProperty hdr) := by
  unfold M.enumProperty
  split
  · exact header (weaken string) fun _ _ => map string
  · exact map string

theorem nameProperty (hdr : Bool) : Effort (-2) 8 (M.nameProperty hdr) := by
  have G := good_closed false (fun _ => none)
  unfold M.nameProperty
  split
  · exact seq (lift (d := 4) G.u32) fun _ => seq (lift (d := 4) G.u32) fun _ =>
      seq (lift (d := 1) G.terminator) fun _ => sized (map fstring)
  · exact map fstring

theorem delegate : Effort (-2) 8 M.delegate := by
  unfold M.delegate
  exact seq string fun _ => map string

theorem multicast : Effort (-2) 8 M.multicast := by
  unfold M.multicast
  exact count fun n => weaken (loop (B := 8) (by decide) delegate _)

theorem fieldPath : Effort (-2) 8 M.fieldPath := by
  unfold M.fieldPath
  exact count fun n => seq (loop (by decide) string _) fun _ => map string

/-- What a reader of properties takes. -/
def recEffort (ty : String) (hdr : Bool) (o : Option UInt32) : Int :=
  if hdr ∨ ty ∈ knownTypes ∨ o = none then -2 else 1

def RecEffort (rec : String → Bool → Option UInt32 → M Property) : Prop :=
  ∀ ty hdr o, Effort (recEffort ty hdr o) 8 (rec ty hdr o)

theorem unknown (ty : String) (hdr : Bool) (o : Option UInt32) (hty : ty ∉ knownTypes) :
    Effort (recEffort ty hdr o) 8 (M.unknown ty hdr o) := by
  have G := good_closed false (fun _ => none)
  unfold M.unknown recEffort
  cases hdr with
  | true =>
    simp only [if_true, true_or]
    exact seq (lift (d := 4) G.u32) fun n => seq (lift G.assertedIndex)
      fun _ => seq (lift G.separator) fun _ => map (take (C := 1) (B := 1))
  | false =>
    simp only [Bool.false_eq_true, hty, if_false, false_or]
    cases o with
    | some n =>
      simp only [reduceCtorEq, if_false]
      exact map (take (C := 1) (B := 1))
    | none => exact failPos

/-! ## Structs -/

section

variable {rec : String → Bool → Option UInt32 → M Property} (hr : RecEffort rec)
include hr

theorem rec_header (ty : String) (o : Option UInt32) : Effort (-2) 8 (rec ty true o) := by
  have := hr ty true o
  simpa [recEffort] using this

theorem rec_none (ty : String) (hdr : Bool) : Effort (-2) 8 (rec ty hdr none) := by
  have := hr ty hdr none
  simpa [recEffort] using this

theorem custom (debug : Bool) (n : Nat) (fs : List (String × List Property)) :
    Effort (-3) 4 (M.custom debug rec n fs) := by
  have G := good_closed debug (fun _ => none)
  induction n generalizing fs with
  | zero => exact outOfFuel
  | succ n ih =>
    unfold M.custom
    refine seq string fun name => ?_
    split
    · exact ret _
    · refine seq string fun ty => seq (c := -1) (b := 8) (withEntry _ (seq (rec_header hr _ _)
        fun p => weaken (lift (d := 0) (G.insertProperty _ _ _)))) fun fs' => weaken (ih _)

omit hr in
theorem builtin (cv : List (Guid × UInt32)) (k : StructKind) : Effort (-3) 4 (M.builtin cv k) := by
  have G := good_closed false (fun _ => none)
  have h : Effort (-3) 4 (M.lift (readBuiltin cv k)) :=
    weaken (lift (d := 4) (G.builtin cv k))
  cases k with
  | gameplayTagContainer =>
    unfold M.builtin
    exact signedCount fun n => map (loop (by decide) string n)
  | _ => exact h

theorem structBody (env : Env) (n : Nat) (ty : String) :
    Effort (-3) 4 (M.structBody env n rec ty) := by
  unfold M.structBody
  cases StructKind.ofName ty with
  | some k => exact builtin _ _
  | none => exact map (custom hr _ _ _)

theorem structProperty (env : Env) (n : Nat) (hdr : Bool) :
    Effort (-2) 8 (M.structProperty env n rec hdr) := by
  have G := good_closed false (fun _ => none)
  unfold M.structProperty
  split
  · exact header (seq string fun _ => map (lift (d := 16) G.guid)) fun _ x =>
      map (structBody hr _ _ _)
  · refine seq getStack fun st => ?_
    simp only []
    cases env.hints (joinDots st) with
    | some h => exact map (structBody hr _ _ _)
    | none => exact failPos

/-! ## Arrays, sets, maps -/

omit hr in
theorem structInfo : Effort 0 8 M.structInfo := by
  have G := good_closed false (fun _ => none)
  unfold M.structInfo
  exact seq string fun _ => seq string fun _ => seq (ensure Cost.good_panic) fun _ =>
    seq (lift (d := 8) G.u64) fun _ => seq string fun _ => seq (lift (d := 16) G.guid) fun _ =>
    map (lift (d := 1) G.terminator)

omit hr in
theorem pureLift (r : Res α) : Effort 1 1 (M.lift (R.lift r)) := by
  refine lift (d := 0) fun s _ => ?_
  cases r with
  | ok a => exact GoodAt.still (.ok a) (fun _ => rfl) (fun _ _ => rfl) s
  | bad f => exact GoodAt.still (.bad f) (fun _ => rfl) (by simp) s

/-- Elements of an array or set. -/
theorem elements (ty : String) (o : Option UInt32) (n : Nat) :
    Effort (unsized [⟨some ty, n⟩]) (unsized [⟨some ty, n⟩] + 8)
      (M.replicate (rec ty false o) n) := by
  by_cases h : ty ∈ knownTypes
  · have hc : Effort (-2) 8 (rec ty false o) := by
      have := hr ty false o
      simpa [recEffort, h] using this
    refine weaken (loop (by decide) hc n) ?_ ?_ <;> simp [unsized, sizable, h]
  · have hc : Effort 1 8 (rec ty false o) :=
      weaken (hr ty false o) (by unfold recEffort; split <;> decide)
    refine weaken (replicate (by decide) hc n) ?_ ?_ <;> simp [unsized, sizable, h]
    decide

theorem arrayBody (env : Env) (n : Nat) (len : UInt32) (ty : String) :
    Effort 8 16 (M.arrayBody env n rec len ty) := by
  unfold M.arrayBody
  refine count fun c => ?_
  split
  · refine seq (weaken (C := 0) (B := 16) structInfo) (fun i => ?_) (by omega)
    obtain ⟨field, size, sty, guid⟩ := i
    exact seq position (fun p => seq (loop (by decide) (structBody hr env n sty) c.toNat) (fun vs =>
      seq position (fun p' => seq (ensure Cost.good_failPos) (fun _ => weaken (pureLift _))))
        (by omega)) (by omega)
  · exact seq (elements hr ty (arraySuggested len c) c.toNat) fun ps => weaken (pureLift _)

theorem arrayProperty (env : Env) (n : Nat) (hdr : Bool) :
    Effort (-2) 8 (M.arrayProperty env n rec hdr) := by
  unfold M.arrayProperty
  split
  · exact header (weaken string) fun _ _ => map (arrayBody hr _ _ _ _)
  · exact failPos

theorem setBody (debug : Bool) (len : UInt32) (ty : String) :
    Effort 8 16 (M.setBody debug rec len ty) := by
  have G := good_closed debug (fun _ => none)
  unfold M.setBody
  refine seq (lift (d := 4) G.u32) fun _ => count fun c => ?_
  have e : Effort (unsized [⟨some ty, c.toNat⟩] + 1) (unsized [⟨some ty, c.toNat⟩] + 9)
      (M.setElems debug rec len ty c) := by
    unfold M.setElems
    split
    · exact seq (lift (d := 0) (G.subU32 _ _)) fun _ => weaken (elements hr ty _ c.toNat)
    · exact pure _
  exact map e

theorem setProperty (debug : Bool) (hdr : Bool) : Effort (-2) 8 (M.setProperty debug rec hdr) := by
  unfold M.setProperty
  split
  · exact header (weaken string) fun _ _ => setBody hr _ _ _
  · exact failPos

theorem mapBody (kt vt : String) : Effort 8 16 (M.mapBody rec kt vt) := by
  have G := good_closed false (fun _ => none)
  unfold M.mapBody
  refine seq (lift (d := 4) G.u32) fun _ => count fun c => map (loop (c := -4) (B := 8) (by decide)
    ?_ c.toNat)
  unfold M.mapEntry
  exact seq (withEntry _ (rec_none hr _ _)) fun _ => map (withEntry _ (rec_none hr _ _))

theorem mapProperty (hdr : Bool) : Effort (-2) 8 (M.mapProperty rec hdr) := by
  unfold M.mapProperty
  split
  · exact header (seq string fun _ => map string) fun _ _ => mapBody hr _ _
  · exact failPos

/-! ## `Property::new` and files -/

theorem kind (env : Env) (n : Nat) (hdr : Bool) (o : Option UInt32) (k : Kind) :
    Effort (-2) 8 (M.kind env n rec hdr o k) := by
  have G := good_closed false (fun _ => none)
  cases k with
  | byte => exact byteProperty _ _ _
  | enum => exact enumProperty _
  | str => exact map (plain (weaken fstring))
  | text => exact map (plain (weaken (text _ _)))
  | name => exact nameProperty _
  | object => exact map (plain (weaken string))
  | delegate => exact map (plain delegate)
  | multicastInlineDelegate => exact map (plain multicast)
  | multicastSparseDelegate => exact map (plain multicast)
  | fieldPath => exact map (plain fieldPath)
  | struct => exact structProperty hr _ _ _
  | array => exact arrayProperty hr _ _ _
  | set => exact setProperty hr _ _
  | map => exact mapProperty hr _
  | int8 => exact map (lift (d := 1) (G.fixed G.i8))
  | int16 => exact map (lift (d := 2) (G.fixed G.i16))
  | uint16 => exact map (lift (d := 2) (G.fixed G.u16))
  | int => exact map (lift (d := 4) (G.fixed G.i32))
  | uint32 => exact map (lift (d := 4) (G.fixed G.u32))
  | int64 => exact map (lift (d := 8) (G.fixed G.i64))
  | uint64 => exact map (lift (d := 8) (G.fixed G.u64))
  | float => exact map (lift (d := 4) (G.fixed G.f32))
  | double => exact map (lift (d := 8) (G.fixed G.f64))
  | bool =>
    refine map (lift (d := 1) ?_)
    intro s _
    unfold readBoolProperty
    have h := GoodAt.bind (K := 0) (d := 0) (d' := 1) (Nat.zero_le _)
      (G.onlyIf (m' := checkSize 0) hdr (G.zero (m := checkSize 0) (m' := checkSize 0) G.checkSize) s (Nat.zero_le _))
      fun _ s' _ => Cost.good_seq (G.boolean s' (Nat.zero_le _)) fun v s => Cost.good_seq
        (G.onlyIf (m' := readSeparator) hdr (G.zero (m' := readSeparator) G.separator) s
          (Nat.zero_le _)) fun _ s => Cost.good_ret v s
    exact h

end

theorem property (env : Env) (n : Nat) : RecEffort (M.property env n) := by
  induction n with
  | zero => exact fun _ _ _ => outOfFuel
  | succ n ih =>
    intro ty hdr o
    show Effort _ 8 (M.propertyStep env (n + 1) (M.property env n) ty hdr o)
    unfold M.propertyStep
    refine withEntry _ ?_
    cases hk : Kind.ofName ty with
    | some k => exact weaken (kind ih env _ hdr o k) (by unfold recEffort; split <;> decide)
    | none => exact unknown ty hdr o (kind_none_iff.mp hk)

theorem engineVersion : Effort 0 8 M.engineVersion := by
  have G := good_closed false (fun _ => none)
  unfold M.engineVersion
  exact seq (lift (d := 2) G.u16) fun _ => seq (lift (d := 2) G.u16) fun _ =>
    seq (lift (d := 2) G.u16) fun _ => seq (lift (d := 4) G.u32) fun _ => map string

theorem headerTail : Effort 0 8 M.headerTail := by
  have G := good_closed false (fun _ => none)
  unfold M.headerTail
  refine seq engineVersion fun _ => seq (lift (d := 4) G.u32) fun _ => seq (ensure Cost.good_fail)
    fun _ => count fun n => seq (loop (c := 0) (B := 8) (by decide) ?_ n.toNat) fun _ => map string
  exact weaken (lift (d := 16) fun s _ => Cost.good_seq (G.guid s (Nat.zero_le _)) fun _ s =>
    Cost.good_weaken (Nat.zero_le _) (Cost.good_seq (G.u32 s (Nat.zero_le _)) fun _ s =>
      Cost.good_ret _ s))

theorem gvasHeader : Effort 0 8 M.gvasHeader := by
  have G := good_closed false (fun _ => none)
  unfold M.gvasHeader
  refine seq (lift (d := 4) G.u32) fun _ => seq (ensure Cost.good_fail) fun _ =>
    seq (lift (d := 4) G.u32) fun _ => seq (ensure Cost.good_fail) fun _ =>
    seq (lift (d := 4) G.u32) fun _ => seq (ensure Cost.good_fail) fun _ => ?_
  split
  · exact seq (lift (d := 4) G.u32) fun _ => seq (ensure Cost.good_fail) fun _ => map headerTail
  · exact map headerTail

theorem top {rec : String → Bool → Option UInt32 → M Property} (hr : RecEffort rec) (n : Nat)
    (ps : List (String × Property)) : Effort 0 8 (M.top rec n ps) := by
  induction n generalizing ps with
  | zero => exact outOfFuel
  | succ n ih =>
    unfold M.top
    refine seq string fun name => ?_
    split
    · exact ret _
    · exact seq string fun ty => seq (withEntry _ (rec_header hr _ _)) fun p => weaken (ih _)

theorem contents (debug : Bool) (hints : String → Option String) (n : Nat) :
    Effort 0 8 (M.contents debug hints n) := by
  unfold M.contents
  exact seq gvasHeader fun h => map (top (property _ _) _ _)

end Effort

end Gvas
