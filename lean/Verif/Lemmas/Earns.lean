import Verif.Lemmas.Meter
import Verif.Lemmas.Weight

/-!
# The readers take a step for each property they return
-/

namespace Gvas

open Spec

/-- What `m` returns weighs no more than the steps taken. -/
def Earns {α : Type} (w : α → Nat) (m : M α) : Prop :=
  ∀ s a, (m s).1.1 = .ok a → w a ≤ (m s).2.steps

/-- The weight of a property: itself and everything inside it. -/
abbrev wt : Property → Nat := weigh 1 fun _ => 1

namespace Earns

variable {α β : Type}

theorem weaken {w w' : α → Nat} {m : M α} (h : Earns w m) (hw : ∀ a, w' a ≤ w a) : Earns w' m :=
  fun s a ha => Nat.le_trans (hw a) (h s a ha)

theorem seq {w : α → Nat} {W : β → Nat} {m : M α} {f : α → M β} (h : Earns w m)
    (hf : ∀ a, Earns (fun b => W b - w a) (f a)) : Earns W (m >>= f) := by
  intro s b hb
  have e : (m >>= f) s = M.bind m f s := rfl
  rw [e] at hb ⊢
  match hm : m s with
  | ((.ok a, s'), l) =>
    have h1 := h s a (by rw [hm])
    have hr : M.bind m f s = ((f a s').1, l ++ (f a s').2) := by unfold M.bind; rw [hm]
    rw [hr] at hb ⊢
    rw [hm] at h1
    have h2 := hf a s' b hb
    simp only [Log.append_steps] at h1 h2 ⊢
    omega
  | ((.bad e, s'), l) =>
    have hr : M.bind m f s = ((.bad e, s'), l) := by unfold M.bind; rw [hm]
    rw [hr] at hb
    simp at hb

theorem any (m : M α) : Earns (fun _ => 0) m := fun _ _ _ => Nat.zero_le _

theorem zero {w : α → Nat} {m : M α} (h : ∀ a, w a = 0) : Earns w m :=
  weaken (any m) fun a => Nat.le_of_eq (h a)

theorem skip {W : β → Nat} {m : M α} {f : α → M β} (hf : ∀ a, Earns W (f a)) : Earns W (m >>= f) :=
  seq (any m) hf

theorem ret {w : α → Nat} {a : α} (h : w a = 0) : Earns w (Pure.pure a) := by
  intro s b hb
  have : b = a := by
    have e : ((Pure.pure a : M α) s).1.1 = .ok a := rfl
    rw [e] at hb
    exact (Res.ok.inj hb).symm
  rw [this, h]
  exact Nat.zero_le _

theorem map {w : α → Nat} {W : β → Nat} {m : M α} {g : α → β} (h : Earns w m)
    (hw : ∀ a, W (g a) ≤ w a) : Earns W (m >>= fun a => Pure.pure (g a)) :=
  seq h fun a => ret (by have := hw a; omega)

theorem lift {w : α → Nat} {m : R α} (h : ∀ s a, (m s).1 = .ok a → w a ≤ 1) : Earns w (M.lift m) :=
  fun s a ha => h s a ha

theorem one (m : R α) : Earns (fun _ => 1) (M.lift m) := lift fun _ _ _ => Nat.le_refl _

theorem bad {w : α → Nat} {m : R α} (h : ∀ s a, (m s).1 ≠ .ok a) : Earns w (M.lift m) :=
  lift fun s a ha => absurd ha (h s a)

theorem fail {w : α → Nat} {e : Err} : Earns w (M.lift (R.fail e)) := bad fun _ _ => by simp [R.fail]
theorem outOfFuel {w : α → Nat} : Earns w (M.lift R.outOfFuel) :=
  bad fun _ _ => by simp [R.outOfFuel]

/-- A first step, in front of what earns nothing more. -/
theorem first {m : R α} {f : α → M β} : Earns (fun _ => 1) (M.lift m >>= f) :=
  seq (one m) fun _ => zero fun _ => rfl

theorem withEntry {w : α → Nat} {m : M α} (nm : String) (h : Earns w m) :
    Earns w (M.withEntry nm m) := by
  intro s a ha
  exact h { s with stack := s.stack ++ [nm] } a ha

theorem replicate {w : α → Nat} {m : M α} (h : Earns w m) (n : Nat) :
    Earns (fun v => (v.map w).sum) (M.replicate m n) := by
  induction n with
  | zero => exact ret rfl
  | succ n ih => exact seq h fun a => seq ih fun as => ret (by simp)

theorem header {hdr : M α} {body : UInt32 → α → M β} {w : β → Nat}
    (h : ∀ l a, Earns w (body l a)) : Earns (fun b => 1 + w b) (M.header hdr body) := by
  unfold M.header
  refine seq (one _) fun len => skip fun _ => skip fun a => skip fun _ => ?_
  refine weaken (w := w) ?_ fun b => by omega
  unfold M.sized
  exact skip fun _ => seq (h len a) fun b => skip fun _ => skip fun _ => ret (by omega)

theorem plain {hdr : Bool} {m : M β} (h : Earns (fun _ => 1) m) :
    Earns (fun _ => 1) (M.plain hdr m) := by
  unfold M.plain
  split
  · exact weaken (header (w := fun _ => 1) fun _ _ => h) fun _ => by omega
  · exact h

theorem fstring : Earns (fun _ => 1) M.fstring := first
theorem string : Earns (fun _ => 1) M.string := first

theorem count1 {elem : Option String} {f : UInt32 → M β} :
    Earns (fun _ => 1) (M.count elem >>= f) :=
  seq (w := fun _ => 1) first fun _ => zero fun _ => rfl

/-- A leaf. -/
theorem leaf {m : M α} {g : α → Property} (h : Earns (fun _ => 1) m) (hg : ∀ a, wt (g a) = 1) :
    Earns wt (m >>= fun a => Pure.pure (g a)) :=
  map h fun a => Nat.le_of_eq (hg a)

theorem byteProperty (debug hdr : Bool) (o : Option UInt32) :
    Earns wt (M.byteProperty debug hdr o) := by
  unfold M.byteProperty
  split
  · exact seq (one _) fun _ => skip fun _ => skip fun _ => skip fun _ => skip fun _ => skip fun _ =>
      ret (by simp [weigh])
  · exact seq (one _) fun _ => skip fun _ => ret (by simp [weigh])

theorem enumProperty (hdr : Bool) : Earns wt (M.enumProperty hdr) := by
  unfold M.enumProperty
  split
  · exact weaken (header (w := fun p => wt p - 1) fun _ _ => skip fun _ => ret (by simp [weigh]))
      fun p => by omega
  · exact leaf string fun _ => by simp [weigh]

theorem nameProperty (hdr : Bool) : Earns wt (M.nameProperty hdr) := by
  unfold M.nameProperty
  split
  · refine seq (one _) fun _ => skip fun _ => skip fun _ => ?_
    unfold M.sized
    refine skip fun _ => seq (w := fun p => wt p - 1) (skip fun _ => ret (by simp [weigh])) fun p => ?_
    exact skip fun _ => skip fun _ => ret (by omega)
  · exact leaf fstring fun _ => by simp [weigh]

theorem take (n : Nat) : Earns (fun _ => 1) (M.take n) := skip fun _ => one _

theorem unknown (ty : String) (hdr : Bool) (o : Option UInt32) : Earns wt (M.unknown ty hdr o) := by
  unfold M.unknown
  split
  · exact skip fun _ => skip fun _ => skip fun _ => leaf (take _) fun _ => by simp [weigh]
  · split
    · exact leaf (take _) fun _ => by simp [weigh]
    · exact skip fun _ => fail

theorem lift_ok {r : Res α} {s : RS} {a : α} (h : (R.lift r s).1 = .ok a) : r = .ok a := by
  cases r with
  | ok b => exact h
  | bad f => cases h

/-- Whatever is returned satisfies `P`. -/
def Ends (P : α → Prop) (m : R α) : Prop := ∀ s a, (m s).1 = .ok a → P a

theorem ends_bind {P : β → Prop} {m : R α} {f : α → R β} (h : ∀ a, Ends P (f a)) :
    Ends P (m >>= f) := by
  intro s b hb
  have e : (m >>= f) s = R.bind m f s := rfl
  rw [e] at hb
  unfold R.bind at hb
  split at hb
  · exact h _ _ _ hb
  · cases hb

theorem ends_pure {P : α → Prop} {a : α} (h : P a) : Ends P (Pure.pure a) := by
  intro s b hb
  cases hb
  exact h

theorem ends_builtin {l : Nat} {u : Bytes → Nat} (cv : List (Guid × UInt32)) (k : StructKind) :
    Ends (fun v => weighStruct l u v = 0) (readBuiltin cv k) := by
  cases k <;> simp only [readBuiltin]
  all_goals
    (try split)
    all_goals
      repeat refine ends_bind fun _ => ?_
      exact ends_pure rfl

def RecEarns (rec : String → Bool → Option UInt32 → M Property) : Prop :=
  ∀ ty hdr o, Earns wt (rec ty hdr o)

section

variable {rec : String → Bool → Option UInt32 → M Property} (hr : RecEarns rec)
include hr

theorem custom (debug : Bool) (n : Nat) (fs : List (String × List Property)) :
    Earns (fun fs' => 1 + weighFields 1 (fun _ => 1) fs' - weighFields 1 (fun _ => 1) fs)
      (M.custom debug rec n fs) := by
  induction n generalizing fs with
  | zero => exact outOfFuel
  | succ n ih =>
    unfold M.custom
    refine seq string fun name => ?_
    split
    · exact ret (by omega)
    · refine skip fun ty => seq
        (w := fun fs' => weighFields 1 (fun _ => 1) fs' - weighFields 1 (fun _ => 1) fs)
        (withEntry _ (seq (hr _ _ _) fun p => lift fun s a ha => ?_)) fun fs' => ?_
      · have e : a = fieldPush name p fs := by
          unfold insertProperty R.ensure at ha
          split at ha
          · exact (Res.ok.inj ha).symm
          · cases ha
        rw [e, weighFields_push]
        simp only [wt]
        omega
      · exact weaken (ih fs') fun fs'' => by omega

omit hr in
theorem builtin (cv : List (Guid × UInt32)) (k : StructKind) :
    Earns (fun v => 1 + weighStruct 1 (fun _ => 1) v) (M.builtin cv k) := by
  have h : Earns (fun v => 1 + weighStruct 1 (fun _ => 1) v) (M.lift (readBuiltin cv k)) :=
    lift fun s a ha => by rw [ends_builtin cv k s a ha]; exact Nat.le_refl 1
  cases k with
  | gameplayTagContainer =>
    unfold M.builtin
    exact seq (w := fun _ => 1) first fun _ => skip fun _ => ret (by simp [weighStruct])
  | _ => exact h

theorem structBody (env : Env) (n : Nat) (ty : String) :
    Earns (fun v => 1 + weighStruct 1 (fun _ => 1) v) (M.structBody env n rec ty) := by
  unfold M.structBody
  split
  · exact builtin _ _
  · exact map (custom hr _ _ _) fun fs => by simp [weighStruct, weighFields]

theorem structProperty (env : Env) (n : Nat) (hdr : Bool) :
    Earns wt (M.structProperty env n rec hdr) := by
  unfold M.structProperty
  split
  · exact weaken (header (w := fun p => wt p - 1) fun _ x =>
      map (structBody hr _ _ _) fun v => by simp [weigh]) fun p => by omega
  · refine skip fun st => ?_
    simp only []
    split
    · exact map (structBody hr _ _ _) fun v => by simp [weigh]
    · exact skip fun _ => fail

theorem arrayBody (env : Env) (n : Nat) (len : UInt32) (ty : String) :
    Earns (weighArray 1 fun _ => 1) (M.arrayBody env n rec len ty) := by
  unfold M.arrayBody
  refine skip fun c => ?_
  split
  · refine skip fun i => ?_
    obtain ⟨field, size, sty, guid⟩ := i
    refine skip fun p => seq (replicate (structBody hr env n sty) c.toNat) fun vs => skip fun _ =>
      skip fun _ => lift fun s a ha => ?_
    have ha := lift_ok ha
    rw [weighArray_eq, (C35_array_new_keeps _ _ _ _ ha).2.1, List.map_map]
    simp only [Function.comp_def, weigh]
    omega
  · refine seq (replicate (hr ty false _) c.toNat) fun ps => lift fun s a ha => ?_
    have ha := lift_ok ha
    rw [weighArray_eq, (C35_array_new_keeps _ _ _ _ ha).2.1]
    simp only [wt]
    omega

theorem arrayProperty (env : Env) (n : Nat) (hdr : Bool) :
    Earns wt (M.arrayProperty env n rec hdr) := by
  unfold M.arrayProperty
  split
  · exact weaken (header (w := fun p => wt p - 1) fun _ x =>
      map (arrayBody hr _ _ _ _) fun v => by simp [weigh]) fun p => by omega
  · exact skip fun _ => fail

theorem setProperty (debug : Bool) (hdr : Bool) : Earns wt (M.setProperty debug rec hdr) := by
  unfold M.setProperty
  split
  · refine weaken (header (w := fun p => wt p - 1) fun len ty => ?_) fun p => by omega
    unfold M.setBody
    refine skip fun _ => skip fun c => map (w := weighProps 1 fun _ => 1) ?_ fun ps => by simp [weigh]
    unfold M.setElems
    split
    · exact skip fun _ => weaken (replicate (hr _ _ _) _) fun ps => by rw [weighProps_eq]; simp [wt]
    · exact ret rfl
  · exact skip fun _ => fail

theorem mapProperty (hdr : Bool) : Earns wt (M.mapProperty rec hdr) := by
  unfold M.mapProperty
  split
  · refine weaken (header (w := fun p => wt p - 1) fun _ x => ?_) fun p => by omega
    unfold M.mapBody
    refine skip fun _ => skip fun c => map (replicate (w := fun x => wt x.1 + wt x.2) ?_ _)
      fun es => ?_
    · unfold M.mapEntry
      exact seq (withEntry _ (hr _ _ _)) fun k => seq (withEntry _ (hr _ _ _)) fun v =>
        ret (by simp only []; omega)
    · have hx := imExtend_sum (same := sameKey) wt wt es []
      have hd := imExtend_distinct (same := sameKey) es [] (by simp)
      show weigh 1 (fun _ => 1) _ - 1 ≤ _
      rw [weigh, weighMap_eq, (C36_map_new_keeps _ _ _ _ hd).2.2.2]
      simp only [List.map_nil, List.sum_nil, wt] at hx ⊢
      omega
  · exact skip fun _ => fail

theorem kind (env : Env) (n : Nat) (hdr : Bool) (o : Option UInt32) (k : Kind) :
    Earns wt (M.kind env n rec hdr o k) := by
  cases k with
  | byte => exact byteProperty _ _ _
  | enum => exact enumProperty _
  | str => exact leaf (plain fstring) fun _ => by simp [weigh]
  | text =>
    refine leaf (plain ?_) fun _ => by simp [weigh]
    cases n with
    | zero => exact outOfFuel
    | succ n => exact first
  | name => exact nameProperty _
  | object => exact leaf (plain string) fun _ => by simp [weigh]
  | delegate =>
    exact leaf (plain (seq string fun _ => zero fun _ => rfl)) fun _ => by simp [weigh]
  | multicastInlineDelegate => exact leaf (plain count1) fun _ => by simp [weigh]
  | multicastSparseDelegate => exact leaf (plain count1) fun _ => by simp [weigh]
  | fieldPath => exact leaf (plain count1) fun _ => by simp [weigh]
  | struct => exact structProperty hr _ _ _
  | array => exact arrayProperty hr _ _ _
  | set => exact setProperty hr _ _
  | map => exact mapProperty hr _
  | _ => exact leaf (one _) fun _ => by simp [weigh]

end

theorem property (env : Env) (n : Nat) : RecEarns (M.property env n) := by
  induction n with
  | zero => exact fun _ _ _ => outOfFuel
  | succ n ih =>
    intro ty hdr o
    show Earns wt (M.propertyStep env (n + 1) (M.property env n) ty hdr o)
    unfold M.propertyStep
    refine withEntry _ ?_
    split
    · exact kind ih env _ hdr o _
    · exact unknown ty hdr o

theorem top {rec : String → Bool → Option UInt32 → M Property} (hr : RecEarns rec) (n : Nat)
    (ps : List (String × Property)) :
    Earns (fun qs => (qs.map fun x => wt x.2).sum - (ps.map fun x => wt x.2).sum)
      (M.top rec n ps) := by
  induction n generalizing ps with
  | zero => exact outOfFuel
  | succ n ih =>
    unfold M.top
    refine skip fun name => ?_
    split
    · exact ret (by omega)
    · refine skip fun ty => seq (withEntry _ (hr _ _ _)) fun p => weaken (ih _) fun qs => ?_
      have hx := imInsert_sum (same := fun a b : String => a == b) (fun _ => 0) wt name p ps
      simp only [Nat.zero_add] at hx
      omega

theorem contents (debug : Bool) (hints : String → Option String) (n : Nat) :
    Earns (fun x => (x.2.map fun x => wt x.2).sum) (M.contents debug hints n) := by
  unfold M.contents
  exact skip fun h => map (top (property _ _) _ []) fun ps => by simp

end Earns

end Gvas
