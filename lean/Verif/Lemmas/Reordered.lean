import Verif.Lemmas.JsonDirect
import Verif.Lemmas.Serde
import Verif.Lemmas.EqualSize
import Verif.Spec.PlainKeys
import Verif.Spec.Reordered

/-! # Reading JSON with the entries of objects in another order -/

namespace Gvas.Reord

open Spec Js

variable {α β κ : Type}

/-! ## Inversion -/

theorem null_iff {j : J} : Reordered .null j ↔ j = .null :=
  ⟨fun h => by cases h; rfl, fun h => h ▸ .null⟩
theorem bool_iff {b : Bool} {j : J} : Reordered (.bool b) j ↔ j = .bool b :=
  ⟨fun h => by cases h; rfl, fun h => h ▸ .bool b⟩
theorem int_iff {n : Int} {j : J} : Reordered (.int n) j ↔ j = .int n :=
  ⟨fun h => by cases h; rfl, fun h => h ▸ .int n⟩
theorem float_iff {f : F64} {j : J} : Reordered (.float f) j ↔ j = .float f :=
  ⟨fun h => by cases h; rfl, fun h => h ▸ .float f⟩
theorem str_iff {s : String} {j : J} : Reordered (.str s) j ↔ j = .str s :=
  ⟨fun h => by cases h; rfl, fun h => h ▸ .str s⟩
theorem obj_iff {l : List (String × J)} {j : J} : Reordered (.obj l) j ↔
    ∃ m l', j = .obj l' ∧ ReorderedValues l m ∧ m.Perm l' :=
  ⟨fun h => by cases h with | obj h1 h2 => exact ⟨_, _, rfl, h1, h2⟩,
   fun ⟨_, _, h, h1, h2⟩ => h ▸ .obj h1 h2⟩
theorem arr_iff {l : List J} {j : J} : Reordered (.arr l) j ↔ ∃ l', j = .arr l' ∧
    ReorderedItems l l' :=
  ⟨fun h => by cases h with | arr h => exact ⟨_, rfl, h⟩, fun ⟨_, h, h1⟩ => h ▸ .arr h1⟩
theorem values_nil {m : List (String × J)} : ReorderedValues [] m ↔ m = [] :=
  ⟨fun h => by cases h; rfl, fun h => h ▸ .nil⟩
theorem values_cons {k : String} {a : J} {l m : List (String × J)} :
    ReorderedValues ((k, a) :: l) m ↔ ∃ b l', m = (k, b) :: l' ∧ Reordered a b ∧
      ReorderedValues l l' :=
  ⟨fun h => by cases h with | cons h1 h2 => exact ⟨_, _, rfl, h1, h2⟩,
   fun ⟨_, _, h, h1, h2⟩ => h ▸ .cons h1 h2⟩
theorem values_append {a b m : List (String × J)} :
    ReorderedValues (a ++ b) m ↔ ∃ x y, m = x ++ y ∧ ReorderedValues a x ∧ ReorderedValues b y := by
  induction a generalizing m with
  | nil =>
    simp only [List.nil_append, values_nil]
    exact ⟨fun h => ⟨[], m, rfl, rfl, h⟩, fun ⟨_, _, h1, h2, h3⟩ => by subst h2; exact h1 ▸ h3⟩
  | cons e a ih =>
    obtain ⟨k, j⟩ := e
    simp only [List.cons_append, values_cons, ih]
    constructor
    · rintro ⟨b', l', rfl, h1, x, y, rfl, h2, h3⟩
      exact ⟨_, _, rfl, ⟨_, _, rfl, h1, h2⟩, h3⟩
    · rintro ⟨_, y, rfl, ⟨b', l', rfl, h1, h2⟩, h3⟩
      exact ⟨_, _, rfl, h1, _, _, rfl, h2, h3⟩

theorem f32_iff [FloatJ] {f : F32} {j : J} : Reordered f.toJ j ↔ j = f.toJ := by
  unfold F32.toJ; split <;> simp only [float_iff, null_iff]
theorem f64_iff {f : F64} {j : J} : Reordered f.toJ j ↔ j = f.toJ := by
  unfold F64.toJ; split <;> simp only [float_iff, null_iff]
theorem opt_iff {s : Option String} {j : J} : Reordered (optJ s) j ↔ j = optJ s := by
  cases s <;> simp only [optJ, str_iff, null_iff]
theorem guid_iff {g : Guid} {j : J} : Reordered g.toJ j ↔ j = g.toJ := str_iff
theorem optE_iff {k : String} {s : Option String} {m : List (String × J)} :
    ReorderedValues (optE k s) m ↔ m = optE k s := by
  cases s <;> simp [optE, values_nil, values_cons, str_iff]
theorem nonzeroE_iff {k : String} {v : UInt32} {m : List (String × J)} :
    ReorderedValues (nonzeroE k v) m ↔ m = nonzeroE k v := by
  unfold nonzeroE; split <;> simp [values_nil, values_cons, int_iff]
theorem guidE_iff {g : Guid} {m : List (String × J)} :
    ReorderedValues (guidE g) m ↔ m = guidE g := by
  unfold guidE; split <;> simp [values_nil, values_cons, guid_iff]

theorem items_map {f : α → J} {l : List α} (h : ∀ a j, Reordered (f a) j → j = f a) {m : List J}
    (hm : ReorderedItems (l.map f) m) : m = l.map f := by
  induction l generalizing m with
  | nil => cases hm; rfl
  | cons a l ih =>
    cases hm with
    | cons h1 h2 => rw [h _ _ h1, ih h2]; rfl

theorem arr_map {f : α → J} {l : List α} (h : ∀ a j, Reordered (f a) j → j = f a) {j : J}
    (hj : Reordered (.arr (l.map f)) j) : j = .arr (l.map f) := by
  obtain ⟨l', rfl, hl⟩ := arr_iff.mp hj
  rw [items_map h hl]

mutual
theorem refl : ∀ j, Reordered j j
  | .null => .null
  | .bool b => .bool b
  | .int n => .int n
  | .float f => .float f
  | .str s => .str s
  | .arr l => .arr (items_refl l)
  | .obj l => .obj (values_refl l) (.refl _)
theorem items_refl : ∀ l, ReorderedItems l l
  | [] => .nil
  | j :: l => .cons (refl j) (items_refl l)
theorem values_refl : ∀ l, ReorderedValues l l
  | [] => .nil
  | (_, j) :: l => .cons (refl j) (values_refl l)
end

/-! ## What is kept -/

theorem values_names {l m : List (String × J)} (h : ReorderedValues l m) :
    m.map Prod.fst = l.map Prod.fst := by
  induction l generalizing m with
  | nil => rw [values_nil.mp h]
  | cons e l ih =>
    obtain ⟨k, j⟩ := e
    obtain ⟨b, l', rfl, -, h2⟩ := values_cons.mp h
    simp [ih h2]

theorem depthEntries_perm {l m : List (String × J)} (h : l.Perm m) :
    depthEntries l = depthEntries m := by
  induction h with
  | nil => rfl
  | cons x _ ih => obtain ⟨k, j⟩ := x; simp [depthEntries, ih]
  | swap x y l => obtain ⟨k, j⟩ := x; obtain ⟨k', j'⟩ := y; simp [depthEntries]; omega
  | trans _ _ h1 h2 => rw [h1, h2]

mutual
theorem depth_eq : ∀ j j', Reordered j j' → j'.depth = j.depth
  | _, _, .null => rfl
  | _, _, .bool _ => rfl
  | _, _, .int _ => rfl
  | _, _, .float _ => rfl
  | _, _, .str _ => rfl
  | _, _, .arr h => by simp only [J.depth, items_depth _ _ h]
  | _, _, .obj h hp => by simp only [J.depth, ← depthEntries_perm hp, values_depth _ _ h]
theorem items_depth : ∀ l l', ReorderedItems l l' → depthList l' = depthList l
  | _, _, .nil => rfl
  | _, _, .cons h1 h2 => by simp only [depthList, depth_eq _ _ h1, items_depth _ _ h2]
theorem values_depth : ∀ l l', ReorderedValues l l' → depthEntries l' = depthEntries l
  | _, _, .nil => rfl
  | _, _, .cons h1 h2 => by simp only [depthEntries, depth_eq _ _ h1, values_depth _ _ h2]
end

mutual
theorem once : ∀ j j', Reordered j j' → NamesOnce j → NamesOnce j'
  | _, _, .null, _ => trivial
  | _, _, .bool _, _ => trivial
  | _, _, .int _, _ => trivial
  | _, _, .float _, _ => trivial
  | _, _, .str _, _ => trivial
  | _, _, .arr h, hn => items_once _ _ h hn
  | _, _, .obj (l := l) (m := m) (l' := l') h hp, hn => by
    refine ⟨(hp.map Prod.fst).nodup_iff.mp (by rw [values_names h]; exact hn.1), ?_⟩
    have := values_once _ _ h hn.2
    exact Once.entries_of fun e he => Once.entries_mem this (hp.mem_iff.mpr he)
theorem items_once : ∀ l l', ReorderedItems l l' → ItemsOnce l → ItemsOnce l'
  | _, _, .nil, _ => trivial
  | _, _, .cons h1 h2, hn => ⟨once _ _ h1 hn.1, items_once _ _ h2 hn.2⟩
theorem values_once : ∀ l l', ReorderedValues l l' → EntriesOnce l → EntriesOnce l'
  | _, _, .nil, _ => trivial
  | _, _, .cons h1 h2, hn => ⟨once _ _ h1 hn.1, values_once _ _ h2 hn.2⟩
end

theorem lookup_perm {l m : List (String × J)} (h : l.Perm m) (hn : (l.map Prod.fst).Nodup)
    (k : String) : m.lookup k = l.lookup k := by
  induction h with
  | nil => rfl
  | cons x _ ih =>
    obtain ⟨k', j⟩ := x
    rw [List.map_cons, List.nodup_cons] at hn
    simp only [List.lookup_cons, ih hn.2]
  | swap x y l =>
    obtain ⟨k1, j1⟩ := x
    obtain ⟨k2, j2⟩ := y
    simp only [List.map_cons, List.nodup_cons, List.mem_cons, not_or] at hn
    simp only [List.lookup_cons]
    by_cases h1 : k == k1 <;> by_cases h2 : k == k2 <;> simp only [h1, h2]
    exact absurd ((eq_of_beq h2).symm.trans (eq_of_beq h1)) hn.1.1
  | trans h1 _ ih1 ih2 =>
    rw [ih2 ((h1.map Prod.fst).nodup_iff.mp hn), ih1 hn]

theorem find_perm {p : α → Bool} {l m : List α} (h : l.Perm m) (hf : (l.filter p).length ≤ 1) :
    m.filter p = l.filter p ∧ m.find? p = l.find? p := by
  have e : m.filter p = l.filter p := by
    have := h.filter p
    match hl : l.filter p with
    | [] => rw [hl] at this; exact List.nil_perm.mp this
    | [a] => rw [hl] at this; exact (List.singleton_perm.mp this).symm
    | _ :: _ :: _ => simp [hl] at hf
  exact ⟨e, by rw [← List.head?_filter, ← List.head?_filter, e]⟩

theorem mapM_perm {d : α → Option β} {l m : List α} (h : l.Perm m) {xs : List β}
    (hx : l.mapM d = some xs) : ∃ ys, m.mapM d = some ys ∧ xs.Perm ys := by
  induction h generalizing xs with
  | nil => exact ⟨xs, hx, .refl _⟩
  | cons a _ ih =>
    simp only [List.mapM_cons, Option.bind_eq_bind, Option.bind_eq_some_iff, Option.pure_def,
      Option.some.injEq] at hx ⊢
    obtain ⟨x, h1, l', h2, rfl⟩ := hx
    obtain ⟨ys, h3, h4⟩ := ih h2
    exact ⟨x :: ys, ⟨x, h1, ys, h3, rfl⟩, h4.cons x⟩
  | swap a b l =>
    simp only [List.mapM_cons, Option.bind_eq_bind, Option.bind_eq_some_iff, Option.pure_def,
      Option.some.injEq] at hx ⊢
    obtain ⟨x, h1, _, ⟨y, h2, l', h3, rfl⟩, rfl⟩ := hx
    exact ⟨_, ⟨y, h2, _, ⟨x, h1, l', h3, rfl⟩, rfl⟩, .swap ..⟩
  | trans _ _ ih1 ih2 =>
    obtain ⟨ys, h1, h2⟩ := ih1 hx
    obtain ⟨zs, h3, h4⟩ := ih2 h1
    exact ⟨zs, h3, h2.trans h4⟩

/-! ## Arrays and maps -/

theorem getArr_pairs {d : J → Option α} {f : β → J} {R : β → α → Prop} (l : List β)
    (h : ∀ a ∈ l, ∀ j, Reordered (f a) j → ∃ x, d j = some x ∧ R a x) {j : J}
    (hj : Reordered (.arr (l.map f)) j) : ∃ xs, J.getArr d j = some xs ∧ Pairs R l xs := by
  obtain ⟨m, rfl, hm⟩ := arr_iff.mp hj
  clear hj
  show ∃ xs, m.mapM d = some xs ∧ _
  induction l generalizing m with
  | nil => cases hm; exact ⟨[], rfl, .nil⟩
  | cons a l ih =>
    cases hm with
    | cons h1 h2 =>
      obtain ⟨x, h3, h4⟩ := h a (List.mem_cons_self ..) _ h1
      obtain ⟨xs, h5, h6⟩ := ih (fun a ha => h a (List.mem_cons_of_mem _ ha)) _ h2
      exact ⟨x :: xs, by simp [h3, h5], .cons h4 h6⟩

theorem getMap_pairs {same : κ → κ → Bool} {dk : String → Option κ} {fk : κ → String}
    {d : J → Option α} {f : β → J} {R : β → α → Prop} (hs : ∀ a b, same a b = false ↔ a ≠ b)
    (l : List (κ × β)) (hk : ∀ k, dk (fk k) = some k)
    (hd : (l.map Prod.fst).Nodup)
    (h : ∀ e ∈ l, ∀ j, Reordered (f e.2) j → ∃ x, d j = some x ∧ R e.2 x) {j : J}
    (hj : Reordered (.obj (l.map fun e => (fk e.1, f e.2))) j) :
    ∃ p xs, J.getMap same dk d j = some xs ∧ p.Perm xs ∧ (xs.map Prod.fst).Nodup ∧
      Pairs (fun a b => a.1 = b.1 ∧ R a.2 b.2) l p := by
  obtain ⟨m, l', rfl, hm, hp⟩ := obj_iff.mp hj
  have h1 : ∃ p, m.mapM (fun e : String × J => do return ((← dk e.1, ← d e.2) : κ × α)) = some p ∧
      Pairs (fun a b => a.1 = b.1 ∧ R a.2 b.2) l p := by
    clear hd hj hp
    induction l generalizing m with
    | nil => rw [values_nil.mp hm]; exact ⟨[], rfl, .nil⟩
    | cons e l ih =>
      obtain ⟨b, m', rfl, h1, h2⟩ := values_cons.mp hm
      obtain ⟨x, h3, h4⟩ := h e (List.mem_cons_self ..) _ h1
      obtain ⟨xs, h5, h6⟩ := ih (fun a ha => h a (List.mem_cons_of_mem _ ha)) _ h2
      refine ⟨(e.1, x) :: xs, ?_, .cons ⟨rfl, h4⟩ h6⟩
      rw [List.mapM_cons, h5]
      simp [hk, h3]
  obtain ⟨p, h1, h2⟩ := h1
  obtain ⟨xs, h3, h4⟩ := mapM_perm hp h1
  have hkeys : l.map Prod.fst = p.map Prod.fst := by
    clear hd hj h1 h4 h hm
    induction h2 with
    | nil => rfl
    | cons h _ ih => simp [h.1, ih]
  have hn : (xs.map Prod.fst).Nodup := (h4.map Prod.fst).nodup_iff.mp (hkeys ▸ hd)
  refine ⟨p, xs, ?_, h4, hn, h2⟩
  simp only [J.getMap]
  rw [h3]
  simp [imExtend_nil_fresh xs (hn.imp fun h => (hs _ _).mpr h)]

theorem getStrMap_pairs {d : J → Option α} {f : β → J} {R : β → α → Prop} (l : List (String × β))
    (hd : KeysDistinct l)
    (h : ∀ e ∈ l, ∀ j, Reordered (f e.2) j → ∃ x, d j = some x ∧ R e.2 x) {j : J}
    (hj : Reordered (.obj (l.map fun e => (e.1, f e.2))) j) :
    ∃ p xs, J.getStrMap d j = some xs ∧ p.Perm xs ∧ KeysDistinct xs ∧
      Pairs (fun a b => a.1 = b.1 ∧ R a.2 b.2) l p :=
  getMap_pairs (fk := id) (fun a b => by simp) l (fun _ => rfl) hd h hj

end Gvas.Reord
