import Verif.Spec.Streams
import Verif.Lemmas.LastWins
import Verif.Lemmas.Inv

/-! # The loops of the readers, item by item -/

namespace Gvas

open Spec

theorem replicate_items {α : Type} {m : R α} {n : Nat} {s s' : RS} {as : List α} :
    R.replicate m n s = (.ok as, s') ↔ Items m s as s' ∧ as.length = n := by
  induction n generalizing s as with
  | zero =>
    constructor
    · intro h
      obtain ⟨rfl, rfl⟩ := R.rpure_inv h
      exact ⟨.nil _, rfl⟩
    · rintro ⟨h, hl⟩
      cases h with
      | nil => rfl
      | cons => simp at hl
  | succ n ih =>
    constructor
    · intro h
      obtain ⟨a, s1, h1, h⟩ := R.bind_inv (m := m) h
      obtain ⟨as', s2, h2, h⟩ := R.bind_inv (m := R.replicate m n) h
      obtain ⟨rfl, rfl⟩ := R.rpure_inv h
      obtain ⟨h3, h4⟩ := ih.mp h2
      exact ⟨.cons h1 h3, by simp [h4]⟩
    · rintro ⟨h, hl⟩
      cases h with
      | nil => simp at hl
      | cons h1 h2 =>
        have h3 := ih.mpr ⟨h2, by simpa using hl⟩
        show (m >>= fun a => R.replicate m n >>= fun as => R.pure (a :: as)) s = _
        rw [R.bind_ok h1, R.bind_ok h3]
        rfl

theorem withEntry_bind {α β : Type} {nm : String} {m : R α} {f : α → R β} :
    ∀ s, R.withEntry nm (m >>= f) s =
      (match m { s with stack := s.stack ++ [nm] } with
       | (.ok a, s1) => (match f a s1 with
          | (r, s2) => (r, { s2 with stack := s2.stack.dropLast }))
       | (.bad e, s1) => (.bad e, { s1 with stack := s1.stack.dropLast })) := by
  intro s
  unfold R.withEntry
  rw [R.bind_def]
  match m { s with stack := s.stack ++ [nm] } with
  | (.ok a, s1) => rfl
  | (.bad e, s1) => rfl

theorem readTop_named {rec : String → Bool → Option UInt32 → R Property} {n : Nat}
    {ps m : List (String × Property)} {s s' : RS} (h : readTop rec n ps s = (.ok m, s')) :
    ∃ es, Named rec s es s' ∧ m = imExtend (· == ·) ps es := by
  induction n generalizing ps s with
  | zero => simp [readTop, R.outOfFuel] at h
  | succ n ih =>
    rw [readTop] at h
    rbind h => name s1 h1
    split at h
    · rename_i hn
      obtain ⟨rfl, rfl⟩ := R.pure_inv h
      subst hn
      exact ⟨[], .done h1, rfl⟩
    · rename_i hn
      rbind h => ty s2 h2
      rbind h => p s3 h3
      obtain ⟨es, he, hm⟩ := ih h
      exact ⟨(name, p) :: es, .entry h1 hn h2 h3 he, hm⟩

theorem named_readTop {rec : String → Bool → Option UInt32 → R Property} {n : Nat}
    {ps es : List (String × Property)} {s s' : RS} (h : Named rec s es s') (hn : es.length < n) :
    readTop rec n ps s = (.ok (imExtend (· == ·) ps es), s') := by
  induction h generalizing n ps with
  | done h1 =>
    cases n with
    | zero => omega
    | succ n => rw [readTop, R.bind_ok h1, if_pos rfl]; rfl
  | entry h1 hne h2 h3 _ ih =>
    cases n with
    | zero => omega
    | succ n =>
      rw [readTop, R.bind_ok h1, if_neg hne, R.bind_ok h2, R.bind_ok h3, ih (by simpa using hn)]
      rfl

/-! ## Struct fields -/

theorem fieldPush_keys (k : String) (p : Property) (fs : List (String × List Property)) :
    (fieldPush k p fs).map Prod.fst =
      if (fs.any fun e => e.1 == k) then fs.map Prod.fst else fs.map Prod.fst ++ [k] := by
  induction fs with
  | nil => rfl
  | cons e fs ih =>
    obtain ⟨k', ps⟩ := e
    by_cases h : (k' == k) = true
    · simp [fieldPush, h]
    · simp only [fieldPush, h, List.any_cons]
      simp only [List.map_cons, Bool.false_or]
      rw [if_neg (by simp), List.map_cons, ih]
      split <;> simp

theorem fieldPush_mem {k : String} {p : Property} {fs : List (String × List Property)}
    {e : String × List Property} (hp : (fs.map Prod.fst).Pairwise fun a b => (a == b) = false)
    (h : e ∈ fieldPush k p fs) :
    (e ∈ fs ∧ e.1 ≠ k) ∨ (e.1 = k ∧ ∃ ps, (k, ps) ∈ fs ∧ e.2 = ps ++ [p]) ∨
      (e = (k, [p]) ∧ ∀ ps, (k, ps) ∉ fs) := by
  induction fs with
  | nil => simp [fieldPush] at h; exact .inr (.inr ⟨h, by simp⟩)
  | cons x fs ih =>
    obtain ⟨k', ps⟩ := x
    simp only [List.map_cons, List.pairwise_cons, List.mem_map] at hp
    simp only [fieldPush] at h
    split at h
    · rename_i hk
      have hk : k' = k := by simpa using hk
      subst hk
      rcases List.mem_cons.mp h with rfl | h
      · exact .inr (.inl ⟨rfl, ps, by simp, rfl⟩)
      · refine .inl ⟨by simp [h], ?_⟩
        have := hp.1 e.1 ⟨e, h, rfl⟩
        intro he
        rw [he] at this
        simp at this
    · rename_i hk
      have hk : k' ≠ k := by simpa using hk
      rcases List.mem_cons.mp h with rfl | h
      · exact .inl ⟨by simp, hk⟩
      · rcases ih hp.2 h with h | ⟨h1, ps', h2, h3⟩ | ⟨h1, h2⟩
        · exact .inl ⟨by simp [h.1], h.2⟩
        · exact .inr (.inl ⟨h1, ps', by simp [h2], h3⟩)
        · refine .inr (.inr ⟨h1, ?_⟩)
          intro ps' hm
          rcases List.mem_cons.mp hm with hm | hm
          · cases hm; exact hk rfl
          · exact h2 _ hm

theorem grouped_key {es : List (String × Property)} {fs : List (String × List Property)}
    (h : Grouped es fs) (k : String) :
    (fs.any fun e => e.1 == k) = (es.map Prod.fst).any (· == k) := by
  rw [← firsts_any equiv_beq, ← h.keys, List.any_map]; rfl

theorem grouped_push {es : List (String × Property)} {fs : List (String × List Property)}
    (h : Grouped es fs) (k : String) (p : Property) :
    Grouped (es ++ [(k, p)]) (fieldPush k p fs) := by
  constructor
  · rw [fieldPush_keys, List.map_append, h.keys, List.map_cons, List.map_nil,
      firsts_concat equiv_beq, grouped_key h]
  · intro k' ps hm
    have hp : (fs.map Prod.fst).Pairwise fun a b => (a == b) = false := by
      rw [h.keys]; exact firsts_pairwise _
    rw [List.filter_append, List.map_append]
    rcases fieldPush_mem hp hm with ⟨h1, h2⟩ | ⟨h1, ps', h2, h3⟩ | ⟨h1, h2⟩
    · have : (k == k') = false := by simpa using fun e => h2 e.symm
      simp [this, h.values k' ps h1]
    · simp only [] at h1 h3
      subst h1 h3
      rw [h.values _ ps' h2]
      simp
    · cases h1
      have hk := grouped_key h k
      have : (fs.any fun e => e.1 == k) = false := by
        rw [List.any_eq_false]
        intro e he hek
        have : e.1 = k := by simpa using hek
        subst this
        exact h2 _ he
      rw [this, eq_comm, List.any_map, List.any_eq_false] at hk
      have : es.filter (fun x => x.1 == k) = [] := by
        rw [List.filter_eq_nil_iff]; simpa using hk
      simp [this]

theorem lookup_fields {fs : List (String × List Property)} {k : String} {ps : List Property}
    (hp : (fs.map Prod.fst).Pairwise fun a b => (a == b) = false) (h : (k, ps) ∈ fs) :
    fs.lookup k = some ps := by
  induction fs with
  | nil => simp at h
  | cons e fs ih =>
    obtain ⟨k', ps'⟩ := e
    simp only [List.map_cons, List.pairwise_cons, List.mem_map] at hp
    rw [List.lookup_cons]
    rcases List.mem_cons.mp h with h | h
    · cases h; simp
    · have := hp.1 k ⟨_, h, rfl⟩
      rw [show (k == k') = false by
        rw [beq_eq_false_iff_ne] at *; exact fun e => this e.symm]
      exact ih hp.2 h

theorem lookup_fields_none {fs : List (String × List Property)} {k : String}
    (h : (fs.any fun e => e.1 == k) = false) : fs.lookup k = none := by
  induction fs with
  | nil => rfl
  | cons e fs ih =>
    obtain ⟨k', ps'⟩ := e
    simp only [List.any_cons, Bool.or_eq_false_iff] at h
    have h1 := h.1
    rw [List.lookup_cons, show (k == k') = false by
      rw [beq_eq_false_iff_ne] at *; exact fun e => h1 e.symm]
    exact ih h.2

theorem grouped_count {es : List (String × Property)} {fs : List (String × List Property)}
    (h : Grouped es fs) (k : String) :
    fieldCount k fs = (es.filter (·.1 == k)).length := by
  have hp : (fs.map Prod.fst).Pairwise fun a b => (a == b) = false := by
    rw [h.keys]; exact firsts_pairwise _
  have hk := grouped_key h k
  unfold fieldCount
  cases ha : (fs.any fun e => e.1 == k) with
  | true =>
    rw [List.any_eq_true] at ha
    obtain ⟨⟨k', ps⟩, hm, he⟩ := ha
    have : k' = k := by simpa using he
    subst this
    rw [lookup_fields hp hm]
    simp [h.values _ _ hm]
  | false =>
    rw [lookup_fields_none ha]
    rw [ha, eq_comm, List.any_map, List.any_eq_false] at hk
    have : es.filter (fun x => x.1 == k) = [] := by
      rw [List.filter_eq_nil_iff]; simpa using hk
    simp [this]

theorem grouped_nil : Grouped [] [] := ⟨rfl, by simp⟩

/-- The fields the loop of `readCustom` has after the entries `es`. -/
def pushAll (fs : List (String × List Property)) (es : List (String × Property)) :
    List (String × List Property) :=
  es.foldl (fun fs e => fieldPush e.1 e.2 fs) fs

theorem grouped_pushAll {es0 : List (String × Property)} {fs : List (String × List Property)}
    (h : Grouped es0 fs) (es : List (String × Property)) :
    Grouped (es0 ++ es) (pushAll fs es) := by
  induction es generalizing es0 fs with
  | nil => simpa [pushAll] using h
  | cons e es ih =>
    have := ih (grouped_push h e.1 e.2)
    simpa [pushAll] using this

theorem recordedIndex_eq (p : Property) : recordedIndex p = p.arrayIndex := by
  cases p <;> rfl

theorem insertProperty_ok {debug : Bool} {fs : List (String × List Property)} {k : String}
    {p : Property} {s : RS}
    (hc : debug = true → UInt32.ofNat (fieldCount k fs) = p.arrayIndex) :
    insertProperty debug fs k p s = (.ok (fieldPush k p fs), s) := by
  unfold insertProperty
  rw [R.bind_ok (by rw [R.ensure_true hc]; rfl)]
  rfl

theorem insertProperty_panic {debug : Bool} {fs : List (String × List Property)} {k : String}
    {p : Property} {s : RS}
    (hc : ¬ (debug = true → UInt32.ofNat (fieldCount k fs) = p.arrayIndex)) :
    insertProperty debug fs k p s = (.panic "assertion `left == right` failed", s) := by
  unfold insertProperty
  rw [R.bind_bad (s' := s) (e := .panic "assertion `left == right` failed")
    (by rw [R.ensure_false hc]; rfl)]

theorem readCustom_named {debug : Bool} {rec : String → Bool → Option UInt32 → R Property}
    {n : Nat} {fs m : List (String × List Property)} {s s' : RS}
    (h : readCustom debug rec n fs s = (.ok m, s')) :
    ∃ es, Named rec s es s' ∧ m = pushAll fs es ∧
      (debug = true → ∀ pre k p post, es = pre ++ (k, p) :: post →
        UInt32.ofNat (fieldCount k (pushAll fs pre)) = p.arrayIndex) := by
  induction n generalizing fs s with
  | zero => simp [readCustom, R.outOfFuel] at h
  | succ n ih =>
    rw [readCustom] at h
    rbind h => name s1 h1
    split at h
    · rename_i hn
      obtain ⟨rfl, rfl⟩ := R.pure_inv h
      subst hn
      exact ⟨[], .done h1, rfl, fun _ pre k p post he => by simp at he⟩
    · rename_i hn
      rbind h => ty s2 h2
      rbind h => fs' s3 h3
      obtain ⟨es, he, hm, hd⟩ := ih h
      rw [withEntry_bind] at h3
      match hr : rec ty true none { s2 with stack := s2.stack ++ [name] } with
      | (.bad e, s4) => rw [hr] at h3; simp at h3
      | (.ok p, s4) =>
        rw [hr] at h3
        simp only [] at h3
        by_cases hc : debug = true → UInt32.ofNat (fieldCount name fs) = p.arrayIndex
        · rw [insertProperty_ok hc] at h3
          simp only [Prod.mk.injEq, Res.ok.injEq] at h3
          obtain ⟨rfl, rfl⟩ := h3
          refine ⟨(name, p) :: es, .entry h1 hn h2 ?_ he, hm, ?_⟩
          · unfold R.withEntry; rw [hr]
          · intro hdbg pre k q post hsplit
            cases pre with
            | nil =>
              simp only [List.nil_append, List.cons.injEq, Prod.mk.injEq] at hsplit
              obtain ⟨⟨rfl, rfl⟩, rfl⟩ := hsplit
              exact hc hdbg
            | cons x pre =>
              simp only [List.cons_append, List.cons.injEq] at hsplit
              obtain ⟨rfl, rfl⟩ := hsplit
              exact hd hdbg pre k q post rfl
        · rw [insertProperty_panic hc] at h3
          simp at h3

theorem named_readCustom {debug : Bool} {rec : String → Bool → Option UInt32 → R Property}
    {n : Nat} {fs : List (String × List Property)} {es : List (String × Property)} {s s' : RS}
    (h : Named rec s es s') (hn : es.length < n) :
    (debug = true ∧ ∃ s'', readCustom debug rec n fs s =
      (.panic "assertion `left == right` failed", s'')) ∨
    (readCustom debug rec n fs s = (.ok (pushAll fs es), s') ∧
      (debug = true → ∀ pre k p post, es = pre ++ (k, p) :: post →
        UInt32.ofNat (fieldCount k (pushAll fs pre)) = p.arrayIndex)) := by
  induction h generalizing n fs with
  | done h1 =>
    cases n with
    | zero => omega
    | succ n =>
      refine .inr ⟨?_, fun _ pre k p post he => by simp at he⟩
      rw [readCustom, R.bind_ok h1, if_pos rfl]; rfl
  | @entry s s1 s2 s3 s' name ty p es h1 hne h2 h3 _ ih =>
    cases n with
    | zero => omega
    | succ n =>
      unfold R.withEntry at h3
      match hr : rec ty true none { s2 with stack := s2.stack ++ [name] } with
      | (.bad e, s4) => rw [hr] at h3; simp at h3
      | (.ok p', s4) =>
        rw [hr] at h3
        simp only [Prod.mk.injEq, Res.ok.injEq] at h3
        obtain ⟨rfl, rfl⟩ := h3
        by_cases hc : debug = true → UInt32.ofNat (fieldCount name fs) = p'.arrayIndex
        · have h3' : R.withEntry name (do
              let p ← rec ty true none
              insertProperty debug fs name p) s2 =
              (.ok (fieldPush name p' fs), { s4 with stack := s4.stack.dropLast }) := by
            rw [withEntry_bind, hr]
            simp only []
            rw [insertProperty_ok hc]
          have hrun : readCustom debug rec (n + 1) fs s =
              readCustom debug rec n (fieldPush name p' fs)
                { s4 with stack := s4.stack.dropLast } := by
            rw [readCustom, R.bind_ok h1, if_neg hne, R.bind_ok h2, R.bind_ok h3']
          rw [hrun]
          rcases ih (n := n) (fs := fieldPush name p' fs) (by simpa using hn) with h | ⟨h, hd⟩
          · exact .inl h
          · refine .inr ⟨h, ?_⟩
            intro hdbg pre k q post hsplit
            cases pre with
            | nil =>
              simp only [List.nil_append, List.cons.injEq, Prod.mk.injEq] at hsplit
              obtain ⟨⟨rfl, rfl⟩, rfl⟩ := hsplit
              exact hc hdbg
            | cons x pre =>
              simp only [List.cons_append, List.cons.injEq] at hsplit
              obtain ⟨rfl, rfl⟩ := hsplit
              exact hd hdbg pre k q post rfl
        · have hdbg : debug = true := by
            cases debug with
            | true => rfl
            | false => exact absurd (fun h => by cases h) hc
          refine .inl ⟨hdbg, { s4 with stack := s4.stack.dropLast }, ?_⟩
          have h3' : R.withEntry name (do
              let p ← rec ty true none
              insertProperty debug fs name p) s2 =
              (.panic "assertion `left == right` failed",
                { s4 with stack := s4.stack.dropLast }) := by
            rw [withEntry_bind, hr]
            simp only []
            rw [insertProperty_panic hc]
          rw [readCustom, R.bind_ok h1, if_neg hne, R.bind_ok h2, R.bind_bad h3']

end Gvas
