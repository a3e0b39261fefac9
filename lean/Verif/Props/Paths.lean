import Verif.Lemmas.File
import Verif.Props.Robust
import Verif.Props.Duplicates

/-!
# C27, C30, C39: the text of hint paths, and hint paths and top-level names that coincide
-/

namespace Gvas

open Spec

/-! ## C27: the text of a path -/

/-- **C27**: the path that is reported and looked up is the names put together with a dot between
each two. -/
theorem C27_path_text (l : List String) :
    (joinDots l).toList = ['.'].intercalate (l.map String.toList) := by
  match l with
  | [] => rfl
  | [a] => simp [joinDots, List.intercalate]
  | a :: b :: l =>
    have := C27_path_text (b :: l)
    simp only [joinDots, String.toList_append, this]
    simp [List.intercalate]

/-- The path of the key of a map. -/
example : joinDots ["Bag", "MapProperty", "Key", "StructProperty"] =
    "Bag.MapProperty.Key.StructProperty" := by decide +kernel

/-! ## C30 -/

private theorem split_dot {x y r r' : List Char} (hx : '.' ∉ x) (hy : '.' ∉ y)
    (h : x ++ '.' :: r = y ++ '.' :: r') : x = y ∧ r = r' := by
  induction x generalizing y with
  | nil =>
    cases y with
    | nil => simpa using h
    | cons c y =>
      simp only [List.nil_append, List.cons_append, List.cons.injEq] at h
      exact absurd (h.1 ▸ List.mem_cons_self) hy
  | cons c x ih =>
    cases y with
    | nil =>
      simp only [List.nil_append, List.cons_append, List.cons.injEq] at h
      exact absurd (h.1 ▸ List.mem_cons_self) hx
    | cons d y =>
      simp only [List.cons_append, List.cons.injEq] at h
      have := ih (fun h => hx (by simp [h])) (fun h => hy (by simp [h])) h.2
      exact ⟨by rw [h.1, this.1], this.2⟩

private theorem joinDots_cons (a b : String) (l : List String) :
    (joinDots (a :: b :: l)).toList = a.toList ++ '.' :: (joinDots (b :: l)).toList := by
  simp [joinDots]

/-- **C30** for names without dots: different places have different hint paths.  Missing from the
full claim: names that contain a dot, for which it is false (`C30_shared_path`). -/
theorem C30_paths_differ_partial (a b : List String) (ha : a ≠ []) (hb : b ≠ [])
    (hda : ∀ s ∈ a, '.' ∉ s.toList) (hdb : ∀ s ∈ b, '.' ∉ s.toList)
    (h : joinDots a = joinDots b) : a = b := by
  induction a generalizing b with
  | nil => exact absurd rfl ha
  | cons x a ih =>
    cases b with
    | nil => exact absurd rfl hb
    | cons y b =>
      have hx := hda x (by simp)
      have hy := hdb y (by simp)
      cases a with
      | nil =>
        cases b with
        | nil => simpa [joinDots] using h
        | cons y' b =>
          have := congrArg String.toList h
          rw [joinDots_cons] at this
          simp only [joinDots] at this
          exact absurd (by rw [this]; simp) hx
      | cons x' a =>
        cases b with
        | nil =>
          have := congrArg String.toList h
          rw [joinDots_cons] at this
          simp only [joinDots] at this
          exact absurd (by rw [← this]; simp) hy
        | cons y' b =>
          have := congrArg String.toList h
          rw [joinDots_cons, joinDots_cons] at this
          obtain ⟨h1, h2⟩ := split_dot hx hy this
          have := ih (y' :: b) (by simp) (by simp) (fun s hs => hda s (by simp [hs]))
            (fun s hs => hdb s (by simp [hs])) (String.toList_inj.mp h2)
          rw [String.toList_inj.mp h1, this]

/-- The type names the library puts on the stack have no dots, so only names in the save count. -/
example : joinDots ["Bag", "MapProperty", "Value", "StructProperty"] ≠
    joinDots ["Bag", "MapProperty", "Key", "StructProperty"] := fun h => by
  have := C30_paths_differ_partial _ _ (by simp) (by simp) (by decide +kernel) (by decide +kernel) h
  simp at this

/-- The pieces of a name between its dots. -/
def Spec.pieces : List Char → List (List Char)
  | [] => [[]]
  | c :: cs =>
    if c = '.' then [] :: pieces cs
    else match pieces cs with
      | [] => [[c]]
      | p :: ps => (c :: p) :: ps

private theorem pieces_ne (x : List Char) : pieces x ≠ [] := by
  cases x with
  | nil => simp [pieces]
  | cons c x => rw [pieces]; split; · simp
                split <;> simp

private theorem pieces_append (x y : List Char) :
    pieces (x ++ '.' :: y) = pieces x ++ pieces y := by
  induction x with
  | nil => simp [pieces]
  | cons c x ih =>
    rw [List.cons_append, pieces, ih, pieces]
    split
    · simp
    · cases h : pieces x with
      | nil => exact absurd h (pieces_ne x)
      | cons p ps => simp

private theorem pieces_inj {x y : List Char} (h : pieces x = pieces y) : x = y := by
  induction x generalizing y with
  | nil =>
    cases y with
    | nil => rfl
    | cons d y =>
      rw [pieces, pieces] at h
      split at h
      · simp at h; exact absurd h (pieces_ne y)
      · split at h <;> simp at h
  | cons c x ih =>
    cases y with
    | nil =>
      rw [pieces, pieces] at h
      split at h
      · simp at h; exact absurd h (pieces_ne x)
      · split at h <;> simp at h
    | cons d y =>
      obtain ⟨p, ps, hx⟩ := List.exists_cons_of_ne_nil (pieces_ne x)
      obtain ⟨q, qs, hy⟩ := List.exists_cons_of_ne_nil (pieces_ne y)
      rw [pieces, pieces, hx, hy] at h
      by_cases hc : c = '.' <;> by_cases hd : d = '.' <;> simp only [hc, hd, if_true, if_false] at h
      · simp only [List.cons.injEq, true_and] at h
        rw [hc, hd, ih (hx.trans (by rw [h.1, h.2, hy]))]
      · simp at h
      · simp at h
      · simp only [List.cons.injEq] at h
        obtain ⟨⟨rfl, rfl⟩, rfl⟩ := h
        rw [ih (hx.trans hy.symm)]

/-- **C30**, exactly which places share a hint path: those whose names fall into the same pieces
when cut at every dot.  Missing from the full claim: that only equal places do, which is false
(`C30_shared_path`). -/
theorem C30_shared_iff_partial (a b : List String) (ha : a ≠ []) (hb : b ≠ []) :
    joinDots a = joinDots b ↔
      a.flatMap (fun s => pieces s.toList) = b.flatMap (fun s => pieces s.toList) := by
  have key : ∀ l : List String, l ≠ [] →
      pieces (joinDots l).toList = l.flatMap (fun s => pieces s.toList) := by
    intro l hl
    induction l with
    | nil => exact absurd rfl hl
    | cons x l ih =>
      cases l with
      | nil => simp [joinDots]
      | cons y l => rw [joinDots_cons, pieces_append, ih (by simp)]; simp
  rw [← key a ha, ← key b hb]
  exact ⟨fun h => by rw [h], fun h => String.toList_inj.mp (pieces_inj h)⟩

/-- Two places that share a path, and two of the same pieces in another order that do not. -/
example : joinDots ["a.b", "c"] = joinDots ["a", "b.c"] ∧ joinDots ["a", "b"] ≠ joinDots ["b", "a"] := by
  rw [Ne, C30_shared_iff_partial _ _ (by simp) (by simp), C30_shared_iff_partial _ _ (by simp) (by simp)]
  decide

/-- A property of the given name: a map from the integer 1 to a headerless struct. -/
def structMapNamed (name : String) : Bytes :=
  ascii name ++ ascii "MapProperty" ++ [21, 0, 0, 0, 0, 0, 0, 0] ++ ascii "IntProperty" ++
    ascii "StructProperty" ++ [0] ++ [0, 0, 0, 0] ++ [1, 0, 0, 0] ++ [1, 0, 0, 0] ++ ascii "None"

/-- The map as field `b` of a struct `a`. -/
def nestedMapSave : Bytes :=
  saveBytes (ascii "a" ++ ascii "StructProperty" ++
    leBytes 4 ((structMapNamed "b").length + 9) ++ [0, 0, 0, 0] ++ ascii "T" ++
    List.replicate 16 0 ++ [0] ++ structMapNamed "b" ++ ascii "None")

/-- The map at the top level under the name `a.StructProperty.b`. -/
def dottedMapSave : Bytes := saveBytes (structMapNamed "a.StructProperty.b")

/-- **C30** is false: the structs in the two saves are at different places, but have the same hint
path. -/
theorem C30_shared_path :
    ["a", "StructProperty", "b", "MapProperty", "Value", "StructProperty"] ≠
      ["a.StructProperty.b", "MapProperty", "Value", "StructProperty"] ∧
    (∃ pos, (readData true noHints nestedMapSave).1 = .err (.missingHint "StructProperty"
      (joinDots ["a", "StructProperty", "b", "MapProperty", "Value", "StructProperty"]) pos)) ∧
    (∃ pos, (readData true noHints dottedMapSave).1 = .err (.missingHint "StructProperty"
      (joinDots ["a.StructProperty.b", "MapProperty", "Value", "StructProperty"]) pos)) ∧
    joinDots ["a", "StructProperty", "b", "MapProperty", "Value", "StructProperty"] =
      joinDots ["a.StructProperty.b", "MapProperty", "Value", "StructProperty"] :=
  ⟨by decide, ⟨183, eq_bad (by decide +kernel)⟩, ⟨144, eq_bad (by decide +kernel)⟩,
    by decide +kernel⟩

/-! ## C39 -/

/-- **C39**: every name stored at the top level is a name of the file, and if no name is stored
twice, the properties of the file are exactly those stored, in order.  Missing from the full claim:
saves that store a name twice, for which it is false (`C39_value_lost`). -/
theorem C39_top_level_kept_partial (rec : String → Bool → Option UInt32 → R Property) (n : Nat)
    (s s' : RS) (ps : List (String × Property)) (h : readTop rec n [] s = (.ok ps, s')) :
    ∃ es, Named rec s es s' ∧ (∀ e ∈ es, e.1 ∈ ps.map Prod.fst) ∧
      (ps = es ↔ (es.map Prod.fst).Nodup) := by
  obtain ⟨es, h1, rfl⟩ := readTop_named h
  have hd : ((imExtend (fun a b : String => a == b) [] es).map Prod.fst).Nodup :=
    (LastWins.pairwise (lastWins_imExtend equiv_beq es)).imp fun h => by simpa using h
  refine ⟨es, h1, ?_, fun e => e ▸ hd, fun hn => ?_⟩
  · intro e he
    have hk := (lastWins_imExtend (same := fun a b : String => a == b) equiv_beq es).keys
    rw [hk]
    have : ∀ (l : List String) (x : String), x ∈ l → x ∈ firsts (· == ·) l := by
      intro l
      induction l with
      | nil => simp
      | cons y l ih =>
        intro x hx
        simp only [firsts, List.mem_cons, List.mem_filter]
        by_cases hxy : x = y
        · exact .inl hxy
        · rcases List.mem_cons.mp hx with rfl | hx
          · exact absurd rfl hxy
          · refine .inr ⟨ih x hx, ?_⟩
            simp
            exact fun h => hxy h.symm
    exact this _ _ (List.mem_map_of_mem he)
  · have : ∀ (l acc : List (String × Property)), ((acc ++ l).map Prod.fst).Nodup →
        imExtend (fun a b : String => a == b) acc l = acc ++ l := by
      intro l
      induction l with
      | nil => simp [imExtend]
      | cons e l ih =>
        intro acc hn
        have hf : imInsert (fun a b : String => a == b) e.1 e.2 acc = acc ++ [e] := by
          refine imInsert_fresh fun x hx => ?_
          simp only [List.map_append, List.map_cons] at hn
          have := (List.nodup_append.mp hn).2.2 x.1 (List.mem_map_of_mem hx) e.1 (by simp)
          simpa using this
        show imExtend _ (imInsert _ e.1 e.2 acc) l = _
        rw [hf, ih _ (by simpa using hn)]
        simp
    simpa using this es [] (by simpa using hn)

/-- Two integer properties of the same name, and the end of the list. -/
def twiceBytes : Bytes :=
  ascii "a" ++ ascii "IntProperty" ++ [4, 0, 0, 0, 0, 0, 0, 0, 0, 7, 0, 0, 0] ++
    ascii "a" ++ ascii "IntProperty" ++ [4, 0, 0, 0, 0, 0, 0, 0, 0, 8, 0, 0, 0] ++ ascii "None"

/-- The result is the named integer, in the state given. -/
private def isInt (a : String) (v : Int32) (s : RS) :
    Res (List (String × Property)) × RS → Bool
  | (.ok [(b, .int w)], t) => a = b ∧ v = w ∧ s = t
  | _ => false

private theorem isInt_top {a : String} {v : Int32} {s : RS}
    {r : Res (List (String × Property)) × RS} (h : isInt a v s r = true) :
    r = (.ok [(a, .int v)], s) := by
  unfold isInt at h
  split at h
  · obtain ⟨rfl, rfl, rfl⟩ := of_decide_eq_true h; rfl
  · exact absurd h (by decide)

private theorem isInt_entry {v : Int32} {s s' : RS} {m : R Property}
    (h : isInt "" v s' ((do let p ← m; return [("", p)] : R (List (String × Property))) s) = true) :
    m s = (.ok (.int v), s') := by
  have h := isInt_top h
  rbind h => p s1 h1
  have := R.pure_inv h
  simp only [List.cons.injEq, Prod.mk.injEq, true_and, and_true] at this
  obtain ⟨rfl, rfl⟩ := this
  exact h1

/-- **C39** is false: a save that stores two properties of one name is accepted, and the first
value is lost. -/
theorem C39_value_lost :
    ∃ s', Named (Property.read ⟨true, fun _ => none, []⟩ 2) (RS.init twiceBytes)
        [("a", .int 7), ("a", .int 8)] s' ∧
      readTop (Property.read ⟨true, fun _ => none, []⟩ 2) 3 [] (RS.init twiceBytes) =
        (.ok [("a", .int 8)], s') :=
  ⟨⟨[], twiceBytes.length, []⟩,
    .entry (s1 := ⟨twiceBytes.drop 6, 6, []⟩) (s2 := ⟨twiceBytes.drop 22, 22, []⟩)
      (s3 := ⟨twiceBytes.drop 35, 35, []⟩) (ty := "IntProperty") (by decide +kernel) (by decide)
      (by decide +kernel) (isInt_entry (by decide +kernel))
      (.entry (s1 := ⟨twiceBytes.drop 41, 41, []⟩) (s2 := ⟨twiceBytes.drop 57, 57, []⟩)
        (s3 := ⟨twiceBytes.drop 70, 70, []⟩) (ty := "IntProperty") (by decide +kernel) (by decide)
        (by decide +kernel) (isInt_entry (by decide +kernel)) (.done (by decide +kernel))),
    isInt_top (by decide +kernel)⟩

end Gvas
