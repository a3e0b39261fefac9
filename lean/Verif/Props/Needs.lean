import Verif.Lemmas.Asks
import Verif.Lemmas.AcceptFile
import Verif.Props.Hints
import Verif.Props.Large
import Verif.Props.File

/-!
# C99: which hints a save needs

The file itself tells them: one for each struct in a set or map, at the path under which it stands.
-/

namespace Gvas

open Spec

/-- **C99**: the hints with which a save was read fit all that the file needs. -/
theorem C99_necessary (debug : Bool) (hints : String → Option String) (data : Bytes)
    (h : GvasHeader) (ps : List (String × Property)) (gv : DeserializedGameVersion)
    (hr : (readData debug hints data).1 = .ok (h, ps)) :
    ∀ n ∈ fileNeeds ⟨gv, h, ps⟩, Suits hints n := by
  have := (accept_data hr gv).1
  exact (file_hints this).mp this

/-- **C99**: a save is read as the file that was saved with exactly those hints that fit all that the
file needs. -/
theorem C99_needed_iff (debug : Bool) (hints hints' : String → Option String) (f : GvasFile)
    (data : Bytes) (h : FileOK debug hints f) (hf : EachFits f) (he : f.encode = .ok data) :
    (readData debug hints' data).1 = .ok (f.header, f.properties) ↔
      ∀ n ∈ fileNeeds f, Suits hints' n := by
  rw [C52_large_file_readable_iff_partial debug hints' f data he hf, file_hints h]

/-- **C99**: a file that needs no hints is read with any. -/
theorem C99_no_needs (debug : Bool) (hints hints' : String → Option String) (f : GvasFile)
    (data : Bytes) (h : FileOK debug hints f) (hf : EachFits f) (he : f.encode = .ok data)
    (hn : fileNeeds f = []) : (readData debug hints' data).1 = .ok (f.header, f.properties) := by
  rw [C99_needed_iff debug hints hints' f data h hf he, hn]
  simp

/-- **C99**: if some of the hints are missing and the others fit, one of those missing is asked
for. -/
theorem C99_missing (debug : Bool) (hints hints' : String → Option String) (f : GvasFile)
    (data : Bytes) (h : FileOK debug hints f) (hf : EachFits f) (he : f.encode = .ok data)
    (hs : ∀ n ∈ fileNeeds f, hints' n.1 = none ∨ Suits hints' n)
    (hm : ∃ n ∈ fileNeeds f, hints' n.1 = none) :
    ∃ n ∈ fileNeeds f, hints' n.1 = none ∧
      ∃ pos, (readData debug hints' data).1 = .err (.missingHint "StructProperty" n.1 pos) := by
  obtain ⟨full, hdef⟩ : ∃ full : String → Option String, ∀ p, full p =
      if p ∈ (fileNeeds f).map Prod.fst ∨ hints' p ≠ none then (hints' p).or (hints p) else none :=
    ⟨_, fun _ => rfl⟩
  have hfull : ∀ n ∈ fileNeeds f, Suits full n := by
    intro n hn
    have hin : n.1 ∈ (fileNeeds f).map Prod.fst := List.mem_map_of_mem hn
    rcases hs n hn with h1 | ⟨ty, h1, h2⟩
    · obtain ⟨ty, h2, h3⟩ := (file_hints h).mp h n hn
      exact ⟨ty, by rw [hdef, if_pos (.inl hin), h1, h2]; rfl, h3⟩
    · exact ⟨ty, by rw [hdef, if_pos (.inl hin), h1]; rfl, h2⟩
  have hok := (C99_needed_iff debug hints _ f data h hf he).mpr hfull
  rcases C28_extra_hints_harmless debug hints' full (by
      intro p g hp
      rw [hdef, if_pos (.inr (by rw [hp]; simp)), hp]; rfl) data with e | ⟨path, pos, e, h1, h2⟩
  · rw [e] at hok
    obtain ⟨n, hn, hnone⟩ := hm
    obtain ⟨ty, h1, -⟩ := (C99_needed_iff debug hints hints' f data h hf he).mp hok n hn
    rw [hnone] at h1; cases h1
  · have hin : path ∈ (fileNeeds f).map Prod.fst := by
      refine Classical.byContradiction fun hc => h2 ?_
      rw [hdef, if_neg (by simp [hc, h1])]
    obtain ⟨n, hn, rfl⟩ := List.mem_map.mp hin
    exact ⟨n, hn, h1, pos, e⟩

/-- **C99**: reading asks for the first that is missing, in the order in which they are stored, if
those before it fit; what is given for later ones or follows the save does not matter. -/
theorem C99_first_missing (debug : Bool) (hints hints' : String → Option String) (f : GvasFile)
    (data : Bytes) (h : FileOK debug hints f) (hf : EachFits f) (he : f.encode = .ok data)
    (path : String) (hm : FirstMissing hints' (fileNeeds f) path) (rest : Bytes) :
    ∃ pos, (readData debug hints' (data ++ rest)).1 =
      .err (.missingHint "StructProperty" path pos) :=
  asks_file h he hf hm rest

/-- **C99**: without any hints the first that is needed is asked for. -/
theorem C99_first_asked (debug : Bool) (hints : String → Option String) (f : GvasFile)
    (data : Bytes) (h : FileOK debug hints f) (hf : EachFits f) (he : f.encode = .ok data)
    (n : String × Option String) (l : List (String × Option String)) (hn : fileNeeds f = n :: l) :
    ∃ pos, (readData debug noHints data).1 = .err (.missingHint "StructProperty" n.1 pos) := by
  have := C99_first_missing debug hints noHints f data h hf he n.1
    ⟨[], n.2, l, hn, by simp, rfl⟩ []
  rwa [List.append_nil] at this

/-- **C99** for files in either container: the first missing hint is asked for. -/
theorem C99_file_first_missing (z : Codec) (hz : Lawful z) (debug : Bool)
    (hints : String → Option String) (f : GvasFile) (data : Bytes) (h : FileOK debug hints f)
    (he : f.encode = .ok data) (h32 : data.length < 2 ^ 32) (s : Sink) :
    ∃ s', f.write z s = (.ok (), s') ∧ ∀ (hints' : String → Option String) (path : String),
      FirstMissing hints' (fileNeeds f) path →
      ∃ pos, GvasFile.read z debug
          (match f.gameVersion with | .default => .default | .palworld _ => .palworld)
          hints' s.pos (s'.data.drop s.pos) = .err (.missingHint "StructProperty" path pos) := by
  cases hv : f.gameVersion with
  | default =>
    refine ⟨s.write data, by simp only [GvasFile.write, he, hv], fun hints' path hm => ?_⟩
    have e : (s.write data).data.drop s.pos = data ++ s.data.drop (s.pos + data.length) :=
      drop_overwritten _ _ _
    obtain ⟨pos, hp⟩ := C99_first_missing debug hints hints' f data h (eachFits_of_small he h32) he
      path hm (s.data.drop (s.pos + data.length))
    refine ⟨pos, ?_⟩
    simp only [GvasFile.read, e, hp]
    rfl
  | palworld c =>
    obtain ⟨s', hs'⟩ : ∃ s', f.write z s = (.ok (), s') :=
      ⟨_, by simp only [GvasFile.write, he, hv]; rfl⟩
    refine ⟨s', hs', fun hints' path hm => ?_⟩
    obtain ⟨d, hd, e, -⟩ := C42_palworld_frame z f c s s' hv hs'
    rw [he] at hd; cases hd
    rw [e, drop_overwritten]
    have hfr := readFrame_frame (UInt32.ofNat data.length)
      (UInt32.ofNat (3 + 1 + (pack z c data).length)) c
      (pack z c data ++ s.data.drop (s.pos + (frame (UInt32.ofNat data.length)
        (UInt32.ofNat (3 + 1 + (pack z c data).length)) c (pack z c data)).length)) s.pos []
    have hu : ∀ rest, unpack z (UInt32.ofNat data.length) c (pack z c data ++ rest) = .ok data := by
      intro rest
      have hn : (UInt32.ofNat data.length).toNat = data.length := u32_ofNat_toNat h32
      cases c
      · simp [unpack, pack, hn]
      · simp [unpack, pack, hn, hz.once, inflateExact]
      · simp [unpack, pack, hz.twice]
    obtain ⟨pos, hp⟩ := C99_first_missing debug hints hints' f data h (eachFits_of_small he h32) he
      path hm []
    rw [List.append_nil] at hp
    refine ⟨pos, ?_⟩
    simp only [GvasFile.read]
    simp only [frame, List.append_assoc] at hfr ⊢
    rw [hfr]
    simp only [hu]
    show ((readData debug hints' data).1 >>= fun x => _) = _
    rw [hp]
    rfl

/-- **C99**: supplying them one by one, the file is read after as many rounds as there are missing
ones. -/
theorem C99_rounds (debug : Bool) (hints : String → Option String) (answer : String → String)
    (f : GvasFile) (data : Bytes) (h : FileOK debug hints f) (hf : EachFits f)
    (he : f.encode = .ok data) (hints' : String → Option String)
    (hs : ∀ n ∈ fileNeeds f, hints' n.1 = none ∨ Suits hints' n)
    (ha : ∀ n ∈ fileNeeds f, NameFits (answer n.1) n.2) :
    ∃ i ≤ (fileNeeds f).countP (fun n => hints' n.1 = none),
      (readData debug (Spec.hintRounds debug data answer hints' i) data).1 =
        .ok (f.header, f.properties) := by
  -- after each round the hints still fit, and fewer are missing unless all are there
  have key : ∀ i, (∀ n ∈ fileNeeds f, Spec.hintRounds debug data answer hints' i n.1 = none ∨
        Suits (Spec.hintRounds debug data answer hints' i) n) ∧
      ((∃ j ≤ i, ∀ n ∈ fileNeeds f, Suits (Spec.hintRounds debug data answer hints' j) n) ∨
        (fileNeeds f).countP (fun n => Spec.hintRounds debug data answer hints' i n.1 = none) + i ≤
          (fileNeeds f).countP (fun n => hints' n.1 = none)) := by
    intro i
    induction i with
    | zero => exact ⟨hs, .inr (Nat.le_refl _)⟩
    | succ i ih =>
      obtain ⟨h1, h2⟩ := ih
      have hext := hintRound_extends debug data answer (Spec.hintRounds debug data answer hints' i)
      refine ⟨?_, ?_⟩
      · intro n hn
        rw [Spec.hintRounds]
        unfold Spec.hintRound
        by_cases hm : Spec.missingPath
            (readData debug (Spec.hintRounds debug data answer hints' i) data).1 = some n.1
        · exact .inr ⟨answer n.1, by simp only [hm, if_true], ha n hn⟩
        · rcases h1 n hn with e | ⟨ty, e, g⟩
          · exact .inl (by rw [if_neg hm]; exact e)
          · exact .inr ⟨ty, by simp only; rw [if_neg hm]; exact e, g⟩
      · rcases h2 with ⟨j, hj, h2⟩ | h2
        · exact .inl ⟨j, by omega, h2⟩
        · by_cases hall : ∃ n ∈ fileNeeds f, Spec.hintRounds debug data answer hints' i n.1 = none
          · right
            obtain ⟨n, hn, hnone, pos, hr⟩ := C99_missing debug hints _ f data h hf he h1 hall
            have hlt : (fileNeeds f).countP
                  (fun n => Spec.hintRounds debug data answer hints' (i + 1) n.1 = none) <
                (fileNeeds f).countP
                  (fun n => Spec.hintRounds debug data answer hints' i n.1 = none) := by
              have hsome : Spec.hintRounds debug data answer hints' (i + 1) n.1 ≠ none := by
                rw [Spec.hintRounds, Spec.hintRound]
                simp [hr, Spec.missingPath]
              have hmono : ∀ m : String × Option String,
                  Spec.hintRounds debug data answer hints' (i + 1) m.1 = none →
                  Spec.hintRounds debug data answer hints' i m.1 = none := by
                intro m hm
                cases hc : Spec.hintRounds debug data answer hints' i m.1 with
                | none => rfl
                | some g =>
                  have := hext m.1 g hc
                  rw [Spec.hintRounds] at hm
                  rw [hm] at this; cases this
              obtain ⟨a, b, hab⟩ := List.append_of_mem hn
              rw [hab]
              simp only [List.countP_append, List.countP_cons, hnone, hsome]
              have ca := List.countP_mono_left (l := a)
                (p := fun n => decide (Spec.hintRounds debug data answer hints' (i + 1) n.1 = none))
                (q := fun n => decide (Spec.hintRounds debug data answer hints' i n.1 = none))
                (by intro x _ hx; simp only [decide_eq_true_eq] at *; exact hmono x hx)
              have cb := List.countP_mono_left (l := b)
                (p := fun n => decide (Spec.hintRounds debug data answer hints' (i + 1) n.1 = none))
                (q := fun n => decide (Spec.hintRounds debug data answer hints' i n.1 = none))
                (by intro x _ hx; simp only [decide_eq_true_eq] at *; exact hmono x hx)
              simp only [decide_true, decide_false, if_true]
              simp only [Bool.false_eq_true, if_false]
              omega
            omega
          · left
            refine ⟨i, by omega, fun n hn => ?_⟩
            rcases h1 n hn with e | e
            · exact absurd ⟨n, hn, e⟩ hall
            · exact e
  have fin := key ((fileNeeds f).countP (fun n => hints' n.1 = none))
  rcases fin with ⟨h1, ⟨j, hj, h2⟩ | h2⟩
  · exact ⟨j, hj, (C99_needed_iff debug hints _ f data h hf he).mpr h2⟩
  · refine ⟨_, Nat.le_refl _, (C99_needed_iff debug hints _ f data h hf he).mpr ?_⟩
    intro n hn
    rcases h1 n hn with e | e
    · have : 0 < (fileNeeds f).countP (fun m => Spec.hintRounds debug data answer hints'
          ((fileNeeds f).countP (fun n => hints' n.1 = none)) m.1 = none) :=
        List.countP_pos_iff.mpr ⟨n, hn, by simp [e]⟩
      omega
    · exact e

private theorem lookup_some {l : List (String × Option String)} {n : String × Option String}
    (h : n ∈ l) : ∃ k, l.lookup n.1 = some k ∧ (n.1, k) ∈ l := by
  induction l with
  | nil => cases h
  | cons a l ih =>
    obtain ⟨p, k⟩ := a
    by_cases hp : n.1 = p
    · exact ⟨k, by simp [List.lookup, hp], by simp [hp]⟩
    · rcases List.mem_cons.mp h with rfl | h
      · exact absurd rfl hp
      · obtain ⟨k', h1, h2⟩ := ih h
        refine ⟨k', ?_, List.mem_cons_of_mem _ h2⟩
        rw [List.lookup_cons, beq_false_of_ne hp]
        exact h1

private theorem kind_eq {ty : String} {k k' : Option String} (h : NameFits ty k)
    (h' : NameFits ty k') (hk : ∀ n, k = some n → n ∈ builtinStructs)
    (hk' : ∀ n, k' = some n → n ∈ builtinStructs) : k = k' := by
  cases k with
  | none =>
    cases k' with
    | none => rfl
    | some n => cases h'; exact absurd (hk' _ rfl) h
  | some n =>
    cases h
    cases k' with
    | none => exact absurd (hk _ rfl) h'
    | some n => cases h'; rfl

theorem structName_builtin (v : StructPropertyValue) (n : String) (h : structName v = some n) :
    n ∈ builtinStructs := by
  cases v <;> simp only [structName, Option.some.injEq, reduceCtorEq] at h <;> subst h <;>
    decide +kernel

mutual
theorem needs_builtin (st : List String) : ∀ p, ∀ e ∈ needs st p, ∀ n, e.2 = some n →
    n ∈ builtinStructs
  | .array v => by simp only [needs]; exact arrayNeeds_builtin _ v
  | .map v => by simp only [needs]; exact mapNeeds_builtin _ v
  | .set _ _ ps => by simp only [needs]; exact elemsNeeds_builtin _ ps
  | .struct _ _ v => by simp only [needs]; exact structNeeds_builtin _ v
  | .structValue v => by
    simp only [needs, List.forall_mem_cons]
    exact ⟨fun n h => structName_builtin v n h, structNeeds_builtin _ v⟩
  | .bool _ | .byte _ _ | .double _ | .enum _ _ | .float _ | .int16 _ | .int64 _ | .int8 _ | .int _
  | .name _ _ | .object _ | .delegate _ | .multicastInlineDelegate _ | .multicastSparseDelegate _
  | .fieldPath _ | .str _ | .text _ | .uint16 _ | .uint32 _ | .uint64 _ | .unknown _ _ => by
    simp [needs]
theorem arrayNeeds_builtin (st : List String) : ∀ v, ∀ e ∈ arrayNeeds st v, ∀ n, e.2 = some n →
    n ∈ builtinStructs
  | .structs _ _ _ v => by simp only [arrayNeeds]; exact structsNeeds_builtin _ v
  | .properties _ ps => by simp only [arrayNeeds]; exact elemsNeeds_builtin _ ps
  | .bools _ | .bytes _ | .enums _ | .floats _ | .ints _ | .names _ | .strings _ => by
    simp [arrayNeeds]
theorem mapNeeds_builtin (st : List String) : ∀ v, ∀ e ∈ mapNeeds st v, ∀ n, e.2 = some n →
    n ∈ builtinStructs
  | .enumProperty _ v | .nameProperty _ v | .strProperty _ v => by
    simp only [mapNeeds]; exact valuesNeeds_builtin _ v
  | .properties _ _ _ m => by simp only [mapNeeds]; exact entriesNeeds_builtin _ m
  | .enumBool _ | .enumInt _ | .nameBool _ | .nameInt _ | .strBool _ | .strInt _ | .strStr _ => by
    simp [mapNeeds]
theorem structNeeds_builtin (st : List String) : ∀ v, ∀ e ∈ structNeeds st v, ∀ n,
    e.2 = some n → n ∈ builtinStructs
  | .customStruct fs => by simp only [structNeeds]; exact fieldsNeeds_builtin _ fs
  | .vector2F _ _ | .vector2D _ _ | .vectorF _ _ _ | .vectorD _ _ _ | .rotatorF _ _ _
  | .rotatorD _ _ _ | .quatF _ _ _ _ | .quatD _ _ _ _ | .dateTime _ | .timespan _ | .guid _
  | .linearColor _ _ _ _ | .intPoint _ _ | .gameplayTagContainer _ => by simp [structNeeds]
theorem elemsNeeds_builtin (st : List String) : ∀ l, ∀ e ∈ elemsNeeds st l, ∀ n, e.2 = some n →
    n ∈ builtinStructs
  | [] => by simp [elemsNeeds]
  | p :: l => by
    simp only [elemsNeeds, List.mem_append]
    exact fun e h => h.elim (needs_builtin st p e) (elemsNeeds_builtin st l e)
theorem structsNeeds_builtin (st : List String) : ∀ l, ∀ e ∈ structsNeeds st l, ∀ n,
    e.2 = some n → n ∈ builtinStructs
  | [] => by simp [structsNeeds]
  | v :: l => by
    simp only [structsNeeds, List.mem_append]
    exact fun e h => h.elim (structNeeds_builtin st v e) (structsNeeds_builtin st l e)
theorem valuesNeeds_builtin (st : List String) : ∀ l, ∀ e ∈ valuesNeeds st l, ∀ n,
    e.2 = some n → n ∈ builtinStructs
  | [] => by simp [valuesNeeds]
  | (_, p) :: l => by
    simp only [valuesNeeds, List.mem_append]
    exact fun e h => h.elim (needs_builtin st p e) (valuesNeeds_builtin st l e)
theorem entriesNeeds_builtin (st : List String) : ∀ l, ∀ e ∈ entriesNeeds st l, ∀ n,
    e.2 = some n → n ∈ builtinStructs
  | [] => by simp [entriesNeeds]
  | (k, p) :: l => by
    simp only [entriesNeeds, List.mem_append]
    exact fun e h => h.elim (fun h => h.elim (needs_builtin _ k e) (needs_builtin _ p e))
      (entriesNeeds_builtin st l e)
theorem fieldsNeeds_builtin (st : List String) : ∀ l, ∀ e ∈ fieldsNeeds st l, ∀ n,
    e.2 = some n → n ∈ builtinStructs
  | [] => by simp [fieldsNeeds]
  | (k, ps) :: l => by
    simp only [fieldsNeeds, List.mem_append]
    exact fun e h => h.elim (elemsNeeds_builtin _ ps e) (fieldsNeeds_builtin st l e)
end

/-- **C99**: structs at the same path in what was read are of the same kind. -/
theorem C99_one_kind (debug : Bool) (hints : String → Option String) (data : Bytes)
    (h : GvasHeader) (ps : List (String × Property)) (gv : DeserializedGameVersion)
    (hr : (readData debug hints data).1 = .ok (h, ps)) (path : String) (k k' : Option String)
    (hk : (path, k) ∈ fileNeeds ⟨gv, h, ps⟩) (hk' : (path, k') ∈ fileNeeds ⟨gv, h, ps⟩) :
    k = k' := by
  have hb : ∀ e ∈ fileNeeds ⟨gv, h, ps⟩, ∀ n, e.2 = some n → n ∈ builtinStructs := by
    intro e he
    simp only [fileNeeds, List.mem_flatMap] at he
    obtain ⟨q, -, hq⟩ := he
    exact needs_builtin _ _ e hq
  obtain ⟨ty, h1, h2⟩ := C99_necessary debug hints data h ps gv hr _ hk
  obtain ⟨ty', h1', h2'⟩ := C99_necessary debug hints data h ps gv hr _ hk'
  simp only at h1 h1'
  rw [h1] at h1'; cases h1'
  exact kind_eq h2 h2' (hb _ hk) (hb _ hk')

/-- **C99**: the hints can be got back from the file: what was read with some hints and is saved is
read again with the table made of the file, whatever name it has for structs of other types. -/
theorem C99_hints_from_file (debug : Bool) (hints : String → Option String) (input : Bytes)
    (h : GvasHeader) (ps : List (String × Property)) (gv : DeserializedGameVersion)
    (hr : (readData debug hints input).1 = .ok (h, ps)) (hf : EachFits ⟨gv, h, ps⟩)
    (other : String) (ho : other ∉ builtinStructs) :
    ∃ data, GvasFile.encode ⟨gv, h, ps⟩ = .ok data ∧
      (readData debug (tableOf ⟨gv, h, ps⟩ other) data).1 = .ok (h, ps) := by
  obtain ⟨hok, data, he, -⟩ := accept_data hr gv
  refine ⟨data, he, (C99_needed_iff debug hints _ _ data hok hf he).mpr ?_⟩
  intro n hn
  obtain ⟨k, h1, h2⟩ := lookup_some hn
  have hk : k = n.2 := C99_one_kind debug hints input h ps gv hr n.1 k n.2 h2 hn
  subst hk
  refine ⟨n.2.getD other, by simp [tableOf, h1], ?_⟩
  cases n.2 with
  | none => exact ho
  | some m => rfl

/-- **C99**: the names given to structs of other types do not matter. -/
theorem C99_names_free (debug : Bool) (hints hints' : String → Option String) (f : GvasFile)
    (data : Bytes) (h : FileOK debug hints f) (hf : EachFits f) (he : f.encode = .ok data)
    (hh : ∀ p ty, hints p = some ty → ∃ ty', hints' p = some ty' ∧
      (ty' = ty ∨ (ty ∉ builtinStructs ∧ ty' ∉ builtinStructs))) :
    (readData debug hints' data).1 = .ok (f.header, f.properties) := by
  rw [C99_needed_iff debug hints hints' f data h hf he]
  have hb : ∀ e ∈ fileNeeds f, ∀ n, e.2 = some n → n ∈ builtinStructs := by
    intro e he
    simp only [fileNeeds, List.mem_flatMap] at he
    obtain ⟨q, -, hq⟩ := he
    exact needs_builtin _ _ e hq
  intro n hn
  obtain ⟨ty, h1, h2⟩ := (file_hints h).mp h n hn
  obtain ⟨ty', h3, h4⟩ := hh _ _ h1
  refine ⟨ty', h3, ?_⟩
  rcases h4 with rfl | ⟨h4, h5⟩
  · exact h2
  · cases hk : n.2 with
    | none => exact h5
    | some m =>
      rw [hk] at h2
      cases h2
      exact absurd (hb n hn _ hk) h4

/-- **C99** for files in either container: what is returned can only be read with hints that fit. -/
theorem C99_file_necessary (z : Codec) (debug : Bool) (gv : GameVersion)
    (hints : String → Option String) (start : Nat) (input : Bytes) (f : GvasFile)
    (h : GvasFile.read z debug gv hints start input = .ok f) :
    ∀ n ∈ fileNeeds f, Suits hints n := by
  cases gv with
  | default =>
    simp only [GvasFile.read] at h
    obtain ⟨⟨hd, ps⟩, h1, h2⟩ := Res.bind_inv h
    cases h2
    exact C99_necessary debug hints _ hd ps _ h1
  | palworld =>
    simp only [GvasFile.read] at h
    split at h
    · obtain ⟨data, h1, h2⟩ := Res.bind_inv h
      obtain ⟨⟨hd, ps⟩, h3, h4⟩ := Res.bind_inv h2
      cases h4
      exact C99_necessary debug hints _ hd ps _ h3
    · cases h

/-- **C99** for files in either container, of less than 4 GiB: a saved file is read with exactly those
hints that fit all it needs. -/
theorem C99_file_iff (z : Codec) (hz : Lawful z) (debug : Bool) (hints : String → Option String)
    (f : GvasFile) (data : Bytes) (h : FileOK debug hints f) (he : f.encode = .ok data)
    (h32 : data.length < 2 ^ 32) (s : Sink) :
    ∃ s', f.write z s = (.ok (), s') ∧ ∀ hints' : String → Option String,
      GvasFile.read z debug
          (match f.gameVersion with | .default => .default | .palworld _ => .palworld)
          hints' s.pos (s'.data.drop s.pos) = .ok f ↔
        ∀ n ∈ fileNeeds f, Suits hints' n := by
  cases hv : f.gameVersion with
  | default =>
    obtain ⟨s', hs', -⟩ := C17_large_files z debug hints f hv h (eachFits_of_small he h32) s
    refine ⟨s', hs', fun hints' => ⟨C99_file_necessary z debug _ hints' _ _ f, fun hn => ?_⟩⟩
    obtain ⟨s'', h1, h2⟩ :=
      C17_large_files z debug hints' f hv ((file_hints h).mpr hn) (eachFits_of_small he h32) s
    rw [hs'] at h1; cases h1
    exact h2
  | palworld c =>
    obtain ⟨d, hd, hall⟩ := C18_palworld_roundtrip z hz debug hints f c hv h
    rw [he] at hd; cases hd
    obtain ⟨s', hs', -⟩ := hall h32 s
    refine ⟨s', hs', fun hints' => ⟨C99_file_necessary z debug _ hints' _ _ f, fun hn => ?_⟩⟩
    obtain ⟨d, hd, hall'⟩ := C18_palworld_roundtrip z hz debug hints' f c hv ((file_hints h).mpr hn)
    rw [he] at hd; cases hd
    obtain ⟨s'', h1, h2⟩ := hall' h32 s
    rw [hs'] at h1; cases h1
    exact h2

/-! ## A concrete case -/

/-- The sample save has a map with two structs of a type of the game and a set of vectors. -/
theorem sample_needs (gv : DeserializedGameVersion) : fileNeeds (sampleFile gv) =
    [("Inventory.StructProperty.Slots.MapProperty.Value.StructProperty", none),
     ("Inventory.StructProperty.Slots.MapProperty.Value.StructProperty", none),
     ("Inventory.StructProperty.Spots.SetProperty.StructProperty", some "Vector")] := by
  have e : fileNeeds (sampleFile gv) = fileNeeds (sampleFile .default) := rfl
  rw [e]
  decide +kernel

private theorem sample_data (gv : DeserializedGameVersion) :
    ∃ data, (sampleFile gv).encode = .ok data ∧ data.length < 2 ^ 32 := by
  obtain ⟨data, he⟩ := fileOK_encodes (sampleFile_ok gv)
  refine ⟨data, he, ?_⟩
  have hl : (match (sampleFile .default).encode with | .ok d => d.length | .bad _ => 0) = 1278 := by
    decide +kernel
  have e : (sampleFile .default).encode = (sampleFile gv).encode := rfl
  rw [e, he] at hl
  simp only at hl
  omega

/-- It is read with these hints, and not if the vectors are taken for rotators. -/
example : ∃ data, (sampleFile .default).encode = .ok data ∧
    (readData true (fun p => if p = "Inventory.StructProperty.Spots.SetProperty.StructProperty" then
        some "Vector" else some "Anything") data).1 =
      .ok ((sampleFile .default).header, (sampleFile .default).properties) ∧
    (readData true (fun p => if p = "Inventory.StructProperty.Spots.SetProperty.StructProperty" then
        some "Rotator" else some "Anything") data).1 ≠
      .ok ((sampleFile .default).header, (sampleFile .default).properties) := by
  obtain ⟨data, he, h32⟩ := sample_data .default
  have key := fun hints' => C99_needed_iff true sampleHints hints' _ data
    (sampleFile_ok .default) (eachFits_of_small he h32) he
  refine ⟨data, he, (key _).mpr ?_, fun hc => ?_⟩
  · rw [sample_needs]
    simp [Suits, NameFits, builtinStructs]
  · have := (key _).mp hc
      ("Inventory.StructProperty.Spots.SetProperty.StructProperty", some "Vector")
      (by rw [sample_needs]; simp)
    simp [Suits, NameFits] at this

/-- Without any, it takes at most three rounds to supply them; in fact two. -/
example : ∃ data, (sampleFile .default).encode = .ok data ∧ ∃ i ≤ 3,
    (readData true (Spec.hintRounds true data
      (fun p => if p = "Inventory.StructProperty.Spots.SetProperty.StructProperty" then "Vector"
        else "Slot") noHints i) data).1 =
      .ok ((sampleFile .default).header, (sampleFile .default).properties) := by
  obtain ⟨data, he, h32⟩ := sample_data .default
  refine ⟨data, he, ?_⟩
  have := C99_rounds true sampleHints
    (fun p => if p = "Inventory.StructProperty.Spots.SetProperty.StructProperty" then "Vector"
        else "Slot") _ data (sampleFile_ok .default) (eachFits_of_small he h32) he noHints
    (fun _ _ => .inl rfl) (by rw [sample_needs]; simp [NameFits, builtinStructs])
  rw [sample_needs] at this
  exact this

/-- Without hints, the one for the map is asked for; with only that, the one for the set, also if bytes
follow the save. -/
example : ∃ data, (sampleFile .default).encode = .ok data ∧
    (∃ pos, (readData true noHints data).1 = .err (.missingHint "StructProperty"
      "Inventory.StructProperty.Slots.MapProperty.Value.StructProperty" pos)) ∧
    (∃ pos, (readData true
      (fun p => if p = "Inventory.StructProperty.Slots.MapProperty.Value.StructProperty" then
        some "Anything" else none) (data ++ [1, 2, 3])).1 = .err (.missingHint "StructProperty"
      "Inventory.StructProperty.Spots.SetProperty.StructProperty" pos)) := by
  obtain ⟨data, he, h32⟩ := sample_data .default
  refine ⟨data, he, ?_, ?_⟩
  · exact C99_first_asked true sampleHints _ data (sampleFile_ok .default)
      (eachFits_of_small he h32) he _ _ (sample_needs _)
  · refine C99_first_missing true sampleHints _ _ data (sampleFile_ok .default)
      (eachFits_of_small he h32) he _
      ⟨[("Inventory.StructProperty.Slots.MapProperty.Value.StructProperty", none),
        ("Inventory.StructProperty.Slots.MapProperty.Value.StructProperty", none)],
        some "Vector", [], ?_, ?_, ?_⟩ _
    · rw [sample_needs]; rfl
    · simp [Suits, NameFits, builtinStructs]
    · simp

/-- Compressed twice, it is read with the table made of it. -/
example (s : Sink) : ∃ s', (sampleFile (.palworld .zlibTwice)).write toyCodec s = (.ok (), s') ∧
    GvasFile.read toyCodec true .palworld (tableOf (sampleFile (.palworld .zlibTwice)) "Slot") s.pos
      (s'.data.drop s.pos) = .ok (sampleFile (.palworld .zlibTwice)) := by
  obtain ⟨data, he, h32⟩ := sample_data (.palworld .zlibTwice)
  obtain ⟨s', h1, h2⟩ := C99_file_iff toyCodec toyCodec_lawful true sampleHints _ data
    (sampleFile_ok (.palworld .zlibTwice)) he h32 s
  refine ⟨s', h1, (h2 _).mpr ?_⟩
  rw [sample_needs]
  simp [Suits, NameFits, tableOf, sample_needs, builtinStructs, List.lookup]

end Gvas
