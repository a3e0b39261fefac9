import Verif.Props.Construct
import Verif.Lemmas.Streams

/-!
# C37, C38, C45: repeated keys and fields, equality and hashing of maps
-/

namespace Gvas

open Spec

/-- Being the same map key is an equivalence. -/
theorem sameKey_equiv : Equiv sameKey :=
  ⟨fun a => by simp [sameKey], fun a b h => by simp_all [sameKey],
   fun a b c h h' => by simp_all [sameKey]⟩

/-- **C37**, map properties: whatever entries a map holds in the file, the map read has each key
once, at the position of its first and with the value of its last occurrence; the flags and type
names are those of the file. -/
theorem C37_map_duplicates (rec : String → Bool → Option UInt32 → R Property) (kt vt : String)
    (s s' : RS) (p : Property) (h : readMapBody rec kt vt s = (.ok p, s')) :
    ∃ fl es s1 mp, s.rest = u32B fl ++ u32B (UInt32.ofNat es.length) ++ s1.rest ∧
      Items (readMapEntry rec kt vt) s1 es s' ∧ p = .map mp ∧
      LastWins sameKey es (entries mp) ∧ mapFlags mp = fl ∧
      mp.keyType = kt ∧ mp.valueType = vt := by
  unfold readMapBody at h
  rbind h => fl s1 h1
  rbind h => n s2 h2
  rbind h => es s3 h3
  obtain ⟨rfl, rfl⟩ := R.pure_inv h
  obtain ⟨e1, _, _⟩ := readU32_inv h1
  obtain ⟨e2, _, _⟩ := readU32_inv h2
  obtain ⟨hi, hl⟩ := replicate_items.mp h3
  have hw := lastWins_imExtend sameKey_equiv es
  obtain ⟨g1, g2, g3, g4⟩ := C36_map_new_keeps kt vt fl _ (LastWins.pairwise hw)
  refine ⟨fl, es, s2, _, ?_, hi, rfl, by rw [g4]; exact hw, g3, g1, g2⟩
  rw [e1, e2, hl, UInt32.ofNat_toNat, List.append_assoc]

/-- **C37**, top level: the properties of a file are the named properties stored one after the
other, each name once, at the position of its first and with the value of its last occurrence. -/
theorem C37_top_duplicates (rec : String → Bool → Option UInt32 → R Property) (n : Nat)
    (s s' : RS) (m : List (String × Property)) (h : readTop rec n [] s = (.ok m, s')) :
    ∃ es, Named rec s es s' ∧ LastWins (· == ·) es m := by
  obtain ⟨es, h1, rfl⟩ := readTop_named h
  exact ⟨es, h1, lastWins_imExtend equiv_beq es⟩

/-- **C37**, format arguments of texts. -/
theorem C37_arguments_duplicates (cv : List (Guid × UInt32)) (rec : R FText) (s s' : RS)
    (m : List (String × FormatArgumentValue)) (h : readArguments cv rec s = (.ok m, s')) :
    ∃ es s1, s.rest = i32B (Int32.ofNat es.length) ++ s1.rest ∧
      Items (do
        let key ← readString
        let value ← FormatArgumentValue.readWith cv rec
        return (key, value)) s1 es s' ∧ LastWins (· == ·) es m := by
  unfold readArguments at h
  rbind h => c s1 h1
  rbind h => n s2 h2
  rbind h => es s3 h3
  obtain ⟨rfl, rfl⟩ := R.pure_inv h
  obtain ⟨e1, _, _⟩ := readI32_inv h1
  obtain ⟨hi, hl⟩ := replicate_items.mp h3
  unfold capacity at h2
  split at h2
  · exact absurd h2 R.panic_ne
  · obtain ⟨rfl, rfl⟩ := R.rpure_inv h2
    refine ⟨es, s2, ?_, hi, lastWins_imExtend equiv_beq es⟩
    have hlt := c.toInt_lt
    have : c = Int32.ofNat es.length := by
      apply Int32.toInt_inj.mp
      rw [hl, i32_ofNat_toInt (by omega)]; omega
    rw [e1, this]

/-- **C37**, counting: a collapsed sequence has as many entries as there are different keys, and
no two of its keys are the same. -/
theorem C37_count {κ ν : Type} {same : κ → κ → Bool} {es m : List (κ × ν)}
    (h : LastWins same es m) :
    m.length = (firsts same (es.map Prod.fst)).length ∧
      (m.map Prod.fst).Pairwise (fun a b => same a b = false) :=
  ⟨by rw [← h.keys, List.length_map], LastWins.pairwise h⟩

/-- **C37**: collapsing determines the result: position, key and value of every entry. -/
theorem C37_unique {κ ν : Type} {same : κ → κ → Bool} {es m m' : List (κ × ν)}
    (h : LastWins same es m) (h' : LastWins same es m') : m = m' := lastWins_unique h h'

/-- `a` repeated: its last value at its first position. -/
example : LastWins (· == ·) [("a", 1), ("b", 2), ("a", 3)] [("a", 3), ("b", 2)] :=
  lastWins_imExtend equiv_beq [("a", 1), ("b", 2), ("a", 3)]

/-! ## C38 -/

/-- **C38**: the fields of a custom struct are all the named properties stored, grouped by name
with every value kept in order; with debug assertions the values of each name record the array
indices 0, 1, 2, ... -/
theorem C38_fields_kept (debug : Bool) (rec : String → Bool → Option UInt32 → R Property) (n : Nat)
    (s s' : RS) (fs : List (String × List Property))
    (h : readCustom debug rec n [] s = (.ok fs, s')) :
    ∃ es, Named rec s es s' ∧ Grouped es fs ∧ (debug = true → IndicesMatch es) := by
  obtain ⟨es, h1, rfl, h3⟩ := readCustom_named h
  refine ⟨es, h1, by simpa using grouped_pushAll grouped_nil es, ?_⟩
  intro hd pre k p post he
  have := h3 hd pre k p post he
  rw [recordedIndex_eq, ← this, grouped_count (grouped_pushAll grouped_nil pre)]
  rfl

/-- **C38**: conversely, where named properties are stored, the struct is read without debug
assertions whatever names are repeated; with them exactly if the array indices match, and
otherwise the read panics. -/
theorem C38_fields_accepted (debug : Bool) (rec : String → Bool → Option UInt32 → R Property)
    (n : Nat) (s s' : RS) (es : List (String × Property)) (h : Named rec s es s')
    (hn : es.length < n) :
    ((debug = false ∨ IndicesMatch es) →
      ∃ fs, readCustom debug rec n [] s = (.ok fs, s') ∧ Grouped es fs) ∧
    (debug = true → ¬ IndicesMatch es →
      ∃ m s'', readCustom debug rec n [] s = (.panic m, s'')) := by
  have key : ∀ pre k, fieldCount k (pushAll [] pre) = (pre.filter (·.1 == k)).length := by
    intro pre k
    rw [grouped_count (grouped_pushAll grouped_nil pre)]; rfl
  rcases named_readCustom (debug := debug) (fs := []) h hn with ⟨hd, s'', h1⟩ | ⟨h1, h2⟩
  · refine ⟨?_, fun _ _ => ⟨_, _, h1⟩⟩
    intro hc
    exfalso
    rcases hc with hc | hc
    · rw [hd] at hc; cases hc
    · -- the indices match, so the run cannot have panicked
      have : ∀ (n : Nat) (es : List (String × Property)) (fs : List (String × List Property))
          (s s' : RS), Named rec s es s' → es.length < n →
          (∀ pre k p post, es = pre ++ (k, p) :: post →
            UInt32.ofNat (fieldCount k (pushAll fs pre)) = p.arrayIndex) →
          ∃ r s'', readCustom debug rec n fs s = (.ok r, s'') := by
        intro n es fs s s' hN
        induction hN generalizing n fs with
        | done h1 =>
          intro hn _
          cases n with
          | zero => omega
          | succ n => rw [readCustom, R.bind_ok h1, if_pos rfl]; exact ⟨_, _, rfl⟩
        | @entry s s1 s2 s3 s' name ty p es h1 hne h2 h3 _ ih =>
          intro hn hi
          cases n with
          | zero => omega
          | succ n =>
            unfold R.withEntry at h3
            match hr : rec ty true none { s2 with stack := s2.stack ++ [name] } with
            | (.bad e, s4) => rw [hr] at h3; simp at h3
            | (.ok p', s4) =>
              rw [hr] at h3
              simp only [Prod.mk.injEq, Res.ok.injEq] at h3
              obtain ⟨rfl, rfl⟩ := h3
              have hc : debug = true → UInt32.ofNat (fieldCount name fs) = p'.arrayIndex :=
                fun _ => hi [] name p' es rfl
              have h3' : R.withEntry name (do
                  let p ← rec ty true none
                  insertProperty debug fs name p) s2 =
                  (.ok (fieldPush name p' fs), { s4 with stack := s4.stack.dropLast }) := by
                rw [withEntry_bind, hr]
                simp only []
                rw [insertProperty_ok hc]
              rw [readCustom, R.bind_ok h1, if_neg hne, R.bind_ok h2, R.bind_ok h3']
              exact ih n _ (by simpa using hn) fun pre k q post he =>
                hi ((name, p') :: pre) k q post (by rw [he]; rfl)
      obtain ⟨r, s3, h3⟩ := this n es [] s s' h hn (by
        intro pre k p post he
        rw [key, ← recordedIndex_eq]
        exact (hc pre k p post he).symm)
      rw [h1] at h3
      simp at h3
  · refine ⟨fun _ => ⟨_, h1, by simpa using grouped_pushAll grouped_nil es⟩, ?_⟩
    intro hd hni
    exfalso
    apply hni
    intro pre k p post he
    rw [recordedIndex_eq, ← h2 hd pre k p post he, key]

/-- The fields of a struct with the names spelt out, one line per value. -/
def Spec.fieldLines (fs : List (String × List Property)) : List (String × Property) :=
  fs.flatMap fun e => e.2.map fun p => (e.1, p)

private theorem writeFieldVals_lines (cv : List (Guid × UInt32)) (k : String) (ps : List Property)
    (o : Out) (h : writeFieldVals cv k ps = .ok o) :
    ∃ bs : List Bytes, bs.length = ps.length ∧ o.bytes = bs.flatten ∧
      ∀ i (h1 : i < ps.length) (h2 : i < bs.length), ∃ w, Property.write cv true ps[i] = .ok w ∧
        bs[i] = (writeString k).bytes ++ w.bytes := by
  induction ps generalizing o with
  | nil =>
    rw [writeFieldVals] at h
    cases h
    exact ⟨[], rfl, rfl, fun i h => by simp at h⟩
  | cons p ps ih =>
    rw [writeFieldVals] at h
    match ha : Property.write cv true p with
    | .bad e => rw [ha] at h; cases h
    | .ok a =>
      match hb : writeFieldVals cv k ps with
      | .bad e => rw [ha, hb] at h; cases h
      | .ok b =>
        rw [ha, hb] at h
        cases h
        obtain ⟨bs, h1, h2, h3⟩ := ih b hb
        refine ⟨((writeString k).bytes ++ a.bytes) :: bs, by simp [h1], ?_, ?_⟩
        · show ((writeString k).bytes ++ a.bytes) ++ b.bytes = _
          rw [h2]; rfl
        · intro i hi1 hi2
          cases i with
          | zero => exact ⟨a, ha, rfl⟩
          | succ i => exact h3 i (by simpa using hi1) (by simpa using hi2)

/-- **C38**: every value of every field is written: name, then the property with its header, and
after all of them the name `None`. -/
theorem C38_fields_written (cv : List (Guid × UInt32)) (fs : List (String × List Property))
    (o : Out) (h : StructPropertyValue.writeBody cv (.customStruct fs) = .ok o) :
    ∃ bs : List Bytes, bs.length = (fieldLines fs).length ∧
      o.bytes = bs.flatten ++ (writeString "None").bytes ∧
      ∀ i (h1 : i < (fieldLines fs).length) (h2 : i < bs.length), ∃ w,
        Property.write cv true (fieldLines fs)[i].2 = .ok w ∧
        bs[i] = (writeString (fieldLines fs)[i].1).bytes ++ w.bytes := by
  rw [StructPropertyValue.writeBody] at h
  match ha : writeFields cv fs with
  | .bad e => rw [ha] at h; cases h
  | .ok a =>
    rw [ha] at h
    cases h
    have : ∀ fs (a : Out), writeFields cv fs = .ok a → ∃ bs : List Bytes,
        bs.length = (fieldLines fs).length ∧ a.bytes = bs.flatten ∧
        ∀ i (h1 : i < (fieldLines fs).length) (h2 : i < bs.length), ∃ w,
          Property.write cv true (fieldLines fs)[i].2 = .ok w ∧
          bs[i] = (writeString (fieldLines fs)[i].1).bytes ++ w.bytes := by
      intro fs
      induction fs with
      | nil =>
        intro a h
        rw [writeFields] at h
        cases h
        exact ⟨[], rfl, rfl, fun i h => by simp [fieldLines] at h⟩
      | cons e fs ih =>
        intro a h
        obtain ⟨k, ps⟩ := e
        rw [writeFields] at h
        match h1 : writeFieldVals cv k ps with
        | .bad e => rw [h1] at h; cases h
        | .ok a1 =>
          match h2 : writeFields cv fs with
          | .bad e => rw [h1, h2] at h; cases h
          | .ok a2 =>
            rw [h1, h2] at h
            cases h
            obtain ⟨b1, l1, e1, f1⟩ := writeFieldVals_lines cv k ps a1 h1
            obtain ⟨b2, l2, e2, f2⟩ := ih a2 h2
            have hl : fieldLines ((k, ps) :: fs) = ps.map (fun p => (k, p)) ++ fieldLines fs := by
              simp [fieldLines]
            refine ⟨b1 ++ b2, by simp [hl, l1, l2], ?_, ?_⟩
            · show a1.bytes ++ a2.bytes = _
              rw [e1, e2, List.flatten_append]
            · intro i hi1 hi2
              simp only [hl] at hi1 ⊢
              simp only [List.length_append, List.length_map] at hi1 hi2
              by_cases hi : i < ps.length
              · rw [List.getElem_append_left (by simp; omega), List.getElem_append_left (by omega)]
                simpa using f1 i hi (by omega)
              · rw [List.getElem_append_right (by simp; omega),
                  List.getElem_append_right (by omega)]
                simpa [l1] using f2 (i - ps.length) (by omega) (by omega)
    obtain ⟨bs, h1, h2, h3⟩ := this fs a ha
    exact ⟨bs, h1, by show a.bytes ++ _ = _; rw [h2], h3⟩

/-- Three entries, one name repeated: grouped, nothing lost. -/
example : Grouped [("a", .bool true), ("b", .bool false), ("a", .bool false)]
    [("a", [.bool true, .bool false]), ("b", [.bool false])] ∧
    ¬ IndicesMatch [("a", .bool true), ("b", .bool false), ("a", .bool false)] := by
  constructor
  · exact grouped_pushAll grouped_nil [("a", .bool true), ("b", .bool false), ("a", .bool false)]
  · intro h
    have := h [("a", .bool true), ("b", .bool false)] "a" (.bool false) [] rfl
    simp [recordedIndex] at this

/-! ## C45 -/

/-- **C45 is false**: equal maps can feed the hasher different data, since equality ignores the
order of entries and hashing does not. -/
theorem C45_equal_maps_hash_differently :
    ∃ m m' : List (String × Nat), imEq m m' = true ∧
      imFeed (fun k => [Tok.s k]) (fun v => [Tok.n v]) m ≠
        imFeed (fun k => [Tok.s k]) (fun v => [Tok.n v]) m' :=
  ⟨[("a", 1), ("b", 2)], [("b", 2), ("a", 1)], by decide, by decide⟩

/-- **C45, what does hold**: equal maps with distinct keys in the same order feed the hasher the
same data. Missing: maps with the same entries in another order. -/
theorem C45_same_order_partial {κ ν τ : Type} [DecidableEq κ] [DecidableEq ν]
    (fk : κ → List τ) (fv : ν → List τ) (m m' : List (κ × ν)) (hd : (m'.map Prod.fst).Nodup)
    (he : imEq m m' = true) (ho : m.map Prod.fst = m'.map Prod.fst) :
    imFeed fk fv m = imFeed fk fv m' := by
  have : m = m' := by
    have hl : ∀ e ∈ m, m'.lookup e.1 = some e.2 := by
      intro e hm
      simp only [imEq, Bool.and_eq_true, List.all_eq_true] at he
      have := he.2 e hm
      cases hx : m'.lookup e.1 with
      | none => rw [hx] at this; simp at this
      | some v => rw [hx] at this; simp at this; rw [this]
    clear he
    induction m generalizing m' with
    | nil => cases m' with
      | nil => rfl
      | cons => simp at ho
    | cons e m ih =>
      cases m' with
      | nil => simp at ho
      | cons e' m' =>
        obtain ⟨k, v⟩ := e
        obtain ⟨k', v'⟩ := e'
        simp only [List.map_cons, List.cons.injEq] at ho
        obtain ⟨rfl, ho⟩ := ho
        have h1 := hl (k, v) (by simp)
        simp at h1
        subst h1
        congr 1
        simp only [List.map_cons, List.nodup_cons] at hd
        apply ih m' hd.2 ho
        intro e hm
        have := hl e (by simp [hm])
        rw [List.lookup_cons] at this
        have hne : e.1 ≠ k := by
          rintro rfl
          exact hd.1 (by rw [← ho]; exact List.mem_map_of_mem hm)
        rw [show (e.1 == k) = false by simpa using hne] at this
        exact this
  rw [this]

/-- **C45**, exactly which equal maps feed the hasher the same data: those in the same order, if
the data a key feeds tells where it ends and which key it is.  Missing: as above. -/
theorem C45_feed_iff_partial {κ ν τ : Type} [DecidableEq κ] [DecidableEq ν]
    (fk : κ → List τ) (fv : ν → List τ)
    (hk : ∀ a b x y, fk a ++ x = fk b ++ y → a = b ∧ x = y)
    (hv : ∀ a b x y, fv a ++ x = fv b ++ y → x = y)
    (m m' : List (κ × ν)) (hd : (m'.map Prod.fst).Nodup) (he : imEq m m' = true) :
    imFeed fk fv m = imFeed fk fv m' ↔ m.map Prod.fst = m'.map Prod.fst := by
  refine ⟨fun h => ?_, C45_same_order_partial fk fv m m' hd he⟩
  have hl : m.length = m'.length := by
    simp only [imEq, Bool.and_eq_true] at he
    simpa using he.1
  clear hd he
  induction m generalizing m' with
  | nil => cases m' with
    | nil => rfl
    | cons => simp at hl
  | cons e m ih =>
    cases m' with
    | nil => simp at hl
    | cons e' m' =>
      simp only [imFeed, List.flatMap_cons, List.append_assoc] at h
      obtain ⟨h1, h2⟩ := hk _ _ _ _ h
      have h3 := hv _ _ _ _ h2
      rw [List.map_cons, List.map_cons, h1, ih m' h3 (by simpa using hl)]

/-- The feeds of names and numbers are of that kind. -/
example (m m' : List (String × Nat)) (hd : (m'.map Prod.fst).Nodup) (he : imEq m m' = true) :
    imFeed (fun k => [Tok.s k]) (fun v => [Tok.n v]) m =
      imFeed (fun k => [Tok.s k]) (fun v => [Tok.n v]) m' ↔ m.map Prod.fst = m'.map Prod.fst :=
  C45_feed_iff_partial _ _ (by simp) (by simp) m m' hd he

example : imEq [("a", 1), ("b", 2)] [("a", 1), ("b", 2)] = true ∧
    ["a", "b"].Nodup := by decide

end Gvas
