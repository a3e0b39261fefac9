import Verif.Spec.Nested
import Verif.Lemmas.Inside

/-! # Where the properties inside a property stand -/

namespace Gvas

open Spec Format

variable {env : Env}

theorem fields_split {st : List String} {es1 es2 : List (String × Property)}
    {e : String × Property} {b : Bytes} (h : Fields env st b (es1 ++ e :: es2)) :
    ∃ b1 n t c back ty, b = b1 ++ n ++ t ++ c ++ back ∧ Seq (Entry env st) b1 es1 ∧
      Str n (some e.1) ∧ e.1 ≠ "None" ∧ Str t (some ty) ∧ Full env (st ++ [e.1]) ty c e.2 := by
  induction es1 generalizing b with
  | nil =>
    obtain _ | ⟨h1, h2, h3, h4, h5⟩ := h
    exact ⟨[], _, _, _, _, _, by rw [List.nil_append], .nil, h1, h2, h3, h4⟩
  | cons x es1 ih =>
    obtain _ | ⟨h1, h2, h3, h4, h5⟩ := h
    obtain ⟨b1, n, t, c, back, ty, rfl, g1, g2⟩ := ih h5
    exact ⟨_, n, t, c, back, ty, by simp only [List.append_assoc],
      .cons ⟨_, _, _, _, rfl, h1, h2, h3, h4⟩ g1, g2⟩

theorem indicesMatch_prefix {es1 es2 : List (String × Property)} (h : IndicesMatch (es1 ++ es2)) :
    IndicesMatch es1 := by
  intro pre k p post he
  exact h pre k p (post ++ es2) (by rw [he]; simp)

/-- A field of a struct stands in its contents. -/
theorem field_stands {st : List String} {sty : String} {b : Bytes} {v : StructPropertyValue}
    {q : Property} (h : StructBody env st sty b v) (hf : HasField v q) :
    ∃ front c back st' ty', b = front ++ c ++ back ∧ FieldAt env st sty front st' ty' ∧
      Full env st' ty' c q := by
  obtain ⟨fs, k, ps, rfl, hm, hq⟩ := hf
  cases h with
  | builtin h => cases h
  | custom hb h1 h2 h3 =>
    rename_i es
    have hv := h2.values k ps hm
    rw [hv] at hq
    obtain ⟨e, he, rfl⟩ := List.mem_map.mp hq
    obtain ⟨es1, es2, rfl⟩ := List.append_of_mem (List.mem_filter.mp he).1
    obtain ⟨b1, n, t, c, back, ty, rfl, g1, g2, g3, g4, g5⟩ := fields_split h1
    exact ⟨b1 ++ n ++ t, c, back, _, ty, rfl,
      .mk hb g1 (fun hd => indicesMatch_prefix (h3 hd)) g2 g3 g4, g5⟩

theorem structBodies_split {st : List String} {sty : String} {v : StructPropertyValue}
    {vs1 vs2 : List StructPropertyValue} {b : Bytes}
    (h : StructBodies env st sty b (vs1 ++ v :: vs2)) :
    ∃ b1 c b2, b = b1 ++ c ++ b2 ∧ StructBodies env st sty b1 vs1 ∧ StructBody env st sty c v := by
  induction vs1 generalizing b with
  | nil =>
    obtain _ | ⟨h1, h2⟩ := h
    exact ⟨[], _, _, by rw [List.nil_append], .nil, h1⟩
  | cons x vs1 ih =>
    obtain _ | ⟨h1, h2⟩ := h
    obtain ⟨b1, c, b2, rfl, g1, g2⟩ := ih h2
    exact ⟨_, c, b2, by simp only [List.append_assoc], .cons h1 g1, g2⟩

theorem bares_split {st : List String} {ty : String} {sug : Option UInt32} {p : Property}
    {ps1 ps2 : List Property} {b : Bytes} (h : Bares env st ty sug b (ps1 ++ p :: ps2)) :
    ∃ b1 c b2, b = b1 ++ c ++ b2 ∧ Bares env st ty sug b1 ps1 ∧ Bare env st ty sug c p := by
  induction ps1 generalizing b with
  | nil =>
    obtain _ | ⟨h1, h2⟩ := h
    exact ⟨[], _, _, by rw [List.nil_append], .nil, h1⟩
  | cons x ps1 ih =>
    obtain _ | ⟨h1, h2⟩ := h
    obtain ⟨b1, c, b2, rfl, g1, g2⟩ := ih h2
    exact ⟨_, c, b2, by simp only [List.append_assoc], .cons h1 g1, g2⟩

theorem entries_split {st : List String} {kt vt : String} {e : Property × Property}
    {es1 es2 : List (Property × Property)} {b : Bytes}
    (h : Entries env st kt vt b (es1 ++ e :: es2)) :
    ∃ b1 c d b2, b = b1 ++ c ++ d ++ b2 ∧ Entries env st kt vt b1 es1 ∧
      Bare env (st ++ ["Key"]) kt none c e.1 ∧ Bare env (st ++ ["Value"]) vt none d e.2 := by
  induction es1 generalizing b with
  | nil =>
    obtain _ | ⟨h1, h2, h3⟩ := h
    exact ⟨[], _, _, _, by rw [List.nil_append], .nil, h1, h2⟩
  | cons x es1 ih =>
    obtain _ | ⟨h1, h2, h3⟩ := h
    obtain ⟨b1, c, d, b2, rfl, g1, g2⟩ := ih h3
    exact ⟨_, c, d, b2, by simp only [List.append_assoc], .cons h1 h2 g1, g2⟩

theorem bare_structValue {st : List String} {ty : String} {sug : Option UInt32} {b : Bytes}
    {v : StructPropertyValue} (h : Bare env st ty sug b (.structValue v)) :
    ty = "StructProperty" ∧ ∃ sty, env.hints (joinDots (st ++ ["StructProperty"])) = some sty ∧
      StructBody env (st ++ ["StructProperty"]) sty b v := by
  cases h with
  | number h => cases h
  | plain h => cases h
  | struct hh h => exact ⟨rfl, _, hh, h⟩

theorem firsts_sub {κ : Type} {same : κ → κ → Bool} {l : List κ} {k : κ} (h : k ∈ firsts same l) :
    k ∈ l := by
  induction l with
  | nil => exact h
  | cons x l ih =>
    simp only [firsts, List.mem_cons, List.mem_filter] at h ⊢
    exact h.imp id fun h => ih h.1

theorem lastWins_key {κ ν : Type} {same : κ → κ → Bool} {es m : List (κ × ν)} {k : κ} {v : ν}
    (h : LastWins same es m) (hm : (k, v) ∈ m) : ∃ w, (k, w) ∈ es := by
  have : k ∈ es.map Prod.fst := firsts_sub (h.keys ▸ List.mem_map.mpr ⟨_, hm, rfl⟩)
  obtain ⟨⟨k', w⟩, he, rfl⟩ := List.mem_map.mp this
  exact ⟨w, he⟩

theorem lastWins_value {κ ν : Type} {same : κ → κ → Bool} {es m : List (κ × ν)} {k : κ} {v : ν}
    (h : LastWins same es m) (hm : (k, v) ∈ m) : ∃ k', (k', v) ∈ es := by
  obtain ⟨pre, k', post, rfl, _⟩ := h.last k v hm
  exact ⟨k', by simp⟩

theorem mapOf_entries {kt vt : String} {fl : UInt32} {m : List (Property × Property)}
    {mp : MapProperty} (h : MapOf kt vt fl m mp) : entries mp = m := by
  rcases h with ⟨_, h⟩ | ⟨_, rfl⟩
  · cases h <;> rfl
  · rfl

/-- A field of a struct right inside a property stands in the bytes of the property. -/
theorem fieldOf_stands {st : List String} {ty : String} {b : Bytes} {p q : Property}
    (h : Full env st ty b p) (hf : FieldOf p q) :
    ∃ front c back st' ty', b = front ++ c ++ back ∧ FieldIn env st ty front st' ty' ∧
      Full env st' ty' c q := by
  cases hf with
  | @struct g _ _ _ hf =>
    cases h with
    | number h => cases h
    | plain h => cases h
    | struct _ h1 h2 h3 =>
      obtain ⟨front, c, back, st', ty', rfl, g1, g2⟩ := field_stands h2 hf
      unfold sized
      generalize UInt32.ofNat (List.length (front ++ c ++ back)) = len
      refine ⟨_, c, back, st', ty', ?_, .struct len g h1 g1, g2⟩
      simp only [List.append_assoc]
  | @structs _ _ g _ v _ hv hf =>
    cases h with
    | number h => cases h
    | plain h => cases h
    | array h1 h2 h3 h4 h5 =>
      rcases h5 with h5 | ⟨_, h5⟩
      · cases h5
      · cases h5
    | structs _ h1 h2 h3 h4 h5 h6 h7 =>
      obtain ⟨vs1, vs2, rfl⟩ := List.append_of_mem hv
      obtain ⟨b1, d, b2, rfl, k1, k2⟩ := structBodies_split h6
      obtain ⟨front, c, back, st', ty', rfl, g1, g2⟩ := field_stands k2 hf
      unfold sized
      generalize hc : UInt32.ofNat (vs1 ++ v :: vs2).length = count
      generalize UInt32.ofNat (List.length (u32B count ++ _ ++ _ ++ _ ++ _ ++ _ ++ _ ++ _)) = len
      generalize UInt64.ofNat (List.length (b1 ++ _ ++ b2)) = size
      refine ⟨_, c, back ++ b2, st', ty', ?_, .structs len count size g h1 h3 h4 h5 k1 ?_ g1, g2⟩
      · simp only [List.append_assoc]
      · rw [← hc, u32_ofNat_toNat h2]
        simp
  | @set _ fl _ v _ hv hf =>
    cases h with
    | number h => cases h
    | plain h => cases h
    | set _ h1 h2 h3 h4 =>
      obtain ⟨ps1, ps2, rfl⟩ := List.append_of_mem hv
      obtain ⟨b1, d, b2, rfl, k1, k2⟩ := bares_split h3
      obtain ⟨rfl, sty, k3, k4⟩ := bare_structValue k2
      obtain ⟨front, c, back, st', ty', rfl, g1, g2⟩ := field_stands k4 hf
      unfold sized
      generalize hc : UInt32.ofNat (ps1 ++ .structValue v :: ps2).length = count
      generalize hl : UInt32.ofNat (List.length (u32B fl ++ _ ++ _)) = len
      refine ⟨_, c, back ++ b2, st', ty', ?_, .set len fl count h1 ?_ k1 ?_ k3 g1, g2⟩
      · simp only [List.append_assoc]
      · intro _
        rw [← hl, u32_ofNat_toNat (by simp only [List.length_append, u32B_length] at h4 ⊢; omega)]
        simp only [List.length_append, u32B_length]
        omega
      · rw [← hc, u32_ofNat_toNat h2]
        simp
  | mapKey hv hf =>
    cases h with
    | number h => cases h
    | plain h => cases h
    | map fl h1 h2 h3 h4 h5 h6 h7 =>
      rw [mapOf_entries h6] at hv
      obtain ⟨w, hw⟩ := lastWins_key h5 hv
      obtain ⟨es1, es2, rfl⟩ := List.append_of_mem hw
      obtain ⟨b1, d1, d2, b2, rfl, k1, k2, k3⟩ := entries_split h4
      obtain ⟨rfl, sty, k4, k5⟩ := bare_structValue k2
      obtain ⟨front, c, back, st', ty', rfl, g1, g2⟩ := field_stands k5 hf
      unfold sized
      generalize hc : UInt32.ofNat (List.length (es1 ++ _ :: es2)) = count
      generalize UInt32.ofNat (List.length (u32B fl ++ _ ++ _)) = len
      refine ⟨_, c, back ++ d2 ++ b2, st', ty', ?_, .mapKey len fl count h1 h2 k1 ?_ k4 g1, g2⟩
      · simp only [List.append_assoc]
      · rw [← hc, u32_ofNat_toNat h3]
        simp
  | mapValue hv hf =>
    cases h with
    | number h => cases h
    | plain h => cases h
    | map fl h1 h2 h3 h4 h5 h6 h7 =>
      rw [mapOf_entries h6] at hv
      obtain ⟨w, hw⟩ := lastWins_value h5 hv
      obtain ⟨es1, es2, rfl⟩ := List.append_of_mem hw
      obtain ⟨b1, d1, d2, b2, rfl, k1, k2, k3⟩ := entries_split h4
      obtain ⟨rfl, sty, k4, k5⟩ := bare_structValue k3
      obtain ⟨front, c, back, st', ty', rfl, g1, g2⟩ := field_stands k5 hf
      unfold sized
      generalize hc : UInt32.ofNat (List.length (es1 ++ _ :: es2)) = count
      generalize UInt32.ofNat (List.length (u32B fl ++ _ ++ _)) = len
      refine ⟨_, c, back ++ b2, st', ty', ?_, .mapValue len fl count h1 h2 k1 ?_ k2 k4 g1, g2⟩
      · simp only [List.append_assoc]
      · rw [← hc, u32_ofNat_toNat h3]
        simp

theorem nested_stands {p q : Property} (hn : Nested p q) {st : List String} {ty : String} {b : Bytes}
    (h : Full env st ty b p) : ∃ front c back st' ty', b = front ++ c ++ back ∧
      Inside env st ty front st' ty' ∧ Full env st' ty' c q := by
  induction hn generalizing st ty b with
  | self => exact ⟨[], b, [], st, ty, by simp, .here, h⟩
  | field hf _ ih =>
    obtain ⟨f1, c1, back1, st1, ty1, rfl, g1, g2⟩ := fieldOf_stands h hf
    obtain ⟨f2, c2, back2, st2, ty2, rfl, k1, k2⟩ := ih g2
    exact ⟨f1 ++ f2, c2, back2 ++ back1, st2, ty2, by simp only [List.append_assoc],
      .within g1 k1, k2⟩

/-! ## Saves -/

theorem fstringAt_front {input rest : Bytes} {r : Option String} {k : Nat}
    (h : FStringAt input r k rest) :
    ∃ b, input = b ++ rest ∧ ∀ y, FStringAt (b ++ y) r k y := by
  cases h with
  | null len _ h => exact ⟨i32B len, rfl, fun y => .null len y h⟩
  | utf8 s len payload _ h1 h2 h3 h4 =>
    exact ⟨i32B len ++ payload ++ [0], rfl, fun y => .utf8 s len payload y h1 h2 h3 h4⟩
  | utf16 s len words _ h1 h2 h3 h4 =>
    exact ⟨i32B len ++ u16sToBytes words ++ [0, 0], rfl, fun y => .utf16 s len words y h1 h2 h3 h4⟩

theorem headerTail_front {input rest : Bytes} {ev : FEngineVersion} {format : UInt32}
    {cvs : List (Guid × UInt32)} {name : String} (h : HeaderTailAt input ev format cvs name rest) :
    ∃ b, input = b ++ rest ∧ ∀ y, HeaderTailAt (b ++ y) ev format cvs name y := by
  obtain ⟨r1, r2, es, k, ⟨r, k', rfl, h1⟩, h2, h3, rfl, h4, h5⟩ := h
  obtain ⟨a, ha, ha'⟩ := fstringAt_front h1
  obtain ⟨c, rfl, hc'⟩ := fstringAt_front h4
  subst ha
  refine ⟨u16B ev.major ++ u16B ev.minor ++ u16B ev.patch ++ u32B ev.changeList ++ a ++
    (u32B 3 ++ u32B (UInt32.ofNat es.length) ++
      es.flatMap (fun e : Guid × UInt32 => guidB e.1 ++ u32B e.2)) ++ c, ?_, fun y => ?_⟩
  · simp only [List.append_assoc]
  · exact ⟨_, _, es, k, ⟨_, k', by simp only [List.append_assoc], ha' _⟩, h2, h3, rfl, hc' y, h5⟩

/-- A header is where it is whatever follows. -/
theorem headerAt_front {input rest : Bytes} {h : GvasHeader} (ha : HeaderAt input h rest) :
    ∃ b, input = b ++ rest ∧ ∀ y, HeaderAt (b ++ y) h y := by
  cases h with
  | version2 pkg ev format cvs name =>
    obtain ⟨h1, h2, r, rfl, h3⟩ := ha
    obtain ⟨b, rfl, hb⟩ := headerTail_front h3
    exact ⟨_, (List.append_assoc _ _ _).symm, fun y => ⟨h1, h2, _, List.append_assoc _ _ _, hb y⟩⟩
  | version3 pkg ue5 ev format cvs name =>
    obtain ⟨h1, h2, h3, h4, r, rfl, h5⟩ := ha
    obtain ⟨b, rfl, hb⟩ := headerTail_front h5
    exact ⟨_, (List.append_assoc _ _ _).symm,
      fun y => ⟨h1, h2, h3, h4, _, List.append_assoc _ _ _, hb y⟩⟩

/-- The loop over the properties of a save, after complete ones. -/
theorem readTop_entries {b : Bytes} {es : List (String × Property)}
    (h : Seq (Entry env []) b es) : Eventually fun n => ∀ ps k rest pos, ∃ ps',
      readTop (Property.read env n) (es.length + k) ps ⟨b ++ rest, pos, []⟩ =
        readTop (Property.read env n) k ps' ⟨rest, pos + b.length, []⟩ := by
  induction h with
  | nil => exact .of fun n ps k rest pos => ⟨ps, by simp⟩
  | @cons b bs e es h1 _ ih =>
    obtain ⟨a, t, c, ty, rfl, hne, g1, g2, g3⟩ := entry_reads h1
    refine (g3.and ih).mono fun n ⟨g3, ih⟩ ps k rest pos => ?_
    obtain ⟨ps', hp⟩ := ih (imInsert (· == ·) e.1 e.2 ps) k rest (pos + (a.length + (t.length + c.length)))
    refine ⟨ps', ?_⟩
    rw [List.length_cons, show es.length + 1 + k = (es.length + k) + 1 by omega, readTop]
    simp only [List.append_assoc]
    rw [R.bind_ok (g1 _ _), if_neg hne, R.bind_ok (g2 _ _), R.bind_ok (g3.withEntry _ _)]
    simp only [List.length_append, Nat.add_assoc] at hp ⊢
    exact hp

end Gvas
