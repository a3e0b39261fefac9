import Verif.Lemmas.Hints
import Verif.Lemmas.File
import Verif.Lemmas.Instances

/-! # Reading asks for the first hint that is missing -/

namespace Gvas

open Spec

/-- Running `m` on these bytes, whatever follows, fails for want of a hint for the path `q`. -/
def Asks {α : Type} (st : List String) (m : R α) (b : Bytes) (q : String) : Prop :=
  ∀ rest pos, ∃ p s', m ⟨b ++ rest, pos, st⟩ =
    (.bad (.err (.missingHint "StructProperty" q p)), s')

section
variable {st : List String} {q : String} {α β : Type}

theorem Asks.left {m : R α} {b : Bytes} {f : α → R β} (h : Asks st m b q) :
    Asks st (m >>= f) b q := by
  intro rest pos
  obtain ⟨p, s', e⟩ := h rest pos
  exact ⟨p, s', R.bind_bad e⟩

theorem Asks.after {m : R α} {a : α} {b1 b2 : Bytes} {f : α → R β} (h1 : Reads st m b1 a)
    (h : Asks st (f a) b2 q) : Asks st (m >>= f) (b1 ++ b2) q := by
  intro rest pos
  obtain ⟨p, s', e⟩ := h rest (pos + b1.length)
  exact ⟨p, s', by rw [List.append_assoc, R.bind_ok (h1 _ _), e]⟩

theorem Asks.after0 {m : R α} {a : α} {b : Bytes} {f : α → R β} (h1 : Reads st m [] a)
    (h : Asks st (f a) b q) : Asks st (m >>= f) b q := Asks.after (b1 := []) h1 h

theorem Asks.more {m : R α} {b c : Bytes} (h : Asks st m b q) : Asks st m (b ++ c) q := by
  intro rest pos
  rw [List.append_assoc]
  exact h _ _

theorem Asks.withEntry {name : String} {m : R α} {b : Bytes} (h : Asks (st ++ [name]) m b q) :
    Asks st (R.withEntry name m) b q := by
  intro rest pos
  obtain ⟨p, s', e⟩ := h rest pos
  refine ⟨p, { s' with stack := s'.stack.dropLast }, ?_⟩
  unfold R.withEntry
  simp only [e]

theorem Asks.congr {m : R α} {b b' : Bytes} (h : Asks st m b q) (e : b' = b) : Asks st m b' q :=
  e ▸ h

theorem asks_sized {m : R α} {b : Bytes} {len : UInt32} (h : Asks st m b q) :
    Asks st (readSized len m) b q := by
  intro rest pos
  obtain ⟨p, s', e⟩ := h rest pos
  refine ⟨p, s', ?_⟩
  unfold readSized
  rw [R.bind_ok (position_run _), R.bind_bad e]

theorem asks_header {hdr : R α} {body : UInt32 → α → R β} {parts b : Bytes} {a : α} {len : UInt32}
    (h1 : Reads st hdr parts a) (h : Asks st (body len a) b q) :
    Asks st (readHeader hdr body) (u32B len ++ u32B 0 ++ parts ++ [0] ++ b) q := by
  simp only [List.append_assoc]
  exact .after (reads_u32 _) (.after reads_zeroIndex (.after h1 (.after reads_terminator
    (asks_sized h))))

end

section
variable {hints : String → Option String} {q : String}

theorem firstMissing_append {l r : List (String × Option String)} (h : FirstMissing hints (l ++ r) q) :
    FirstMissing hints l q ∨ ((∀ n ∈ l, Suits hints n) ∧ FirstMissing hints r q) := by
  obtain ⟨pre, k, post, e, hp, hq⟩ := h
  rcases List.append_eq_append_iff.mp e with ⟨a, rfl, e'⟩ | ⟨a, rfl, e'⟩
  · exact .inr ⟨fun n hn => hp n (by simp [hn]), a, k, post, e', fun n hn => hp n (by simp [hn]), hq⟩
  · cases a with
    | nil =>
      rw [List.append_nil]
      exact .inr ⟨hp, [], k, post, e'.symm, by simp, hq⟩
    | cons x a =>
      rw [List.cons_append, List.cons.injEq] at e'
      obtain ⟨rfl, -⟩ := e'
      exact .inl ⟨pre, k, a, rfl, hp, hq⟩

theorem not_firstMissing_nil : ¬ FirstMissing hints [] q := by
  rintro ⟨pre, k, post, e, -⟩
  simp at e

theorem elemsNeeds_eq (st : List String) (l : List Property) :
    elemsNeeds st l = l.flatMap (needs st) := by
  induction l with
  | nil => rfl
  | cons p l ih => rw [elemsNeeds, ih]; rfl

theorem structsNeeds_eq (st : List String) (l : List StructPropertyValue) :
    structsNeeds st l = l.flatMap (structNeeds st) := by
  induction l with
  | nil => rfl
  | cons p l ih => rw [structsNeeds, ih]; rfl

theorem valuesNeeds_eq (st : List String) (l : List (String × Property)) :
    valuesNeeds st l = l.flatMap fun e => needs st e.2 := by
  induction l with
  | nil => rfl
  | cons p l ih => obtain ⟨k, p⟩ := p; rw [valuesNeeds, ih]; rfl

theorem entriesNeeds_eq (st : List String) (l : List (Property × Property)) :
    entriesNeeds st l =
      l.flatMap fun e => needs (st ++ ["Key"]) e.1 ++ needs (st ++ ["Value"]) e.2 := by
  induction l with
  | nil => rfl
  | cons p l ih => obtain ⟨k, p⟩ := p; rw [entriesNeeds, ih]; rfl

/-- Elements one after the other. -/
theorem asks_all {α β : Type} {st : List String} {w : α → Res Out} {m : R β} {g : α → β}
    {nd : α → List (String × Option String)} (l : List α) (out : Out) (hw : writeEach w l = .ok out)
    (hr : ∀ a ∈ l, ∀ o, w a = .ok o → o.bytes.length ≤ out.bytes.length →
      (∀ n ∈ nd a, Suits hints n) → Reads st m o.bytes (g a))
    (ha : ∀ a ∈ l, ∀ o, w a = .ok o → o.bytes.length ≤ out.bytes.length →
      FirstMissing hints (nd a) q → Asks st m o.bytes q)
    (hm : FirstMissing hints (l.flatMap nd) q) : Asks st (R.replicate m l.length) out.bytes q := by
  induction l generalizing out with
  | nil => exact absurd hm not_firstMissing_nil
  | cons a l ih =>
    simp only [writeEach] at hw
    obtain ⟨x, hx, hw⟩ := Res.bind_inv hw
    obtain ⟨y, hy, hw⟩ := Res.bind_inv hw
    cases hw
    simp only [Out.app_bytes, List.length_append] at hr ha ⊢
    rw [List.flatMap_cons] at hm
    show Asks st (m >>= fun a => R.replicate m l.length >>= fun as => R.pure (a :: as)) _ q
    rcases firstMissing_append hm with h | ⟨h1, h2⟩
    · exact (ha a (by simp) x hx (by omega) h).left.more
    · exact .after (hr a (by simp) x hx (by omega) h1)
        (ih y hy (fun b hb o ho hle => hr b (by simp [hb]) o ho (by omega))
          (fun b hb o ho hle => ha b (by simp [hb]) o ho (by omega)) h2).left

end

section
variable {env : Env} {hints : String → Option String} {q : String} {n fuel : Nat}
  {rec : String → Bool → Option UInt32 → R Property} {st : List String}

/-- `rec` asks for the hint `q` if it is the first that is missing in a property with header. -/
def AskHead (env : Env) (hints : String → Option String) (q : String) (n : Nat)
    (rec : String → Bool → Option UInt32 → R Property) : Prop :=
  ∀ st p out, HeadOK env st p → Property.write env.cv true p = .ok out → out.bytes.length < n →
    out.bytes.length < 2 ^ 32 → FirstMissing hints (needs st p) q →
    ∃ bs, out.bytes = (writeString (typeName p)).bytes ++ bs ∧
      Asks st (rec (typeName p) true none) bs q

/-- The same without header. -/
def AskBare (env : Env) (hints : String → Option String) (q : String) (n : Nat)
    (rec : String → Bool → Option UInt32 → R Property) : Prop :=
  ∀ st ty sug p out, BareOK env st ty p → Property.write env.cv false p = .ok out →
    out.bytes.length < n → out.bytes.length < 2 ^ 32 → FirstMissing hints (needs st p) q →
    Asks st (rec ty false sug) out.bytes q

theorem asks_vals (hr : HeadRec { env with hints := hints } n rec) (ha : AskHead env hints q n rec)
    {k : String} (hk : StrOK k) (hne : k ≠ "None")
    {acc : List (String × List Property)} (hacc : k ∉ acc.map Prod.fst)
    (l : List Property) (d : List Property) (out : Out)
    (hw : writeFieldVals env.cv k l = .ok out) (hok : ValsOK env (st ++ [k]) d.length l)
    (hn : out.bytes.length < n + 5) (h32 : out.bytes.length < 2 ^ 32) {m : Nat} {tail : Bytes}
    (hm : FirstMissing hints (elemsNeeds (st ++ [k]) l) q ∨
      (∀ n ∈ elemsNeeds (st ++ [k]) l, Suits hints n) ∧
        Asks st (readCustom env.debug rec m (fieldState acc k (d ++ l))) tail q) :
    Asks st (readCustom env.debug rec (l.length + m) (fieldState acc k d)) (out.bytes ++ tail)
      q := by
  induction l generalizing d out with
  | nil =>
    simp only [writeFieldVals] at hw
    cases hw
    rcases hm with hm | hm
    · exact absurd hm not_firstMissing_nil
    · simpa using hm.2
  | cons p l ih =>
    simp only [writeFieldVals] at hw
    obtain ⟨a, hw1, hw⟩ := Res.bind_inv hw
    obtain ⟨b, hb, hw⟩ := Res.bind_inv hw
    cases hw
    simp only [ValsOK] at hok
    have h5 := writeString_pos k
    simp only [Out.app_bytes, List.length_append] at hn h32
    have hty : StrOK (typeName p) := headOK_typeName hok.2.1
    rw [List.length_cons, Nat.succ_add_eq_add_succ, Nat.add_succ]
    unfold readCustom
    simp only [elemsNeeds] at hm
    -- the first value asks for it, or is read
    have hcase : FirstMissing hints (needs (st ++ [k]) p) q ∨
        ((∀ n ∈ needs (st ++ [k]) p, Suits hints n) ∧
          (FirstMissing hints (elemsNeeds (st ++ [k]) l) q ∨
            (∀ n ∈ elemsNeeds (st ++ [k]) l, Suits hints n) ∧
              Asks st (readCustom env.debug rec m (fieldState acc k (d ++ (p :: l)))) tail q)) := by
      rcases hm with hm | ⟨h1, h2⟩
      · rcases firstMissing_append hm with h | ⟨h1, h2⟩
        · exact .inl h
        · exact .inr ⟨h1, .inl h2⟩
      · exact .inr ⟨fun n hn => h1 n (by simp [hn]), .inr ⟨fun n hn => h1 n (by simp [hn]), h2⟩⟩
    rcases hcase with h | ⟨h1, h2⟩
    · obtain ⟨bs, hbs, hask⟩ := ha _ p a hok.2.1 hw1 (by omega) (by omega) h
      simp only [Out.app_bytes, List.append_assoc, hbs]
      refine Asks.after (reads_string hk) ?_
      rw [if_neg hne]
      refine Asks.after (reads_string hty) ?_
      exact Asks.more (hask.left.withEntry.left)
    · have hp := (head_hints (hints := hints) _ _ p hok.2.1).mpr h1
      obtain ⟨bs, hbs, hread⟩ := hr _ p a hp hw1 (by omega) (by omega)
      simp only [Out.app_bytes, List.append_assoc, hbs]
      refine Asks.after (reads_string hk) ?_
      rw [if_neg hne]
      refine Asks.after (reads_string hty) ?_
      refine Asks.after (a := fieldState acc k (d ++ [p])) (Reads.withEntry ?_) ?_
      · refine hread.bind' (b2 := []) ?_ (by simp)
        unfold insertProperty
        refine Reads.bind0 (Reads.ensure ?_) ?_
        · intro hd
          rw [fieldCount_state hacc, ← storedIndex_eq, hok.1 hd]
        · rw [fieldPush_state hacc]; exact Reads.pure _
      · refine ih (d ++ [p]) b hb (by simpa using hok.2.2) (by omega) (by omega) ?_
        simpa using h2

theorem asks_fields (hr : HeadRec { env with hints := hints } n rec)
    (ha : AskHead env hints q n rec) (l acc : List (String × List Property)) (out : Out)
    (hw : writeFields env.cv l = .ok out) (hok : FieldsOK env st l)
    (hd : ((acc ++ l).map Prod.fst).Nodup)
    (hn : out.bytes.length < n + 5) (h32 : out.bytes.length < 2 ^ 32) (m : Nat)
    (hm : FirstMissing hints (fieldsNeeds st l) q) :
    Asks st (readCustom env.debug rec (valCount l + (m + 1)) acc) out.bytes q := by
  induction l generalizing acc out with
  | nil => exact absurd hm not_firstMissing_nil
  | cons e l ih =>
    obtain ⟨k, ps⟩ := e
    simp only [writeFields] at hw
    obtain ⟨a, hw1, hw⟩ := Res.bind_inv hw
    obtain ⟨b, hb, hw⟩ := Res.bind_inv hw
    cases hw
    simp only [FieldsOK] at hok
    simp only [Out.app_bytes, List.length_append] at hn h32
    obtain ⟨h1, h2, h3, h4, h5⟩ := hok
    have hacc : k ∉ acc.map Prod.fst := by
      rw [List.map_append, List.nodup_append] at hd
      intro hk
      exact hd.2.2 k hk k (by simp) rfl
    rw [valCount, Nat.add_assoc, Out.app_bytes]
    refine asks_vals hr ha h1 h2 (acc := acc) hacc ps [] a hw1 h4 (by omega) (by omega) ?_
    rw [fieldsNeeds] at hm
    rcases firstMissing_append hm with h | ⟨g1, g2⟩
    · exact .inl h
    · refine .inr ⟨g1, ?_⟩
      have := ih (acc ++ [(k, ps)]) b hb h5 (by simpa using hd) (by omega) (by omega) g2
      rw [List.nil_append, fieldState, if_neg h3]
      exact this

theorem asks_struct (hr : HeadRec { env with hints := hints } n rec)
    (ha : AskHead env hints q n rec) (ty ty' : String) (v : StructPropertyValue) (out : Out)
    (hw : StructPropertyValue.writeBody env.cv v = .ok out) (hok : StructOK env st ty v)
    (hty : NameFits ty' (structName v))
    (hn : out.bytes.length ≤ n) (hf : out.bytes.length ≤ fuel) (h32 : out.bytes.length < 2 ^ 32)
    (hm : FirstMissing hints (structNeeds st v) q) :
    Asks st (readStructBody { env with hints := hints } fuel rec ty') out.bytes q := by
  cases v <;> simp only [structNeeds] at hm
  case customStruct fs =>
    simp only [StructOK] at hok
    simp only [structName, NameFits] at hty
    simp only [StructPropertyValue.writeBody] at hw
    obtain ⟨a, hw1, hw⟩ := Res.bind_inv hw
    cases hw
    simp only [Out.app_bytes, List.length_append] at hn hf h32
    unfold readStructBody
    rw [structKind_none_iff.mpr hty]
    have h5 := writeString_pos "None"
    have hc := writeFields_length fs a hw1
    obtain ⟨m, hm'⟩ := Nat.exists_eq_add_of_lt (show valCount fs < fuel by omega)
    rw [hm', Nat.add_assoc, Out.app_bytes]
    exact (asks_fields hr ha fs [] a hw1 hok.2.2 (by simpa using hok.2.1) (by omega) (by omega) m
      hm).left.more
  all_goals exact absurd hm not_firstMissing_nil

theorem asks_mapBody (hr : BareRec { env with hints := hints } n rec)
    (ha : AskBare env hints q n rec) {kt vt : String} {flags : UInt32}
    {es : List (Property × Property)} {o : Out}
    (hb : ∀ e ∈ es, (SizeFree e.1 ∧ BareOK env (st ++ ["Key"]) kt e.1) ∧
      SizeFree e.2 ∧ BareOK env (st ++ ["Value"]) vt e.2)
    (hc : es.length < 2 ^ 32) (hw : writePairs env.cv es = .ok o)
    (hn : o.bytes.length < n) (h32 : o.bytes.length < 2 ^ 32)
    (hm : FirstMissing hints (entriesNeeds st es) q) :
    Asks st (readMapBody rec kt vt) (u32B flags ++ u32B (UInt32.ofNat es.length) ++ o.bytes) q := by
  unfold readMapBody
  simp only [List.append_assoc]
  rw [writePairs_eq] at hw
  rw [entriesNeeds_eq] at hm
  refine .after (reads_u32 _) (.after (reads_u32 _) ?_)
  rw [u32_ofNat_toNat hc]
  refine (asks_all (st := st) (m := readMapEntry rec kt vt) (g := id) es o hw ?_ ?_ hm).left
  · intro e he x hx hle hs
    obtain ⟨a, hw1, hx⟩ := Res.bind_inv hx
    obtain ⟨b, hb', hx⟩ := Res.bind_inv hx
    cases hx
    simp only [Out.app_bytes, List.length_append] at hle
    obtain ⟨⟨hk1, hk2⟩, hv1, hv2⟩ := hb e he
    have hk2' := (bare_hints (hints := hints) _ (st ++ ["Key"]) kt e.1 hk2).mpr fun n hn => hs n (by simp [hn])
    have hv2' := (bare_hints (hints := hints) _ (st ++ ["Value"]) vt e.2 hv2).mpr fun n hn => hs n (by simp [hn])
    unfold readMapEntry
    exact (Reads.withEntry (hr _ kt none e.1 a hk2' (sugOK_of_sizeFree hk1) hw1 (by omega)
      (by omega))).bind (Reads.map (Reads.withEntry (hr _ vt none e.2 b hv2'
        (sugOK_of_sizeFree hv1) hb' (by omega) (by omega))))
  · intro e he x hx hle hs
    obtain ⟨a, hw1, hx⟩ := Res.bind_inv hx
    obtain ⟨b, hb', hx⟩ := Res.bind_inv hx
    cases hx
    simp only [Out.app_bytes, List.length_append] at hle
    obtain ⟨⟨hk1, hk2⟩, hv1, hv2⟩ := hb e he
    unfold readMapEntry
    rcases firstMissing_append hs with h | ⟨h1, h2⟩
    · exact (ha _ kt none e.1 a hk2 hw1 (by omega) (by omega) h).withEntry.left.more
    · have hk2' := (bare_hints (hints := hints) _ (st ++ ["Key"]) kt e.1 hk2).mpr h1
      exact Asks.after (Reads.withEntry (hr _ kt none e.1 a hk2' (sugOK_of_sizeFree hk1) hw1
        (by omega) (by omega))) (ha _ vt none e.2 b hv2 hb' (by omega) (by omega) h2).withEntry.left

theorem asks_map_compact (hr : BareRec { env with hints := hints } n rec)
    (ha : AskBare env hints q n rec) {kt vt : String}
    {gk : String → Property} (hk : StrKey kt gk) (hnk : ∀ st s, needs st (gk s) = [])
    {v : List (String × Property)} (hok : KeysOK v)
    (hv : ValuesOK env (st ++ ["Value"]) vt v) {o : Out}
    (hw : writeStrProps env.cv v = .ok o) (hn : o.bytes.length < n) (h32 : o.bytes.length < 2 ^ 32)
    (hm : FirstMissing hints (valuesNeeds (st ++ ["Value"]) v) q) :
    Asks st (readMapBody rec kt vt)
      (u32B 0 ++ u32B (UInt32.ofNat v.length) ++ o.bytes) q := by
  rw [writeStrProps_eq] at hw
  have hw' : writePairs env.cv (v.map fun e => (gk e.1, e.2)) = .ok o := by
    rw [writePairs_eq, writeEach_map, ← hw]
    simp only [hk.2.2.2]
    rfl
  have := asks_mapBody (st := st) hr ha (kt := kt) (vt := vt) (flags := 0)
    (es := v.map fun e => (gk e.1, e.2)) (o := o) ?_ (by simpa using hok.1) hw' hn h32 ?_
  · rwa [List.length_map] at this
  · intro e he
    obtain ⟨x, hx, rfl⟩ := List.mem_map.mp he
    exact ⟨⟨hk.2.1 _, hk.1 _ _ _ (hok.2.2 x hx)⟩, valuesOK_iff.mp hv x hx⟩
  · rw [valuesNeeds_eq] at hm
    rw [entriesNeeds_eq, List.flatMap_map]
    simpa only [hnk, List.nil_append] using hm

theorem needs_bare {ty : String} {p : Property} (hty : ty ≠ "StructProperty")
    (h : BareOK env st ty p) : needs st p = [] := by
  cases p <;> simp only [BareOK] at h <;> simp only [needs]
  exact absurd h.1 hty

theorem head_asks (hr : BareRec { env with hints := hints } n rec)
    (hh : HeadRec { env with hints := hints } n rec) (ab : AskBare env hints q n rec)
    (ah : AskHead env hints q n rec) {p : Property} {out : Out}
    (hok : HeadOK env st p) (hw : Property.write env.cv true p = .ok out)
    (hn : out.bytes.length ≤ n) (h32 : out.bytes.length < 2 ^ 32)
    (hm : FirstMissing hints (needs st p) q) :
    ∃ bs, out.bytes = (writeString (typeName p)).bytes ++ bs ∧
      Asks st (Property.readStep { env with hints := hints } (n + 1) rec (typeName p) true none)
        bs q := by
  have step : ∀ {k : Kind} {ty : String} {bs : Bytes} (_ : k.typeName = ty)
      (_ : Asks (st ++ [ty]) (readKind { env with hints := hints } (n + 1) rec true none k) bs q),
      Asks st (Property.readStep { env with hints := hints } (n + 1) rec ty true none) bs q := by
    intro k ty bs hty hk
    subst hty
    unfold Property.readStep
    rw [kind_ofName]
    exact Asks.withEntry hk
  cases p <;> simp only [needs] at hm
  case array v =>
    simp only [Property.write] at hw
    obtain ⟨b, hb, hw⟩ := Res.bind_inv hw
    cases hw
    simp only [HeadOK] at hok
    simp only [headed, if_true] at hn h32 ⊢
    have h1 := withHeader_body_lt (Nat.lt_succ_of_le hn)
    have h2 := withHeader_body_lt h32
    refine ⟨_, withHeader_bytes _ _ _, step (k := .array) rfl ?_⟩
    unfold readKind readArrayProperty
    rw [if_pos rfl]
    cases v <;> simp only [arrayNeeds] at hm
    case properties ty ps =>
      simp only [ArrayOK] at hok
      rw [elemsNeeds_eq, List.flatMap_eq_nil_iff.mpr] at hm
      · exact absurd hm not_firstMissing_nil
      · intro p hp
        exact needs_bare hok.2.1 (baresOK_iff.mp hok.2.2.2.2.2.2 p hp)
    case structs field ty guid v =>
      simp only [ArrayProperty.writeBody] at hb
      obtain ⟨es, hes, hb⟩ := Res.bind_inv hb
      cases hb
      simp only [ArrayOK] at hok
      obtain ⟨g1, g2, g3, g4⟩ := hok
      refine asks_header (reads_string (s := "StructProperty") (by decide +kernel)) (Asks.left ?_)
      simp only [structArrayBody, List.length_append, u32B_length, u64B_length, guidB_length,
        u8B_length] at h1 h2
      unfold readArrayBody
      simp only [structArrayBody]
      rw [show u32B (UInt32.ofNat v.length) ++ (writeString field).bytes ++
        (writeString "StructProperty").bytes ++ u64B (UInt64.ofNat es.bytes.length) ++
        (writeString ty).bytes ++ guidB guid ++ u8B 0 ++ es.bytes =
        u32B (UInt32.ofNat v.length) ++ (((writeString field).bytes ++
        (writeString "StructProperty").bytes ++ u64B (UInt64.ofNat es.bytes.length) ++
        (writeString ty).bytes ++ guidB guid ++ u8B 0) ++ es.bytes) by simp only [List.append_assoc]]
      refine .after (reads_u32 _) ?_
      rw [if_pos trivial]
      refine .after (reads_structInfo g1 g2) ?_
      simp only []
      rw [structsNeeds_eq] at hm
      have hvs := asks_all (st := st ++ ["ArrayProperty"]) (g := id)
        (m := readStructBody { env with hints := hints } (n + 1) rec ty) v es
        (by rw [← writeStructs_eq]; exact hes)
        (fun x hx o ho hle hs => reads_struct hh ty x o ho
          ((struct_hints _ _ ty ty x (structsOK_iff.mp g4 x hx)).mpr
            ⟨struct_fits (hints := hints) _ ty x (structsOK_iff.mp g4 x hx), hs⟩) (by omega) (by omega) (by omega))
        (fun x hx o ho hle hs => asks_struct hh ah ty ty x o ho (structsOK_iff.mp g4 x hx)
          (struct_fits (hints := hints) _ ty x (structsOK_iff.mp g4 x hx)) (by omega) (by omega) (by omega) hs) hm
      intro rest pos
      rw [u32_ofNat_toNat g3]
      obtain ⟨p, s', e⟩ := hvs rest pos
      exact ⟨p, s', (R.bind_ok (position_run _)).trans (R.bind_bad e)⟩
    all_goals exact absurd hm not_firstMissing_nil
  case map v =>
    simp only [Property.write] at hw
    obtain ⟨b, hb, hw⟩ := Res.bind_inv hw
    cases hw
    simp only [HeadOK] at hok
    simp only [headed, if_true] at hn h32 ⊢
    have h1 := withHeader_body_lt (Nat.lt_succ_of_le hn)
    have h2 := withHeader_body_lt h32
    refine ⟨_, withHeader_bytes _ _ _, step (k := .map) rfl ?_⟩
    unfold readKind readMapProperty
    rw [if_pos rfl]
    have key : ∀ (kt vt : String), v.keyType = kt → v.valueType = vt → StrOK kt → StrOK vt →
        Asks (st ++ ["MapProperty"]) (readMapBody rec kt vt) b.bytes q →
        Asks (st ++ ["MapProperty"]) (readHeader (do
          let kt ← readString
          let vt ← readString
          return (kt, vt)) fun _ x => readMapBody rec x.1 x.2)
          (u32B (UInt32.ofNat b.bytes.length) ++ u32B 0 ++ (writeString v.keyType ++
            writeString v.valueType).bytes ++ [0] ++ b.bytes) q := by
      rintro kt vt rfl rfl g1 g2 g3
      exact asks_header (a := (v.keyType, v.valueType))
        (Reads.bind (reads_string g1) (Reads.map (reads_string g2))) g3
    cases v <;> simp only [mapNeeds] at hm
    case enumProperty vt v =>
      simp only [MapProperty.writeBody] at hb
      obtain ⟨es, hes, hb⟩ := Res.bind_inv hb
      cases hb
      simp only [MapOK] at hok
      obtain ⟨k1, k2, k3, k4⟩ := hok
      refine key _ _ rfl rfl (by simp only [MapProperty.keyType]; decide +kernel) k1 ?_
      simp only [Out.app_bytes, List.length_append, mapHead_bytes, u32B_length] at h1 h2 ⊢
      exact asks_map_compact hr ab strKey_enum (fun _ _ => by simp only [needs]) k3 k4 hes (by omega)
        (by omega) hm
    case nameProperty vt v =>
      simp only [MapProperty.writeBody] at hb
      obtain ⟨es, hes, hb⟩ := Res.bind_inv hb
      cases hb
      simp only [MapOK] at hok
      obtain ⟨k1, k2, k3, k4⟩ := hok
      refine key _ _ rfl rfl (by simp only [MapProperty.keyType]; decide +kernel) k1 ?_
      simp only [Out.app_bytes, List.length_append, mapHead_bytes, u32B_length] at h1 h2 ⊢
      exact asks_map_compact hr ab strKey_name (fun _ _ => by simp only [needs]) k3 k4 hes (by omega)
        (by omega) hm
    case strProperty vt v =>
      simp only [MapProperty.writeBody] at hb
      obtain ⟨es, hes, hb⟩ := Res.bind_inv hb
      cases hb
      simp only [MapOK] at hok
      obtain ⟨k1, k2, k3, k4⟩ := hok
      refine key _ _ rfl rfl (by simp only [MapProperty.keyType]; decide +kernel) k1 ?_
      simp only [Out.app_bytes, List.length_append, mapHead_bytes, u32B_length] at h1 h2 ⊢
      exact asks_map_compact hr ab strKey_str (fun _ _ => by simp only [needs]) k3 k4 hes (by omega)
        (by omega) hm
    case properties kt vt fl es =>
      simp only [MapProperty.writeBody] at hb
      obtain ⟨o, ho, hb⟩ := Res.bind_inv hb
      cases hb
      simp only [MapOK] at hok
      obtain ⟨k1, k2, k3, k4, k5, k6, k7⟩ := hok
      refine key _ _ rfl rfl k1 k2 ?_
      simp only [Out.app_bytes, List.length_append, mapHead_bytes, u32B_length] at h1 h2 ⊢
      exact asks_mapBody hr ab (entriesOK_iff.mp k7) k3 ho (by omega) (by omega) hm
    all_goals exact absurd hm not_firstMissing_nil
  case set ty flags ps =>
    simp only [Property.write] at hw
    obtain ⟨b, hb, hw⟩ := Res.bind_inv hw
    cases hw
    simp only [HeadOK] at hok
    simp only [headed, if_true] at hn h32 ⊢
    have h1 := withHeader_body_lt (Nat.lt_succ_of_le hn)
    have h2 := withHeader_body_lt h32
    refine ⟨_, withHeader_bytes _ _ _, step (k := .set) rfl ?_⟩
    simp only [Out.app_bytes, u32O_bytes, List.length_append, u32B_length] at h1 h2 ⊢
    unfold readKind readSetProperty
    rw [if_pos rfl]
    refine asks_header (reads_string hok.1) ?_
    obtain ⟨g1, g2, g3, g4⟩ := hok
    unfold readSetBody
    simp only [List.append_assoc]
    refine .after (reads_u32 _) (.after (reads_u32 _) (Asks.left ?_))
    unfold readSetElems
    have hcn := u32_ofNat_toNat g2
    have hpos : 0 < ps.length := by
      cases ps with
      | nil => exact absurd hm not_firstMissing_nil
      | cons p l => simp
    rw [if_pos (by rw [UInt32.lt_iff_toNat_lt, hcn]; exact hpos)]
    have hlen := u32_ofNat_toNat (n := 4 + 4 + b.bytes.length) (by omega)
    have h8 : (8 : UInt32).toNat = 8 := rfl
    have hle : 8 ≤ UInt32.ofNat (4 + 4 + b.bytes.length) := by
      rw [UInt32.le_iff_toNat_le, hlen]; omega
    have hlen' : 4 + (4 + b.bytes.length) = 4 + 4 + b.bytes.length := by omega
    simp only [hlen'] at *
    refine Asks.after0 (a := UInt32.ofNat (4 + 4 + b.bytes.length) - 8) ?_ ?_
    · unfold subU32
      rw [if_neg (fun h => by
        have := UInt32.lt_iff_toNat_lt.mp h.1
        rw [hlen] at this
        omega)]
      exact Reads.rpure _
    · rw [hcn]
      rw [elemsNeeds_eq] at hm
      have hsug : ∀ p ∈ ps, SugOK (some ((UInt32.ofNat (4 + 4 + b.bytes.length) - 8) /
          UInt32.ofNat ps.length)) p := by
        refine sugOK_elems g4 g3 hb ?_
        rw [UInt32.toNat_div, UInt32.toNat_sub_of_le _ _ hle, hcn, hlen, h8]
        congr 1
        omega
      rw [writeList_eq] at hb
      refine asks_all (g := id) ps b hb
        (fun p hp o ho hle hs => hr _ ty _ p o ((bare_hints _ _ ty p (baresOK_iff.mp g4 p hp)).mpr hs)
          (hsug p hp) ho (by omega) (by omega))
        (fun p hp o ho hle hs => ab _ ty _ p o (baresOK_iff.mp g4 p hp) ho (by omega) (by omega) hs)
        hm
  case struct guid ty v =>
    simp only [Property.write] at hw
    obtain ⟨b, hb, hw⟩ := Res.bind_inv hw
    cases hw
    simp only [HeadOK] at hok
    simp only [headed, if_true] at hn h32 ⊢
    have h1 := withHeader_body_lt (Nat.lt_succ_of_le hn)
    have h2 := withHeader_body_lt h32
    refine ⟨_, withHeader_bytes _ _ _, step (k := .struct) rfl ?_⟩
    unfold readKind readStructProperty
    rw [if_pos rfl]
    exact asks_header (a := (ty, guid))
      (Reads.bind (reads_string hok.1) (Reads.map (reads_guid _)))
      (asks_struct hh ah ty ty v b hb hok.2 (struct_fits (hints := hints) _ ty v hok.2) (by omega) (by omega)
        (by omega) hm).left
  case structValue v => simp only [HeadOK] at hok
  all_goals exact absurd hm not_firstMissing_nil

theorem bare_asks (hh : HeadRec { env with hints := hints } n rec)
    (ah : AskHead env hints q n rec) {ty : String} {sug : Option UInt32} {p : Property} {out : Out}
    (hok : BareOK env st ty p) (hw : Property.write env.cv false p = .ok out)
    (hn : out.bytes.length ≤ n) (h32 : out.bytes.length < 2 ^ 32)
    (hm : FirstMissing hints (needs st p) q) :
    Asks st (Property.readStep { env with hints := hints } (n + 1) rec ty false sug) out.bytes
      q := by
  cases p <;> simp only [BareOK] at hok <;> simp only [needs] at hm
  case structValue v =>
    simp only [Property.write] at hw
    obtain ⟨rfl, hint, hh1, hh2⟩ := hok
    unfold Property.readStep
    rw [show Kind.ofName "StructProperty" = some .struct from kind_ofName .struct]
    refine Asks.withEntry ?_
    unfold readKind readStructProperty
    simp only [Bool.false_eq_true, if_false]
    refine Asks.after0 Reads.getStack ?_
    obtain ⟨pre, k, post, e, hp, hq⟩ := hm
    cases pre with
    | nil =>
      simp only [List.nil_append, List.cons.injEq, Prod.mk.injEq] at e
      obtain ⟨⟨rfl, -⟩, -⟩ := e
      rw [hq]
      intro rest pos
      exact ⟨pos, ⟨out.bytes ++ rest, pos, st ++ ["StructProperty"]⟩, rfl⟩
    | cons x pre =>
      simp only [List.cons_append, List.cons.injEq] at e
      obtain ⟨rfl, e⟩ := e
      obtain ⟨hint', g1, g2⟩ := hp _ List.mem_cons_self
      simp only at g1 g2
      rw [g1]
      exact (asks_struct hh ah hint hint' v out (by simpa using hw) hh2 g2 hn (by omega) h32
        ⟨pre, k, post, e, fun n hn => hp n (List.mem_cons_of_mem _ hn), hq⟩).left
  all_goals exact absurd hm not_firstMissing_nil

/-- Reading a written property asks for the first hint that is missing. -/
theorem asks_property (n : Nat) :
    AskHead env hints q n (Property.read { env with hints := hints } n) ∧
      AskBare env hints q n (Property.read { env with hints := hints } n) := by
  induction n with
  | zero => exact ⟨fun _ _ _ _ _ h => absurd h (by omega), fun _ _ _ _ _ _ _ h => absurd h (by omega)⟩
  | succ n ih =>
    have hr := reads_property (env := { env with hints := hints }) n
    exact ⟨fun st p out hok hw hn h32 hm => head_asks hr.2 hr.1 ih.2 ih.1 hok hw (by omega) h32 hm,
      fun st ty sug p out hok hw hn h32 hm => bare_asks hr.1 ih.1 hok hw (by omega) h32 hm⟩

theorem asks_top (l acc : List (String × Property)) (out : Out)
    (hw : writeTop env.cv l = .ok out)
    (hok : ∀ e ∈ l, StrOK e.1 ∧ e.1 ≠ "None" ∧ HeadOK env [e.1] e.2)
    (hn : out.bytes.length < n)
    (h32 : ∀ e ∈ l, ∀ o, Property.write env.cv true e.2 = .ok o → o.bytes.length < 2 ^ 32)
    (m : Nat) (hm : FirstMissing hints (l.flatMap fun e => needs [e.1] e.2) q) :
    Asks [] (readTop (Property.read { env with hints := hints } n) (l.length + (m + 1)) acc)
      out.bytes q := by
  induction l generalizing acc out with
  | nil => exact absurd hm not_firstMissing_nil
  | cons e l ih =>
    obtain ⟨k, p⟩ := e
    obtain ⟨h1, h2, h3⟩ := hok (k, p) (by simp)
    simp only [writeTop] at hw
    obtain ⟨a, ha, hw⟩ := Res.bind_inv hw
    obtain ⟨b, hb, hw⟩ := Res.bind_inv hw
    cases hw
    simp only [Out.app_bytes, List.length_append] at hn
    rw [List.length_cons, Nat.succ_add_eq_add_succ, Nat.add_succ, readTop]
    rw [List.flatMap_cons] at hm
    rcases firstMissing_append hm with h | ⟨g1, g2⟩
    · obtain ⟨bs, hbs, hr⟩ := (asks_property n).1 [k] p a h3 ha (by omega)
        (h32 (k, p) (by simp) a ha) h
      simp only [Out.app_bytes, List.append_assoc, hbs]
      refine .after (reads_string h1) ?_
      rw [if_neg h2]
      refine .after (reads_string (headOK_typeName h3)) ?_
      exact (Asks.withEntry hr).left.more
    · have h3' := (head_hints (hints := hints) _ _ p h3).mpr g1
      obtain ⟨bs, hbs, hr⟩ := (reads_property n).1 [k] p a h3' ha (by omega)
        (h32 (k, p) (by simp) a ha)
      simp only [Out.app_bytes, List.append_assoc, hbs]
      refine .after (reads_string h1) ?_
      rw [if_neg h2]
      refine .after (reads_string (headOK_typeName h3)) ?_
      refine Asks.after (a := p) (Reads.withEntry hr) ?_
      exact ih _ b hb (fun e he => hok e (by simp [he])) (by omega)
        (fun e he => h32 e (by simp [he])) g2

end

/-- Reading a save asks for the first hint that is missing. -/
theorem asks_file {debug : Bool} {hints hints' : String → Option String} {q : String} {f : GvasFile}
    {data : Bytes} (h : FileOK debug hints f) (he : f.encode = .ok data) (h32 : EachFits f)
    (hm : FirstMissing hints' (fileNeeds f) q) (rest : Bytes) :
    ∃ pos, (readData debug hints' (data ++ rest)).1 =
      .err (.missingHint "StructProperty" q pos) := by
  unfold GvasFile.encode at he
  obtain ⟨out, ho, he⟩ := Res.bind_inv he
  cases he
  have hl := writeTop_length _ _ ho
  unfold readData readContents RS.init
  generalize hn : (f.header.write.bytes ++ out.bytes ++ (writeString "None").bytes ++ i32B 0 ++
    rest).length + 1 = n
  simp only [List.length_append] at hn
  obtain ⟨m, rfl⟩ : ∃ m, n = f.properties.length + (m + 1) :=
    ⟨n - f.properties.length - 1, by omega⟩
  simp only [List.append_assoc]
  rw [R.bind_ok ((reads_header (st := []) h.1).run _ _)]
  have := asks_top (env := fileEnv debug hints f.header) (hints := hints')
    (n := f.properties.length + (m + 1)) f.properties [] out ho h.2.2 (by omega) h32 m hm
  obtain ⟨p, s', e⟩ := this ((writeString "None").bytes ++ (i32B 0 ++ rest)) f.header.write.bytes.length
  refine ⟨p, ?_⟩
  simp only [Nat.zero_add]
  exact congrArg Prod.fst (R.bind_bad e)

end Gvas
