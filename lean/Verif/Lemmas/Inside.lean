import Verif.Spec.Inside
import Verif.Lemmas.GrammarComplete
import Verif.Lemmas.Instances

/-! # Failures inside a property are failures of the property -/

namespace Gvas

open Spec Format

variable {env : Env}

/-- Where `m` has consumed `front` it runs `m'`, and whatever that fails with, `m` fails with. -/
def Leads {α β : Type} (st : List String) (m : R α) (front : Bytes) (st' : List String) (m' : R β) :
    Prop :=
  ∀ rest pos e s', m' ⟨rest, pos + front.length, st'⟩ = (.bad e, s') →
    ∃ k, m ⟨front ++ rest, pos, st⟩ = (.bad e, ⟨s'.rest, s'.pos, k⟩)

theorem Leads.refl {α : Type} {st : List String} {m : R α} : Leads st m [] st m :=
  fun _ _ _ s' h => ⟨s'.stack, h⟩

theorem Leads.congr {α β : Type} {st st' : List String} {m : R α} {m' : R β} {b b' : Bytes}
    (h : Leads st m b st' m') (e : b' = b) : Leads st m b' st' m' := e ▸ h

theorem Leads.trans {α β γ : Type} {st st1 st' : List String} {m : R α} {m1 : R β} {m' : R γ}
    {a b : Bytes} (h : Leads st m a st1 m1) (h' : Leads st1 m1 b st' m') :
    Leads st m (a ++ b) st' m' := by
  intro rest pos e s' hm
  rw [List.length_append, ← Nat.add_assoc] at hm
  obtain ⟨k, hk⟩ := h' _ _ _ _ hm
  obtain ⟨k', hk'⟩ := h _ _ _ _ hk
  rw [List.append_assoc]
  exact ⟨k', hk'⟩

theorem Leads.left {α β γ : Type} {st st' : List String} {m : R α} {m' : R β} {b : Bytes}
    {f : α → R γ} (h : Leads st m b st' m') : Leads st (m >>= f) b st' m' := by
  intro rest pos e s' hm
  obtain ⟨k, hk⟩ := h _ _ _ _ hm
  exact ⟨k, R.bind_bad hk⟩

theorem Leads.after {α β γ : Type} {st st' : List String} {m : R α} {m' : R β} {a : α}
    {b1 b2 : Bytes} {f : α → R γ} (h1 : Reads st m b1 a) (h : Leads st (f a) b2 st' m') :
    Leads st (m >>= f) (b1 ++ b2) st' m' := by
  intro rest pos e s' hm
  rw [List.length_append, ← Nat.add_assoc] at hm
  obtain ⟨k, hk⟩ := h _ _ _ _ hm
  refine ⟨k, ?_⟩
  rw [List.append_assoc, R.bind_ok (h1 _ _), hk]

theorem Leads.after0 {α β γ : Type} {st st' : List String} {m : R α} {m' : R β} {a : α}
    {b : Bytes} {f : α → R γ} (h1 : Reads st m [] a) (h : Leads st (f a) b st' m') :
    Leads st (m >>= f) b st' m' := (Leads.after h1 h).congr rfl

theorem Leads.withEntry {α β : Type} {st st' : List String} {name : String} {m : R α} {m' : R β}
    {b : Bytes} (h : Leads (st ++ [name]) m b st' m') : Leads st (R.withEntry name m) b st' m' := by
  intro rest pos e s' hm
  obtain ⟨k, hk⟩ := h _ _ _ _ hm
  refine ⟨k.dropLast, ?_⟩
  unfold R.withEntry
  simp only [hk]

theorem replicate_bad {α : Type} {m : R α} {k count : Nat} {s s1 s2 : RS} {l : List α} {e : Fail}
    (h : R.replicate m k s = (.ok l, s1)) (hb : m s1 = (.bad e, s2)) (hk : k < count) :
    R.replicate m count s = (.bad e, s2) := by
  induction k generalizing count s l with
  | zero =>
    obtain ⟨c, rfl⟩ : ∃ c, count = c + 1 := ⟨count - 1, by omega⟩
    obtain ⟨_, rfl⟩ := R.pure_inv h
    exact R.bind_bad hb
  | succ k ih =>
    obtain ⟨c, rfl⟩ : ∃ c, count = c + 1 := ⟨count - 1, by omega⟩
    change (m >>= fun a => R.replicate m k >>= fun as => R.pure (a :: as)) s = _ at h
    rbind h => a s3 h3
    rbind h => as s4 h4
    obtain ⟨_, rfl⟩ := R.pure_inv h
    show (m >>= fun a => R.replicate m c >>= fun as => R.pure (a :: as)) s = _
    rw [R.bind_ok h3, R.bind_bad (ih h4 (by omega))]

theorem Leads.replicate {α β : Type} {st st' : List String} {m : R α} {m' : R β} {b c : Bytes}
    {l : List α} {count : Nat} (h1 : Reads st (R.replicate m l.length) b l)
    (h : Leads st m c st' m') (hl : l.length < count) :
    Leads st (R.replicate m count) (b ++ c) st' m' := by
  intro rest pos e s' hm
  rw [List.length_append, ← Nat.add_assoc] at hm
  obtain ⟨k, hk⟩ := h _ _ _ _ hm
  refine ⟨k, ?_⟩
  rw [List.append_assoc]
  exact replicate_bad (h1 _ _) hk hl

/-! ## Fields -/

theorem entry_reads {st : List String} {b : Bytes} {e : String × Property} (h : Entry env st b e) :
    ∃ n t c ty, b = n ++ t ++ c ∧ e.1 ≠ "None" ∧ Reads st readString n e.1 ∧
      Reads st readString t ty ∧
      Eventually fun m => Reads (st ++ [e.1]) (Property.read env m ty true none) c e.2 := by
  obtain ⟨n, t, c, ty, rfl, h1, h2, h3, h4⟩ := h
  exact ⟨n, t, c, ty, rfl, h2, reads_str' h1, reads_str' h3, reads_full_of h4⟩

/-- The loop over the fields of a struct, after complete entries. -/
theorem readCustom_entries {st : List String} {b : Bytes} {es : List (String × Property)}
    (h : Seq (Entry env st) b es) : Eventually fun n => ∀ fs k rest pos,
      (env.debug = true → ∀ pre name p post, es = pre ++ (name, p) :: post →
        UInt32.ofNat (fieldCount name (pushAll fs pre)) = p.arrayIndex) →
      readCustom env.debug (Property.read env n) (es.length + k) fs ⟨b ++ rest, pos, st⟩ =
        readCustom env.debug (Property.read env n) k (pushAll fs es)
          ⟨rest, pos + b.length, st⟩ := by
  induction h with
  | nil => exact .of fun n fs k rest pos _ => by simp [pushAll]
  | @cons b bs e es h1 _ ih =>
    obtain ⟨a, t, c, ty, rfl, hne, g1, g2, g3⟩ := entry_reads h1
    refine (g3.and ih).mono fun n ⟨g3, ih⟩ fs k rest pos hi => ?_
    have hc : env.debug = true → UInt32.ofNat (fieldCount e.1 fs) = e.2.arrayIndex :=
      fun hd => hi hd [] e.1 e.2 es rfl
    have h3 : R.withEntry e.1 (do
        let p ← Property.read env n ty true none
        insertProperty env.debug fs e.1 p)
          ⟨c ++ (bs ++ rest), pos + a.length + t.length, st⟩ =
        (.ok (fieldPush e.1 e.2 fs), ⟨bs ++ rest, pos + a.length + t.length + c.length, st⟩) := by
      rw [withEntry_bind]
      simp only [g3 (bs ++ rest) (pos + a.length + t.length)]
      rw [insertProperty_ok hc]
      simp
    rw [List.length_cons, show es.length + 1 + k = (es.length + k) + 1 by omega, readCustom]
    simp only [List.append_assoc]
    rw [R.bind_ok (g1 _ _), if_neg hne, R.bind_ok (g2 _ _), R.bind_ok h3,
      ih _ k rest _ fun hd pre name p post he => hi hd (e :: pre) name p post (by rw [he]; rfl)]
    simp only [List.length_append, Nat.add_assoc]
    rfl

theorem indicesMatch_counts {es : List (String × Property)} (h : IndicesMatch es)
    (pre : List (String × Property)) (name : String) (p : Property)
    (post : List (String × Property)) (he : es = pre ++ (name, p) :: post) :
    UInt32.ofNat (fieldCount name (pushAll [] pre)) = p.arrayIndex := by
  rw [grouped_count (grouped_pushAll grouped_nil pre), ← recordedIndex_eq]
  exact (h pre name p post he).symm

/-- The contents of a struct up to a field. -/
theorem leads_field {st st' : List String} {sty ty' : String} {b : Bytes}
    (h : FieldAt env st sty b st' ty') : Eventually fun n =>
      Leads st (readStructBody env (n + 1) (Property.read env n) sty) b st'
        (Property.read env n ty' true none) := by
  obtain ⟨hb, hs, hi, hn, hne, ht⟩ := h
  rename_i b n t es name
  obtain ⟨n0, hn0⟩ := readCustom_entries hs
  refine ⟨max n0 es.length, fun m hm => ?_⟩
  unfold readStructBody
  rw [structKind_none_iff.mpr hb]
  refine Leads.left ?_
  intro rest pos e s' hr
  have h3 := (Leads.withEntry (name := name) (Leads.left (f := fun p => insertProperty env.debug
    (pushAll [] es) name p) Leads.refl)) rest (pos + (b ++ n ++ t).length) e s' hr
  obtain ⟨k, h3⟩ := h3
  refine ⟨k, ?_⟩
  have := hn0 m (by omega) [] (m + 1 - es.length) (n ++ t ++ rest) pos
    fun hd pre nm p post he => indicesMatch_counts (hi hd) pre nm p post he
  rw [show es.length + (m + 1 - es.length) = m + 1 by omega] at this
  simp only [List.append_assoc, List.length_append, List.nil_append] at this h3 ⊢
  rw [this, show m + 1 - es.length = (m - es.length) + 1 by omega, readCustom,
    R.bind_ok (reads_str' hn _ _), if_neg hne, R.bind_ok (reads_str' ht _ _)]
  rw [← Nat.add_assoc, ← Nat.add_assoc] at h3
  rw [R.bind_bad h3]

/-! ## Properties -/

theorem leads_kind {n : Nat} {k : Kind} {ty : String} {hdr : Bool} {sug : Option UInt32}
    {b : Bytes} {st st' : List String} {β : Type} {m' : R β} (hk : k.typeName = ty)
    (h : Leads (st ++ [ty]) (readKind env (n + 1) (Property.read env n) hdr sug k) b st' m') :
    Leads st (Property.read env (n + 1) ty hdr sug) b st' m' := by
  subst hk
  refine Leads.withEntry ?_
  rw [kind_ofName]
  exact h

theorem leads_sized {α β : Type} {st st' : List String} {m : R α} {m' : R β} {b : Bytes}
    {len : UInt32} (h : Leads st m b st' m') : Leads st (readSized len m) b st' m' := by
  intro rest pos e s' hm
  obtain ⟨k, hk⟩ := h _ _ _ _ hm
  refine ⟨k, ?_⟩
  unfold readSized
  rw [R.bind_ok (position_run _), R.bind_bad hk]

theorem leads_header {α β γ : Type} {st st' : List String} {hdr : R α} {body : UInt32 → α → R β}
    {m' : R γ} {parts b : Bytes} {a : α} {len : UInt32} (h1 : Reads st hdr parts a)
    (h : Leads st (body len a) b st' m') :
    Leads st (readHeader hdr body) (u32B len ++ u32B 0 ++ parts ++ [0] ++ b) st' m' := by
  simp only [List.append_assoc]
  exact .after (reads_u32 _) (.after reads_zeroIndex (.after h1 (.after reads_terminator
    (leads_sized h))))

/-- A struct without header, by its hint, up to a field. -/
theorem leads_bare {st st' : List String} {sty ty' : String} {b : Bytes}
    (hh : env.hints (joinDots (st ++ ["StructProperty"])) = some sty)
    (h : FieldAt env (st ++ ["StructProperty"]) sty b st' ty') : Eventually fun n => ∀ sug,
      Leads st (Property.read env (n + 1) "StructProperty" false sug) b st'
        (Property.read env n ty' true none) := by
  refine (leads_field h).mono fun n hn sug => leads_kind (k := .struct) rfl ?_
  simp only [readKind, readStructProperty]
  rw [if_neg (by simp)]
  refine .after0 Reads.getStack ?_
  simp only [hh]
  exact hn.left

theorem bare_struct {st : List String} {ty : String} {sug : Option UInt32} {b : Bytes}
    {p : Property} (h : Bare env st ty sug b p) (hty : ty = "StructProperty")
    (sug' : Option UInt32) : Bare env st ty sug' b p := by
  cases h with
  | number h => exact .number h
  | bool v => exact .bool v
  | byte h1 h2 => exact absurd hty (by decide)
  | plain h => exact .plain h
  | enum h => exact .enum h
  | name h => exact .name h
  | struct hh h => exact .struct hh h
  | unknown n b hk =>
    subst hty
    exact absurd (by decide) hk

theorem bares_struct {st : List String} {sug : Option UInt32} {b : Bytes} {ps : List Property}
    (h : Bares env st "StructProperty" sug b ps) (sug' : Option UInt32) :
    Bares env st "StructProperty" sug' b ps := by
  induction ps generalizing b with
  | nil => cases h; exact .nil
  | cons p ps ih =>
    obtain _ | ⟨h1, h2⟩ := h
    exact .cons (bare_struct h1 rfl sug') (ih h2)

theorem Eventually.succ {P : Nat → Prop} (h : Eventually P) : Eventually fun n => P (n + 1) := by
  obtain ⟨n0, hn⟩ := h
  exact ⟨n0, fun n hle => hn (n + 1) (by omega)⟩

theorem leads_step {st st' : List String} {ty ty' : String} {a : Bytes}
    (h : FieldIn env st ty a st' ty') : Eventually fun n => ∃ m, n ≤ m + 2 ∧
      Leads st (Property.read env n ty true none) a st' (Property.read env m ty' true none) := by
  cases h with
  | struct len g h1 h2 =>
    refine .step ((leads_field h2).mono fun n hn => ⟨n, by omega, leads_kind (k := .struct) rfl ?_⟩)
    rename_i t b sty
    exact (leads_header (len := len) (parts := t ++ guidB g) (a := (sty, g))
      ((reads_str' h1).bind (Reads.map (reads_guid g))) hn.left).congr (by simp)
  | structs len count size g h1 h2 h3 h4 h5 h6 h7 =>
    rename_i t f t' s b c field sty vs
    refine .step (((leads_field h7).and (reads_structBodies_of h5)).mono fun n ⟨hn, hb⟩ =>
      ⟨n, by omega, leads_kind (k := .array) rfl ?_⟩)
    refine (leads_header (len := len) (parts := t) (b := u32B count ++ ((f ++ t' ++ u64B size ++ s ++
      guidB g ++ [0]) ++ (b ++ c))) (reads_str' h1) (Leads.left ?_)).congr (by simp)
    unfold readArrayBody
    refine .after (reads_u32 _) ?_
    rw [if_pos rfl]
    refine .after (reads_structInfo_of h2 h3 h4) ?_
    intro rest pos e s' hm
    obtain ⟨k, hk⟩ := Leads.replicate hb hn h6 rest pos e s' hm
    refine ⟨k, ?_⟩
    simp only []
    rw [R.bind_ok (position_run _), R.bind_bad hk]
  | set len fl count h1 h2 h3 h4 h5 h6 =>
    rename_i t b c sty sug ps
    refine .step (.step (((leads_bare h5 h6).and
      (reads_bares_of (bares_struct h3 (some ((len - 8) / count)))).succ).mono fun n ⟨hn, hb⟩ =>
      ⟨n, by omega, leads_kind (k := .set) rfl ?_⟩))
    refine (leads_header (len := len) (parts := t) (b := u32B fl ++ (u32B count ++ (b ++ c)))
      (reads_str' h1) ?_).congr (by simp)
    unfold readSetBody
    refine .after (reads_u32 _) (.after (reads_u32 _) (.left ?_))
    unfold readSetElems
    rw [if_pos (UInt32.lt_iff_toNat_lt.mpr (show (0 : UInt32).toNat < _ by
      rw [show (0 : UInt32).toNat = 0 from rfl]; omega))]
    refine .after0 (a := len - 8) ?_ (Leads.replicate hb (hn _) h4)
    unfold subU32
    rw [if_neg]
    · exact Reads.rpure _
    · rintro ⟨h, hd⟩
      have := UInt32.lt_iff_toNat_lt.mp h
      have h8 := h2 hd
      rw [show (8 : UInt32).toNat = 8 from rfl] at this
      omega
  | mapKey len fl count h1 h2 h3 h4 h5 h6 =>
    rename_i k v b c vt sty es
    refine .step (.step (((leads_bare h5 h6).and (reads_entries_of h3).succ).mono fun n ⟨hn, hb⟩ =>
      ⟨n, by omega, leads_kind (k := .map) rfl ?_⟩))
    refine (leads_header (len := len) (parts := k ++ v) (a := ("StructProperty", vt))
      (b := u32B fl ++ (u32B count ++ (b ++ c)))
      ((reads_str' h1).bind (Reads.map (reads_str' h2))) ?_).congr (by simp)
    unfold readMapBody
    refine .after (reads_u32 _) (.after (reads_u32 _) (.left (Leads.replicate hb ?_ h4)))
    exact .left (.withEntry (hn _))
  | mapValue len fl count h1 h2 h3 h4 h7 h5 h6 =>
    rename_i k v b d c kt sty es key
    refine .step (.step (((leads_bare h5 h6).and ((reads_entries_of h3).succ.and
      (reads_bare_of h7).succ)).mono fun n ⟨hn, hb, hk⟩ =>
      ⟨n, by omega, leads_kind (k := .map) rfl ?_⟩))
    refine (leads_header (len := len) (parts := k ++ v) (a := (kt, "StructProperty"))
      (b := u32B fl ++ (u32B count ++ (b ++ (d ++ c))))
      ((reads_str' h1).bind (Reads.map (reads_str' h2))) ?_).congr (by simp)
    unfold readMapBody
    refine .after (reads_u32 _) (.after (reads_u32 _) (.left (Leads.replicate hb ?_ h4)))
    exact .after hk.withEntry (.left (.withEntry (hn _)))

/-- A failure anywhere inside a property. -/
theorem leads_inside {st st' : List String} {ty ty' : String} {a : Bytes}
    (h : Inside env st ty a st' ty') : ∃ d, Eventually fun n => ∃ m, n ≤ m + d ∧
      Leads st (Property.read env n ty true none) a st' (Property.read env m ty' true none) := by
  induction h with
  | here => exact ⟨0, .of fun n => ⟨n, by omega, .refl⟩⟩
  | within h1 _ ih =>
    obtain ⟨d, n1, h2⟩ := ih
    obtain ⟨n0, h3⟩ := leads_step h1
    refine ⟨d + 2, max n0 (n1 + 2), fun n hn => ?_⟩
    obtain ⟨m, hm, g⟩ := h3 n (by omega)
    obtain ⟨m', hm', g'⟩ := h2 m (by omega)
    exact ⟨m', by omega, g.trans g'⟩

/-- A failure of a property with enough fuel, whatever the fuel. -/
theorem inside_fails {st st' : List String} {ty ty' : String} {a rest : Bytes} {pos n m : Nat}
    {e : Fail} {s' : RS} (h : Inside env st ty a st' ty') (hm : rest.length < m)
    (hn : (a ++ rest).length < n)
    (hr : Property.read env m ty' true none ⟨rest, pos + a.length, st'⟩ = (.bad e, s')) :
    Property.read env n ty true none ⟨a ++ rest, pos, st⟩ = (.bad e, { s' with stack := st }) := by
  obtain ⟨d, n0, h1⟩ := leads_inside h
  obtain ⟨k, hk, g⟩ := h1 (max (max n0 n) (m + d)) (by omega)
  have hr' : Property.read env k ty' true none ⟨rest, pos + a.length, st'⟩ = (.bad e, s') := by
    rw [← hr]
    exact (property_more env (s := ⟨rest, pos + a.length, st'⟩) hm (by omega) ty' true none).symm
  obtain ⟨st2, g2⟩ := g rest pos e s' hr'
  rw [property_more env (s := ⟨a ++ rest, pos, st⟩) hn (show n ≤ max (max n0 n) (m + d) by omega) ty
    true none, g2]
  have := (property_good env (max (max n0 n) (m + d)) ty true none ⟨a ++ rest, pos, st⟩).stack
  rw [g2] at this
  simp only at this
  rw [this]

end Gvas
