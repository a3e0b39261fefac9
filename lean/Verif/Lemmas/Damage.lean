import Verif.Spec.Damage
import Verif.Lemmas.Nested
import Verif.Props.Robust

/-! # What a damaged header does -/

namespace Gvas

open Spec Format

variable {env : Env}

/-- Failures inside a save are failures of the save. -/
theorem inSave_fails {debug : Bool} {hints : String → Option String} {h : GvasHeader}
    {front rest : Bytes} {st : List String} {ty : String} {n : Nat} {e : Fail} {s' : RS}
    (hi : InSave debug hints h front st ty) (hn : rest.length < n)
    (hr : Property.read ⟨debug, hints, h.customVersions⟩ n ty true none ⟨rest, front.length, st⟩ =
      (.bad e, s')) : (readData debug hints (front ++ rest)).1 = .bad e := by
  obtain ⟨hb, b, nb, t, c, es, name, top, rfl, hh, hs, hnm, hne, ht, hin⟩ := hi
  obtain ⟨pos', hp⟩ := (C13_accepts_iff _ _ 0 [] _).mpr (hh (b ++ nb ++ t ++ c ++ rest))
  have hg := ((good_closed debug hints).gvasHeader (K := 0)
    ⟨hb ++ (b ++ nb ++ t ++ c ++ rest), 0, []⟩ (Nat.zero_le _)).consumes
  rw [hp] at hg
  obtain ⟨pre, hpre, hpos, _⟩ := hg
  simp only at hpre hpos
  obtain rfl := List.append_cancel_right hpre
  rw [Nat.zero_add] at hpos
  subst hpos
  obtain ⟨n0, hn0⟩ := readTop_entries hs
  have hk : ∃ k, k = n0 + ((hb ++ (b ++ nb ++ t ++ c)) ++ rest).length := ⟨_, rfl⟩
  obtain ⟨k, hk⟩ := hk
  rw [← C25_fuel_irrelevant debug hints _ (es.length + (k + 1)) (by omega)]
  obtain ⟨ps', hps⟩ := hn0 (es.length + (k + 1)) (by omega) [] (k + 1)
    (nb ++ (t ++ (c ++ rest))) hb.length
  have key := inside_fails (n := es.length + (k + 1)) (pos := hb.length + b.length + nb.length + t.length) hin hn
    (by simp only [List.length_append] at hk ⊢; omega) (by
      rw [← hr]
      congr 2
      simp only [List.length_append]
      omega)
  unfold readContents
  have e1 : RS.init (hb ++ (b ++ nb ++ t ++ c) ++ rest) =
      ⟨hb ++ (b ++ nb ++ t ++ c ++ rest), 0, []⟩ := by
    simp only [RS.init, List.append_assoc]
  rw [e1, R.bind_ok hp]
  simp only [List.append_assoc]
  rw [R.bind_bad]
  rw [hps, readTop, R.bind_ok (reads_str' hnm _ _), if_neg hne, R.bind_ok (reads_str' ht _ _),
    R.bind_bad]
  unfold R.withEntry
  simp only [List.nil_append]
  rw [key]

/-- The size of a collection does not matter to elements of most types. -/
theorem read_sug {n : Nat} {ty : String} (h : PlainElements ty) (sug sug' : Option UInt32) :
    Property.read env n ty false sug = Property.read env n ty false sug' := by
  cases n with
  | zero => rfl
  | succ n =>
    unfold Property.read Property.readStep
    cases hk : Kind.ofName ty with
    | none => exact absurd h.1 (kind_none_iff.mp hk)
    | some k =>
      have hkt := kind_some hk
      cases k <;> first | rfl | exact absurd hkt.symm h.2

theorem header_wrong {α β : Type} {st : List String} {hdr : R α} {body : UInt32 → α → R β}
    {parts b rest : Bytes} {a : α} {len len' : UInt32} {pos : Nat} {r : β} {s1 : RS}
    (h1 : Reads st hdr parts a)
    (hb : body len' a ⟨b ++ rest, pos + 9 + parts.length, st⟩ =
      body len a ⟨b ++ rest, pos + 9 + parts.length, st⟩)
    (h : readHeader hdr body ⟨u32B len ++ (u32B 0 ++ (parts ++ ([0] ++ (b ++ rest)))), pos, st⟩ =
      (.ok r, s1)) (hne : len' ≠ len) :
    ∃ s', readHeader hdr body ⟨u32B len' ++ (u32B 0 ++ (parts ++ ([0] ++ (b ++ rest)))), pos, st⟩ =
      (.bad (.err (.invalidValueSize len'.toNat len.toNat (pos + 9 + parts.length))), s') := by
  unfold readHeader at h ⊢
  have e : ∀ x : UInt32, pos + (u32B x).length + (u32B 0).length + parts.length + [(0 : UInt8)].length =
      pos + 9 + parts.length := by
    intro x; simp only [u32B_length, List.length_cons, List.length_nil]; omega
  rw [R.bind_ok (reads_u32 len _ _), R.bind_ok (reads_zeroIndex _ _), R.bind_ok (h1 _ _),
    R.bind_ok (reads_terminator _ _), e] at h
  rw [R.bind_ok (reads_u32 len' _ _), R.bind_ok (reads_zeroIndex _ _), R.bind_ok (h1 _ _),
    R.bind_ok (reads_terminator _ _), e]
  unfold readSized at h ⊢
  rw [R.bind_ok (position_run _)] at h ⊢
  rbind h => x s3 g1
  rw [R.bind_ok (position_run _)] at h
  rbind h => u s2 g2
  obtain ⟨g3, rfl⟩ := R.ensure_inv (fun _ _ _ => R.fail_ne) g2
  obtain ⟨_, g4⟩ := R.pure_inv h
  subst g4
  rw [R.bind_ok (hb.trans g1), R.bind_ok (position_run _)]
  simp only at g3 ⊢
  rw [g3, R.ensure_false (fun e => hne (UInt32.toNat_inj.mp e.symm))]
  exact ⟨_, rfl⟩

theorem kind_of_read {n : Nat} {k : Kind} {ty : String} {x : Bytes} {pos : Nat} {st : List String}
    {q : Property} {s1 : RS} (hk : k.typeName = ty)
    (h : Property.read env (n + 1) ty true none ⟨x, pos, st⟩ = (.ok q, s1)) :
    ∃ s2, readKind env (n + 1) (Property.read env n) true none k ⟨x, pos, st ++ [ty]⟩ =
      (.ok q, s2) := by
  subst hk
  unfold Property.read Property.readStep R.withEntry at h
  rw [kind_ofName] at h
  simp only at h
  generalize readKind env (n + 1) (Property.read env n) true none k ⟨x, pos, st ++ [k.typeName]⟩ = y at h ⊢
  obtain ⟨r, s⟩ := y
  cases h
  exact ⟨_, rfl⟩

theorem read_of_kind {n : Nat} {k : Kind} {ty : String} {x : Bytes} {pos : Nat} {st : List String}
    {e : Fail} (hk : k.typeName = ty)
    (h : ∃ s2, readKind env (n + 1) (Property.read env n) true none k ⟨x, pos, st ++ [ty]⟩ =
      (.bad e, s2)) :
    ∃ s1, Property.read env (n + 1) ty true none ⟨x, pos, st⟩ = (.bad e, s1) := by
  subst hk
  obtain ⟨s2, h⟩ := h
  unfold Property.read Property.readStep R.withEntry
  rw [kind_ofName]
  simp only [h]
  exact ⟨_, rfl⟩

/-- A header with a wrong size, in front of contents that are as they should be. -/
theorem sized_wrong {st : List String} {ty : String} {parts b : Bytes} {q : Property} {k : Kind}
    {len' : UInt32} (hk : k.typeName = ty) (hl : b.length < 2 ^ 32)
    (h : Full env st ty (sized parts b) q)
    (hw : Eventually fun n => ∀ rest pos, (∃ s, readKind env (n + 1) (Property.read env n) true none k
        ⟨u32B (UInt32.ofNat b.length) ++ (u32B 0 ++ (parts ++ ([0] ++ (b ++ rest)))), pos, st ++ [ty]⟩ =
          (.ok q, s)) → ∃ s', readKind env (n + 1) (Property.read env n) true none k
        ⟨u32B len' ++ (u32B 0 ++ (parts ++ ([0] ++ (b ++ rest)))), pos, st ++ [ty]⟩ =
      (.bad (.err (.invalidValueSize len'.toNat (UInt32.ofNat b.length).toNat
        (pos + 9 + parts.length))), s')) :
    Eventually fun n => ∀ rest pos, ∃ s', Property.read env n ty true none
      ⟨u32B len' ++ (u32B 0 ++ parts ++ [0] ++ b) ++ rest, pos, st⟩ =
        (.bad (.err (.invalidValueSize len'.toNat (UInt32.ofNat b.length).toNat
          (pos + 4 + (u32B 0 ++ parts ++ [0] ++ b).length - (UInt32.ofNat b.length).toNat))), s') := by
  obtain ⟨n0, h0⟩ := reads_full_of h
  obtain ⟨n1, h1⟩ := hw
  refine .step ⟨n0 + n1, fun n hn rest pos => ?_⟩
  have r := (h0 (n + 1) (by omega)).run rest pos
  simp only [sized, List.append_assoc] at r ⊢
  have e : pos + 4 + (u32B 0 ++ (parts ++ ([0] ++ b))).length - (UInt32.ofNat b.length).toNat =
      pos + 9 + parts.length := by
    rw [u32_ofNat_toNat hl]
    simp only [List.length_append, u32B_length, List.length_cons, List.length_nil]
    omega
  rw [e]
  exact read_of_kind hk (h1 n (by omega) rest pos (kind_of_read hk r))

theorem bind_wrong {α β : Type} {m : R α} {f : α → R β} {s s' : RS} {e : Fail}
    (hm : ∀ a s1, m s = (.ok a, s1) → ∃ s2, m s' = (.bad e, s2))
    (h : ∃ b s1, (m >>= f) s = (.ok b, s1)) : ∃ s2, (m >>= f) s' = (.bad e, s2) := by
  obtain ⟨b, s1, h⟩ := h
  obtain ⟨a, s3, h1, _⟩ := R.bind_inv h
  obtain ⟨s2, h2⟩ := hm a s3 h1
  exact ⟨s2, R.bind_bad h2⟩

/-- Plain properties. -/
theorem plain_wrong {ty : String} {st : List String} {b : Bytes} {q : Property} {len' : UInt32}
    (h : Plain env.cv ty b q) (hl : b.length < 2 ^ 32) (hne : len' ≠ UInt32.ofNat b.length) :
    Eventually fun n => ∀ rest pos, ∃ s', Property.read env n ty true none
      ⟨u32B len' ++ (u32B 0 ++ [] ++ [0] ++ b) ++ rest, pos, st⟩ =
        (.bad (.err (.invalidValueSize len'.toNat (UInt32.ofNat b.length).toNat
          (pos + 4 + (u32B 0 ++ [] ++ [0] ++ b).length - (UInt32.ofNat b.length).toNat))), s') := by
  have key : ∀ {α : Type} {m : R α} {f : α → R Property} (rest : Bytes) (pos : Nat),
      (∃ s, (readPlain true m >>= f)
        ⟨u32B (UInt32.ofNat b.length) ++ (u32B 0 ++ ([] ++ ([0] ++ (b ++ rest)))), pos, st ++ [ty]⟩ =
          (.ok q, s)) →
      ∃ s', (readPlain true m >>= f)
        ⟨u32B len' ++ (u32B 0 ++ ([] ++ ([0] ++ (b ++ rest)))), pos, st ++ [ty]⟩ =
      (.bad (.err (.invalidValueSize len'.toNat (UInt32.ofNat b.length).toNat
        (pos + 9 + ([] : Bytes).length))), s') := by
    intro α m f rest pos ⟨s, hs⟩
    refine bind_wrong (fun a s1 h1 => ?_) ⟨_, _, hs⟩
    simp only [readPlain, if_true] at h1 ⊢
    exact header_wrong (Reads.rpure ()) rfl h1 hne
  have hf : Full env st ty (sized [] b) q := .plain h hl
  cases h with
  | str h => exact sized_wrong (k := .str) rfl hl hf (.of fun n => key)
  | text h => exact sized_wrong (k := .text) rfl hl hf (.of fun n => key)
  | object h => exact sized_wrong (k := .object) rfl hl hf (.of fun n => key)
  | delegate h => exact sized_wrong (k := .delegate) rfl hl hf (.of fun n => key)
  | inlined h => exact sized_wrong (k := .multicastInlineDelegate) rfl hl hf (.of fun n => key)
  | sparse h => exact sized_wrong (k := .multicastSparseDelegate) rfl hl hf (.of fun n => key)
  | fieldPath h1 h2 => exact sized_wrong (k := .fieldPath) rfl hl hf (.of fun n => key)

theorem checkSize_wrong {v : UInt64} {w pos : Nat} {x : Bytes} {st : List String}
    (h : v.toNat ≠ w) : checkSize w ⟨u64B v ++ x, pos, st⟩ =
      (.bad (.err (.invalidValueSize w v.toNat (pos + 8))), ⟨x, pos + 8, st⟩) := by
  unfold checkSize
  rw [R.bind_ok (reads_u64 v _ _), R.ensure_false h]
  rfl

theorem fixed_wrong {α : Type} {m : R α} {f : α → R Property} {v : UInt64} {w pos : Nat} {x : Bytes}
    {st : List String} (h : v.toNat ≠ w) :
    ∃ s', (readFixed true w m >>= f) ⟨u64B v ++ x, pos, st⟩ =
      (.bad (.err (.invalidValueSize w v.toNat (pos + 8))), s') := by
  unfold readFixed R.onlyIf
  rw [if_pos rfl]
  exact ⟨_, R.bind_bad (R.bind_bad (R.bind_bad (checkSize_wrong h)))⟩

theorem bool_wrong {f : Bool → R Property} {v : UInt64} {pos : Nat} {x : Bytes}
    {st : List String} (h : v.toNat ≠ 0) :
    ∃ s', (readBoolProperty true >>= f) ⟨u64B v ++ x, pos, st⟩ =
      (.bad (.err (.invalidValueSize 0 v.toNat (pos + 8))), s') := by
  unfold readBoolProperty R.onlyIf
  rw [if_pos rfl]
  exact ⟨_, R.bind_bad (R.bind_bad (checkSize_wrong h))⟩

/-- Numbers and bools refuse any other size, whatever follows. -/
theorem fixedWidth_wrong {n w : Nat} {ty : String} {v : UInt64} {x : Bytes} {pos : Nat}
    {st : List String} (ht : (ty, w) ∈ fixedWidths) (h : v.toNat ≠ w) :
    ∃ s', Property.read env (n + 1) ty true none ⟨u64B v ++ x, pos, st⟩ =
      (.bad (.err (.invalidValueSize w v.toNat (pos + 8))), s') := by
  simp only [fixedWidths, List.mem_cons, Prod.mk.injEq, List.not_mem_nil, or_false] at ht
  rcases ht with ⟨rfl, rfl⟩ | ⟨rfl, rfl⟩ | ⟨rfl, rfl⟩ | ⟨rfl, rfl⟩ | ⟨rfl, rfl⟩ | ⟨rfl, rfl⟩ |
    ⟨rfl, rfl⟩ | ⟨rfl, rfl⟩ | ⟨rfl, rfl⟩ | ⟨rfl, rfl⟩
  · exact read_of_kind (k := .int8) rfl (fixed_wrong h)
  · exact read_of_kind (k := .int16) rfl (fixed_wrong h)
  · exact read_of_kind (k := .uint16) rfl (fixed_wrong h)
  · exact read_of_kind (k := .int) rfl (fixed_wrong h)
  · exact read_of_kind (k := .uint32) rfl (fixed_wrong h)
  · exact read_of_kind (k := .int64) rfl (fixed_wrong h)
  · exact read_of_kind (k := .uint64) rfl (fixed_wrong h)
  · exact read_of_kind (k := .float) rfl (fixed_wrong h)
  · exact read_of_kind (k := .double) rfl (fixed_wrong h)
  · exact read_of_kind (k := .bool) rfl (bool_wrong h)

theorem number_width {ty : String} {b : Bytes} {p : Property} (h : Number ty b p) :
    (ty, b.length) ∈ fixedWidths ∧ Fixed p ∧ b.length < 2 ^ 32 := by
  cases h <;> refine ⟨?_, trivial, ?_⟩ <;>
    simp [fixedWidths, i8B, i16B, u16B, i32B, u32B, i64B, u64B, f32B, f64B, leBytes_length]

theorem setElems_eq {debug : Bool} {rec : String → Bool → Option UInt32 → R Property} {ty : String}
    {len len' count : UInt32} (hs : ∀ sug sug', rec ty false sug = rec ty false sug')
    (h : count = 0 ∨ (debug = true → 8 ≤ len'.toNat ∧ 8 ≤ len.toNat)) :
    readSetElems debug rec len' ty count = readSetElems debug rec len ty count := by
  unfold readSetElems
  rcases h with rfl | h
  · rfl
  · split
    · have sub : ∀ l : UInt32, (debug = true → 8 ≤ l.toNat) → subU32 debug l 8 = R.pure (l - 8) := by
        intro l hl
        unfold subU32
        rw [if_neg]
        rintro ⟨h1, h2⟩
        have := hl h2
        rw [UInt32.lt_iff_toNat_lt, show (8 : UInt32).toNat = 8 from rfl] at h1
        omega
      rw [sub len' fun d => (h d).1, sub len fun d => (h d).2]
      funext s
      rw [R.bind_ok (show R.pure _ s = _ from rfl), R.bind_ok (show R.pure _ s = _ from rfl),
        hs _ (some ((len - 8) / count))]
    · rfl

theorem setElems_trap {rec : String → Bool → Option UInt32 → R Property} {ty : String}
    {len' count : UInt32} {s : RS} (hc : 0 < count) (h : len'.toNat < 8) :
    readSetElems true rec len' ty count s = (.bad (.panic "attempt to subtract with overflow"), s) := by
  unfold readSetElems subU32
  rw [if_pos hc, if_pos ⟨UInt32.lt_iff_toNat_lt.mpr h, rfl⟩]
  rfl

theorem arrayOf_plain {ty : String} {ps : List Property} {a : ArrayProperty} (h : ArrayOf ty ps a)
    (hg : Gauged (.array a)) : PlainElements ty := by
  rcases h with h | ⟨_, rfl⟩
  · cases h <;> first | exact ⟨by decide, by decide⟩ | exact hg.elim
  · exact hg

theorem name_wrong {n : Nat} {rec : String → Bool → Option UInt32 → R Property} {b rest : Bytes}
    {s : Option String} {len' idx : UInt32} {pos : Nat} {st : List String} (h : Str b s)
    (hne : len' ≠ UInt32.ofNat b.length) : ∃ s', readKind env n rec true none .name
      ⟨u32B len' ++ (u32B idx ++ ([0] ++ (b ++ rest))), pos, st⟩ =
        (.bad (.err (.invalidValueSize len'.toNat (UInt32.ofNat b.length).toNat (pos + 9))), s') := by
  simp only [readKind, readNameProperty, if_true]
  have e : pos + (u32B len').length + (u32B idx).length + [(0 : UInt8)].length = pos + 9 := by
    simp only [u32B_length, List.length_cons, List.length_nil]
  rw [R.bind_ok (reads_u32 len' _ _), R.bind_ok (reads_u32 idx _ _), R.bind_ok (reads_terminator _ _), e]
  unfold readSized
  rw [R.bind_ok (position_run _), R.bind_ok ((Reads.map (reads_str h)).run rest _),
    R.bind_ok (position_run _), u32_ofNat_toNat (str_length h)]
  simp only
  rw [Nat.add_sub_cancel_left, R.ensure_false (fun e => hne (by rw [e, UInt32.ofNat_toNat]))]
  exact ⟨_, rfl⟩

theorem set_trap {n : Nat} {rec : String → Bool → Option UInt32 → R Property} {t rest : Bytes}
    {ty : String} {len' fl count : UInt32} {pos : Nat} {st : List String} (h : Str t (some ty))
    (hd : env.debug = true) (hc : 0 < count) (hl : len'.toNat < 8) :
    ∃ s', readKind env n rec true none .set
      ⟨u32B len' ++ (u32B 0 ++ (t ++ ([0] ++ (u32B fl ++ (u32B count ++ rest))))), pos, st⟩ =
        (.bad (.panic "attempt to subtract with overflow"), s') := by
  simp only [readKind, readSetProperty, if_true]
  unfold readHeader
  rw [R.bind_ok (reads_u32 len' _ _), R.bind_ok (reads_zeroIndex _ _), R.bind_ok (reads_str' h _ _),
    R.bind_ok (reads_terminator _ _)]
  unfold readSized readSetBody
  rw [hd, R.bind_ok (position_run _)]
  exact ⟨_, R.bind_bad ((R.bind_ok (reads_u32 fl _ _)).trans ((R.bind_ok (reads_u32 count _ _)).trans
    (R.bind_bad (setElems_trap hc hl))))⟩

/-- Every property whose size is compared with something reports a wrong one. -/
theorem wrong_size {st : List String} {ty : String} {b : Bytes} {q : Property}
    (h : Full env st ty b q) (hq : Gauged q) : ∃ len c, b = u32B len ++ c ∧ ∀ len', len' ≠ len →
      Eventually fun n => ∀ rest pos, ∃ e s',
        WrongSize env.debug q len len' (pos + 8) (pos + 4 + c.length - len.toNat) e ∧
        Property.read env n ty true none ⟨u32B len' ++ c ++ rest, pos, st⟩ = (.bad e, s') := by
  have fixed : ∀ {ty : String} {w : Nat} {x : Bytes} {q : Property}, (ty, w) ∈ fixedWidths →
      Fixed q → w < 2 ^ 32 → ∀ len' : UInt32, len' ≠ UInt32.ofNat w →
      Eventually fun n => ∀ rest pos, ∃ e s',
        WrongSize env.debug q (UInt32.ofNat w) len' (pos + 8)
          (pos + 4 + (u32B 0 ++ x).length - (UInt32.ofNat w).toNat) e ∧
        Property.read env n ty true none ⟨u32B len' ++ (u32B 0 ++ x) ++ rest, pos, st⟩ =
          (.bad e, s') := by
    intro ty w x q ht hf hw len' hne
    refine .step (.of fun n rest pos => ?_)
    have hv : (UInt64.ofNat len'.toNat).toNat = len'.toNat :=
      u64_ofNat_toNat (by have := len'.toNat_lt; omega)
    obtain ⟨s', hs⟩ := fixedWidth_wrong (env := env) (n := n) (v := UInt64.ofNat len'.toNat) (x := x ++ rest)
      (pos := pos) (st := st) ht (by
        rw [hv]
        exact fun e => hne (by rw [← e, UInt32.ofNat_toNat]))
    rw [u64B_ofNat len'.toNat_lt, UInt32.ofNat_toNat, hv] at hs
    refine ⟨_, s', .fixed hf, ?_⟩
    rw [u32_ofNat_toNat hw]
    simpa only [List.append_assoc] using hs
  have sized' : ∀ {ty : String} {parts b : Bytes} {q : Property} {len' : UInt32}, ¬ Fixed q →
      (∀ ty fl p ps, q = .set ty fl (p :: ps) → env.debug = true → 8 ≤ len'.toNat) →
      (Eventually fun n => ∀ rest pos, ∃ s', Property.read env n ty true none
      ⟨u32B len' ++ (u32B 0 ++ parts ++ [0] ++ b) ++ rest, pos, st⟩ =
        (.bad (.err (.invalidValueSize len'.toNat (UInt32.ofNat b.length).toNat
          (pos + 4 + (u32B 0 ++ parts ++ [0] ++ b).length - (UInt32.ofNat b.length).toNat))), s')) →
      Eventually fun n => ∀ rest pos, ∃ e s',
        WrongSize env.debug q (UInt32.ofNat b.length) len' (pos + 8)
          (pos + 4 + (u32B 0 ++ parts ++ [0] ++ b).length - (UInt32.ofNat b.length).toNat) e ∧
        Property.read env n ty true none
          ⟨u32B len' ++ (u32B 0 ++ parts ++ [0] ++ b) ++ rest, pos, st⟩ = (.bad e, s') :=
    fun hf hs h => h.mono fun n hn rest pos => by
      obtain ⟨s', h⟩ := hn rest pos
      exact ⟨_, s', .sized hf hs, h⟩
  have split : ∀ parts b : Bytes, sized parts b =
      u32B (UInt32.ofNat b.length) ++ (u32B 0 ++ parts ++ [0] ++ b) := by
    intro parts b
    simp only [sized, List.append_assoc]
  have hf := h
  cases h with
  | number h =>
    rename_i b
    obtain ⟨h1, h2, h3⟩ := number_width h
    refine ⟨UInt32.ofNat b.length, u32B 0 ++ ([0] ++ b), ?_, fixed h1 h2 h3⟩
    rw [u64B_ofNat h3]
    simp only [List.append_assoc]
  | bool v =>
    refine ⟨UInt32.ofNat 0, u32B 0 ++ ([if v then 1 else 0] ++ [0]), ?_,
      fixed (by simp [fixedWidths]) trivial (by decide)⟩
    rw [show u64B 0 = u32B (UInt32.ofNat 0) ++ u32B 0 by decide]
    simp only [List.append_assoc]
  | byte n h1 h2 h3 => exact hq.elim
  | plain h hl =>
    refine ⟨_, _, split _ _, fun len' hne => sized' ?_ ?_ (plain_wrong h hl hne)⟩
    · cases h <;> exact id
    · cases h <;> nofun
  | enum h1 h2 =>
    refine ⟨_, _, split _ _, fun len' hne => sized' id nofun (sized_wrong (k := .enum) rfl
      (str_length h2) hf (.of fun n rest pos ⟨s, hs⟩ => ?_))⟩
    simp only [readKind, readEnumProperty, if_true] at hs ⊢
    exact header_wrong (reads_str' h1) rfl hs hne
  | name idx h =>
    rename_i b s
    refine ⟨UInt32.ofNat b.length, u32B idx ++ ([0] ++ b), by simp only [List.append_assoc],
      fun len' hne => .step (.of fun n rest pos => ?_)⟩
    have e : pos + 4 + (u32B idx ++ ([0] ++ b)).length - (UInt32.ofNat b.length).toNat = pos + 9 := by
      rw [u32_ofNat_toNat (str_length h)]
      simp only [List.length_append, u32B_length, List.length_cons, List.length_nil]
      omega
    rw [e]
    obtain ⟨s', hs⟩ := read_of_kind (env := env) (n := n) (st := st) (k := .name) rfl
      (name_wrong (env := env) (n := n + 1) (rec := Property.read env n) (len' := len') (idx := idx)
        (rest := rest) (pos := pos) (st := st ++ [Kind.name.typeName]) h hne)
    refine ⟨_, s', .sized id nofun, ?_⟩
    simpa only [List.append_assoc, Kind.typeName] using hs
  | struct g h1 h2 h3 =>
    refine ⟨_, _, split _ _, fun len' hne => sized' id nofun (sized_wrong (k := .struct) rfl
      h3 hf (.of fun n rest pos ⟨s, hs⟩ => ?_))⟩
    simp only [readKind, readStructProperty, if_true] at hs ⊢
    exact header_wrong (a := (_, g)) ((reads_str' h1).bind (Reads.map (reads_guid g))) rfl hs hne
  | array h1 h2 h3 h4 h5 h6 =>
    refine ⟨_, _, split _ _, fun len' hne => sized' id nofun (sized_wrong (k := .array) rfl
      (by simpa using h6) hf (.of fun n rest pos ⟨s, hs⟩ => ?_))⟩
    simp only [readKind, readArrayProperty, if_true] at hs ⊢
    refine header_wrong (reads_str' h1) (congrFun ?_ _) hs hne
    unfold readArrayBody
    refine congrArg (fun f => readU32 >>= f >>= fun a => Pure.pure (Property.array a)) (funext fun count => ?_)
    rw [if_neg h2, if_neg h2, read_sug (arrayOf_plain h5 hq) _ (arraySuggested _ count)]
  | structs g h1 h2 h3 h4 h5 h6 h7 =>
    refine ⟨_, _, split _ _, fun len' hne => sized' id nofun (sized_wrong (k := .array) rfl
      (by simp only [List.length_append, u32B_length, u64B_length, guidB_length, List.length_cons,
        List.length_nil] at h7 ⊢; omega) hf (.of fun n rest pos ⟨s, hs⟩ => ?_))⟩
    simp only [readKind, readArrayProperty, if_true] at hs ⊢
    exact header_wrong (reads_str' h1) rfl hs hne
  | set fl h1 h2 h3 h4 =>
    rename_i t b ty ps
    have hl : (u32B fl ++ u32B (UInt32.ofNat ps.length) ++ b).length < 2 ^ 32 := by
      simp only [List.length_append, u32B_length]; omega
    have hl8 : 8 ≤ (UInt32.ofNat (u32B fl ++ u32B (UInt32.ofNat ps.length) ++ b).length).toNat := by
      rw [u32_ofNat_toNat hl]
      simp only [List.length_append, u32B_length]; omega
    refine ⟨_, _, split _ _, fun len' hne => ?_⟩
    by_cases ht : env.debug = true ∧ len'.toNat < 8 ∧ ps ≠ []
    · obtain ⟨hd, hlt, hps⟩ := ht
      refine .step (.of fun n rest pos => ?_)
      obtain ⟨p, ps, rfl⟩ := List.exists_cons_of_ne_nil hps
      have hc : 0 < UInt32.ofNat (p :: ps).length := by
        rw [UInt32.lt_iff_toNat_lt, u32_ofNat_toNat h2]
        simp
      obtain ⟨s', hs⟩ := read_of_kind (env := env) (n := n) (st := st) (k := .set) rfl
        (set_trap (env := env) (n := n + 1) (rec := Property.read env n) (len' := len') (fl := fl)
          (rest := b ++ rest) (pos := pos) (st := st ++ [Kind.set.typeName]) h1 hd hc hlt)
      refine ⟨_, s', .trap rfl hd hlt, ?_⟩
      simpa only [List.append_assoc, Kind.typeName] using hs
    · refine sized' id ?_ (sized_wrong (k := .set) rfl hl hf (.of fun n rest pos ⟨s, hs⟩ => ?_))
      · intro ty fl p ps e hd
        cases e
        by_cases hlt : len'.toNat < 8
        · exact absurd ⟨hd, hlt, nofun⟩ ht
        · omega
      · simp only [readKind, readSetProperty, if_true] at hs ⊢
        refine header_wrong (reads_str' h1) ?_ hs hne
        unfold readSetBody
        simp only [List.append_assoc]
        rw [R.bind_ok (reads_u32 fl _ _), R.bind_ok (reads_u32 _ _ _),
          R.bind_ok (reads_u32 fl _ _), R.bind_ok (reads_u32 _ _ _), setElems_eq (read_sug hq)]
        by_cases h0 : ps = []
        · exact .inl (by rw [h0]; rfl)
        · refine .inr fun hd => ⟨?_, hl8⟩
          by_cases hlt : len'.toNat < 8
          · exact absurd ⟨hd, hlt, h0⟩ ht
          · omega
  | map fl h1 h2 h3 h4 h5 h6 h7 =>
    refine ⟨_, _, split _ _, fun len' hne => sized' id nofun (sized_wrong (k := .map) rfl
      (by simp only [List.length_append, u32B_length]; omega) hf (.of fun n rest pos ⟨s, hs⟩ => ?_))⟩
    simp only [readKind, readMapProperty, if_true] at hs ⊢
    exact header_wrong (a := (_, _)) ((reads_str' h1).bind (Reads.map (reads_str' h2))) rfl hs hne
  | unknown b h1 h2 => exact hq.elim

theorem zeroIndex_wrong {idx : UInt32} {x : Bytes} {pos : Nat} {st : List String} (h : idx ≠ 0) :
    readZeroIndex ⟨u32B idx ++ x, pos, st⟩ =
      (.bad (.err (.invalidArrayIndex idx pos)), ⟨x, pos + 4, st⟩) := by
  unfold readZeroIndex
  rw [R.bind_ok (reads_u32 idx _ _), R.ensure_false h]
  rfl

theorem headerIndex_wrong {α β : Type} {hdr : R α} {body : UInt32 → α → R β} {len idx : UInt32}
    {x : Bytes} {pos : Nat} {st : List String} (h : idx ≠ 0) : ∃ s',
    readHeader hdr body ⟨u32B len ++ (u32B idx ++ x), pos, st⟩ =
      (.bad (.err (.invalidArrayIndex idx (pos + 4))), s') := by
  unfold readHeader
  rw [R.bind_ok (reads_u32 len _ _)]
  exact ⟨_, R.bind_bad (zeroIndex_wrong h)⟩

theorem plainIndex_wrong {α : Type} {m : R α} {f : α → R Property} {len idx : UInt32} {x : Bytes}
    {pos : Nat} {st : List String} (h : idx ≠ 0) : ∃ s',
    (readPlain true m >>= f) ⟨u32B len ++ (u32B idx ++ x), pos, st⟩ =
      (.bad (.err (.invalidArrayIndex idx (pos + 4))), s') := by
  obtain ⟨s', hs⟩ := headerIndex_wrong (hdr := R.pure ()) (body := fun _ _ => m) (len := len) (x := x)
    (pos := pos) (st := st) h
  exact ⟨s', R.bind_bad (by simpa only [readPlain, if_true] using hs)⟩

/-- An array index other than zero is refused, whatever follows. -/
theorem indexed_wrong {n : Nat} {ty : String} {len idx : UInt32} {x : Bytes} {pos : Nat}
    {st : List String} (ht : ty ∈ indexedTypes) (h : idx ≠ 0) :
    ∃ s', Property.read env (n + 1) ty true none ⟨u32B len ++ (u32B idx ++ x), pos, st⟩ =
      (.bad (.err (.invalidArrayIndex idx (pos + 4))), s') := by
  simp only [indexedTypes, List.mem_cons, List.not_mem_nil, or_false] at ht
  rcases ht with rfl | rfl | rfl | rfl | rfl | rfl | rfl | rfl | rfl | rfl | rfl | rfl
  · refine read_of_kind (k := .enum) rfl ?_
    simp only [readKind, readEnumProperty, if_true]
    exact headerIndex_wrong h
  · exact read_of_kind (k := .str) rfl (plainIndex_wrong h)
  · exact read_of_kind (k := .text) rfl (plainIndex_wrong h)
  · exact read_of_kind (k := .object) rfl (plainIndex_wrong h)
  · exact read_of_kind (k := .delegate) rfl (plainIndex_wrong h)
  · exact read_of_kind (k := .multicastInlineDelegate) rfl (plainIndex_wrong h)
  · exact read_of_kind (k := .multicastSparseDelegate) rfl (plainIndex_wrong h)
  · exact read_of_kind (k := .fieldPath) rfl (plainIndex_wrong h)
  · refine read_of_kind (k := .struct) rfl ?_
    simp only [readKind, readStructProperty, if_true]
    exact headerIndex_wrong h
  · refine read_of_kind (k := .array) rfl ?_
    simp only [readKind, readArrayProperty, if_true]
    exact headerIndex_wrong h
  · refine read_of_kind (k := .set) rfl ?_
    simp only [readKind, readSetProperty, if_true]
    exact headerIndex_wrong h
  · refine read_of_kind (k := .map) rfl ?_
    simp only [readKind, readMapProperty, if_true]
    exact headerIndex_wrong h

theorem assertedIndex_wrong {idx : UInt32} {x : Bytes} {pos : Nat} {st : List String} (h : idx ≠ 0) :
    readAssertedIndex ⟨u32B idx ++ x, pos, st⟩ =
      (.bad (.panic "Expected array_index value zero"), ⟨x, pos + 4, st⟩) := by
  unfold readAssertedIndex
  rw [R.bind_ok (reads_u32 idx _ _), R.ensure_false h]
  rfl

/-- Byte properties and properties of unknown types do not return from it. -/
theorem asserted_wrong {n : Nat} {ty : String} {len idx : UInt32} {x : Bytes} {pos : Nat}
    {st : List String} (ht : ty = "ByteProperty" ∨ ty ∉ knownTypes) (h : idx ≠ 0) :
    ∃ s', Property.read env (n + 1) ty true none ⟨u32B len ++ (u32B idx ++ x), pos, st⟩ =
      (.bad (.panic "Expected array_index value zero"), s') := by
  rcases ht with rfl | ht
  · refine read_of_kind (k := .byte) rfl ?_
    simp only [readKind, readByteProperty, if_true]
    rw [R.bind_ok (reads_u32 len _ _)]
    exact ⟨_, R.bind_bad (assertedIndex_wrong h)⟩
  · have e : readUnknown ty true none ⟨u32B len ++ (u32B idx ++ x), pos, st ++ [ty]⟩ =
        (.bad (.panic "Expected array_index value zero"), ⟨x, pos + 4 + 4, st ++ [ty]⟩) := by
      simp only [readUnknown, if_true]
      rw [R.bind_ok (reads_u32 len _ _)]
      exact R.bind_bad (assertedIndex_wrong h)
    unfold Property.read Property.readStep R.withEntry
    rw [kind_none_iff.mpr ht]
    simp only [e]
    exact ⟨_, rfl⟩

end Gvas
