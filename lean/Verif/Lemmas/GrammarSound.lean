import Verif.Lemmas.GrammarText

/-! # What was read follows the grammar -/

namespace Gvas

open Spec Format

variable {env : Env} {st : List String}

/-! ## Headers -/

theorem gives_terminator : Gives st readTerminator (fun b _ => b = [0]) := by
  unfold readTerminator
  refine gives_u8.bind fun b t h => (Gives.ensure fun _ _ _ => R.failPos_ne).mono fun b' _ h' => ?_
  obtain ⟨rfl, rfl⟩ := h'
  rw [h, u8B_eq]; rfl

theorem gives_separator : Gives st readSeparator (fun b _ => b = [0]) := by
  unfold readSeparator
  refine gives_u8.bind fun b t h => (Gives.ensure fun _ _ _ => R.panic_ne).mono fun b' _ h' => ?_
  obtain ⟨rfl, rfl⟩ := h'
  rw [h, u8B_eq]; rfl

theorem gives_zeroIndex : Gives st readZeroIndex (fun b _ => b = u32B 0) := by
  unfold readZeroIndex
  refine gives_u32.bind fun b t h => (Gives.ensure fun _ _ _ => R.failPos_ne).mono fun b' _ h' => ?_
  obtain ⟨rfl, rfl⟩ := h'
  rw [h, List.append_nil]

theorem gives_assertedIndex : Gives st readAssertedIndex (fun b _ => b = u32B 0) := by
  unfold readAssertedIndex
  refine gives_u32.bind fun b t h => (Gives.ensure fun _ _ _ => R.panic_ne).mono fun b' _ h' => ?_
  obtain ⟨rfl, rfl⟩ := h'
  rw [h, List.append_nil]

theorem gives_checkSize {n : Nat} (hn : n < 2 ^ 64) :
    Gives st (checkSize n) (fun b _ => b = u64B (UInt64.ofNat n)) := by
  unfold checkSize
  refine gives_u64.bind fun b t h => (Gives.ensure fun _ _ _ => R.failPos_ne).mono fun b' _ h' => ?_
  obtain ⟨rfl, rfl⟩ := h'
  rw [h, List.append_nil, UInt64.ofNat_toNat]

theorem gives_sized {β : Type} {length : UInt32} {body : R β} {L : Bytes → β → Prop}
    (h : Gives st body L) :
    Gives st (readSized length body) (fun b a => L b a ∧ b.length = length.toNat) := by
  intro rest pos a s' hm
  unfold readSized at hm
  rbind hm => start s1 h1
  obtain ⟨rfl, rfl⟩ := R.position_inv h1
  rbind hm => r s2 h2
  obtain ⟨b, rest', rfl, rfl, hL⟩ := h _ _ _ _ h2
  rbind hm => stop s3 h3
  obtain ⟨rfl, rfl⟩ := R.position_inv h3
  rbind hm => u s4 h4
  obtain ⟨hc, rfl⟩ := R.ensure_inv (fun _ _ _ => R.fail_ne) h4
  obtain ⟨rfl, rfl⟩ := R.pure_inv hm
  simp only at hc
  exact ⟨b, rest', rfl, rfl, hL, by omega⟩

theorem gives_header {α β : Type} {hdr : R α} {body : UInt32 → α → R β} {P : Bytes → α → Prop}
    {Q : UInt32 → α → Bytes → β → Prop} (h1 : Gives st hdr P)
    (h2 : ∀ len p a, P p a → Gives st (body len a) (Q len a)) :
    Gives st (readHeader hdr body) (fun b r => ∃ parts a bs, P parts a ∧
      Q (UInt32.ofNat bs.length) a bs r ∧ bs.length < 2 ^ 32 ∧ b = sized parts bs) := by
  unfold readHeader
  refine gives_u32.bind fun b0 len e0 => gives_zeroIndex.bind fun b1 _ e1 =>
    h1.bind fun parts a hP => gives_terminator.bind fun b3 _ e3 =>
    (gives_sized (h2 len parts a hP)).mono fun bs r h => ?_
  obtain ⟨hQ, hl⟩ := h
  have : len = UInt32.ofNat bs.length := by rw [hl, UInt32.ofNat_toNat]
  subst this
  refine ⟨parts, a, bs, hP, hQ, by rw [hl]; exact UInt32.toNat_lt _, ?_⟩
  subst e0 e1 e3
  simp only [sized, List.append_assoc]

theorem gives_plain {β : Type} {body : R β} {L : Bytes → β → Prop} (h : Gives st body L) :
    Gives st (readPlain true body) (fun b r => ∃ bs, L bs r ∧ bs.length < 2 ^ 32 ∧
      b = sized [] bs) := by
  unfold readPlain
  rw [if_pos rfl]
  refine (gives_header (P := fun b _ => b = []) (Q := fun _ _ => L) (Gives.pure rfl)
    fun _ _ _ _ => h).mono ?_
  rintro b r ⟨parts, _, bs, rfl, hL, hl, rfl⟩
  exact ⟨bs, hL, hl, rfl⟩

theorem gives_fixed {α : Type} {n : Nat} {m : R α} {enc : α → Bytes} (h : Gives st m (fun b a => b = enc a))
    (hn : n < 2 ^ 64) (hl : ∀ a, (enc a).length = n) :
    Gives st (readFixed true n m)
      (fun b a => b = u64B (UInt64.ofNat (enc a).length) ++ [0] ++ enc a) := by
  unfold readFixed R.onlyIf
  rw [if_pos rfl]
  have : Gives st (checkSize n >>= fun _ => readSeparator)
      (fun b _ => b = u64B (UInt64.ofNat n) ++ [0]) :=
    (gives_checkSize hn).bind fun b _ h => gives_separator.mono fun b' _ h' => by rw [h, h']
  refine this.bind fun b _ e => h.mono fun b' a e' => ?_
  rw [e, e', hl]

theorem gives_fixed_bare {α : Type} {n : Nat} {m : R α} {L : Bytes → α → Prop} (h : Gives st m L) :
    Gives st (readFixed false n m) L := h

/-! ## Values without properties in them -/

theorem gives_byteLength {debug : Bool} (o : Option UInt32) :
    Gives st (byteLength debug o) (fun b n => b = [] ∧ (debug = true → o ≠ some 0) ∧
      n = (o.getD 2) - 1) := by
  cases o with
  | none => exact Gives.pure ⟨rfl, by simp, rfl⟩
  | some e =>
    simp only [byteLength, subU32]
    split
    · exact Gives.panic
    · rename_i h
      refine Gives.pure ⟨rfl, fun hd he => h ⟨?_, hd⟩, rfl⟩
      cases he; decide

theorem sub_one_iff (n : UInt32) : (n - 1 = 1 ∨ n - 1 = 0) ↔ (n = 1 ∨ n = 2) := by
  constructor
  · rintro (h | h)
    · exact .inr (by have := congrArg (· + 1) h; simpa using this)
    · exact .inl (by have := congrArg (· + 1) h; simpa using this)
  · rintro (rfl | rfl)
    · exact .inr (by decide)
    · exact .inl (by decide)

theorem gives_byteValue (n : UInt32) : Gives st (readByteValue (n - 1)) (ByteValue n) := by
  unfold readByteValue
  split
  · rename_i h
    refine gives_u8.map fun b a e => ?_
    subst e
    rw [u8B_eq]
    exact .byte a ((sub_one_iff n).mp h)
  · rename_i h
    rw [sub_one_iff, not_or] at h
    exact gives_string.map fun b s hs => .name h.1 h.2 hs

theorem gives_delegate : Gives st Delegate.read DelegateAt := by
  unfold Delegate.read
  exact gives_string.bind fun b1 o h1 => gives_string.map fun b2 f h2 => .mk h1 h2

theorem gives_times {α : Type} {m : R α} {L : Bytes → α → Prop} (h : Gives st m L) :
    Gives st (readU32 >>= fun n => R.replicate m n.toNat) (Counted L) := by
  refine gives_u32.bind fun b n e => (Gives.replicate (M := Seq L) h .nil
    (fun _ _ _ _ => .cons) n.toNat).mono fun bs l hl => ?_
  obtain ⟨hlen, hs⟩ := hl
  subst e
  have := Counted.mk hs (by rw [hlen]; exact n.toNat_lt)
  rwa [hlen, UInt32.ofNat_toNat] at this

theorem gives_counted {α β : Type} {m : R α} {L : Bytes → α → Prop} {f : List α → R β}
    {M : Bytes → β → Prop} (h : Gives st m L)
    (hf : ∀ b l, Counted L b l → Gives st (f l) (fun b' r => M (b ++ b') r)) :
    Gives st (do let n ← readU32; let l ← R.replicate m n.toNat; f l) M := by
  rw [show (do let n ← readU32; let l ← R.replicate m n.toNat; f l) =
    ((readU32 >>= fun n => R.replicate m n.toNat) >>= f) from (R.bind_assoc _ _ _).symm]
  exact (gives_times h).bind hf

theorem gives_multicast : Gives st readMulticast (Counted DelegateAt) := gives_times gives_delegate

theorem gives_fieldPath : Gives st FieldPath.read (fun b p => ∃ b1 b2,
    Counted (fun b s => Str b (some s)) b1 p.path ∧ Str b2 (some p.resolvedOwner) ∧
    b = b1 ++ b2) := by
  unfold FieldPath.read
  exact gives_counted gives_string fun b l h => gives_string.map fun b' o ho => ⟨b, b', h, ho, rfl⟩

theorem gives_builtin (cv : List (Guid × UInt32)) (k : StructKind) :
    Gives st (readBuiltin cv k) (Builtin cv k.typeName) := by
  have large : lwc cv = true → LargeWorld cv := largeWorld_iff.mpr
  have small : ¬ lwc cv = true → ¬ LargeWorld cv := fun h h' => h (largeWorld_iff.mp h')
  cases k with
  | vector =>
    simp only [readBuiltin]
    split
    · refine gives_f64.bind fun _ x h1 => gives_f64.bind fun _ y h2 => gives_f64.map fun _ z h3 => ?_
      subst h1 h2 h3
      exact at_eq (.vectorD x y z (large ‹_›)) (by simp only [List.append_assoc])
    · refine gives_f32.bind fun _ x h1 => gives_f32.bind fun _ y h2 => gives_f32.map fun _ z h3 => ?_
      subst h1 h2 h3
      exact at_eq (.vectorF x y z (small ‹_›)) (by simp only [List.append_assoc])
  | vector2D =>
    simp only [readBuiltin]
    split
    · refine gives_f64.bind fun _ x h1 => gives_f64.map fun _ y h2 => ?_
      subst h1 h2
      exact .vector2D x y (large ‹_›)
    · refine gives_f32.bind fun _ x h1 => gives_f32.map fun _ y h2 => ?_
      subst h1 h2
      exact .vector2F x y (small ‹_›)
  | rotator =>
    simp only [readBuiltin]
    split
    · refine gives_f64.bind fun _ x h1 => gives_f64.bind fun _ y h2 => gives_f64.map fun _ z h3 => ?_
      subst h1 h2 h3
      exact at_eq (.rotatorD x y z (large ‹_›)) (by simp only [List.append_assoc])
    · refine gives_f32.bind fun _ x h1 => gives_f32.bind fun _ y h2 => gives_f32.map fun _ z h3 => ?_
      subst h1 h2 h3
      exact at_eq (.rotatorF x y z (small ‹_›)) (by simp only [List.append_assoc])
  | quat =>
    simp only [readBuiltin]
    split
    · refine gives_f64.bind fun _ x h1 => gives_f64.bind fun _ y h2 => gives_f64.bind fun _ z h3 =>
        gives_f64.map fun _ w h4 => ?_
      subst h1 h2 h3 h4
      exact at_eq (.quatD x y z w (large ‹_›)) (by simp only [List.append_assoc])
    · refine gives_f32.bind fun _ x h1 => gives_f32.bind fun _ y h2 => gives_f32.bind fun _ z h3 =>
        gives_f32.map fun _ w h4 => ?_
      subst h1 h2 h3 h4
      exact at_eq (.quatF x y z w (small ‹_›)) (by simp only [List.append_assoc])
  | dateTime => exact gives_u64.map fun _ x h => by subst h; exact .dateTime x
  | timespan => exact gives_u64.map fun _ x h => by subst h; exact .timespan x
  | linearColor =>
    refine gives_f32.bind fun _ x h1 => gives_f32.bind fun _ y h2 => gives_f32.bind fun _ z h3 =>
        gives_f32.map fun _ w h4 => ?_
    subst h1 h2 h3 h4
    exact at_eq (.linearColor x y z w) (by simp only [List.append_assoc])
  | intPoint =>
    refine gives_i32.bind fun _ x h1 => gives_i32.map fun _ y h2 => ?_
    subst h1 h2
    exact .intPoint x y
  | guid => exact gives_guid.map fun _ x h => by subst h; exact .guid x
  | gameplayTagContainer =>
    simp only [readBuiltin]
    have e : ∀ (f : Nat → R StructPropertyValue),
        (readI32 >>= fun c => capacity c >>= f) = ((readI32 >>= capacity) >>= f) := by
      intro f; exact (R.bind_assoc _ _ _).symm
    rw [e]
    refine gives_count.bind fun b n h => ?_
    obtain ⟨hn, rfl⟩ := h
    refine Gives.map (Gives.replicate (M := Seq fun b s => Str b (some s)) gives_string .nil
      (fun _ _ _ _ h1 h2 => .cons h1 h2) n) ?_
    rintro b ts ⟨rfl, hs⟩
    exact .tags hs hn

/-! ## Values with properties in them -/

/-- The recursive calls follow the grammar. -/
structure RecGives (env : Env) (rec : String → Bool → Option UInt32 → R Property) : Prop where
  full : ∀ st ty sug, Gives st (rec ty true sug) (Full env st ty)
  bare : ∀ st ty sug, Gives st (rec ty false sug) (Bare env st ty sug)

section

variable {rec : String → Bool → Option UInt32 → R Property} (hr : RecGives env rec)
include hr

theorem named_fields {s s' : RS} {es : List (String × Property)} (h : Named rec s es s') :
    ∃ b, s.rest = b ++ s'.rest ∧ s'.pos = s.pos + b.length ∧ s'.stack = s.stack ∧
      Fields env s.stack b es := by
  induction h with
  | @done s s' h =>
    obtain ⟨rest, pos, st⟩ := s
    obtain ⟨b, r', rfl, rfl, hb⟩ := gives_string _ _ _ _ h
    exact ⟨b, rfl, rfl, rfl, .done hb⟩
  | @entry s s1 s2 s3 s' name ty p es h1 hne h2 h3 _ ih =>
    obtain ⟨rest, pos, st⟩ := s
    obtain ⟨b1, r1, rfl, rfl, hb1⟩ := gives_string _ _ _ _ h1
    obtain ⟨b2, r2, rfl, rfl, hb2⟩ := gives_string _ _ _ _ h2
    obtain ⟨b3, r3, rfl, rfl, hb3⟩ := (hr.full (st ++ [name]) ty none).withEntry _ _ _ _ h3
    obtain ⟨b, e1, e2, e3, hb⟩ := ih
    simp only at e1 e2 e3 hb
    refine ⟨b1 ++ b2 ++ b3 ++ b, by simp [e1], ?_, e3, .entry hb1 hne hb2 hb3 hb⟩
    rw [e2]; simp; omega

theorem gives_custom (n : Nat) : Gives st (readCustom env.debug rec n [])
    (fun b fs => ∃ es, Fields env st b es ∧ Grouped es fs ∧
      (env.debug = true → IndicesMatch es)) := by
  intro rest pos fs s' h
  obtain ⟨es, h1, h2, h3⟩ := C38_fields_kept _ _ _ _ _ _ h
  obtain ⟨b, e1, e2, e3, hb⟩ := named_fields hr h1
  obtain ⟨r', p', st'⟩ := s'
  simp only at e1 e2 e3 hb
  exact ⟨b, r', e1, by rw [e2, e3], es, hb, h2, h3⟩

theorem gives_structBody (n : Nat) (ty : String) :
    Gives st (readStructBody env n rec ty) (StructBody env st ty) := by
  unfold readStructBody
  split
  · rename_i k hk
    rw [← structKind_some hk]
    exact (gives_builtin env.cv k).mono fun b v h => .builtin h
  · rename_i hk
    refine (gives_custom hr n).map fun b fs h => ?_
    obtain ⟨es, h1, h2, h3⟩ := h
    exact .custom (structKind_none_iff.mp hk) h1 h2 h3

theorem bares_of {ty : String} {sug : Option UInt32} (n : Nat) :
    Gives st (R.replicate (rec ty false sug) n)
      (fun b ps => ps.length = n ∧ Bares env st ty sug b ps) :=
  Gives.replicate (hr.bare st ty sug) .nil (fun _ _ _ _ => .cons) n

omit hr in
theorem bares_sug {ty : String} {sug sug' : Option UInt32} {b : Bytes} {ps : List Property}
    (h : Bares env st ty sug b ps) (he : 0 < ps.length → sug = sug') :
    Bares env st ty sug' b ps := by
  cases ps with
  | nil => cases h; exact .nil
  | cons p ps => rw [← he (by simp)]; exact h

omit hr in
theorem arraySuggested_eq {l c : Nat} (hl : 4 + l < 2 ^ 32) (hc : c < 2 ^ 32) (h0 : 0 < c) :
    arraySuggested (UInt32.ofNat (4 + l)) (UInt32.ofNat c) = suggestion l c := by
  have h1 := u32_ofNat_toNat hl
  have h2 := u32_ofNat_toNat hc
  have h4 : (4 : UInt32).toNat = 4 := rfl
  unfold arraySuggested suggestion
  rw [if_pos ⟨UInt32.lt_iff_toNat_lt.mpr (by rw [h2]; exact h0),
    UInt32.le_iff_toNat_le.mpr (by rw [h1, h4]; omega)⟩]
  congr 1
  apply UInt32.toNat_inj.mp
  rw [UInt32.toNat_div, UInt32.toNat_sub_of_le _ _ (UInt32.le_iff_toNat_le.mpr (by rw [h1, h4]; omega)),
    h1, h2, h4, u32_ofNat_toNat (by have := Nat.div_le_self l c; omega)]
  congr 1
  omega

omit hr in
theorem setSuggested_eq {l c : Nat} (hl : 8 + l < 2 ^ 32) (hc : c < 2 ^ 32) :
    some ((UInt32.ofNat (8 + l) - 8) / UInt32.ofNat c) = suggestion l c := by
  have h1 := u32_ofNat_toNat hl
  have h2 := u32_ofNat_toNat hc
  have h4 : (8 : UInt32).toNat = 8 := rfl
  unfold suggestion
  congr 1
  apply UInt32.toNat_inj.mp
  rw [UInt32.toNat_div, UInt32.toNat_sub_of_le _ _ (UInt32.le_iff_toNat_le.mpr (by rw [h1, h4]; omega)),
    h1, h2, h4, u32_ofNat_toNat (by have := Nat.div_le_self l c; omega)]
  congr 1
  omega

omit hr in
theorem gives_structInfo : Gives st readStructInfo (fun b x => ∃ f t s,
    Str f (some x.1) ∧ Str t (some "StructProperty") ∧ Str s (some x.2.2.1) ∧
    b = f ++ t ++ u64B x.2.1 ++ s ++ guidB x.2.2.2 ++ [0]) := by
  unfold readStructInfo
  refine gives_string.bind fun f _ h1 => gives_string.bind fun t inner h2 =>
    (Gives.ensure fun _ _ _ => R.panic_ne).bind fun b0 _ h3 => gives_u64.bind fun b4 _ h4 =>
    gives_string.bind fun s _ h5 => gives_guid.bind fun b6 _ h6 =>
    gives_terminator.map fun b7 _ h7 => ?_
  obtain ⟨rfl, rfl⟩ := h3
  subst h4 h6 h7
  exact ⟨f, t, s, h1, h2, h5, by simp only [List.append_assoc, List.nil_append]⟩

theorem gives_structs (n : Nat) (c : UInt32) : Gives st (do
      let (field, size, sty, guid) ← readStructInfo
      let start ← R.position
      let vs ← R.replicate (readStructBody env n rec sty) c.toNat
      let stop ← R.position
      R.ensure (stop - start = size.toNat)
        (do R.fail (.invalidProperty s!"{stop - start} != {size.toNat}" (← R.position)))
      R.lift (ArrayProperty.new "StructProperty" (some (field, sty, guid))
        (vs.map Property.structValue)))
    (fun b a => ∃ f t s b' field ty g vs, Str f (some field) ∧ Str t (some "StructProperty") ∧
      Str s (some ty) ∧ vs.length = c.toNat ∧ StructBodies env st ty b' vs ∧
      b = f ++ t ++ u64B (UInt64.ofNat b'.length) ++ s ++ guidB g ++ [0] ++ b' ∧
      a = .structs field ty g vs) := by
  intro rest pos a s' hm
  rbind hm => info s1 h1
  obtain ⟨field, size, sty, guid⟩ := info
  obtain ⟨b1, r1, rfl, rfl, f, t, s, hf, ht, hs, hb1⟩ := gives_structInfo _ _ _ _ h1
  simp only at hm hf ht hs hb1
  rbind hm => start s2 h2
  obtain ⟨rfl, rfl⟩ := R.position_inv h2
  rbind hm => vs s3 h3
  obtain ⟨b3, r3, rfl, rfl, hl, hv⟩ := (Gives.replicate (M := StructBodies env st sty)
    (gives_structBody hr n sty) .nil (fun _ _ _ _ => .cons) c.toNat) _ _ _ _ h3
  rbind hm => stop s4 h4
  obtain ⟨rfl, rfl⟩ := R.position_inv h4
  rbind hm => u s5 h5
  obtain ⟨hc, rfl⟩ := R.ensure_inv (fun _ _ _ => R.failPos_ne) h5
  rw [array_new_structs] at hm
  obtain ⟨rfl, rfl⟩ := R.rpure_inv (show (R.pure _ : R ArrayProperty) _ = _ from hm)
  simp only at hc
  have hsz : size = UInt64.ofNat b3.length := by
    apply UInt64.toNat_inj.mp
    rw [u64_ofNat_toNat (by have := size.toNat_lt; omega)]
    omega
  subst hsz
  refine ⟨b1 ++ b3, r3, by simp, by simp [Nat.add_assoc], f, t, s, b3, field, sty, guid, vs, hf, ht,
    hs, hl, hv, ?_, rfl⟩
  rw [hb1]

omit hr in
/-- The body of an array, given its declared length. -/
def ArrayBody (env : Env) (st : List String) (len : UInt32) (ty : String) (b : Bytes)
    (a : ArrayProperty) : Prop :=
      (ty = "StructProperty" ∧ ∃ f t s b' field sty g vs, Str f (some field) ∧
        Str t (some "StructProperty") ∧ Str s (some sty) ∧ vs.length < 2 ^ 32 ∧
        StructBodies env st sty b' vs ∧
        b = u32B (UInt32.ofNat vs.length) ++ f ++ t ++ u64B (UInt64.ofNat b'.length) ++ s ++
          guidB g ++ [0] ++ b' ∧
        a = .structs field sty g vs) ∨
      (ty ≠ "StructProperty" ∧ ∃ b' ps, ps.length < 2 ^ 32 ∧
        Bares env st ty (arraySuggested len (UInt32.ofNat ps.length)) b' ps ∧ ArrayOf ty ps a ∧
        b = u32B (UInt32.ofNat ps.length) ++ b')

theorem gives_arrayBody (n : Nat) (len : UInt32) (ty : String) :
    Gives st (readArrayBody env n rec len ty) (ArrayBody env st len ty) := by
  unfold readArrayBody
  refine gives_u32.bind fun b0 c e0 => ?_
  subst e0
  split
  · rename_i e
    subst e
    refine (gives_structs hr n c).mono ?_
    rintro b a ⟨f, t, s, b', field, sty, g, vs, h1, h2, h3, h4, h5, rfl, h7⟩
    refine .inl ⟨rfl, f, t, s, b', field, sty, g, vs, h1, h2, h3, ?_, h5, ?_, h7⟩
    · rw [h4]; exact c.toNat_lt
    · rw [h4, UInt32.ofNat_toNat]; simp only [List.append_assoc]
  · rename_i hne
    refine (bares_of hr c.toNat).bind fun b' ps h => ?_
    obtain ⟨hl, hb⟩ := h
    intro rest pos a s' hm
    cases ha : ArrayProperty.new ty none ps with
    | bad e => rw [ha] at hm; simp [R.lift] at hm
    | ok x =>
      rw [ha] at hm
      obtain ⟨rfl, rfl⟩ := R.rpure_inv (show (R.pure _ : R ArrayProperty) _ = _ from hm)
      refine ⟨[], rest, rfl, rfl, .inr ⟨hne, b', ps, by rw [hl]; exact c.toNat_lt, ?_,
        (array_new_iff _ _ _).mp ha, ?_⟩⟩
      · rw [hl, UInt32.ofNat_toNat]; exact hb
      · rw [hl, UInt32.ofNat_toNat, List.append_nil]

theorem gives_setElems (len : UInt32) (ty : String) (c : UInt32) :
    Gives st (readSetElems env.debug rec len ty c) (fun b ps => ps.length = c.toNat ∧
      Bares env st ty (some ((len - 8) / c)) b ps) := by
  unfold readSetElems
  split
  · have : Gives st (subU32 env.debug len 8) (fun b n => b = [] ∧ n = len - 8) := by
      unfold subU32
      split
      · exact Gives.panic
      · exact Gives.pure ⟨rfl, rfl⟩
    refine this.bind fun b0 n h0 => ?_
    obtain ⟨rfl, rfl⟩ := h0
    exact bares_of hr c.toNat
  · rename_i h
    have : c.toNat = 0 := by
      have h' : ¬ (0 : UInt32).toNat < c.toNat := fun hh => h (UInt32.lt_iff_toNat_lt.mpr hh)
      have : (0 : UInt32).toNat = 0 := rfl
      omega
    exact Gives.pure ⟨by simp [this], .nil⟩

theorem gives_setBody (len : UInt32) (ty : String) :
    Gives st (readSetBody env.debug rec len ty) (fun b p => ∃ fl b' ps, ps.length < 2 ^ 32 ∧
      Bares env st ty (some ((len - 8) / UInt32.ofNat ps.length)) b' ps ∧
      b = u32B fl ++ u32B (UInt32.ofNat ps.length) ++ b' ∧ p = .set ty fl ps) := by
  unfold readSetBody
  refine gives_u32.bind fun b0 fl e0 => gives_u32.bind fun b1 c e1 =>
    (gives_setElems hr len ty c).map fun b' ps h => ?_
  subst e0 e1
  obtain ⟨hl, hb⟩ := h
  refine ⟨fl, b', ps, by rw [hl]; exact c.toNat_lt, ?_, ?_, rfl⟩
  · rw [hl, UInt32.ofNat_toNat]; exact hb
  · rw [hl, UInt32.ofNat_toNat, List.append_assoc]

theorem gives_mapBody (kt vt : String) :
    Gives st (readMapBody rec kt vt) (fun b p => ∃ fl b' es m mp, es.length < 2 ^ 32 ∧
      Entries env st kt vt b' es ∧ LastWins sameKey es m ∧ MapOf kt vt fl m mp ∧
      b = u32B fl ++ u32B (UInt32.ofNat es.length) ++ b' ∧ p = .map mp) := by
  unfold readMapBody
  refine gives_u32.bind fun b0 fl e0 => gives_u32.bind fun b1 c e1 =>
    Gives.map (Gives.replicate (M := Entries env st kt vt) (L := fun b e => ∃ b1 b2,
      Bare env (st ++ ["Key"]) kt none b1 e.1 ∧ Bare env (st ++ ["Value"]) vt none b2 e.2 ∧
      b = b1 ++ b2) ?_ .nil ?_ c.toNat) ?_
  · unfold readMapEntry
    exact (hr.bare _ kt none).withEntry.bind fun b1 k h1 =>
      (hr.bare _ vt none).withEntry.map fun b2 v h2 => ⟨b1, b2, h1, h2, rfl⟩
  · rintro b ⟨k, v⟩ bs es ⟨b1, b2, h1, h2, rfl⟩ hs
    exact .cons h1 h2 hs
  · rintro b es ⟨hl, hs⟩
    subst e0 e1
    have hw := lastWins_imExtend sameKey_equiv es
    refine ⟨fl, b, es, _, _, by rw [hl]; exact c.toNat_lt, hs, hw, (map_new_iff _ _ _ _ _ ?_).mp rfl,
      by rw [hl, UInt32.ofNat_toNat, List.append_assoc], rfl⟩
    rw [hw.keys]
    exact firsts_pairwise _

/-! ## Properties -/

/-- A value of a given kind, with its header, whatever the suggested length. -/
theorem gives_kind_full (n : Nat) (sug : Option UInt32) (k : Kind) :
    Gives (st ++ [k.typeName]) (readKind env n rec true sug k) (Full env st k.typeName) := by
  have num : ∀ {α : Type} {m : R α} {size : Nat} {enc : α → Bytes} {mk : α → Property}
      {ty : String} {st' : List String}, Gives st' m (fun b a => b = enc a) → size < 2 ^ 64 →
      (∀ a, (enc a).length = size) → (∀ a, Number ty (enc a) (mk a)) →
      Gives st' (readFixed true size m >>= fun a => Pure.pure (mk a)) (Full env st ty) := by
    intro α m size enc mk ty st' h hn hl hk
    refine (gives_fixed h hn hl).map fun b a e => ?_
    subst e
    exact .number (hk a)
  have plain : ∀ {α : Type} {m : R α} {L : Bytes → α → Prop} {mk : α → Property}
      {ty : String} {st' : List String}, Gives st' m L → (∀ b a, L b a → Plain env.cv ty b (mk a)) →
      Gives st' (readPlain true m >>= fun a => Pure.pure (mk a)) (Full env st ty) := by
    intro α m L mk ty st' h hk
    refine (gives_plain h).map fun b a e => ?_
    obtain ⟨bs, hL, hl, rfl⟩ := e
    exact .plain (hk _ _ hL) hl
  cases k with
  | int8 => exact num gives_i8 (by decide) (by simp) .int8
  | int16 => exact num gives_i16 (by decide) (by simp) .int16
  | uint16 => exact num gives_u16 (by decide) (by simp) .uint16
  | int => exact num gives_i32 (by decide) (by simp) .int
  | uint32 => exact num gives_u32 (by decide) (by simp) .uint32
  | int64 => exact num gives_i64 (by decide) (by simp) .int64
  | uint64 => exact num gives_u64 (by decide) (by simp) .uint64
  | float => exact num gives_f32 (by decide) (by simp) .float
  | double => exact num gives_f64 (by decide) (by simp) .double
  | bool =>
    simp only [readKind, readBoolProperty, R.onlyIf, if_true]
    refine Gives.map (L := fun b a => b = u64B 0 ++ [if a then 1 else 0] ++ [0]) ?_ ?_
    · refine (gives_checkSize (by decide)).bind fun b0 _ e0 => gives_bool.bind fun b1 v e1 =>
        gives_separator.map fun b2 _ e2 => ?_
      subst e0 e1 e2
      simp only [List.append_assoc]; rfl
    · intro b a e; subst e; exact .bool a
  | byte =>
    simp only [readKind, readByteProperty, if_true]
    refine gives_u32.bind fun b0 len e0 => gives_assertedIndex.bind fun b1 _ e1 =>
      gives_string.bind fun b2 name h2 => gives_separator.bind fun b3 _ e3 =>
      (gives_byteLength (some len)).bind fun b4 n' h4 => ?_
    obtain ⟨rfl, hd, rfl⟩ := h4
    refine (gives_byteValue len).map fun b5 v h5 => ?_
    subst e0 e1 e3
    exact at_eq (.byte len h2 (fun h he => hd h (by rw [he])) h5)
      (by simp only [List.append_assoc, List.nil_append])
  | enum =>
    simp only [readKind, readEnumProperty, if_true]
    refine (gives_header (Q := fun _ ty b p => ∃ v, Str b (some v) ∧ p = .enum (some ty) v)
      gives_string fun len p a h => gives_string.map fun b v hv => ⟨v, hv, rfl⟩).mono ?_
    rintro b r ⟨parts, ty, bs, h1, ⟨v, h2, rfl⟩, hl, rfl⟩
    exact .enum h1 h2
  | str => exact plain gives_fstring fun _ _ => .str
  | text => exact plain (gives_text n) fun _ _ => .text
  | object => exact plain gives_string fun _ _ => .object
  | delegate => exact plain gives_delegate fun _ _ => .delegate
  | multicastInlineDelegate => exact plain gives_multicast fun _ _ => .inlined
  | multicastSparseDelegate => exact plain gives_multicast fun _ _ => .sparse
  | fieldPath =>
    refine plain gives_fieldPath ?_
    rintro b ⟨path, o⟩ ⟨b1, b2, h1, h2, rfl⟩
    exact .fieldPath h1 h2
  | name =>
    simp only [readKind, readNameProperty, if_true]
    refine gives_u32.bind fun b0 len e0 => gives_u32.bind fun b1 idx e1 =>
      gives_terminator.bind fun b2 _ e2 => (gives_sized (gives_fstring.map
        (M := fun b p => ∃ s, Str b s ∧ p = .name idx s) fun b s hs => ⟨s, hs, rfl⟩)).mono ?_
    rintro b p ⟨⟨s, hs, rfl⟩, hl⟩
    subst e0 e1 e2
    refine at_eq (.name idx hs) ?_
    rw [hl, UInt32.ofNat_toNat]
    simp only [List.append_assoc]
  | struct =>
    simp only [readKind, readStructProperty, if_true]
    refine (gives_header (P := fun b x => ∃ t, Str t (some x.1) ∧ b = t ++ guidB x.2)
      (Q := fun _ x b p => ∃ v, StructBody env (st ++ ["StructProperty"]) x.1 b v ∧
        p = .struct x.2 x.1 v) ?_ ?_).mono ?_
    · exact gives_string.bind fun t ty h1 => gives_guid.map fun b g h2 => ⟨t, h1, by rw [h2]⟩
    · exact fun _ _ x _ => (gives_structBody hr n x.1).map fun b v hv => ⟨v, hv, rfl⟩
    · rintro b r ⟨parts, ⟨ty, g⟩, bs, ⟨t, h1, rfl⟩, ⟨v, h2, rfl⟩, hl, rfl⟩
      exact .struct g h1 h2 hl
  | array =>
    simp only [readKind, readArrayProperty, if_true]
    refine (gives_header (Q := fun len ty b p => ∃ a, p = .array a ∧
        ArrayBody env (st ++ ["ArrayProperty"]) len ty b a) gives_string
      fun len _ ty _ => (gives_arrayBody hr n len ty).map fun b a ha => ⟨a, rfl, ha⟩).mono ?_
    rintro b r ⟨parts, ty, bs, h1, ⟨a, rfl, h2⟩, hl, rfl⟩
    rcases h2 with ⟨rfl, f, t, s, b', field, sty, g, vs, h3, h4, h5, h6, h7, rfl, rfl⟩ |
      ⟨hne, b', ps, h3, h4, h5, rfl⟩
    · refine .structs g h1 h6 h3 h4 h5 h7 ?_
      simp only [List.length_append, u32B_length, u64B_length, guidB_length, List.length_cons,
        List.length_nil] at hl ⊢
      omega
    · simp only [List.length_append, u32B_length] at hl h4
      refine .array h1 hne h3 (bares_sug h4 fun h0 => ?_) h5 hl
      exact arraySuggested_eq hl h3 h0
  | set =>
    simp only [readKind, readSetProperty, if_true]
    refine (gives_header gives_string fun len _ ty _ => gives_setBody hr len ty).mono ?_
    rintro b r ⟨parts, ty, bs, h1, ⟨fl, b', ps, h2, h3, rfl, rfl⟩, hl, rfl⟩
    simp only [List.length_append, u32B_length] at hl h3
    refine .set fl h1 h2 (bares_sug h3 fun _ => ?_) (by omega)
    rw [show 4 + 4 + b'.length = 8 + b'.length by omega]
    exact setSuggested_eq (by omega) h2
  | map =>
    simp only [readKind, readMapProperty, if_true]
    refine (gives_header (P := fun b x => ∃ k v, Str k (some x.1) ∧ Str v (some x.2) ∧ b = k ++ v)
      (Q := fun _ x => _) ?_ fun len _ x _ => gives_mapBody hr x.1 x.2).mono ?_
    · exact gives_string.bind fun k _ h1 => gives_string.map fun v _ h2 => ⟨k, v, h1, h2, rfl⟩
    · rintro b r ⟨parts, ⟨kt, vt⟩, bs, ⟨k, v, h1, h2, rfl⟩,
        ⟨fl, b', es, m, mp, h3, h4, h5, h6, rfl, rfl⟩, hl, rfl⟩
      simp only [List.length_append, u32B_length] at hl
      exact .map fl h1 h2 h3 h4 h5 h6 (by omega)

theorem gives_kind_bare (n : Nat) (sug : Option UInt32) (k : Kind) :
    Gives (st ++ [k.typeName]) (readKind env n rec false sug k) (Bare env st k.typeName sug) := by
  have num : ∀ {α : Type} {m : R α} {size : Nat} {enc : α → Bytes} {mk : α → Property}
      {ty : String} {st' : List String}, Gives st' m (fun b a => b = enc a) →
      (∀ a, Number ty (enc a) (mk a)) →
      Gives st' (readFixed false size m >>= fun a => Pure.pure (mk a)) (Bare env st ty sug) := by
    intro α m size enc mk ty st' h hk
    refine (gives_fixed_bare h).map fun b a e => ?_
    subst e
    exact .number (hk a)
  have plain : ∀ {α : Type} {m : R α} {L : Bytes → α → Prop} {mk : α → Property}
      {ty : String} {st' : List String}, Gives st' m L → (∀ b a, L b a → Plain env.cv ty b (mk a)) →
      Gives st' (readPlain false m >>= fun a => Pure.pure (mk a)) (Bare env st ty sug) := by
    intro α m L mk ty st' h hk
    exact Gives.map (L := L) h fun b a e => .plain (hk _ _ e)
  cases k with
  | int8 => exact num gives_i8 .int8
  | int16 => exact num gives_i16 .int16
  | uint16 => exact num gives_u16 .uint16
  | int => exact num gives_i32 .int
  | uint32 => exact num gives_u32 .uint32
  | int64 => exact num gives_i64 .int64
  | uint64 => exact num gives_u64 .uint64
  | float => exact num gives_f32 .float
  | double => exact num gives_f64 .double
  | bool =>
    refine Gives.map (L := fun b a => b = [if a then 1 else 0]) ?_ ?_
    · exact gives_bool.bind fun b1 v e1 => Gives.pure (by simpa using e1)
    · intro b a e; subst e; exact .bool a
  | byte =>
    simp only [readKind, readByteProperty]
    rw [if_neg (by simp)]
    refine (gives_byteLength sug).bind fun b4 n' h4 => ?_
    obtain ⟨rfl, hd, rfl⟩ := h4
    exact (gives_byteValue _).map fun b5 v h5 => .byte hd h5
  | enum => exact gives_string.map fun b v hv => .enum hv
  | str => exact plain gives_fstring fun _ _ => .str
  | text => exact plain (gives_text n) fun _ _ => .text
  | object => exact plain gives_string fun _ _ => .object
  | delegate => exact plain gives_delegate fun _ _ => .delegate
  | multicastInlineDelegate => exact plain gives_multicast fun _ _ => .inlined
  | multicastSparseDelegate => exact plain gives_multicast fun _ _ => .sparse
  | fieldPath =>
    refine plain gives_fieldPath ?_
    rintro b ⟨path, o⟩ ⟨b1, b2, h1, h2, rfl⟩
    exact .fieldPath h1 h2
  | name => exact gives_fstring.map fun b v hv => .name hv
  | struct =>
    simp only [readKind, readStructProperty]
    rw [if_neg (by simp)]
    refine (Gives.getStack (L := fun b x => b = [] ∧ x = st ++ ["StructProperty"])
      ⟨rfl, rfl⟩).bind fun b0 path h0 => ?_
    obtain ⟨rfl, rfl⟩ := h0
    split
    · rename_i hint hh
      exact (gives_structBody hr n hint).map fun b v hv => .struct hh hv
    · exact Gives.failPos
  | array => exact Gives.failPos
  | set => exact Gives.failPos
  | map => exact Gives.failPos

theorem gives_step (n : Nat) : RecGives env (Property.readStep env n rec) := by
  constructor
  · intro st ty sug
    refine Gives.withEntry ?_
    split
    · rename_i k hk
      rw [← kind_some hk]
      exact gives_kind_full hr n sug k
    · rename_i hk
      simp only [readUnknown, if_true]
      refine gives_u32.bind fun b0 len e0 => gives_assertedIndex.bind fun b1 _ e1 =>
        gives_separator.bind fun b2 _ e2 => Gives.take.map fun b a h => ?_
      obtain ⟨rfl, hl⟩ := h
      subst e0 e1 e2
      refine at_eq (.unknown b (kind_none_iff.mp hk) (by rw [hl]; exact len.toNat_lt)) ?_
      rw [sized, hl, UInt32.ofNat_toNat]
      simp only [List.append_assoc, List.nil_append]
  · intro st ty sug
    refine Gives.withEntry ?_
    split
    · rename_i k hk
      rw [← kind_some hk]
      exact gives_kind_bare hr n sug k
    · rename_i hk
      simp only [readUnknown]
      rw [if_neg (by simp)]
      cases sug with
      | none => exact Gives.failPos
      | some m =>
        refine Gives.take.map fun b a h => ?_
        obtain ⟨rfl, hl⟩ := h
        exact .unknown m b (kind_none_iff.mp hk) hl

end

theorem gives_property (env : Env) (n : Nat) : RecGives env (Property.read env n) := by
  induction n with
  | zero => exact ⟨fun _ _ _ => Gives.outOfFuel, fun _ _ _ => Gives.outOfFuel⟩
  | succ n ih => exact gives_step ih (n + 1)

end Gvas
