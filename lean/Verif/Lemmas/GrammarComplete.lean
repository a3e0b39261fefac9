import Verif.Lemmas.GrammarSound

/-! # What follows the grammar is read -/

namespace Gvas

open Spec Format

variable {env : Env} {st : List String}

theorem grouped_unique {es : List (String × Property)} {fs fs' : List (String × List Property)}
    (h : Grouped es fs) (h' : Grouped es fs') : fs = fs' := by
  have key : ∀ fs : List (String × List Property), Grouped es fs →
      fs = (firsts (· == ·) (es.map Prod.fst)).map
        fun k => (k, (es.filter (·.1 == k)).map Prod.snd) := by
    intro fs h
    rw [← h.keys, List.map_map]
    symm
    rw [List.map_congr_left , List.map_id]
    rintro ⟨k, ps⟩ hm
    simp only [Function.comp_apply, id_eq, ← h.values k ps hm]
  rw [key fs h, key fs' h']

theorem str_length {b : Bytes} {r : Option String} (h : Str b r) : b.length < 2 ^ 32 := by
  cases h with
  | null => simp
  | narrow t n hl hn => simp [hl]; omega
  | wide t n hl hn =>
    have : ∀ l : List UInt16, (u16sToBytes l).length = 2 * l.length := by
      intro l
      induction l with
      | nil => rfl
      | cons x l ih => simp [u16sToBytes] at ih ⊢; omega
    simp [this, hl]; omega

theorem number_spec {ty : String} {b : Bytes} {p : Property} (h : Number ty b p) (n : Nat)
    (sug : Option UInt32) (rec : String → Bool → Option UInt32 → R Property) :
    ∃ k : Kind, k.typeName = ty ∧ b.length < 2 ^ 32 ∧ ∀ st,
      Reads st (readKind env n rec true sug k) (u64B (UInt64.ofNat b.length) ++ [0] ++ b) p ∧
      Reads st (readKind env n rec false sug k) b p := by
  have fixed : ∀ {α : Type} {m : R α} {b : Bytes} {a : α} {mk : α → Property} {st : List String}
      {size : Nat}, Reads st m b a → b.length = size → size < 2 ^ 32 →
      Reads st (readFixed true size m >>= fun a => Pure.pure (mk a))
        (u64B (UInt64.ofNat b.length) ++ [0] ++ b) (mk a) ∧
      Reads st (readFixed false size m >>= fun a => Pure.pure (mk a)) b (mk a) := by
    intro α m b a mk st size h hl hs
    refine ⟨Reads.map (Reads.congr (reads_fixed h hl hs) ?_), Reads.map (reads_fixed_bare h)⟩
    rw [u64B_ofNat (by omega)]
    simp only [List.append_assoc, List.nil_append]
  cases h with
  | int8 v => exact ⟨.int8, rfl, by simp, fun st => fixed (reads_i8 v) (by simp) (by decide)⟩
  | int16 v => exact ⟨.int16, rfl, by simp, fun st => fixed (reads_i16 v) (by simp) (by decide)⟩
  | uint16 v => exact ⟨.uint16, rfl, by simp, fun st => fixed (reads_u16 v) (by simp) (by decide)⟩
  | int v => exact ⟨.int, rfl, by simp, fun st => fixed (reads_i32 v) (by simp) (by decide)⟩
  | uint32 v => exact ⟨.uint32, rfl, by simp, fun st => fixed (reads_u32 v) (by simp) (by decide)⟩
  | int64 v => exact ⟨.int64, rfl, by simp, fun st => fixed (reads_i64 v) (by simp) (by decide)⟩
  | uint64 v => exact ⟨.uint64, rfl, by simp, fun st => fixed (reads_u64 v) (by simp) (by decide)⟩
  | float v => exact ⟨.float, rfl, by simp, fun st => fixed (reads_f32 v) (by simp) (by decide)⟩
  | double v => exact ⟨.double, rfl, by simp, fun st => fixed (reads_f64 v) (by simp) (by decide)⟩

theorem reads_boolByte (v : Bool) : Reads st readBool [if v then 1 else 0] v :=
  Reads.congr (reads_bool v) (by cases v <;> rfl)

theorem reads_byteLength_of {debug : Bool} {o : Option UInt32} (h : debug = true → o ≠ some 0) :
    Reads st (byteLength debug o) [] (o.getD 2 - 1) := by
  cases o with
  | none => exact Reads.rpure _
  | some e =>
    show Reads st (subU32 debug e 1) _ _
    unfold subU32
    rw [if_neg]
    · exact Reads.rpure _
    · rintro ⟨h1, h2⟩
      apply h h2
      have := UInt32.lt_iff_toNat_lt.mp h1
      have h0 : (1 : UInt32).toNat = 1 := rfl
      rw [UInt32.toNat_inj.mp (show e.toNat = (0 : UInt32).toNat from by
        have : (0 : UInt32).toNat = 0 := rfl
        omega)]

theorem reads_byteValue_of {n : UInt32} {b : Bytes} {v : BytePropertyValue} (h : ByteValue n b v) :
    Reads st (readByteValue (n - 1)) b v := by
  unfold readByteValue
  cases h with
  | byte x h =>
    rw [if_pos ((sub_one_iff n).mpr h)]
    exact Reads.map (Reads.congr (reads_u8 x) (u8B_eq x).symm)
  | name h1 h2 hs =>
    rw [if_neg (fun h => by rcases (sub_one_iff n).mp h with h | h <;> contradiction)]
    exact Reads.map (reads_str' hs)

theorem reads_delegate_of {b : Bytes} {d : Delegate} (h : DelegateAt b d) :
    Reads st Delegate.read b d := by
  obtain ⟨h1, h2⟩ := h
  exact (reads_str' h1).bind (Reads.map (reads_str' h2))

theorem reads_seq {α : Type} {m : R α} {L : Bytes → α → Prop} (h : ∀ b a, L b a → Reads st m b a)
    {b : Bytes} {l : List α} (hs : Seq L b l) : Reads st (R.replicate m l.length) b l := by
  induction hs with
  | nil => exact Reads.rpure _
  | cons h1 _ ih => exact cons_items (h _ _ h1) ih

theorem reads_counted_of {α : Type} {m : R α} {L : Bytes → α → Prop}
    (h : ∀ b a, L b a → Reads st m b a) {b : Bytes} {l : List α} (hs : Counted L b l) :
    Reads st (readU32 >>= fun n => R.replicate m n.toNat) b l := by
  obtain ⟨h1, h2⟩ := hs
  refine (reads_u32 _).bind ?_
  rw [u32_ofNat_toNat h2]
  exact reads_seq h h1

/-- A value stored alike with and without a header. -/
theorem plain_spec {ty : String} {b : Bytes} {p : Property} (h : Plain env.cv ty b p)
    (sug : Option UInt32) (st : List String) :
    ∃ k : Kind, k.typeName = ty ∧ Eventually fun n =>
      Reads st (readKind env (n + 1) (Property.read env n) false sug k) b p ∧
      (b.length < 2 ^ 32 →
        Reads st (readKind env (n + 1) (Property.read env n) true sug k) (sized [] b) p) := by
  have plain : ∀ {α : Type} {m : R α} {a : α} {mk : α → Property}, Reads st m b a →
      Reads st (readPlain false m >>= fun a => Pure.pure (mk a)) b (mk a) ∧
      (b.length < 2 ^ 32 →
        Reads st (readPlain true m >>= fun a => Pure.pure (mk a)) (sized [] b) (mk a)) :=
    fun h => ⟨Reads.map h, fun hl => Reads.map (reads_plain h hl)⟩
  cases h with
  | str h => exact ⟨.str, rfl, .of fun n => plain (reads_str h)⟩
  | text h =>
    refine ⟨.text, rfl, ?_⟩
    obtain ⟨n0, hn⟩ := reads_text_of (st := st) h
    exact ⟨n0, fun n hle => plain (hn (n + 1) (by omega))⟩
  | object h => exact ⟨.object, rfl, .of fun n => plain (reads_str' h)⟩
  | delegate h => exact ⟨.delegate, rfl, .of fun n => plain (reads_delegate_of h)⟩
  | inlined h => exact ⟨.multicastInlineDelegate, rfl, .of fun n =>
      plain (reads_counted_of (fun _ _ => reads_delegate_of) h)⟩
  | sparse h => exact ⟨.multicastSparseDelegate, rfl, .of fun n =>
      plain (reads_counted_of (fun _ _ => reads_delegate_of) h)⟩
  | fieldPath h1 h2 =>
    refine ⟨.fieldPath, rfl, .of fun n => plain ?_⟩
    rw [show FieldPath.read = ((readU32 >>= fun n => R.replicate readString n.toNat) >>= fun path =>
      readString >>= fun o => Pure.pure ⟨path, o⟩) from (R.bind_assoc _ _ _).symm]
    exact (reads_counted_of (fun _ _ => reads_str') h1).bind (Reads.map (reads_str' h2))

theorem builtin_spec {cv : List (Guid × UInt32)} {ty : String} {b : Bytes} {v : StructPropertyValue}
    (h : Builtin cv ty b v) : ∃ k : StructKind, k.typeName = ty ∧ Reads st (readBuiltin cv k) b v := by
  cases h with
  | vectorF x y z h =>
    refine ⟨.vector, rfl, ?_⟩
    simp only [readBuiltin]
    rw [if_neg (fun h' => h (largeWorld_iff.mpr h')), List.append_assoc]
    exact (reads_f32 x).bind ((reads_f32 y).bind (Reads.map (reads_f32 z)))
  | vectorD x y z h =>
    refine ⟨.vector, rfl, ?_⟩
    simp only [readBuiltin]
    rw [if_pos (largeWorld_iff.mp h), List.append_assoc]
    exact (reads_f64 x).bind ((reads_f64 y).bind (Reads.map (reads_f64 z)))
  | vector2F x y h =>
    refine ⟨.vector2D, rfl, ?_⟩
    simp only [readBuiltin]
    rw [if_neg (fun h' => h (largeWorld_iff.mpr h'))]
    exact (reads_f32 x).bind (Reads.map (reads_f32 y))
  | vector2D x y h =>
    refine ⟨.vector2D, rfl, ?_⟩
    simp only [readBuiltin]
    rw [if_pos (largeWorld_iff.mp h)]
    exact (reads_f64 x).bind (Reads.map (reads_f64 y))
  | rotatorF x y z h =>
    refine ⟨.rotator, rfl, ?_⟩
    simp only [readBuiltin]
    rw [if_neg (fun h' => h (largeWorld_iff.mpr h')), List.append_assoc]
    exact (reads_f32 x).bind ((reads_f32 y).bind (Reads.map (reads_f32 z)))
  | rotatorD x y z h =>
    refine ⟨.rotator, rfl, ?_⟩
    simp only [readBuiltin]
    rw [if_pos (largeWorld_iff.mp h), List.append_assoc]
    exact (reads_f64 x).bind ((reads_f64 y).bind (Reads.map (reads_f64 z)))
  | quatF x y z w h =>
    refine ⟨.quat, rfl, ?_⟩
    simp only [readBuiltin]
    rw [if_neg (fun h' => h (largeWorld_iff.mpr h')), List.append_assoc, List.append_assoc]
    exact (reads_f32 x).bind ((reads_f32 y).bind ((reads_f32 z).bind
      (Reads.map (reads_f32 w))))
  | quatD x y z w h =>
    refine ⟨.quat, rfl, ?_⟩
    simp only [readBuiltin]
    rw [if_pos (largeWorld_iff.mp h), List.append_assoc, List.append_assoc]
    exact (reads_f64 x).bind ((reads_f64 y).bind ((reads_f64 z).bind
      (Reads.map (reads_f64 w))))
  | dateTime t => exact ⟨.dateTime, rfl, Reads.map (reads_u64 t)⟩
  | timespan t => exact ⟨.timespan, rfl, Reads.map (reads_u64 t)⟩
  | linearColor x y z w =>
    refine ⟨.linearColor, rfl, ?_⟩
    rw [List.append_assoc, List.append_assoc]
    exact (reads_f32 x).bind ((reads_f32 y).bind ((reads_f32 z).bind
      (Reads.map (reads_f32 w))))
  | intPoint x y =>
    exact ⟨.intPoint, rfl, (reads_i32 x).bind (Reads.map (reads_i32 y))⟩
  | guid g => exact ⟨.guid, rfl, Reads.map (reads_guid g)⟩
  | tags hs hl =>
    exact ⟨.gameplayTagContainer, rfl, reads_count hl
      (Reads.map (reads_seq (fun _ _ => reads_str') hs))⟩

theorem reads_of_kind {n : Nat} {k : Kind} {ty : String} {hdr : Bool} {sug : Option UInt32}
    {b : Bytes} {p : Property} (hk : k.typeName = ty)
    (h : Reads (st ++ [ty]) (readKind env (n + 1) (Property.read env n) hdr sug k) b p) :
    Reads st (Property.read env (n + 1) ty hdr sug) b p := by
  subst hk
  refine Reads.withEntry ?_
  rw [kind_ofName]
  exact h

theorem reads_of_unknown {n : Nat} {ty : String} {hdr : Bool} {sug : Option UInt32}
    {b : Bytes} {p : Property} (hk : ty ∉ knownTypes)
    (h : Reads (st ++ [ty]) (readUnknown ty hdr sug) b p) :
    Reads st (Property.read env (n + 1) ty hdr sug) b p := by
  refine Reads.withEntry ?_
  rw [kind_none_iff.mpr hk]
  exact h

theorem reads_structInfo_of {f t s : Bytes} {field ty : String} {g : Guid} {size : UInt64}
    (h1 : Str f (some field)) (h2 : Str t (some "StructProperty")) (h3 : Str s (some ty)) :
    Reads st readStructInfo (f ++ t ++ u64B size ++ s ++ guidB g ++ [0]) (field, size, ty, g) := by
  unfold readStructInfo
  simp only [List.append_assoc]
  exact (reads_str' h1).bind ((reads_str' h2).bind ((Reads.ensure rfl).bind0 ((reads_u64 _).bind
    ((reads_str' h3).bind ((reads_guid g).bind
      (Reads.map reads_terminator))))))

mutual
theorem reads_full_of {st : List String} {b : Bytes} {ty : String} {p : Property} (h : Full env st ty b p) :
    Eventually fun n => Reads st (Property.read env n ty true none) b p := by
  match h with
  | .number h =>
    refine .step (.of fun n => ?_)
    obtain ⟨k, hk, _, hs⟩ := number_spec (env := env) h (n + 1) none (Property.read env n)
    exact reads_of_kind hk (hs _).1
  | .bool v =>
    refine .step (.of fun n => reads_of_kind (k := .bool) rfl ?_)
    refine Reads.map ?_
    unfold readBoolProperty R.onlyIf
    rw [if_pos rfl, if_pos rfl, List.append_assoc]
    refine Reads.bind (a := ()) ?_ ((reads_boolByte v).bind (Reads.map reads_separator))
    exact Reads.congr (reads_checkSize (by decide)) (by decide)
  | .byte n hn hd hv =>
    refine .step (.of fun m => reads_of_kind (k := .byte) rfl ?_)
    simp only [readKind, readByteProperty, if_true, List.append_assoc]
    exact (reads_u32 n).bind (reads_assertedIndex.bind ((reads_str' hn).bind (reads_separator.bind
      ((reads_byteLength_of (o := some n) (fun h he => hd h (by cases he; rfl))).bind0
        (Reads.map (reads_byteValue_of hv))))))
  | .plain h hl =>
    obtain ⟨k, hk, hs⟩ := plain_spec (env := env) h none (st ++ [ty])
    exact .step (hs.mono fun n hn => reads_of_kind hk (hn.2 hl))
  | .enum h1 h2 =>
    refine .step (.of fun n => reads_of_kind (k := .enum) rfl ?_)
    exact reads_header' (reads_str' h1) (Reads.map (reads_str' h2))
      (u32_ofNat_toNat (str_length h2)).symm
  | .name idx h =>
    refine .step (.of fun n => reads_of_kind (k := .name) rfl ?_)
    simp only [readKind, readNameProperty, if_true, List.append_assoc]
    exact (reads_u32 _).bind ((reads_u32 idx).bind (reads_terminator.bind (reads_sized
      (Reads.map (reads_str h)) (u32_ofNat_toNat (str_length h)).symm)))
  | .struct g h1 h2 hl =>
    refine .step ((reads_structBody_of h2).mono fun n hn => reads_of_kind (k := .struct) rfl ?_)
    exact reads_header' (a := (_, g))
      ((reads_str' h1).bind (Reads.map (reads_guid g)))
      (Reads.map hn) (u32_ofNat_toNat hl).symm
  | .array (ps := ps) (b := b) (ty := ty') h1 hne hl h2 h3 hb =>
    refine .step ((reads_bares_of h2).mono fun n hn => reads_of_kind (k := .array) rfl ?_)
    refine reads_header' (reads_str' h1) (Reads.map (a := _) ?_)
      (u32_ofNat_toNat (by simpa using hb)).symm
    unfold readArrayBody
    refine (reads_u32 _).bind ?_
    rw [if_neg hne, u32_ofNat_toNat hl]
    refine Reads.bind' (b2 := []) ?_ (a := ps) ?_ (List.append_nil _).symm
    · by_cases h0 : 0 < ps.length
      · rw [List.length_append, u32B_length, arraySuggested_eq hb hl h0]
        exact hn
      · have h0' : ps = [] := List.eq_nil_of_length_eq_zero (by omega)
        subst h0'
        cases h2
        exact Reads.rpure _
    · rw [(array_new_iff _ _ _).mpr h3]
      exact Reads.rpure _
  | .structs (b := b) (f := f) (t' := t') (s := s) (field := field) (ty := ty') (vs := vs)
      g h1 hl hf ht hs hv hb =>
    refine .step ((reads_structBodies_of hv).mono fun n hn => reads_of_kind (k := .array) rfl ?_)
    refine reads_header' (reads_str' h1) (Reads.map 
      (a := ArrayProperty.structs field ty' g vs) ?_) (u32_ofNat_toNat ?_).symm
    · unfold readArrayBody
      rw [show u32B (UInt32.ofNat vs.length) ++ f ++ t' ++ u64B (UInt64.ofNat b.length) ++ s ++
        guidB g ++ [0] ++ b = u32B (UInt32.ofNat vs.length) ++
          ((f ++ t' ++ u64B (UInt64.ofNat b.length) ++ s ++ guidB g ++ [0]) ++ b) by
            simp only [List.append_assoc]]
      refine (reads_u32 _).bind ?_
      rw [if_pos rfl]
      refine (reads_structInfo_of hf ht hs).bind ?_
      rw [u32_ofNat_toNat hl]
      intro rest pos
      simp only []
      rw [R.bind_ok (position_run _), R.bind_ok (hn.run rest pos), R.bind_ok (position_run _)]
      rw [R.bind_ok (a := ()) (s' := ⟨rest, pos + b.length, st ++ ["ArrayProperty"]⟩)]
      · rw [array_new_structs]; rfl
      · rw [R.ensure_true]
        · rfl
        · simp only [List.length_append] at hb
          rw [u64_ofNat_toNat (by omega)]
          simp
    · simp only [List.length_append, u32B_length, u64B_length, guidB_length, List.length_cons,
        List.length_nil] at hb ⊢
      omega
  | .set (b := b) (ty := ty') (ps := ps) fl h1 hl h2 hb =>
    refine .step ((reads_bares_of h2).mono fun n hn => reads_of_kind (k := .set) rfl ?_)
    refine reads_header' (reads_str' h1) ?_ (u32_ofNat_toNat (by
      simp only [List.length_append, u32B_length]; omega)).symm
    unfold readSetBody
    rw [List.append_assoc]
    refine (reads_u32 fl).bind ((reads_u32 _).bind (Reads.map ?_))
    unfold readSetElems
    simp only [List.length_append, u32B_length]
    rw [show 4 + (4 + b.length) = 8 + b.length by omega]
    split
    · refine (Reads.bind0 (a := UInt32.ofNat (8 + b.length) - 8) ?_ ?_)
      · unfold subU32
        rw [if_neg]
        · exact Reads.rpure _
        · rintro ⟨h, _⟩
          have := UInt32.lt_iff_toNat_lt.mp h
          rw [u32_ofNat_toNat hb, show (8 : UInt32).toNat = 8 from rfl] at this
          omega
      · rw [setSuggested_eq hb hl, u32_ofNat_toNat hl]
        exact hn
    · rename_i h0
      have h0' : ps = [] := by
        apply List.eq_nil_of_length_eq_zero
        have h' : ¬ (0 : UInt32).toNat < (UInt32.ofNat ps.length).toNat :=
          fun hh => h0 (UInt32.lt_iff_toNat_lt.mpr hh)
        rw [u32_ofNat_toNat hl, show (0 : UInt32).toNat = 0 from rfl] at h'
        omega
      subst h0'
      cases h2
      exact Reads.rpure _
  | .map (kt := kt) (vt := vt) (es := es) (mp := mp) fl h1 h2 hl h3 hw hm hb =>
    refine .step ((reads_entries_of h3).mono fun n hn => reads_of_kind (k := .map) rfl ?_)
    refine reads_header' (a := (kt, vt))
      ((reads_str' h1).bind (Reads.map (reads_str' h2))) ?_
      (u32_ofNat_toNat (by simp only [List.length_append, u32B_length]; omega)).symm
    unfold readMapBody
    rw [List.append_assoc]
    refine (reads_u32 fl).bind ((reads_u32 _).bind ?_)
    rw [u32_ofNat_toNat hl]
    have e : mp = MapProperty.new kt vt fl (imExtend sameKey [] es) := by
      rw [← lastWins_unique hw (lastWins_imExtend sameKey_equiv es)]
      exact ((map_new_iff _ _ _ _ _ (LastWins.pairwise hw)).mpr hm).symm
    rw [e]
    exact Reads.map hn
  | .unknown b hk hl =>
    refine .step (.of fun n => reads_of_unknown hk ?_)
    simp only [readUnknown, if_true, sized, List.append_assoc]
    refine (reads_u32 _).bind (reads_assertedIndex.bind ?_)
    exact reads_separator.bind (Reads.map (Reads.take (u32_ofNat_toNat hl).symm))
termination_by structural h
theorem reads_bare_of {st : List String} {b : Bytes} {ty : String} {sug : Option UInt32} {p : Property}
    (h : Bare env st ty sug b p) :
    Eventually fun n => Reads st (Property.read env n ty false sug) b p := by
  match h with
  | .number h =>
    refine .step (.of fun n => ?_)
    obtain ⟨k, hk, _, hs⟩ := number_spec (env := env) h (n + 1) sug (Property.read env n)
    exact reads_of_kind hk (hs _).2
  | .bool v =>
    refine .step (.of fun n => reads_of_kind (k := .bool) rfl ?_)
    refine Reads.map ?_
    exact (Reads.rpure ()).bind0 ((reads_boolByte v).bind' ((Reads.rpure ()).bind0 (Reads.pure v))
      (List.append_nil _).symm)
  | .byte hd hv =>
    refine .step (.of fun m => reads_of_kind (k := .byte) rfl ?_)
    simp only [readKind, readByteProperty]
    rw [if_neg (by simp)]
    exact (reads_byteLength_of hd).bind0 (Reads.map (reads_byteValue_of hv))
  | .plain h =>
    obtain ⟨k, hk, hs⟩ := plain_spec (env := env) h sug (st ++ [ty])
    exact .step (hs.mono fun n hn => reads_of_kind hk hn.1)
  | .enum h =>
    exact .step (.of fun n => reads_of_kind (k := .enum) rfl
      (Reads.map (reads_str' h)))
  | .name h =>
    exact .step (.of fun n => reads_of_kind (k := .name) rfl (Reads.map (reads_str h)))
  | .struct hh h =>
    refine .step ((reads_structBody_of h).mono fun n hn => reads_of_kind (k := .struct) rfl ?_)
    simp only [readKind, readStructProperty]
    rw [if_neg (by simp)]
    refine Reads.getStack.bind0 ?_
    simp only [hh]
    exact Reads.map hn
  | .unknown n b hk hl =>
    refine .step (.of fun m => reads_of_unknown hk ?_)
    exact Reads.map (Reads.take hl)
termination_by structural h
theorem reads_bares_of {st : List String} {b : Bytes} {ty : String} {sug : Option UInt32} {ps : List Property}
    (h : Bares env st ty sug b ps) :
    Eventually fun n => Reads st (R.replicate (Property.read env n ty false sug) ps.length) b ps := by
  match h with
  | .nil => exact .of fun n => Reads.rpure _
  | .cons h1 h2 =>
    exact ((reads_bare_of h1).and (reads_bares_of h2)).mono fun n ⟨g1, g2⟩ => cons_items g1 g2
termination_by structural h
theorem reads_entries_of {st : List String} {b : Bytes} {kt vt : String} {es : List (Property × Property)}
    (h : Entries env st kt vt b es) :
    Eventually fun n => Reads st (R.replicate (readMapEntry (Property.read env n) kt vt) es.length)
      b es := by
  match h with
  | .nil => exact .of fun n => Reads.rpure _
  | .cons h1 h2 h3 =>
    exact ((reads_bare_of h1).and ((reads_bare_of h2).and (reads_entries_of h3))).mono
      fun n ⟨g1, g2, g3⟩ => cons_items
        (g1.withEntry.bind (Reads.map g2.withEntry)) g3
termination_by structural h
theorem reads_structBody_of {st : List String} {b : Bytes} {ty : String} {v : StructPropertyValue}
    (h : StructBody env st ty b v) :
    Eventually fun n => Reads st (readStructBody env (n + 1) (Property.read env n) ty) b v := by
  match h with
  | .builtin h =>
    refine .of fun n => ?_
    obtain ⟨k, rfl, hk⟩ := builtin_spec (st := st) h
    unfold readStructBody
    rw [structKind_ofName]
    exact hk
  | .custom (es := es) hk h1 h2 h3 =>
    obtain ⟨n0, hn⟩ := reads_fields_of h1
    refine ⟨max n0 es.length, fun n hle => ?_⟩
    unfold readStructBody
    rw [structKind_none_iff.mpr hk]
    refine Reads.map ?_
    intro rest pos
    have hd : env.debug = false ∨ IndicesMatch es := by
      cases hb : env.debug with
      | false => exact .inl rfl
      | true => exact .inr (h3 hb)
    obtain ⟨fs', e, hg⟩ := (C38_fields_accepted env.debug (Property.read env n) (n + 1) _ _ es
      (hn n (by omega) rest pos) (by omega)).1 hd
    rw [grouped_unique h2 hg]
    exact e
termination_by structural h
theorem reads_structBodies_of {st : List String} {b : Bytes} {ty : String} {vs : List StructPropertyValue}
    (h : StructBodies env st ty b vs) :
    Eventually fun n => Reads st
      (R.replicate (readStructBody env (n + 1) (Property.read env n) ty) vs.length) b vs := by
  match h with
  | .nil => exact .of fun n => Reads.rpure _
  | .cons h1 h2 =>
    exact ((reads_structBody_of h1).and (reads_structBodies_of h2)).mono
      fun n ⟨g1, g2⟩ => cons_items g1 g2
termination_by structural h
theorem reads_fields_of {st : List String} {b : Bytes} {es : List (String × Property)} (h : Fields env st b es) :
    Eventually fun n => ∀ rest pos,
      Named (Property.read env n) ⟨b ++ rest, pos, st⟩ es ⟨rest, pos + b.length, st⟩ := by
  match h with
  | .done h => exact .of fun n rest pos => .done ((reads_str' h).run rest pos)
  | .entry (n := a) (t := t) (b := b) (bs := bs) h1 hne h2 h3 h4 =>
    refine ((reads_full_of h3).and (reads_fields_of h4)).mono fun n ⟨g3, g4⟩ rest pos => ?_
    have e1 := (reads_str' (st := st) h1).run (t ++ b ++ bs ++ rest) pos
    have e2 := (reads_str' (st := st) h2).run (b ++ bs ++ rest) (pos + a.length)
    have e3 := g3.withEntry.run (bs ++ rest) (pos + a.length + t.length)
    have e4 := g4 rest (pos + a.length + t.length + b.length)
    simp only [List.append_assoc, List.length_append, Nat.add_assoc] at e1 e2 e3 e4 ⊢
    exact .entry e1 hne e2 e3 e4
termination_by structural h
end

end Gvas
