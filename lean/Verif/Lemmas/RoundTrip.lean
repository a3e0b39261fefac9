import Verif.Lemmas.Parts

/-! # Reading back whole properties -/

namespace Gvas

open Spec

section
variable {env : Env}

/-- `rec` reads back properties with header that take fewer than `n` bytes. -/
def HeadRec (env : Env) (n : Nat) (rec : String → Bool → Option UInt32 → R Property) : Prop :=
  ∀ st p out, HeadOK env st p → Property.write env.cv true p = .ok out → out.bytes.length < n →
    out.bytes.length < 2 ^ 32 →
    ∃ bs, out.bytes = (writeString (typeName p)).bytes ++ bs ∧
      Reads st (rec (typeName p) true none) bs p

/-- `rec` reads back elements that take fewer than `n` bytes. -/
def BareRec (env : Env) (n : Nat) (rec : String → Bool → Option UInt32 → R Property) : Prop :=
  ∀ st ty sug p out, BareOK env st ty p → SugOK sug p → Property.write env.cv false p = .ok out →
    out.bytes.length < n → out.bytes.length < 2 ^ 32 → Reads st (rec ty false sug) out.bytes p

variable {n fuel : Nat} {rec : String → Bool → Option UInt32 → R Property} {st : List String}

/-! ## Custom structs -/

/-- The fields read so far: `acc`, and the values `d` of the field `k`. -/
def fieldState (acc : List (String × List Property)) (k : String) (d : List Property) :
    List (String × List Property) :=
  if d = [] then acc else acc ++ [(k, d)]

theorem fieldPush_fresh {acc : List (String × List Property)} {k : String} {p : Property}
    (h : k ∉ acc.map Prod.fst) : fieldPush k p acc = acc ++ [(k, [p])] := by
  induction acc with
  | nil => rfl
  | cons e acc ih =>
    obtain ⟨k', ps⟩ := e
    simp only [List.map_cons, List.mem_cons, not_or] at h
    rw [fieldPush, if_neg (by simpa using Ne.symm h.1), ih h.2]
    rfl

theorem fieldPush_last {acc : List (String × List Property)} {k : String} {p : Property}
    {d : List Property} (h : k ∉ acc.map Prod.fst) :
    fieldPush k p (acc ++ [(k, d)]) = acc ++ [(k, d ++ [p])] := by
  induction acc with
  | nil => simp [fieldPush]
  | cons e acc ih =>
    obtain ⟨k', ps⟩ := e
    simp only [List.map_cons, List.mem_cons, not_or] at h
    rw [List.cons_append, fieldPush, if_neg (by simpa using Ne.symm h.1), ih h.2]
    rfl

theorem fieldPush_state {acc : List (String × List Property)} {k : String} {p : Property}
    {d : List Property} (h : k ∉ acc.map Prod.fst) :
    fieldPush k p (fieldState acc k d) = fieldState acc k (d ++ [p]) := by
  unfold fieldState
  rw [if_neg (by simp : d ++ [p] ≠ [])]
  split
  · rename_i hd; subst hd; simpa using fieldPush_fresh h
  · exact fieldPush_last h

theorem lookup_fresh {acc : List (String × List Property)} {k : String}
    (h : k ∉ acc.map Prod.fst) : acc.lookup k = none := by
  rw [List.lookup_eq_none_iff]
  intro e he
  rw [bne_iff_ne]
  rintro rfl
  exact h (List.mem_map_of_mem he)

theorem fieldCount_state {acc : List (String × List Property)} {k : String}
    {d : List Property} (h : k ∉ acc.map Prod.fst) :
    fieldCount k (fieldState acc k d) = d.length := by
  unfold fieldState fieldCount
  by_cases hd : d = []
  · subst hd; rw [if_pos rfl, lookup_fresh h]; rfl
  · rw [if_neg hd, List.lookup_append, lookup_fresh h]
    simp [List.lookup]

theorem storedIndex_eq (p : Property) : storedIndex p = p.arrayIndex := by
  cases p <;> rfl

/-- The values of one field, then whatever `readCustom` reads afterwards. -/
theorem reads_vals (hr : HeadRec env n rec) {k : String} (hk : StrOK k) (hne : k ≠ "None")
    {acc : List (String × List Property)} (hacc : k ∉ acc.map Prod.fst)
    (l : List Property) (d : List Property) (out : Out)
    (hw : writeFieldVals env.cv k l = .ok out) (hok : ValsOK env (st ++ [k]) d.length l)
    (hn : out.bytes.length < n + 5) (h32 : out.bytes.length < 2 ^ 32) {m : Nat} {tail : Bytes}
    {res : List (String × List Property)}
    (hm : Reads st (readCustom env.debug rec m (fieldState acc k (d ++ l))) tail res) :
    Reads st (readCustom env.debug rec (l.length + m) (fieldState acc k d)) (out.bytes ++ tail)
      res := by
  induction l generalizing d out with
  | nil =>
    simp only [writeFieldVals] at hw
    cases hw
    simpa using hm
  | cons p l ih =>
    simp only [writeFieldVals] at hw
    obtain ⟨a, ha, hw⟩ := Res.bind_inv hw
    obtain ⟨b, hb, hw⟩ := Res.bind_inv hw
    cases hw
    simp only [ValsOK] at hok
    have h5 := writeString_pos k
    simp only [Out.app_bytes, List.length_append] at hn h32
    obtain ⟨bs, hbs, hread⟩ := hr _ p a hok.2.1 ha (by omega) (by omega)
    have hty : StrOK (typeName p) := headOK_typeName hok.2.1
    rw [List.length_cons, Nat.succ_add_eq_add_succ, Nat.add_succ]
    unfold readCustom
    simp only [Out.app_bytes, List.append_assoc, hbs]
    refine (reads_string hk).bind ?_
    rw [if_neg hne]
    refine (reads_string hty).bind ?_
    refine Reads.bind (a := fieldState acc k (d ++ [p])) (Reads.withEntry ?_) ?_
    · refine hread.bind' (b2 := []) ?_ (by simp)
      unfold insertProperty
      refine Reads.bind0 (Reads.ensure ?_) ?_
      · intro hd
        rw [fieldCount_state hacc, ← storedIndex_eq, hok.1 hd]
      · rw [fieldPush_state hacc]; exact Reads.pure _
    · refine ih (d ++ [p]) b hb (by simpa using hok.2.2) (by omega) (by omega) ?_
      simpa using hm

/-- Number of values in a custom struct. -/
def valCount : List (String × List Property) → Nat
  | [] => 0
  | e :: l => e.2.length + valCount l

theorem writeFieldVals_length {cv : List (Guid × UInt32)} {k : String} (l : List Property)
    (out : Out) (hw : writeFieldVals cv k l = .ok out) : l.length ≤ out.bytes.length := by
  induction l generalizing out with
  | nil => simp
  | cons p l ih =>
    simp only [writeFieldVals] at hw
    obtain ⟨a, ha, hw⟩ := Res.bind_inv hw
    obtain ⟨b, hb, hw⟩ := Res.bind_inv hw
    cases hw
    have h5 := writeString_pos k
    have := ih b hb
    simp only [Out.app_bytes, List.length_append, List.length_cons]
    omega

theorem writeFields_length {cv : List (Guid × UInt32)} (l : List (String × List Property))
    (out : Out) (hw : writeFields cv l = .ok out) : valCount l ≤ out.bytes.length := by
  induction l generalizing out with
  | nil => simp [valCount]
  | cons p l ih =>
    simp only [writeFields] at hw
    obtain ⟨a, ha, hw⟩ := Res.bind_inv hw
    obtain ⟨b, hb, hw⟩ := Res.bind_inv hw
    cases hw
    have h5 := writeFieldVals_length _ _ ha
    have := ih b hb
    simp only [Out.app_bytes, List.length_append, valCount]
    omega

theorem reads_fields (hr : HeadRec env n rec) (l acc : List (String × List Property)) (out : Out)
    (hw : writeFields env.cv l = .ok out) (hok : FieldsOK env st l)
    (hd : ((acc ++ l).map Prod.fst).Nodup)
    (hn : out.bytes.length < n + 5) (h32 : out.bytes.length < 2 ^ 32) (m : Nat) :
    Reads st (readCustom env.debug rec (valCount l + (m + 1)) acc)
      (out.bytes ++ (writeString "None").bytes) (acc ++ l) := by
  induction l generalizing acc out with
  | nil =>
    simp only [writeFields] at hw
    cases hw
    rw [valCount, Nat.zero_add, readCustom]
    refine Reads.congr (Reads.bind' (reads_string (s := "None") (by decide +kernel)) (b2 := []) ?_ rfl) (by simp)
    rw [if_pos rfl, List.append_nil]
    exact Reads.pure _
  | cons e l ih =>
    obtain ⟨k, ps⟩ := e
    simp only [writeFields] at hw
    obtain ⟨a, ha, hw⟩ := Res.bind_inv hw
    obtain ⟨b, hb, hw⟩ := Res.bind_inv hw
    cases hw
    simp only [FieldsOK] at hok
    simp only [Out.app_bytes, List.length_append] at hn h32
    obtain ⟨h1, h2, h3, h4, h5⟩ := hok
    have hacc : k ∉ acc.map Prod.fst := by
      rw [List.map_append, List.nodup_append] at hd
      intro hk
      exact hd.2.2 k hk k (by simp) rfl
    rw [valCount, Nat.add_assoc, Out.app_bytes, List.append_assoc]
    refine reads_vals hr h1 h2 (acc := acc) hacc ps [] a ha h4 (by omega) (by omega) ?_
    have := ih (acc ++ [(k, ps)]) b hb h5 (by simpa using hd) (by omega) (by omega)
    rw [List.nil_append, fieldState, if_neg h3]
    simpa using this

/-! ## Structs -/

theorem reads_struct (hr : HeadRec env n rec) (ty : String) (v : StructPropertyValue) (out : Out)
    (hw : StructPropertyValue.writeBody env.cv v = .ok out) (hok : StructOK env st ty v)
    (hn : out.bytes.length ≤ n) (hf : out.bytes.length ≤ fuel) (h32 : out.bytes.length < 2 ^ 32) :
    Reads st (readStructBody env fuel rec ty) out.bytes v := by
  cases v
  case customStruct fs =>
    simp only [StructOK] at hok
    simp only [StructPropertyValue.writeBody] at hw
    obtain ⟨a, ha, hw⟩ := Res.bind_inv hw
    cases hw
    simp only [Out.app_bytes, List.length_append] at hn hf h32
    unfold readStructBody
    rw [structKind_none_iff.mpr hok.1]
    have h5 := writeString_pos "None"
    have hc := writeFields_length fs a ha
    obtain ⟨m, hm⟩ := Nat.exists_eq_add_of_lt (show valCount fs < fuel by omega)
    refine Reads.map ?_
    rw [hm, Nat.add_assoc]
    exact reads_fields hr fs [] a ha hok.2.2 (by simpa using hok.2.1) (by omega) (by omega) m
  case vector2F =>
    simp only [StructOK] at hok
    simp only [StructPropertyValue.writeBody, writeIf, hok.2, Bool.not_false, if_true] at hw
    cases hw
    unfold readStructBody
    rw [hok.1, show StructKind.ofName "Vector2D" = some .vector2D by decide +kernel]
    simp only [readBuiltin, hok.2, Bool.false_eq_true, if_false]
    exact (reads_f32 _).bind (Reads.map (reads_f32 _))
  case vector2D =>
    simp only [StructOK] at hok
    simp only [StructPropertyValue.writeBody, writeIf, hok.2, if_true] at hw
    cases hw
    unfold readStructBody
    rw [hok.1, show StructKind.ofName "Vector2D" = some .vector2D by decide +kernel]
    simp only [readBuiltin, hok.2, if_true]
    exact (reads_f64 _).bind (Reads.map (reads_f64 _))
  case vectorF =>
    simp only [StructOK] at hok
    simp only [StructPropertyValue.writeBody, writeIf, hok.2, Bool.not_false, if_true] at hw
    cases hw
    unfold readStructBody
    rw [hok.1, show StructKind.ofName "Vector" = some .vector by decide +kernel]
    simp only [readBuiltin, hok.2, Bool.false_eq_true, if_false, List.append_assoc]
    exact (reads_f32 _).bind ((reads_f32 _).bind (Reads.map (reads_f32 _)))
  case vectorD =>
    simp only [StructOK] at hok
    simp only [StructPropertyValue.writeBody, writeIf, hok.2, if_true] at hw
    cases hw
    unfold readStructBody
    rw [hok.1, show StructKind.ofName "Vector" = some .vector by decide +kernel]
    simp only [readBuiltin, hok.2, if_true, List.append_assoc]
    exact (reads_f64 _).bind ((reads_f64 _).bind (Reads.map (reads_f64 _)))
  case rotatorF =>
    simp only [StructOK] at hok
    simp only [StructPropertyValue.writeBody, writeIf, hok.2, Bool.not_false, if_true] at hw
    cases hw
    unfold readStructBody
    rw [hok.1, show StructKind.ofName "Rotator" = some .rotator by decide +kernel]
    simp only [readBuiltin, hok.2, Bool.false_eq_true, if_false, List.append_assoc]
    exact (reads_f32 _).bind ((reads_f32 _).bind (Reads.map (reads_f32 _)))
  case rotatorD =>
    simp only [StructOK] at hok
    simp only [StructPropertyValue.writeBody, writeIf, hok.2, if_true] at hw
    cases hw
    unfold readStructBody
    rw [hok.1, show StructKind.ofName "Rotator" = some .rotator by decide +kernel]
    simp only [readBuiltin, hok.2, if_true, List.append_assoc]
    exact (reads_f64 _).bind ((reads_f64 _).bind (Reads.map (reads_f64 _)))
  case quatF =>
    simp only [StructOK] at hok
    simp only [StructPropertyValue.writeBody, writeIf, hok.2, Bool.not_false, if_true] at hw
    cases hw
    unfold readStructBody
    rw [hok.1, show StructKind.ofName "Quat" = some .quat by decide +kernel]
    simp only [readBuiltin, hok.2, Bool.false_eq_true, if_false, List.append_assoc]
    exact (reads_f32 _).bind ((reads_f32 _).bind ((reads_f32 _).bind (Reads.map (reads_f32 _))))
  case quatD =>
    simp only [StructOK] at hok
    simp only [StructPropertyValue.writeBody, writeIf, hok.2, if_true] at hw
    cases hw
    unfold readStructBody
    rw [hok.1, show StructKind.ofName "Quat" = some .quat by decide +kernel]
    simp only [readBuiltin, hok.2, if_true, List.append_assoc]
    exact (reads_f64 _).bind ((reads_f64 _).bind ((reads_f64 _).bind (Reads.map (reads_f64 _))))
  case dateTime =>
    simp only [StructOK] at hok
    simp only [StructPropertyValue.writeBody] at hw
    cases hw
    unfold readStructBody
    rw [hok, show StructKind.ofName "DateTime" = some .dateTime by decide +kernel]
    exact Reads.map (reads_u64 _)
  case timespan =>
    simp only [StructOK] at hok
    simp only [StructPropertyValue.writeBody] at hw
    cases hw
    unfold readStructBody
    rw [hok, show StructKind.ofName "Timespan" = some .timespan by decide +kernel]
    exact Reads.map (reads_u64 _)
  case guid =>
    simp only [StructOK] at hok
    simp only [StructPropertyValue.writeBody] at hw
    cases hw
    unfold readStructBody
    rw [hok, show StructKind.ofName "Guid" = some .guid by decide +kernel]
    exact Reads.map (reads_guid _)
  case linearColor =>
    simp only [StructOK] at hok
    simp only [StructPropertyValue.writeBody] at hw
    cases hw
    unfold readStructBody
    rw [hok, show StructKind.ofName "LinearColor" = some .linearColor by decide +kernel]
    simp only [List.append_assoc]
    exact (reads_f32 _).bind ((reads_f32 _).bind ((reads_f32 _).bind (Reads.map (reads_f32 _))))
  case intPoint =>
    simp only [StructOK] at hok
    simp only [StructPropertyValue.writeBody] at hw
    cases hw
    unfold readStructBody
    rw [hok, show StructKind.ofName "IntPoint" = some .intPoint by decide +kernel]
    exact (reads_i32 _).bind (Reads.map (reads_i32 _))
  case gameplayTagContainer tags =>
    simp only [StructOK] at hok
    simp only [StructPropertyValue.writeBody] at hw
    cases hw
    unfold readStructBody
    rw [hok.1, show StructKind.ofName "GameplayTagContainer" = some .gameplayTagContainer by
      decide +kernel]
    have := reads_concat (st := st) (m := readString) (w := writeString) (g := id) tags
      (fun d hd => reads_string (hok.2.2 d hd))
    rw [List.map_id] at this
    exact reads_count hok.2.1 (Reads.map this)

/-! ## Elements and their suggested length -/

theorem sugOK_elems {ty : String} {ps : List Property} {es : Out} {e : UInt32}
    (hb : BaresOK env st ty ps) (hu : Uniform ps) (hw : writeList env.cv ps = .ok es)
    (he : e.toNat = es.bytes.length / ps.length) : ∀ p ∈ ps, SugOK (some e) p := by
  intro p hp
  rw [baresOK_iff] at hb
  rw [writeList_eq] at hw
  have hpos : 0 < ps.length := List.length_pos_of_mem hp
  have hbp := hb p hp
  cases p
  case byte name v =>
    simp only [BareOK] at hbp
    have hq : ∀ q ∈ ps, ∃ name' w, q = .byte name' w ∧ (sizeClass (.byte name v) = sizeClass q) := by
      intro q hq
      have h1 := hb q hq
      have h2 := hu _ hp _ hq
      rw [hbp.1] at h1
      cases q <;> simp [BareOK] at h1
      · exact ⟨_, _, rfl, h2⟩
      · exfalso; rw [← h1.1] at h1; exact h1.2 (by decide)
    cases v with
    | byte v =>
      have := writeEach_length_eq (n := 1) ps es hw ?_
      · simp only [SugOK]
        right
        rw [this, Nat.one_mul, Nat.div_self hpos] at he
        exact congrArg some (UInt32.toNat_inj.mp he)
      · intro q hq' o ho
        obtain ⟨n', w, rfl, h⟩ := hq q hq'
        cases w with
        | byte w => simp only [Property.write] at ho; cases ho; simp [BytePropertyValue.write]
        | namespaced w => simp [sizeClass] at h
    | namespaced v =>
      have := writeEach_length_ge (n := 5) ps es hw ?_
      · simp only [SugOK]
        refine ⟨e, rfl, ?_⟩
        rw [he, Nat.le_div_iff_mul_le hpos]
        exact this
      · intro q hq' o ho
        obtain ⟨n', w, rfl, h⟩ := hq q hq'
        cases w with
        | namespaced w => simp only [Property.write] at ho; cases ho; exact writeString_pos w
        | byte w => simp [sizeClass] at h
  case unknown name raw =>
    simp only [BareOK] at hbp
    have := writeEach_length_eq (n := raw.length) ps es hw ?_
    · simp only [SugOK]
      refine ⟨e, rfl, ?_⟩
      rw [he, this, Nat.mul_div_cancel _ hpos]
    · intro q hq o ho
      have h1 := hb q hq
      have h2 := hu _ hp _ hq
      rw [hbp.1] at h1
      cases q
      case unknown name' raw' =>
        simp only [Property.write] at ho; cases ho
        simp [sizeClass] at h2
        simpa [headed] using h2.symm
      case byte name' v' =>
        exfalso
        simp only [BareOK] at h1
        exact hbp.2 (h1.1 ▸ (by decide))
      all_goals (exfalso; simp [sizeClass] at h2)
  all_goals trivial

theorem reads_bares (hr : BareRec env n rec) {ty : String} {ps : List Property} {es : Out}
    {sug : Option UInt32} (hb : BaresOK env st ty ps) (hw : writeList env.cv ps = .ok es)
    (hs : ∀ p ∈ ps, SugOK sug p) (hn : es.bytes.length < n) (h32 : es.bytes.length < 2 ^ 32) :
    Reads st (R.replicate (rec ty false sug) ps.length) es.bytes ps := by
  rw [writeList_eq] at hw
  rw [baresOK_iff] at hb
  have := reads_all (st := st) (m := rec ty false sug) (g := id) ps es hw
    (fun p hp o ho hle => hr st ty sug p o (hb p hp) (hs p hp) ho (by omega) (by omega))
  rwa [List.map_id] at this


/-! ## Arrays -/

theorem collect_map {α β : Type} {f : α → Option β} {g : β → α} (h : ∀ b, f (g b) = some b)
    (l : List β) : collect f (l.map g) = some l := by
  induction l with
  | nil => rfl
  | cons b l ih => simp only [List.map_cons, collect, h, ih]

theorem writeEach_map {α β : Type} (w : β → Res Out) (g : α → β) (l : List α) :
    writeEach w (l.map g) = writeEach (fun a => w (g a)) l := by
  induction l with
  | nil => rfl
  | cons a l ih => simp only [List.map_cons, writeEach, ih]

theorem writeEach_pure {α : Type} (f : α → Out) (l : List α) :
    writeEach (fun a => .ok (f a)) l = .ok (concatOut f l) := by
  induction l with
  | nil => rfl
  | cons a l ih => simp only [writeEach, ih]; rfl

theorem writeList_map {β : Type} {cv : List (Guid × UInt32)} {mk : β → Property} {w : β → Out}
    (h : ∀ b, Property.write cv false (mk b) = .ok (w b)) (l : List β) :
    writeList cv (l.map mk) = .ok (concatOut w l) := by
  rw [writeList_eq, writeEach_map]
  simp only [h]
  exact writeEach_pure w l

theorem reads_array_elems (hr : BareRec env n rec) {ty : String} {ps : List Property} {es : Out}
    {a : ArrayProperty} {len : UInt32} (hty : ty ≠ "StructProperty") (hb : BaresOK env st ty ps)
    (hu : Uniform ps) (hc : ps.length < 2 ^ 32) (hw : writeList env.cv ps = .ok es)
    (hnew : ArrayProperty.new ty none ps = .ok a) (hlen : len.toNat = 4 + es.bytes.length)
    (hn : es.bytes.length < n) (h32 : es.bytes.length < 2 ^ 32) :
    Reads st (readArrayBody env fuel rec len ty) (u32B (UInt32.ofNat ps.length) ++ es.bytes) a := by
  unfold readArrayBody
  refine (reads_u32 _).bind ?_
  rw [if_neg hty]
  have hs : ∀ p ∈ ps, SugOK (arraySuggested len (UInt32.ofNat ps.length)) p := by
    intro p hp
    have hpos : 0 < ps.length := List.length_pos_of_mem hp
    have h4 : (4 : UInt32).toNat = 4 := rfl
    have hle : 4 ≤ len := by rw [UInt32.le_iff_toNat_le, hlen]; omega
    have hcn := u32_ofNat_toNat hc
    unfold arraySuggested
    rw [if_pos ⟨by rw [UInt32.lt_iff_toNat_lt, hcn]; exact hpos, hle⟩]
    refine sugOK_elems hb hu hw ?_ p hp
    rw [UInt32.toNat_div, UInt32.toNat_sub_of_le _ _ hle, hcn, hlen, h4]
    congr 1
    omega
  rw [u32_ofNat_toNat hc]
  refine (reads_bares hr hb hw hs hn h32).bind' (b2 := []) ?_ (by simp)
  rw [hnew]
  exact Reads.rpure _

theorem uniform_map {β : Type} {mk : β → Property} {c : Option Nat}
    (h : ∀ b, sizeClass (mk b) = c) (v : List β) : Uniform (v.map mk) := by
  intro p hp q hq
  obtain ⟨x, _, rfl⟩ := List.mem_map.mp hp
  obtain ⟨y, _, rfl⟩ := List.mem_map.mp hq
  rw [h, h]

theorem baresOK_map {β : Type} {ty : String} {mk : β → Property} {v : List β}
    (h : ∀ b ∈ v, BareOK env st ty (mk b)) : BaresOK env st ty (v.map mk) := by
  rw [baresOK_iff]
  intro p hp
  obtain ⟨x, hx, rfl⟩ := List.mem_map.mp hp
  exact h x hx

theorem reads_array_compact (hr : BareRec env n rec) {β : Type} {ty : String}
    {mk : β → Property} {w : β → Out} {v : List β} {a : ArrayProperty} {len : UInt32}
    {c : Option Nat} (hty : ty ≠ "StructProperty") (hb : ∀ b ∈ v, BareOK env st ty (mk b))
    (hu : ∀ b, sizeClass (mk b) = c) (hc : v.length < 2 ^ 32)
    (hw : ∀ b, Property.write env.cv false (mk b) = .ok (w b))
    (hnew : ArrayProperty.new ty none (v.map mk) = .ok a)
    (hlen : len.toNat = 4 + (concatOut w v).bytes.length)
    (hn : (concatOut w v).bytes.length < n) (h32 : (concatOut w v).bytes.length < 2 ^ 32) :
    Reads st (readArrayBody env fuel rec len ty)
      (u32B (UInt32.ofNat v.length) ++ (concatOut w v).bytes) a := by
  have := reads_array_elems (st := st) (fuel := fuel) hr hty (baresOK_map hb) (uniform_map hu v)
    (by simpa using hc) (writeList_map hw v) hnew hlen hn h32
  rwa [List.length_map] at this

theorem reads_structInfo {field ty : String} {guid : Guid} {size : UInt64} (hf : StrOK field)
    (ht : StrOK ty) :
    Reads st readStructInfo ((writeString field).bytes ++ (writeString "StructProperty").bytes ++
      u64B size ++ (writeString ty).bytes ++ guidB guid ++ u8B 0) (field, size, ty, guid) := by
  unfold readStructInfo
  simp only [List.append_assoc]
  exact (reads_string hf).bind ((reads_string (by decide +kernel)).bind ((Reads.ensure rfl).bind0
    ((reads_u64 _).bind ((reads_string ht).bind ((reads_guid _).bind
      (reads_terminator.bind' (Reads.pure _) (by simp; rfl)))))))

theorem collect_structs (vs : List StructPropertyValue) :
    collect asStructValue (vs.map Property.structValue) = some vs :=
  collect_map (f := asStructValue) (g := Property.structValue) (fun _ => rfl) vs

theorem compactArrayTypes_ne {ty : String} (h : ty ∉ compactArrayTypes) :
    ty ≠ "BoolProperty" ∧ ty ≠ "EnumProperty" ∧ ty ≠ "IntProperty" ∧ ty ≠ "FloatProperty" ∧
      ty ≠ "NameProperty" ∧ ty ≠ "StrProperty" := by
  simpa [compactArrayTypes, not_or] using h

theorem reads_arrayBody (hr : BareRec env n rec) (hh : HeadRec env n rec) {a : ArrayProperty}
    {b : Out} (hw : ArrayProperty.writeBody env.cv a = .ok b) (hok : ArrayOK env st a)
    (hn : b.bytes.length < n) (hf : b.bytes.length ≤ fuel) (h32 : b.bytes.length < 2 ^ 32) :
    Reads st (readArrayBody env fuel rec (UInt32.ofNat b.bytes.length) a.propertyType) b.bytes a := by
  cases a
  case bools v =>
    simp only [ArrayProperty.writeBody] at hw; cases hw
    simp only [ArrayOK] at hok
    simp only [Out.app_bytes, List.length_append, u32O_bytes, u32B_length] at hn h32 hf ⊢
    refine reads_array_compact hr (mk := .bool) (c := none) (show "BoolProperty" ≠ "StructProperty" by decide)
      (fun _ _ => by simp only [ArrayProperty.propertyType, BareOK]) (fun _ => rfl)
      hok (fun _ => by simp only [Property.write]; rfl) ?_ (u32_ofNat_toNat h32) (by omega) (by omega)
    simp only [ArrayProperty.new, ArrayProperty.propertyType, if_true, compactArray]
    rw [collect_map (f := asBool) (g := Property.bool) (fun _ => rfl)]
  case bytes v =>
    simp only [ArrayProperty.writeBody] at hw; cases hw
    simp only [ArrayOK] at hok
    simp only [Out.app_bytes, List.length_append, u32O_bytes, u32B_length] at hn h32 hf ⊢
    refine reads_array_compact hr (mk := fun b => .byte none (.byte b)) (c := some 0) (show "ByteProperty" ≠ "StructProperty" by decide)
      (fun _ _ => by simp [ArrayProperty.propertyType, BareOK, ByteOK]) (fun _ => rfl)
      hok (fun _ => by simp only [Property.write]; rfl) ?_ (u32_ofNat_toNat h32) (by omega) (by omega)
    simp only [ArrayProperty.new, ArrayProperty.propertyType, if_true, compactArray]
    rw [if_neg (by decide), collect_map (f := asByte) (g := fun b => Property.byte none (.byte b)) (fun _ => rfl)]
  case enums v =>
    simp only [ArrayProperty.writeBody] at hw; cases hw
    simp only [ArrayOK] at hok
    simp only [Out.app_bytes, List.length_append, u32O_bytes, u32B_length] at hn h32 hf ⊢
    refine reads_array_compact hr (mk := fun b => .enum none b) (c := none) (show "EnumProperty" ≠ "StructProperty" by decide)
      (fun b hb => by simp [ArrayProperty.propertyType, BareOK, hok.2 b hb]) (fun _ => rfl)
      hok.1 (fun _ => by simp only [Property.write]; rfl) ?_ (u32_ofNat_toNat h32) (by omega) (by omega)
    simp only [ArrayProperty.new, ArrayProperty.propertyType, if_true, compactArray]
    rw [if_neg (by decide), if_neg (by decide), collect_map (f := asEnum) (g := fun b => Property.enum none b) (fun _ => rfl)]
  case ints v =>
    simp only [ArrayProperty.writeBody] at hw; cases hw
    simp only [ArrayOK] at hok
    simp only [Out.app_bytes, List.length_append, u32O_bytes, u32B_length] at hn h32 hf ⊢
    refine reads_array_compact hr (mk := .int) (c := none) (show "IntProperty" ≠ "StructProperty" by decide)
      (fun b hb => by simp [ArrayProperty.propertyType, BareOK]) (fun _ => rfl)
      hok (fun _ => by simp only [Property.write]; rfl) ?_ (u32_ofNat_toNat h32) (by omega) (by omega)
    simp only [ArrayProperty.new, ArrayProperty.propertyType, if_true, compactArray]
    rw [if_neg (by decide), if_neg (by decide), if_neg (by decide), collect_map (f := asInt) (g := Property.int) (fun _ => rfl)]
  case floats v =>
    simp only [ArrayProperty.writeBody] at hw; cases hw
    simp only [ArrayOK] at hok
    simp only [Out.app_bytes, List.length_append, u32O_bytes, u32B_length] at hn h32 hf ⊢
    refine reads_array_compact hr (mk := .float) (c := none) (show "FloatProperty" ≠ "StructProperty" by decide)
      (fun b hb => by simp [ArrayProperty.propertyType, BareOK]) (fun _ => rfl)
      hok (fun _ => by simp only [Property.write]; rfl) ?_ (u32_ofNat_toNat h32) (by omega) (by omega)
    simp only [ArrayProperty.new, ArrayProperty.propertyType, if_true, compactArray]
    rw [if_neg (by decide), if_neg (by decide), if_neg (by decide), if_neg (by decide),
      collect_map (f := asFloat) (g := Property.float) (fun _ => rfl)]
  case names v =>
    simp only [ArrayProperty.writeBody] at hw; cases hw
    simp only [ArrayOK] at hok
    simp only [Out.app_bytes, List.length_append, u32O_bytes, u32B_length] at hn h32 hf ⊢
    refine reads_array_compact hr (mk := fun b => .name 0 b) (c := none) (show "NameProperty" ≠ "StructProperty" by decide)
      (fun b hb => by simp [ArrayProperty.propertyType, BareOK, hok.2 b hb]) (fun _ => rfl)
      hok.1 (fun _ => by simp only [Property.write]; rfl) ?_ (u32_ofNat_toNat h32) (by omega) (by omega)
    simp only [ArrayProperty.new, ArrayProperty.propertyType, if_true, compactArray]
    rw [if_neg (by decide), if_neg (by decide), if_neg (by decide), if_neg (by decide),
      if_neg (by decide), collect_map (f := asName) (g := fun b => Property.name 0 b) (fun _ => rfl)]
  case strings v =>
    simp only [ArrayProperty.writeBody] at hw; cases hw
    simp only [ArrayOK] at hok
    simp only [Out.app_bytes, List.length_append, u32O_bytes, u32B_length] at hn h32 hf ⊢
    refine reads_array_compact hr (mk := .str) (c := none) (show "StrProperty" ≠ "StructProperty" by decide)
      (fun b hb => by simp [ArrayProperty.propertyType, BareOK, hok.2 b hb]) (fun _ => rfl)
      hok.1 (fun _ => by simp only [Property.write]; rfl) ?_ (u32_ofNat_toNat h32) (by omega) (by omega)
    simp only [ArrayProperty.new, ArrayProperty.propertyType, if_true, compactArray]
    rw [if_neg (by decide), if_neg (by decide), if_neg (by decide), if_neg (by decide),
      if_neg (by decide), if_neg (by decide), collect_map (f := asStr) (g := Property.str) (fun _ => rfl)]
  case properties ty ps =>
    simp only [ArrayProperty.writeBody] at hw
    obtain ⟨es, hes, hw⟩ := Res.bind_inv hw
    cases hw
    simp only [ArrayOK] at hok
    obtain ⟨h1, h2, h3, h4, h5, h6, h7⟩ := hok
    simp only [Out.app_bytes, List.length_append, u32O_bytes, u32B_length] at hn h32 hf ⊢
    refine reads_array_elems hr h2 h7 h6 h5 hes ?_ (u32_ofNat_toNat h32) (by omega) (by omega)
    obtain ⟨n1, n2, n3, n4, n5, n6⟩ := compactArrayTypes_ne h3
    simp only [ArrayProperty.new, ArrayProperty.propertyType, n1, n2, n3, n4, n5, n6, if_false]
    split
    · rename_i hty
      unfold compactArray
      obtain ⟨p, hp, hns⟩ := h4 hty
      rw [collect_none.mpr ⟨p, hp, ?_⟩]
      unfold isNamespaced at hns
      split at hns
      · simp [asByte]
      · exact hns.elim
    · rfl
  case structs field ty guid v =>
    simp only [ArrayProperty.writeBody] at hw
    obtain ⟨es, hes, hw⟩ := Res.bind_inv hw
    cases hw
    simp only [ArrayOK] at hok
    obtain ⟨h1, h2, h3, h4⟩ := hok
    simp only [structArrayBody, List.length_append, u32B_length, u64B_length, guidB_length, u8B_length]
      at hn h32 hf
    unfold readArrayBody
    simp only [structArrayBody, ArrayProperty.propertyType]
    rw [show u32B (UInt32.ofNat v.length) ++ (writeString field).bytes ++
      (writeString "StructProperty").bytes ++ u64B (UInt64.ofNat es.bytes.length) ++
      (writeString ty).bytes ++ guidB guid ++ u8B 0 ++ es.bytes =
      u32B (UInt32.ofNat v.length) ++ (((writeString field).bytes ++
      (writeString "StructProperty").bytes ++ u64B (UInt64.ofNat es.bytes.length) ++
      (writeString ty).bytes ++ guidB guid ++ u8B 0) ++ es.bytes) by simp only [List.append_assoc]]
    refine (reads_u32 _).bind ?_
    rw [if_pos trivial]
    refine (reads_structInfo h1 h2).bind ?_
    simp only []
    intro rest pos
    have hvs := reads_all (st := st) (m := readStructBody env fuel rec ty) (g := id) v es
      (by rw [← writeStructs_eq]; exact hes)
      (fun x hx o ho hle => reads_struct hh ty x o ho (structsOK_iff.mp h4 x hx) (by omega)
        (by omega) (by omega))
    rw [List.map_id] at hvs
    rw [u32_ofNat_toNat h3, R.bind_ok (position_run _), R.bind_ok (hvs.run rest pos),
      R.bind_ok (position_run _), R.ensure_true,
      R.bind_ok (m := R.pure ()) (s' := ⟨rest, pos + es.bytes.length, st⟩) (a := ()) rfl]
    · simp only [ArrayProperty.new, if_true]
      rw [collect_structs]
      rfl
    · rw [u64_ofNat_toNat (by omega)]
      simp only []
      omega

/-! ## Sets -/

theorem reads_setBody (hr : BareRec env n rec) {ty : String} {flags : UInt32} {ps : List Property}
    {es : Out} (hb : BaresOK env st ty ps) (hu : Uniform ps) (hc : ps.length < 2 ^ 32)
    (hw : writeList env.cv ps = .ok es) (hn : es.bytes.length < n)
    (h32 : 8 + es.bytes.length < 2 ^ 32) :
    Reads st (readSetBody env.debug rec (UInt32.ofNat (8 + es.bytes.length)) ty)
      (u32B flags ++ u32B (UInt32.ofNat ps.length) ++ es.bytes) (.set ty flags ps) := by
  unfold readSetBody
  simp only [List.append_assoc]
  refine (reads_u32 _).bind ((reads_u32 _).bind (Reads.map ?_))
  unfold readSetElems
  have hcn := u32_ofNat_toNat hc
  by_cases hpos : 0 < ps.length
  · rw [if_pos (by rw [UInt32.lt_iff_toNat_lt, hcn]; exact hpos)]
    have hlen := u32_ofNat_toNat h32
    have h8 : (8 : UInt32).toNat = 8 := rfl
    have hle : 8 ≤ UInt32.ofNat (8 + es.bytes.length) := by
      rw [UInt32.le_iff_toNat_le, hlen]; omega
    refine Reads.bind0 (a := UInt32.ofNat (8 + es.bytes.length) - 8) ?_ ?_
    · unfold subU32
      rw [if_neg (fun h => by
        have := UInt32.lt_iff_toNat_lt.mp h.1
        rw [hlen] at this
        omega)]
      exact Reads.rpure _
    · rw [hcn]
      refine reads_bares hr hb hw ?_ hn (by omega)
      refine sugOK_elems hb hu hw ?_
      rw [UInt32.toNat_div, UInt32.toNat_sub_of_le _ _ hle, hcn, hlen, h8]
      congr 1
      omega
  · have : ps = [] := List.eq_nil_of_length_eq_zero (by omega)
    subst this
    rw [writeList_eq] at hw
    cases hw
    exact Reads.rpure _

/-! ## Maps -/

theorem reads_mapBody (hr : BareRec env n rec) {kt vt : String} {flags : UInt32}
    {es : List (Property × Property)} {o : Out} {m : MapProperty}
    (hb : ∀ e ∈ es, (SizeFree e.1 ∧ BareOK env (st ++ ["Key"]) kt e.1) ∧
      SizeFree e.2 ∧ BareOK env (st ++ ["Value"]) vt e.2)
    (hc : es.length < 2 ^ 32)
    (hd : (es.map Prod.fst).Pairwise (fun a b => sameKey a b = false))
    (hw : writePairs env.cv es = .ok o) (hnew : MapProperty.new kt vt flags es = m)
    (hn : o.bytes.length < n) (h32 : o.bytes.length < 2 ^ 32) :
    Reads st (readMapBody rec kt vt)
      (u32B flags ++ u32B (UInt32.ofNat es.length) ++ o.bytes) (.map m) := by
  unfold readMapBody
  simp only [List.append_assoc]
  rw [writePairs_eq] at hw
  have := reads_all (st := st) (m := readMapEntry rec kt vt) (g := id) es o hw ?_
  · rw [List.map_id] at this
    refine (reads_u32 _).bind ((reads_u32 _).bind ?_)
    rw [u32_ofNat_toNat hc]
    have h := Reads.map (g := fun es => Property.map (MapProperty.new kt vt flags (imExtend sameKey [] es))) this
    rw [imExtend_nil_fresh es hd, hnew] at h
    exact h
  · intro e he x hx hle
    obtain ⟨a, ha, hx⟩ := Res.bind_inv hx
    obtain ⟨b, hb', hx⟩ := Res.bind_inv hx
    cases hx
    simp only [Out.app_bytes, List.length_append] at hle
    obtain ⟨⟨hk1, hk2⟩, hv1, hv2⟩ := hb e he
    unfold readMapEntry
    exact (Reads.withEntry (hr _ kt none e.1 a hk2 (sugOK_of_sizeFree hk1) ha (by omega)
      (by omega))).bind (Reads.map (Reads.withEntry (hr _ vt none e.2 b hv2
        (sugOK_of_sizeFree hv1) hb' (by omega) (by omega))))

/-- The three ways a string keys a compact map. -/
def StrKey (kt : String) (mk : String → Property) : Prop :=
  (∀ st env s, StrOK s → BareOK env st kt (mk s)) ∧ (∀ s, SizeFree (mk s)) ∧
  (∀ a b, a ≠ b → sameKey (mk a) (mk b) = false) ∧
  (∀ cv s, Property.write cv false (mk s) = .ok (writeString s))

theorem strKey_enum : StrKey "EnumProperty" (fun s => .enum none s) := by
  refine ⟨?_, fun _ => trivial, ?_, ?_⟩
  · intro st env s hs; simp [BareOK, hs]
  · intro a b hab; simp [sameKey, Property.feed, feedOpt, hab]
  · intro cv s; simp only [Property.write]; rfl

theorem strKey_name : StrKey "NameProperty" (fun s => .name 0 (some s)) := by
  refine ⟨?_, fun _ => trivial, ?_, ?_⟩
  · intro st env s hs; simp [BareOK, FStrOK, hs]
  · intro a b hab; simp [sameKey, Property.feed, feedOpt, hab]
  · intro cv s; simp only [Property.write]; rfl

theorem strKey_str : StrKey "StrProperty" (fun s => .str (some s)) := by
  refine ⟨?_, fun _ => trivial, ?_, ?_⟩
  · intro st env s hs; simp [BareOK, FStrOK, hs]
  · intro a b hab; simp [sameKey, Property.feed, feedOpt, hab]
  · intro cv s; simp only [Property.write]; rfl

theorem compactMap_id {ν : Type} {kt vt : String} {fl : UInt32} {fk : Property → Option String}
    {fv : Property → Option ν} {mk : List (String × ν) → MapProperty} {gk : String → Property}
    {gv : ν → Property} (hk : ∀ s, fk (gk s) = some s) (hv : ∀ x, fv (gv x) = some x)
    {v : List (String × ν)} (hd : (v.map Prod.fst).Nodup) :
    compactMap kt vt fl (v.map fun e => (gk e.1, gv e.2)) fk fv mk = mk v := by
  unfold compactMap
  rw [collect_map (f := asEntry fk fv) (g := fun e => (gk e.1, gv e.2))
    (fun e => by simp only [asEntry, hk, hv])]
  simp only []
  rw [imExtend_nodup hd]

theorem reads_map_compact (hr : BareRec env n rec) {ν : Type} {kt vt : String}
    {gk : String → Property} (hk : StrKey kt gk) {gv : ν → Property} {v : List (String × ν)}
    (hok : KeysOK v)
    (hv : ∀ e ∈ v, SizeFree (gv e.2) ∧ BareOK env (st ++ ["Value"]) vt (gv e.2)) {o : Out}
    (hw : writeEach (fun e : String × ν => do
      let a ← Property.write env.cv false (gv e.2)
      return writeString e.1 ++ a) v = .ok o) {m : MapProperty}
    (hnew : MapProperty.new kt vt 0 (v.map fun e => (gk e.1, gv e.2)) = m)
    (hn : o.bytes.length < n) (h32 : o.bytes.length < 2 ^ 32) :
    Reads st (readMapBody rec kt vt)
      (u32B 0 ++ u32B (UInt32.ofNat v.length) ++ o.bytes) (.map m) := by
  have hw' : writePairs env.cv (v.map fun e => (gk e.1, gv e.2)) = .ok o := by
    rw [writePairs_eq, writeEach_map, ← hw]
    simp only [hk.2.2.2]
    rfl
  have := reads_mapBody (st := st) hr (kt := kt) (vt := vt) (flags := 0)
    (es := v.map fun e => (gk e.1, gv e.2)) (o := o) (m := m) ?_ (by simpa using hok.1) ?_ hw' hnew
    hn h32
  · rwa [List.length_map] at this
  · intro e he
    obtain ⟨x, hx, rfl⟩ := List.mem_map.mp he
    exact ⟨⟨hk.2.1 _, hk.1 _ _ _ (hok.2.2 x hx)⟩, hv x hx⟩
  · have h := hok.2.1
    rw [List.map_map]
    rw [List.Nodup, List.pairwise_map] at h
    rw [List.pairwise_map]
    exact h.imp fun hne => hk.2.2.1 _ _ hne

theorem writeEach_keyed {ν : Type} {cv : List (Guid × UInt32)} {gv : ν → Property} {w : ν → Out}
    (h : ∀ x, Property.write cv false (gv x) = .ok (w x)) (v : List (String × ν)) :
    writeEach (fun e : String × ν => do
      let a ← Property.write cv false (gv e.2)
      return writeString e.1 ++ a) v = .ok (concatOut (fun e => writeString e.1 ++ w e.2) v) := by
  simp only [h]
  exact writeEach_pure _ v

theorem mapHead_bytes (f : UInt32) (c : Nat) : (mapHead f c).bytes = u32B f ++ u32B (UInt32.ofNat c) := rfl

theorem mapNew_enumBool (m : List (Property × Property)) :
    MapProperty.new "EnumProperty" "BoolProperty" 0 m =
      compactMap "EnumProperty" "BoolProperty" 0 m asEnum asBool .enumBool := by
  simp [MapProperty.new]

theorem mapNew_enumInt (m : List (Property × Property)) :
    MapProperty.new "EnumProperty" "IntProperty" 0 m =
      compactMap "EnumProperty" "IntProperty" 0 m asEnum asInt .enumInt := by
  simp [MapProperty.new]

theorem mapNew_nameBool (m : List (Property × Property)) :
    MapProperty.new "NameProperty" "BoolProperty" 0 m =
      compactMap "NameProperty" "BoolProperty" 0 m asNameKey asBool .nameBool := by
  simp [MapProperty.new]

theorem mapNew_nameInt (m : List (Property × Property)) :
    MapProperty.new "NameProperty" "IntProperty" 0 m =
      compactMap "NameProperty" "IntProperty" 0 m asNameKey asInt .nameInt := by
  simp [MapProperty.new]

theorem mapNew_strBool (m : List (Property × Property)) :
    MapProperty.new "StrProperty" "BoolProperty" 0 m =
      compactMap "StrProperty" "BoolProperty" 0 m asStrKey asBool .strBool := by
  simp [MapProperty.new]

theorem mapNew_strInt (m : List (Property × Property)) :
    MapProperty.new "StrProperty" "IntProperty" 0 m =
      compactMap "StrProperty" "IntProperty" 0 m asStrKey asInt .strInt := by
  simp [MapProperty.new]

theorem mapNew_strStr (m : List (Property × Property)) :
    MapProperty.new "StrProperty" "StrProperty" 0 m =
      compactMap "StrProperty" "StrProperty" 0 m asStrKey asStr .strStr := by
  simp [MapProperty.new]

theorem reads_map (hr : BareRec env n rec) {m : MapProperty} {b : Out}
    (hw : MapProperty.writeBody env.cv m = .ok b) (hok : MapOK env st m)
    (hn : b.bytes.length < n) (h32 : b.bytes.length < 2 ^ 32) :
    Reads st (readMapBody rec m.keyType m.valueType) b.bytes (.map m) := by
  cases m
  case enumBool v =>
    simp only [MapProperty.writeBody] at hw; cases hw
    simp only [MapOK] at hok
    simp only [Out.app_bytes, List.length_append, mapHead_bytes, u32B_length] at hn h32 ⊢
    have hv : ∀ e ∈ v, SizeFree (.bool e.2) ∧ BareOK env (st ++ ["Value"]) "BoolProperty" (.bool e.2) :=
      fun e he => ⟨trivial, by simp [BareOK]⟩
    exact reads_map_compact hr strKey_enum (gv := .bool) hok hv
      (writeEach_keyed (w := fun b => ⟨boolB b, 1⟩) (fun x => by simp only [Property.write]; rfl) v)
      ((mapNew_enumBool _).trans (compactMap_id (fk := asEnum) (fv := asBool) (gk := fun s => .enum none s) (gv := .bool)
        (fun _ => rfl) (fun _ => rfl) hok.2.1))
      (by omega) (by omega)
  case nameBool v =>
    simp only [MapProperty.writeBody] at hw; cases hw
    simp only [MapOK] at hok
    simp only [Out.app_bytes, List.length_append, mapHead_bytes, u32B_length] at hn h32 ⊢
    have hv : ∀ e ∈ v, SizeFree (.bool e.2) ∧ BareOK env (st ++ ["Value"]) "BoolProperty" (.bool e.2) :=
      fun e he => ⟨trivial, by simp [BareOK]⟩
    exact reads_map_compact hr strKey_name (gv := .bool) hok hv
      (writeEach_keyed (w := fun b => ⟨boolB b, 1⟩) (fun x => by simp only [Property.write]; rfl) v)
      ((mapNew_nameBool _).trans (compactMap_id (fk := asNameKey) (fv := asBool) (gk := fun s => .name 0 (some s)) (gv := .bool)
        (fun _ => rfl) (fun _ => rfl) hok.2.1))
      (by omega) (by omega)
  case strBool v =>
    simp only [MapProperty.writeBody] at hw; cases hw
    simp only [MapOK] at hok
    simp only [Out.app_bytes, List.length_append, mapHead_bytes, u32B_length] at hn h32 ⊢
    have hv : ∀ e ∈ v, SizeFree (.bool e.2) ∧ BareOK env (st ++ ["Value"]) "BoolProperty" (.bool e.2) :=
      fun e he => ⟨trivial, by simp [BareOK]⟩
    exact reads_map_compact hr strKey_str (gv := .bool) hok hv
      (writeEach_keyed (w := fun b => ⟨boolB b, 1⟩) (fun x => by simp only [Property.write]; rfl) v)
      ((mapNew_strBool _).trans (compactMap_id (fk := asStrKey) (fv := asBool) (gk := fun s => .str (some s)) (gv := .bool)
        (fun _ => rfl) (fun _ => rfl) hok.2.1))
      (by omega) (by omega)
  case enumInt v =>
    simp only [MapProperty.writeBody] at hw; cases hw
    simp only [MapOK] at hok
    simp only [Out.app_bytes, List.length_append, mapHead_bytes, u32B_length] at hn h32 ⊢
    have hv : ∀ e ∈ v, SizeFree (.int e.2) ∧ BareOK env (st ++ ["Value"]) "IntProperty" (.int e.2) :=
      fun e he => ⟨trivial, by simp [BareOK]⟩
    exact reads_map_compact hr strKey_enum (gv := .int) hok hv
      (writeEach_keyed (w := fun b => ⟨i32B b, 4⟩) (fun x => by simp only [Property.write]; rfl) v)
      ((mapNew_enumInt _).trans (compactMap_id (fk := asEnum) (fv := asInt) (gk := fun s => .enum none s) (gv := .int)
        (fun _ => rfl) (fun _ => rfl) hok.2.1))
      (by omega) (by omega)
  case nameInt v =>
    simp only [MapProperty.writeBody] at hw; cases hw
    simp only [MapOK] at hok
    simp only [Out.app_bytes, List.length_append, mapHead_bytes, u32B_length] at hn h32 ⊢
    have hv : ∀ e ∈ v, SizeFree (.int e.2) ∧ BareOK env (st ++ ["Value"]) "IntProperty" (.int e.2) :=
      fun e he => ⟨trivial, by simp [BareOK]⟩
    exact reads_map_compact hr strKey_name (gv := .int) hok hv
      (writeEach_keyed (w := fun b => ⟨i32B b, 4⟩) (fun x => by simp only [Property.write]; rfl) v)
      ((mapNew_nameInt _).trans (compactMap_id (fk := asNameKey) (fv := asInt) (gk := fun s => .name 0 (some s)) (gv := .int)
        (fun _ => rfl) (fun _ => rfl) hok.2.1))
      (by omega) (by omega)
  case strInt v =>
    simp only [MapProperty.writeBody] at hw; cases hw
    simp only [MapOK] at hok
    simp only [Out.app_bytes, List.length_append, mapHead_bytes, u32B_length] at hn h32 ⊢
    have hv : ∀ e ∈ v, SizeFree (.int e.2) ∧ BareOK env (st ++ ["Value"]) "IntProperty" (.int e.2) :=
      fun e he => ⟨trivial, by simp [BareOK]⟩
    exact reads_map_compact hr strKey_str (gv := .int) hok hv
      (writeEach_keyed (w := fun b => ⟨i32B b, 4⟩) (fun x => by simp only [Property.write]; rfl) v)
      ((mapNew_strInt _).trans (compactMap_id (fk := asStrKey) (fv := asInt) (gk := fun s => .str (some s)) (gv := .int)
        (fun _ => rfl) (fun _ => rfl) hok.2.1))
      (by omega) (by omega)
  case strStr v =>
    simp only [MapProperty.writeBody] at hw; cases hw
    simp only [MapOK] at hok
    simp only [Out.app_bytes, List.length_append, mapHead_bytes, u32B_length] at hn h32 ⊢
    have hv : ∀ e ∈ v, SizeFree (.str e.2) ∧ BareOK env (st ++ ["Value"]) "StrProperty" (.str e.2) :=
      fun e he => ⟨trivial, by simp [BareOK, hok.2 e he]⟩
    exact reads_map_compact hr strKey_str (gv := .str) hok.1 hv
      (writeEach_keyed (w := writeFString) (fun x => by simp only [Property.write]; rfl) v)
      ((mapNew_strStr _).trans (compactMap_id (fk := asStrKey) (fv := asStr) (gk := fun s => .str (some s)) (gv := .str)
        (fun _ => rfl) (fun _ => rfl) hok.1.2.1))
      (by omega) (by omega)
  case enumProperty vt v =>
    simp only [MapProperty.writeBody] at hw
    obtain ⟨es, hes, hw⟩ := Res.bind_inv hw
    cases hw
    simp only [MapOK] at hok
    obtain ⟨h1, h2, h3, h4⟩ := hok
    simp only [Out.app_bytes, List.length_append, mapHead_bytes, u32B_length] at hn h32 ⊢
    rw [writeStrProps_eq] at hes
    refine reads_map_compact hr strKey_enum (gv := id) h3 (fun e he => valuesOK_iff.mp h4 e he)
      hes ?_ (by omega) (by omega)
    simp only [List.mem_cons, List.not_mem_nil, or_false, not_or] at h2
    unfold MapProperty.new
    rw [if_neg (by simp), if_pos rfl, if_neg h2.1, if_neg h2.2]
    exact compactMap_id (fk := asEnum) (fv := some) (gk := fun s => .enum none s) (gv := id)
        (fun _ => rfl) (fun _ => rfl) h3.2.1
  case nameProperty vt v =>
    simp only [MapProperty.writeBody] at hw
    obtain ⟨es, hes, hw⟩ := Res.bind_inv hw
    cases hw
    simp only [MapOK] at hok
    obtain ⟨h1, h2, h3, h4⟩ := hok
    simp only [Out.app_bytes, List.length_append, mapHead_bytes, u32B_length] at hn h32 ⊢
    rw [writeStrProps_eq] at hes
    refine reads_map_compact hr strKey_name (gv := id) h3 (fun e he => valuesOK_iff.mp h4 e he)
      hes ?_ (by omega) (by omega)
    simp only [List.mem_cons, List.not_mem_nil, or_false, not_or] at h2
    unfold MapProperty.new
    rw [if_neg (by simp), if_neg (by decide), if_pos rfl, if_neg h2.1, if_neg h2.2]
    exact compactMap_id (fk := asNameKey) (fv := some) (gk := fun s => .name 0 (some s)) (gv := id)
        (fun _ => rfl) (fun _ => rfl) h3.2.1
  case strProperty vt v =>
    simp only [MapProperty.writeBody] at hw
    obtain ⟨es, hes, hw⟩ := Res.bind_inv hw
    cases hw
    simp only [MapOK] at hok
    obtain ⟨h1, h2, h3, h4⟩ := hok
    simp only [Out.app_bytes, List.length_append, mapHead_bytes, u32B_length] at hn h32 ⊢
    rw [writeStrProps_eq] at hes
    refine reads_map_compact hr strKey_str (gv := id) h3 (fun e he => valuesOK_iff.mp h4 e he)
      hes ?_ (by omega) (by omega)
    simp only [List.mem_cons, List.not_mem_nil, or_false, not_or] at h2
    unfold MapProperty.new
    rw [if_neg (by simp), if_neg (by decide), if_neg (by decide), if_pos rfl, if_neg h2.1,
      if_neg h2.2.1, if_neg h2.2.2]
    exact compactMap_id (fk := asStrKey) (fv := some) (gk := fun s => .str (some s)) (gv := id)
        (fun _ => rfl) (fun _ => rfl) h3.2.1
  case properties kt vt fl es =>
    simp only [MapProperty.writeBody] at hw
    obtain ⟨o, ho, hw⟩ := Res.bind_inv hw
    cases hw
    simp only [MapOK] at hok
    obtain ⟨h1, h2, h3, h4, h5, h6, h7⟩ := hok
    simp only [Out.app_bytes, List.length_append, mapHead_bytes, u32B_length] at hn h32 ⊢
    rw [entriesOK_iff] at h7
    refine reads_mapBody hr h7 h3 h4 ho ?_ (by omega) (by omega)
    simp only [MapProperty.keyType, MapProperty.valueType]
    unfold MapProperty.new
    split
    · rfl
    · rename_i hfl
      have hfl : fl = 0 := by simpa using hfl
      have hnull : kt ∈ ["NameProperty", "StrProperty"] → ∀ fk : Property → Option String,
          (∀ i, fk (.name i none) = none) → fk (.str none) = none →
          ∀ {ν : Type} (fv : Property → Option ν), collect (asEntry fk fv) es = none := by
        intro hkt fk hf1 hf2 ν fv
        obtain ⟨e, he, hn⟩ := h6 hfl hkt
        refine collect_none.mpr ⟨e, he, ?_⟩
        unfold isNullKey at hn
        obtain ⟨k, x⟩ := e
        split at hn
        · simp_all [asEntry]
        · simp_all [asEntry]
        · exact hn.elim
      rw [if_neg (h5 hfl)]
      split
      · rename_i hk
        have hc := fun {ν : Type} (fv : Property → Option ν) =>
          hnull (by simp [hk]) asNameKey (fun _ => rfl) rfl fv
        simp only [compactMap, hc]
        split <;> (try split) <;> rfl
      · split
        · rename_i hk
          have hc := fun {ν : Type} (fv : Property → Option ν) =>
            hnull (by simp [hk]) asStrKey (fun _ => rfl) rfl fv
          simp only [compactMap, hc]
          split <;> (try split) <;> (try split) <;> rfl
        · rfl

/-! ## `Property::new` -/

theorem step_known {k : Kind} {ty : String} {h : Bool} {sug : Option UInt32} {bs : Bytes}
    {p : Property} (hty : k.typeName = ty)
    (hk : Reads (st ++ [ty]) (readKind env fuel rec h sug k) bs p) :
    Reads st (Property.readStep env fuel rec ty h sug) bs p := by
  subst hty
  unfold Property.readStep
  rw [kind_ofName]
  exact Reads.withEntry hk

/-- The bytes behind the type name. -/
theorem withHeader_bytes (ty : String) (parts body : Out) :
    (withHeader ty parts body).bytes = (writeString ty).bytes ++
      (u32B (UInt32.ofNat body.bytes.length) ++ u32B 0 ++ parts.bytes ++ [0] ++ body.bytes) := by
  simp only [withHeader, List.append_assoc]

theorem withHeader_body_lt {ty : String} {parts body : Out} {m : Nat}
    (h : (withHeader ty parts body).bytes.length < m) : body.bytes.length + 14 < m := by
  have := writeString_pos ty
  simp only [withHeader, List.length_append, u32B_length, List.length_cons, List.length_nil] at h
  omega

theorem head_step (hr : BareRec env n rec) (hh : HeadRec env n rec) {p : Property} {out : Out}
    (hok : HeadOK env st p) (hw : Property.write env.cv true p = .ok out)
    (hn : out.bytes.length ≤ n) (h32 : out.bytes.length < 2 ^ 32) :
    ∃ bs, out.bytes = (writeString (typeName p)).bytes ++ bs ∧
      Reads st (Property.readStep env (n + 1) rec (typeName p) true none) bs p := by
  cases p
  case array v =>
    simp only [Property.write] at hw
    obtain ⟨b, hb, hw⟩ := Res.bind_inv hw
    cases hw
    simp only [HeadOK] at hok
    simp only [headed, if_true] at hn h32 ⊢
    have h1 := withHeader_body_lt (Nat.lt_succ_of_le hn)
    have h2 := withHeader_body_lt h32
    refine ⟨_, withHeader_bytes _ _ _, step_known (k := .array) rfl ?_⟩
    unfold readKind readArrayProperty
    rw [if_pos rfl]
    refine reads_header' (reads_string ?_) (Reads.map (reads_arrayBody hr hh hb hok (by omega) (by omega)
      (by omega))) (u32_ofNat_toNat (by omega)).symm
    cases v <;> simp only [ArrayOK] at hok <;> simp only [ArrayProperty.propertyType]
    case properties => exact hok.1
    all_goals decide +kernel
  case map v =>
    simp only [Property.write] at hw
    obtain ⟨b, hb, hw⟩ := Res.bind_inv hw
    cases hw
    simp only [HeadOK] at hok
    simp only [headed, if_true] at hn h32 ⊢
    have h1 := withHeader_body_lt (Nat.lt_succ_of_le hn)
    have h2 := withHeader_body_lt h32
    refine ⟨_, withHeader_bytes _ _ _, step_known (k := .map) rfl ?_⟩
    unfold readKind readMapProperty
    rw [if_pos rfl]
    refine reads_header' (a := (v.keyType, v.valueType)) (Reads.bind (reads_string ?_) (Reads.map (reads_string ?_)))
      (reads_map hr hb hok (by omega) (by omega)) (u32_ofNat_toNat (by omega)).symm
    · cases v <;> simp only [MapOK] at hok <;> simp only [MapProperty.keyType]
      case properties => exact hok.1
      all_goals decide +kernel
    · cases v <;> simp only [MapOK] at hok <;> simp only [MapProperty.valueType]
      case properties => exact hok.2.1
      case enumProperty => exact hok.1
      case nameProperty => exact hok.1
      case strProperty => exact hok.1
      all_goals decide +kernel
  case set ty flags ps =>
    simp only [Property.write] at hw
    obtain ⟨b, hb, hw⟩ := Res.bind_inv hw
    cases hw
    simp only [HeadOK] at hok
    simp only [headed, if_true] at hn h32 ⊢
    have h1 := withHeader_body_lt (Nat.lt_succ_of_le hn)
    have h2 := withHeader_body_lt h32
    refine ⟨_, withHeader_bytes _ _ _, step_known (k := .set) rfl ?_⟩
    simp only [Out.app_bytes, u32O_bytes, List.length_append, u32B_length] at h1 h2 ⊢
    unfold readKind readSetProperty
    rw [if_pos rfl]
    exact reads_header' (reads_string hok.1)
      (reads_setBody hr hok.2.2.2 hok.2.2.1 hok.2.1 hb (by omega) (by omega))
      (by rw [u32_ofNat_toNat (by omega)]; simp only [List.length_append, u32B_length])
  case struct guid ty v =>
    simp only [Property.write] at hw
    obtain ⟨b, hb, hw⟩ := Res.bind_inv hw
    cases hw
    simp only [HeadOK] at hok
    simp only [headed, if_true] at hn h32 ⊢
    have h1 := withHeader_body_lt (Nat.lt_succ_of_le hn)
    have h2 := withHeader_body_lt h32
    refine ⟨_, withHeader_bytes _ _ _, step_known (k := .struct) rfl ?_⟩
    unfold readKind readStructProperty
    rw [if_pos rfl]
    exact reads_header' (a := (ty, guid)) (Reads.bind (reads_string hok.1) (Reads.map (reads_guid _)))
      (Reads.map (reads_struct hh ty v b hb hok.2 (by omega) (by omega) (by omega)))
      (u32_ofNat_toNat (by omega)).symm
  case structValue v => simp only [HeadOK] at hok
  case text v =>
    simp only [Property.write] at hw
    obtain ⟨b, hb, hw⟩ := Res.bind_inv hw
    cases hw
    simp only [HeadOK] at hok
    simp only [headed, if_true] at hn h32 ⊢
    have h1 := withHeader_body_lt (Nat.lt_succ_of_le hn)
    have h2 := withHeader_body_lt h32
    refine ⟨_, withHeader_bytes _ _ _, step_known (k := .text) rfl ?_⟩
    exact Reads.map (reads_plain (reads_text _ v b hok.2 hb (by omega)) (by omega))
  case bool v =>
    simp only [Property.write] at hw; cases hw
    refine ⟨u64B 0 ++ boolB v ++ [0], by simp [writeBoolProperty, List.append_assoc, typeName, u8B, leBytes],
      step_known (k := .bool) rfl ?_⟩
    refine Reads.map ?_
    unfold readBoolProperty R.onlyIf
    simp only [if_true, List.append_assoc]
    refine Reads.bind (a := ()) ?_ ((reads_bool v).bind (reads_separator.bind' (Reads.pure _) (by simp)))
    exact reads_checkSize (n := 0) (by omega)
  case byte name v =>
    simp only [Property.write] at hw; cases hw
    simp only [HeadOK] at hok
    obtain ⟨⟨s, rfl, hs⟩, hv⟩ := hok
    simp only [if_true] at hn h32 ⊢
    have hl : v.write.bytes.length < 2 ^ 32 := by
      simp only [byteHeader, List.length_append] at h32; omega
    refine ⟨_, ?_, step_known (k := .byte) rfl (reads_byte_head hs hv hl)⟩
    simp only [byteHeader, u64B_ofNat hl, List.append_assoc]
    rfl
  case enum ty v =>
    simp only [Property.write] at hw; cases hw
    simp only [HeadOK] at hok
    obtain ⟨⟨s, rfl, hs⟩, hv⟩ := hok
    simp only [headed, if_true] at hn h32 ⊢
    have h2 := withHeader_body_lt h32
    refine ⟨_, withHeader_bytes _ _ _, step_known (k := .enum) rfl ?_⟩
    unfold readKind readEnumProperty
    rw [if_pos rfl]
    exact reads_header' (reads_string hs) (Reads.map (reads_string hv))
      (u32_ofNat_toNat (by omega)).symm
  case name idx v =>
    simp only [Property.write] at hw; cases hw
    simp only [HeadOK] at hok
    simp only [if_true] at hn h32 ⊢
    have hl : (writeFString v).bytes.length < 2 ^ 32 := by
      simp only [withHeaderIndex, List.length_append] at h32; omega
    refine ⟨u32B (UInt32.ofNat (writeFString v).bytes.length) ++ u32B idx ++ [0] ++
      (writeFString v).bytes, by simp [withHeaderIndex, List.append_assoc, typeName],
      step_known (k := .name) rfl ?_⟩
    unfold readKind readNameProperty
    rw [if_pos rfl]
    simp only [List.append_assoc]
    exact (reads_u32 _).bind ((reads_u32 idx).bind (reads_terminator.bind
      (reads_sized (Reads.map (reads_fstring hok)) (u32_ofNat_toNat hl).symm)))
  case unknown name raw =>
    simp only [Property.write] at hw; cases hw
    simp only [HeadOK] at hok
    simp only [headed, if_true] at hn h32 ⊢
    have h2 := withHeader_body_lt h32
    refine ⟨_, withHeader_bytes _ _ _, ?_⟩
    unfold Property.readStep
    simp only [typeName]
    rw [kind_none_iff.mpr hok.2]
    refine Reads.withEntry ?_
    unfold readUnknown
    simp only [if_true, List.append_assoc, show Out.nil.bytes = [] from rfl, List.nil_append]
    refine (reads_u32 _).bind (reads_assertedIndex.bind
      (reads_separator.bind (Reads.map (Reads.take ?_))))
    exact (u32_ofNat_toNat (Nat.lt_of_le_of_lt (Nat.le_add_right _ 14) h2)).symm
  case double v =>
    simp only [Property.write] at hw; cases hw
    refine ⟨_, withHeader_bytes _ _ _, step_known (k := .double) rfl ?_⟩
    exact Reads.map (reads_fixed (reads_f64 v) (by simp) (by omega))
  case float v =>
    simp only [Property.write] at hw; cases hw
    refine ⟨_, withHeader_bytes _ _ _, step_known (k := .float) rfl ?_⟩
    exact Reads.map (reads_fixed (reads_f32 v) (by simp) (by omega))
  case int8 v =>
    simp only [Property.write] at hw; cases hw
    refine ⟨_, withHeader_bytes _ _ _, step_known (k := .int8) rfl ?_⟩
    exact Reads.map (reads_fixed (reads_i8 v) (by simp) (by omega))
  case int16 v =>
    simp only [Property.write] at hw; cases hw
    refine ⟨_, withHeader_bytes _ _ _, step_known (k := .int16) rfl ?_⟩
    exact Reads.map (reads_fixed (reads_i16 v) (by simp) (by omega))
  case int v =>
    simp only [Property.write] at hw; cases hw
    refine ⟨_, withHeader_bytes _ _ _, step_known (k := .int) rfl ?_⟩
    exact Reads.map (reads_fixed (reads_i32 v) (by simp) (by omega))
  case int64 v =>
    simp only [Property.write] at hw; cases hw
    refine ⟨_, withHeader_bytes _ _ _, step_known (k := .int64) rfl ?_⟩
    exact Reads.map (reads_fixed (reads_i64 v) (by simp) (by omega))
  case uint16 v =>
    simp only [Property.write] at hw; cases hw
    refine ⟨_, withHeader_bytes _ _ _, step_known (k := .uint16) rfl ?_⟩
    exact Reads.map (reads_fixed (reads_u16 v) (by simp) (by omega))
  case uint32 v =>
    simp only [Property.write] at hw; cases hw
    refine ⟨_, withHeader_bytes _ _ _, step_known (k := .uint32) rfl ?_⟩
    exact Reads.map (reads_fixed (reads_u32 v) (by simp) (by omega))
  case uint64 v =>
    simp only [Property.write] at hw; cases hw
    refine ⟨_, withHeader_bytes _ _ _, step_known (k := .uint64) rfl ?_⟩
    exact Reads.map (reads_fixed (reads_u64 v) (by simp) (by omega))
  case str v =>
    simp only [Property.write] at hw; cases hw
    simp only [HeadOK] at hok
    simp only [headed, if_true] at hn h32 ⊢
    have h2 := withHeader_body_lt h32
    refine ⟨_, withHeader_bytes _ _ _, step_known (k := .str) rfl ?_⟩
    exact Reads.map (reads_plain (reads_fstring hok) (by omega))
  case object v =>
    simp only [Property.write] at hw; cases hw
    simp only [HeadOK] at hok
    simp only [headed, if_true] at hn h32 ⊢
    have h2 := withHeader_body_lt h32
    refine ⟨_, withHeader_bytes _ _ _, step_known (k := .object) rfl ?_⟩
    exact Reads.map (reads_plain (reads_string hok) (by omega))
  case delegate v =>
    simp only [Property.write] at hw; cases hw
    simp only [HeadOK] at hok
    simp only [headed, if_true] at hn h32 ⊢
    have h2 := withHeader_body_lt h32
    refine ⟨_, withHeader_bytes _ _ _, step_known (k := .delegate) rfl ?_⟩
    exact Reads.map (reads_plain (reads_delegate hok) (by omega))
  case multicastInlineDelegate v =>
    simp only [Property.write] at hw; cases hw
    simp only [HeadOK] at hok
    simp only [headed, if_true] at hn h32 ⊢
    have h2 := withHeader_body_lt h32
    refine ⟨_, withHeader_bytes _ _ _, step_known (k := .multicastInlineDelegate) rfl ?_⟩
    exact Reads.map (reads_plain (reads_multicast hok) (by omega))
  case multicastSparseDelegate v =>
    simp only [Property.write] at hw; cases hw
    simp only [HeadOK] at hok
    simp only [headed, if_true] at hn h32 ⊢
    have h2 := withHeader_body_lt h32
    refine ⟨_, withHeader_bytes _ _ _, step_known (k := .multicastSparseDelegate) rfl ?_⟩
    exact Reads.map (reads_plain (reads_multicast hok) (by omega))
  case fieldPath v =>
    simp only [Property.write] at hw; cases hw
    simp only [HeadOK] at hok
    simp only [headed, if_true] at hn h32 ⊢
    have h2 := withHeader_body_lt h32
    refine ⟨_, withHeader_bytes _ _ _, step_known (k := .fieldPath) rfl ?_⟩
    exact Reads.map (reads_plain (reads_fieldPath hok) (by omega))

theorem bare_step (hh : HeadRec env n rec) {ty : String} {sug : Option UInt32}
    {p : Property} {out : Out} (hok : BareOK env st ty p) (hs : SugOK sug p)
    (hw : Property.write env.cv false p = .ok out) (hn : out.bytes.length ≤ n)
    (h32 : out.bytes.length < 2 ^ 32) :
    Reads st (Property.readStep env (n + 1) rec ty false sug) out.bytes p := by
  cases p <;> simp only [BareOK] at hok
  case structValue v =>
    simp only [Property.write] at hw
    obtain ⟨rfl, hint, hh1, hh2⟩ := hok
    refine step_known (k := .struct) rfl ?_
    unfold readKind readStructProperty
    simp only [Bool.false_eq_true, if_false]
    refine Reads.bind0 Reads.getStack ?_
    rw [hh1]
    exact Reads.map (reads_struct hh hint v out (by simpa using hw) hh2 hn (by omega) h32)
  case text v =>
    simp only [Property.write] at hw
    obtain ⟨b, hb, hw⟩ := Res.bind_inv hw
    cases hw
    obtain ⟨rfl, hok⟩ := hok
    refine step_known (k := .text) rfl (Reads.map ?_)
    exact reads_text _ v b hok.2 hb (Nat.lt_succ_of_le hn)
  case bool v =>
    simp only [Property.write] at hw; cases hw
    subst hok
    refine step_known (k := .bool) rfl (Reads.map ?_)
    unfold readBoolProperty R.onlyIf
    simp only [Bool.false_eq_true, if_false]
    exact (Reads.rpure ()).bind0 ((reads_bool v).bind' ((Reads.rpure ()).bind0 (Reads.pure _)) (by simp [writeBoolProperty]))
  case byte name v =>
    simp only [Property.write] at hw; cases hw
    obtain ⟨rfl, rfl, hv⟩ := hok
    exact step_known (k := .byte) rfl (reads_byte_bare hv hs)
  case enum t v =>
    simp only [Property.write] at hw; cases hw
    obtain ⟨rfl, rfl, hv⟩ := hok
    exact step_known (k := .enum) rfl (Reads.map (reads_string hv))
  case name i v =>
    simp only [Property.write] at hw; cases hw
    obtain ⟨rfl, rfl, hv⟩ := hok
    exact step_known (k := .name) rfl (Reads.map (reads_fstring hv))
  case unknown name raw =>
    simp only [Property.write] at hw; cases hw
    obtain ⟨rfl, hk⟩ := hok
    simp only [SugOK] at hs
    obtain ⟨e, rfl, he⟩ := hs
    unfold Property.readStep
    rw [kind_none_iff.mpr hk]
    exact Reads.withEntry (Reads.map (Reads.take he.symm))
  case double v =>
    simp only [Property.write] at hw; cases hw; subst hok
    exact step_known (k := .double) rfl (Reads.map (reads_fixed_bare (reads_f64 v)))
  case float v =>
    simp only [Property.write] at hw; cases hw; subst hok
    exact step_known (k := .float) rfl (Reads.map (reads_fixed_bare (reads_f32 v)))
  case int8 v =>
    simp only [Property.write] at hw; cases hw; subst hok
    exact step_known (k := .int8) rfl (Reads.map (reads_fixed_bare (reads_i8 v)))
  case int16 v =>
    simp only [Property.write] at hw; cases hw; subst hok
    exact step_known (k := .int16) rfl (Reads.map (reads_fixed_bare (reads_i16 v)))
  case int v =>
    simp only [Property.write] at hw; cases hw; subst hok
    exact step_known (k := .int) rfl (Reads.map (reads_fixed_bare (reads_i32 v)))
  case int64 v =>
    simp only [Property.write] at hw; cases hw; subst hok
    exact step_known (k := .int64) rfl (Reads.map (reads_fixed_bare (reads_i64 v)))
  case uint16 v =>
    simp only [Property.write] at hw; cases hw; subst hok
    exact step_known (k := .uint16) rfl (Reads.map (reads_fixed_bare (reads_u16 v)))
  case uint32 v =>
    simp only [Property.write] at hw; cases hw; subst hok
    exact step_known (k := .uint32) rfl (Reads.map (reads_fixed_bare (reads_u32 v)))
  case uint64 v =>
    simp only [Property.write] at hw; cases hw; subst hok
    exact step_known (k := .uint64) rfl (Reads.map (reads_fixed_bare (reads_u64 v)))
  case str v =>
    simp only [Property.write] at hw; cases hw
    obtain ⟨rfl, hv⟩ := hok
    exact step_known (k := .str) rfl (Reads.map (reads_fstring hv))
  case object v =>
    simp only [Property.write] at hw; cases hw
    obtain ⟨rfl, hv⟩ := hok
    exact step_known (k := .object) rfl (Reads.map (reads_string hv))
  case delegate v =>
    simp only [Property.write] at hw; cases hw
    obtain ⟨rfl, hv⟩ := hok
    exact step_known (k := .delegate) rfl (Reads.map (reads_delegate hv))
  case multicastInlineDelegate v =>
    simp only [Property.write] at hw; cases hw
    obtain ⟨rfl, hv⟩ := hok
    exact step_known (k := .multicastInlineDelegate) rfl (Reads.map (reads_multicast hv))
  case multicastSparseDelegate v =>
    simp only [Property.write] at hw; cases hw
    obtain ⟨rfl, hv⟩ := hok
    exact step_known (k := .multicastSparseDelegate) rfl (Reads.map (reads_multicast hv))
  case fieldPath v =>
    simp only [Property.write] at hw; cases hw
    obtain ⟨rfl, hv⟩ := hok
    exact step_known (k := .fieldPath) rfl (Reads.map (reads_fieldPath hv))

/-- Everything written is read back, with and without header. -/
theorem reads_property (n : Nat) :
    HeadRec env n (Property.read env n) ∧ BareRec env n (Property.read env n) := by
  induction n with
  | zero => exact ⟨fun _ _ _ _ _ h => absurd h (by omega), fun _ _ _ _ _ _ _ _ h => absurd h (by omega)⟩
  | succ n ih =>
    exact ⟨fun st p out hok hw hn h32 => head_step ih.2 ih.1 hok hw (by omega) h32,
      fun st ty sug p out hok hs hw hn h32 => bare_step ih.1 hok hs hw (by omega) h32⟩

end

end Gvas
