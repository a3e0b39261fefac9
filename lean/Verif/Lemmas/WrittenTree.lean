import Verif.Lemmas.Written

/-! # What the writers of properties write follows the grammar of written files, and conversely -/

namespace Gvas

open Spec Format

variable {cv : List (Guid × UInt32)}

/-! ## Values without properties -/

theorem own_delegate (d : Delegate) : Own.DelegateAt d.write.bytes d :=
  .mk (own_string d.object) (own_string d.functionName)

theorem own_delegate_eq {b : Bytes} {d : Delegate} (h : Own.DelegateAt b d) : b = d.write.bytes := by
  cases h with
  | mk h1 h2 => rw [own_string_eq h1, own_string_eq h2]; rfl

theorem own_byte (v : BytePropertyValue) : Own.ByteValue v.write.bytes v := by
  cases v with
  | byte x => exact at_eq (.byte x) (by simp [BytePropertyValue.write, u8B_eq])
  | namespaced s => exact .name (own_string s)

theorem own_byte_eq {b : Bytes} {v : BytePropertyValue} (h : Own.ByteValue b v) :
    b = v.write.bytes := by
  cases h with
  | byte x => simp [BytePropertyValue.write, u8B_eq]
  | name h => exact own_string_eq h

theorem boolB_eq (v : Bool) : boolB v = [if v then 1 else 0] := by cases v <;> rfl

/-- Properties whose type is given by its name alone, and their body. -/
theorem own_plain_eq {ty : String} {b : Bytes} {p : Property} (h : Own.Plain cv ty b p)
    (hd : Bool) : ∃ body : Out, Property.write cv hd p = .ok (headed hd ty Out.nil body) ∧
      body.bytes = b := by
  cases h with
  | number h => cases h <;> (rw [Property.write]; exact ⟨_, rfl, rfl⟩)
  | str h => rw [Property.write]; exact ⟨_, rfl, (own_fstring_eq h).symm⟩
  | text h =>
    rw [Property.write]
    obtain ⟨o, ho, hb⟩ := wrote_text h
    rw [ho]
    exact ⟨_, rfl, hb⟩
  | object h => rw [Property.write]; exact ⟨_, rfl, (own_string_eq h).symm⟩
  | delegate h => rw [Property.write]; exact ⟨_, rfl, (own_delegate_eq h).symm⟩
  | inlined h =>
    rw [Property.write]; exact ⟨_, rfl, (own_counted_eq (f := Delegate.write) (fun _ _ => own_delegate_eq) h).symm⟩
  | sparse h =>
    rw [Property.write]; exact ⟨_, rfl, (own_counted_eq (f := Delegate.write) (fun _ _ => own_delegate_eq) h).symm⟩
  | fieldPath h1 h2 =>
    rw [Property.write]
    refine ⟨_, rfl, ?_⟩
    rw [own_counted_eq (f := writeString) (fun _ _ h => own_string_eq h) h1, own_string_eq h2]
    rfl
  | unknown ty b => rw [Property.write]; exact ⟨_, rfl, rfl⟩

/-! ## Headers -/

theorem headed_false (ty : String) (parts body : Out) : headed false ty parts body = body := rfl

theorem headed_true (ty : String) (parts body : Out) :
    (headed true ty parts body).bytes =
      (writeString ty).bytes ++ sized parts.bytes body.bytes := by
  simp only [headed, if_true, withHeader, sized, List.append_assoc]

/-! ## Structs -/

theorem own_builtin {v : StructPropertyValue} {o : Out}
    (h : StructPropertyValue.writeBody cv v = .ok o) (hv : ∀ fs, v ≠ .customStruct fs) :
    Own.Builtin cv o.bytes v := by
  have large : lwc cv = true → LargeWorld cv := largeWorld_iff.mpr
  have small : (!lwc cv) = true → ¬ LargeWorld cv := fun h h' => by
    rw [largeWorld_iff.mp h'] at h; exact absurd h (by decide)
  have wi : ∀ {c : Bool} {o' : Out} {msg : String}, writeIf c o' msg = .ok o → c = true ∧ o = o' := by
    intro c o' msg h
    unfold writeIf at h
    split at h
    · next hc => exact ⟨hc, by simpa using h.symm⟩
    · cases h
  match v with
  | .vector2F x y => rw [StructPropertyValue.writeBody] at h; obtain ⟨hc, rfl⟩ := wi h; exact .vector2F x y (small hc)
  | .vector2D x y => rw [StructPropertyValue.writeBody] at h; obtain ⟨hc, rfl⟩ := wi h; exact .vector2D x y (large hc)
  | .vectorF x y z => rw [StructPropertyValue.writeBody] at h; obtain ⟨hc, rfl⟩ := wi h; exact .vectorF x y z (small hc)
  | .vectorD x y z => rw [StructPropertyValue.writeBody] at h; obtain ⟨hc, rfl⟩ := wi h; exact .vectorD x y z (large hc)
  | .rotatorF x y z => rw [StructPropertyValue.writeBody] at h; obtain ⟨hc, rfl⟩ := wi h; exact .rotatorF x y z (small hc)
  | .rotatorD x y z => rw [StructPropertyValue.writeBody] at h; obtain ⟨hc, rfl⟩ := wi h; exact .rotatorD x y z (large hc)
  | .quatF x y z w => rw [StructPropertyValue.writeBody] at h; obtain ⟨hc, rfl⟩ := wi h; exact .quatF x y z w (small hc)
  | .quatD x y z w => rw [StructPropertyValue.writeBody] at h; obtain ⟨hc, rfl⟩ := wi h; exact .quatD x y z w (large hc)
  | .dateTime t => rw [StructPropertyValue.writeBody] at h; wr_tac h; exact .dateTime t
  | .timespan t => rw [StructPropertyValue.writeBody] at h; wr_tac h; exact .timespan t
  | .guid g => rw [StructPropertyValue.writeBody] at h; wr_tac h; exact .guid g
  | .linearColor r g b a => rw [StructPropertyValue.writeBody] at h; wr_tac h; exact .linearColor r g b a
  | .intPoint x y => rw [StructPropertyValue.writeBody] at h; wr_tac h; exact .intPoint x y
  | .gameplayTagContainer ts =>
    rw [StructPropertyValue.writeBody] at h; wr_tac h; exact .tags (own_seq own_string ts)
  | .customStruct fs => exact absurd rfl (hv fs)

theorem wrote_builtin {b : Bytes} {v : StructPropertyValue} (h : Own.Builtin cv b v) :
    Wrote (StructPropertyValue.writeBody cv v) b := by
  have large : LargeWorld cv → lwc cv = true := largeWorld_iff.mp
  have small : ¬ LargeWorld cv → (!lwc cv) = true := fun h => by
    cases e : lwc cv
    · rfl
    · exact absurd (largeWorld_iff.mpr e) h
  cases h with
  | vectorF _ _ _ h | vector2F _ _ h | rotatorF _ _ _ h | quatF _ _ _ _ h =>
    rw [StructPropertyValue.writeBody, writeIf, if_pos (small h)]; exact .ok rfl
  | vectorD _ _ _ h | vector2D _ _ h | rotatorD _ _ _ h | quatD _ _ _ _ h =>
    rw [StructPropertyValue.writeBody, writeIf, if_pos (large h)]; exact .ok rfl
  | dateTime | timespan | linearColor | intPoint | guid =>
    rw [StructPropertyValue.writeBody]; exact .ok rfl
  | tags h =>
    rw [StructPropertyValue.writeBody]
    refine .ok ?_
    rw [own_seq_eq (f := writeString) (fun _ _ h => own_string_eq h) h]
    rfl

/-! ## Lists -/

theorem Own.Fields.append {b b' : Bytes} {es es' : List (String × Property)}
    (h : Own.Fields cv b es) (h' : Own.Fields cv b' es') : Own.Fields cv (b ++ b') (es ++ es') := by
  induction es generalizing b with
  | nil => cases h; exact h'
  | cons e es ih =>
    cases h with
    | cons h1 h2 h3 h4 => exact at_eq (.cons h1 h2 h3 (ih h4)) (by simp only [List.append_assoc])

theorem own_map_bares {α : Type} {f : α → Out} {g : α → Property}
    (hf : ∀ a, Own.Bare cv (f a).bytes (g a)) (l : List α) :
    Own.Bares cv (concatOut f l).bytes (l.map g) := by
  induction l with
  | nil => exact .nil
  | cons a l ih => exact .cons (hf a) ih

theorem own_map_entries {α β : Type} {f : α × β → Out} {k : α → Property} {v : β → Property}
    {fk : α → Out} {fv : β → Out} (hf : ∀ e, f e = fk e.1 ++ fv e.2)
    (hk : ∀ a, Own.Bare cv (fk a).bytes (k a)) (hv : ∀ a, Own.Bare cv (fv a).bytes (v a))
    (l : List (α × β)) : Own.Entries cv (concatOut f l).bytes (pairs k v l) := by
  induction l with
  | nil => exact .nil
  | cons a l ih => exact at_eq (.cons (hk a.1) (hv a.2) ih) (by rw [concatOut, hf]; rfl)

theorem own_bare_enum (s : String) : Own.Bare cv (writeString s).bytes (.enum none s) :=
  .enum none (own_string s)
theorem own_bare_name (s : Option String) : Own.Bare cv (writeFString s).bytes (.name 0 s) :=
  .name 0 (own_fstring s)
theorem own_bare_str (s : Option String) : Own.Bare cv (writeFString s).bytes (.str s) :=
  .plain (.str (own_fstring s))
theorem own_bare_bool (v : Bool) : Own.Bare cv (⟨boolB v, 1⟩ : Out).bytes (.bool v) :=
  at_eq (.bool v) (boolB_eq v)
theorem own_bare_int (v : Int32) : Own.Bare cv (⟨i32B v, 4⟩ : Out).bytes (.int v) :=
  .plain (.number (.int v))
theorem own_bare_float (v : F32) : Own.Bare cv (⟨f32B v, 4⟩ : Out).bytes (.float v) :=
  .plain (.number (.float v))
theorem own_bare_u8 (v : UInt8) : Own.Bare cv (⟨u8B v, 1⟩ : Out).bytes (.byte none (.byte v)) :=
  .byte none (own_byte (.byte v))

/-- Written with or without a header. -/
def OwnAs (cv : List (Guid × UInt32)) (hd : Bool) (b : Bytes) (p : Property) : Prop :=
  if hd then ∃ ty b', Own.Full cv ty b' p ∧ b = (writeString ty).bytes ++ b' else Own.Bare cv b p

theorem ownAs_headed {hd : Bool} {ty : String} {parts body : Out} {p : Property}
    (h1 : Own.Parts cv ty parts.bytes p) (h2 : Own.Bare cv body.bytes p) :
    OwnAs cv hd (headed hd ty parts body).bytes p := by
  cases hd
  · exact h2
  · exact ⟨ty, _, .sized h1 h2, headed_true ty parts body⟩

theorem ownAs_plain {hd : Bool} {ty : String} {body : Out} {p : Property}
    (h : Own.Plain cv ty body.bytes p) : OwnAs cv hd (headed hd ty Out.nil body).bytes p :=
  ownAs_headed (.plain h) (.plain h)

mutual
theorem own_property (hd : Bool) (p : Property) (o : Out) (h : Property.write cv hd p = .ok o) :
    OwnAs cv hd o.bytes p := by
  match p with
  | .array v =>
    rw [Property.write] at h
    obtain ⟨a, h1, h⟩ := Res.bind_inv h
    wr_tac h
    obtain ⟨h2, h3⟩ := own_array v a h1
    exact ownAs_headed h2 h3
  | .bool v =>
    rw [Property.write] at h
    wr_tac h
    cases hd
    · exact own_bare_bool v
    · exact ⟨_, _, .bool v, by simp only [writeBoolProperty, if_true, Out.app_bytes, boolB_eq,
        u8B_eq, List.append_assoc]⟩
  | .byte name v =>
    rw [Property.write] at h
    wr_tac h
    cases hd
    · exact .byte name (own_byte v)
    · exact ⟨_, _, .byte (own_fstring name) (own_byte v), by
        simp only [if_true, byteHeader, List.append_assoc]⟩
  | .double v => rw [Property.write] at h; wr_tac h; exact ownAs_plain (.number (.double v))
  | .enum ty v =>
    rw [Property.write] at h; wr_tac h
    exact ownAs_headed (.enum v (own_fstring ty)) (.enum ty (own_string v))
  | .float v => rw [Property.write] at h; wr_tac h; exact ownAs_plain (.number (.float v))
  | .int16 v => rw [Property.write] at h; wr_tac h; exact ownAs_plain (.number (.int16 v))
  | .int64 v => rw [Property.write] at h; wr_tac h; exact ownAs_plain (.number (.int64 v))
  | .int8 v => rw [Property.write] at h; wr_tac h; exact ownAs_plain (.number (.int8 v))
  | .int v => rw [Property.write] at h; wr_tac h; exact ownAs_plain (.number (.int v))
  | .map v =>
    rw [Property.write] at h
    obtain ⟨a, h1, h⟩ := Res.bind_inv h
    wr_tac h
    obtain ⟨h2, h3⟩ := own_map v a h1
    exact ownAs_headed h2 h3
  | .name idx v =>
    rw [Property.write] at h
    wr_tac h
    cases hd
    · exact .name idx (own_fstring v)
    · exact ⟨_, _, .name idx (own_fstring v), by
        simp only [if_true, withHeaderIndex, List.append_assoc]⟩
  | .object v => rw [Property.write] at h; wr_tac h; exact ownAs_plain (.object (own_string v))
  | .delegate v => rw [Property.write] at h; wr_tac h; exact ownAs_plain (.delegate (own_delegate v))
  | .multicastInlineDelegate v =>
    rw [Property.write] at h; wr_tac h; exact ownAs_plain (.inlined (own_counted own_delegate v))
  | .multicastSparseDelegate v =>
    rw [Property.write] at h; wr_tac h; exact ownAs_plain (.sparse (own_counted own_delegate v))
  | .fieldPath v =>
    rw [Property.write] at h; wr_tac h
    exact ownAs_plain (.fieldPath (own_counted own_string v.path) (own_string v.resolvedOwner))
  | .set ty fl ps =>
    rw [Property.write] at h
    obtain ⟨a, h1, h⟩ := Res.bind_inv h
    wr_tac h
    exact ownAs_headed (.set fl ps (own_string ty)) (.set ty fl (own_list ps a h1))
  | .str v => rw [Property.write] at h; wr_tac h; exact ownAs_plain (.str (own_fstring v))
  | .struct g ty v =>
    rw [Property.write] at h
    obtain ⟨a, h1, h⟩ := Res.bind_inv h
    wr_tac h
    exact ownAs_headed (.struct g v (own_string ty)) (.struct g ty (own_struct v a h1))
  | .structValue v =>
    rw [Property.write] at h
    cases hd
    · exact .structValue (own_struct v o h)
    · cases h
  | .text v =>
    rw [Property.write] at h
    obtain ⟨a, h1, h⟩ := Res.bind_inv h
    wr_tac h
    exact ownAs_plain (.text (own_text v a h1))
  | .uint16 v => rw [Property.write] at h; wr_tac h; exact ownAs_plain (.number (.uint16 v))
  | .uint32 v => rw [Property.write] at h; wr_tac h; exact ownAs_plain (.number (.uint32 v))
  | .uint64 v => rw [Property.write] at h; wr_tac h; exact ownAs_plain (.number (.uint64 v))
  | .unknown name raw => rw [Property.write] at h; wr_tac h; exact ownAs_plain (.unknown name raw)
theorem own_array (v : ArrayProperty) (o : Out) (h : ArrayProperty.writeBody cv v = .ok o) :
    Own.Parts cv "ArrayProperty" (writeString v.propertyType).bytes (.array v) ∧
      Own.Bare cv o.bytes (.array v) := by
  match v with
  | .bools v =>
    rw [ArrayProperty.writeBody] at h; wr_tac h
    exact ⟨.array (.inl (.bools v)) (own_string _),
      at_eq (.array (.inl (.bools v)) (own_map_bares own_bare_bool v)) (by rw [List.length_map]; rfl)⟩
  | .bytes v =>
    rw [ArrayProperty.writeBody] at h; wr_tac h
    exact ⟨.array (.inl (.bytes v)) (own_string _),
      at_eq (.array (.inl (.bytes v)) (own_map_bares own_bare_u8 v)) (by rw [List.length_map]; rfl)⟩
  | .enums v =>
    rw [ArrayProperty.writeBody] at h; wr_tac h
    exact ⟨.array (.inl (.enums v)) (own_string _),
      at_eq (.array (.inl (.enums v)) (own_map_bares own_bare_enum v)) (by rw [List.length_map]; rfl)⟩
  | .floats v =>
    rw [ArrayProperty.writeBody] at h; wr_tac h
    exact ⟨.array (.inl (.floats v)) (own_string _),
      at_eq (.array (.inl (.floats v)) (own_map_bares own_bare_float v)) (by rw [List.length_map]; rfl)⟩
  | .ints v =>
    rw [ArrayProperty.writeBody] at h; wr_tac h
    exact ⟨.array (.inl (.ints v)) (own_string _),
      at_eq (.array (.inl (.ints v)) (own_map_bares own_bare_int v)) (by rw [List.length_map]; rfl)⟩
  | .names v =>
    rw [ArrayProperty.writeBody] at h; wr_tac h
    exact ⟨.array (.inl (.names v)) (own_string _),
      at_eq (.array (.inl (.names v)) (own_map_bares own_bare_name v)) (by rw [List.length_map]; rfl)⟩
  | .strings v =>
    rw [ArrayProperty.writeBody] at h; wr_tac h
    exact ⟨.array (.inl (.strings v)) (own_string _),
      at_eq (.array (.inl (.strings v)) (own_map_bares own_bare_str v)) (by rw [List.length_map]; rfl)⟩
  | .structs field ty g vs =>
    rw [ArrayProperty.writeBody] at h
    obtain ⟨a, h1, h⟩ := Res.bind_inv h
    wr_tac h
    exact ⟨.structs field ty g vs (own_string _),
      at_eq (.structs g (own_string field) (own_string _) (own_string ty) (own_structs vs a h1))
        (by simp only [structArrayBody, u8B_eq])⟩
  | .properties ty ps =>
    rw [ArrayProperty.writeBody] at h
    obtain ⟨a, h1, h⟩ := Res.bind_inv h
    wr_tac h
    exact ⟨.array (.inr rfl) (own_string ty), .array (.inr rfl) (own_list ps a h1)⟩
theorem own_map (v : MapProperty) (o : Out) (h : MapProperty.writeBody cv v = .ok o) :
    Own.Parts cv "MapProperty" (writeString v.keyType ++ writeString v.valueType).bytes (.map v) ∧
      Own.Bare cv o.bytes (.map v) := by
  match v with
  | .enumBool v =>
    rw [MapProperty.writeBody] at h; wr_tac h
    exact ⟨.map (.enumBool v) (own_string _) (own_string _), at_eq (.map (.enumBool v)
      (own_map_entries (fun _ => rfl) own_bare_enum own_bare_bool v)) (by rw [pairs, List.length_map]; rfl)⟩
  | .enumInt v =>
    rw [MapProperty.writeBody] at h; wr_tac h
    exact ⟨.map (.enumInt v) (own_string _) (own_string _), at_eq (.map (.enumInt v)
      (own_map_entries (fun _ => rfl) own_bare_enum own_bare_int v)) (by rw [pairs, List.length_map]; rfl)⟩
  | .nameBool v =>
    rw [MapProperty.writeBody] at h; wr_tac h
    exact ⟨.map (.nameBool v) (own_string _) (own_string _), at_eq (.map (.nameBool v)
      (own_map_entries (fun _ => rfl) (fun s => own_bare_name (some s)) own_bare_bool v))
      (by rw [pairs, List.length_map]; rfl)⟩
  | .nameInt v =>
    rw [MapProperty.writeBody] at h; wr_tac h
    exact ⟨.map (.nameInt v) (own_string _) (own_string _), at_eq (.map (.nameInt v)
      (own_map_entries (fun _ => rfl) (fun s => own_bare_name (some s)) own_bare_int v))
      (by rw [pairs, List.length_map]; rfl)⟩
  | .strBool v =>
    rw [MapProperty.writeBody] at h; wr_tac h
    exact ⟨.map (.strBool v) (own_string _) (own_string _), at_eq (.map (.strBool v)
      (own_map_entries (fun _ => rfl) (fun s => own_bare_str (some s)) own_bare_bool v))
      (by rw [pairs, List.length_map]; rfl)⟩
  | .strInt v =>
    rw [MapProperty.writeBody] at h; wr_tac h
    exact ⟨.map (.strInt v) (own_string _) (own_string _), at_eq (.map (.strInt v)
      (own_map_entries (fun _ => rfl) (fun s => own_bare_str (some s)) own_bare_int v))
      (by rw [pairs, List.length_map]; rfl)⟩
  | .strStr v =>
    rw [MapProperty.writeBody] at h; wr_tac h
    exact ⟨.map (.strStr v) (own_string _) (own_string _), at_eq (.map (.strStr v)
      (own_map_entries (fun _ => rfl) (fun s => own_bare_str (some s)) own_bare_str v))
      (by rw [pairs, List.length_map]; rfl)⟩
  | .enumProperty vt v =>
    rw [MapProperty.writeBody] at h
    obtain ⟨a, h1, h⟩ := Res.bind_inv h
    wr_tac h
    exact ⟨.map (.enumProperty vt v) (own_string _) (own_string _), at_eq (.map (.enumProperty vt v)
      (own_values own_bare_enum v a h1)) (by rw [pairs, List.length_map]; rfl)⟩
  | .nameProperty vt v =>
    rw [MapProperty.writeBody] at h
    obtain ⟨a, h1, h⟩ := Res.bind_inv h
    wr_tac h
    exact ⟨.map (.nameProperty vt v) (own_string _) (own_string _), at_eq (.map (.nameProperty vt v)
      (own_values (fun s => own_bare_name (some s)) v a h1)) (by rw [pairs, List.length_map]; rfl)⟩
  | .strProperty vt v =>
    rw [MapProperty.writeBody] at h
    obtain ⟨a, h1, h⟩ := Res.bind_inv h
    wr_tac h
    exact ⟨.map (.strProperty vt v) (own_string _) (own_string _), at_eq (.map (.strProperty vt v)
      (own_values (fun s => own_bare_str (some s)) v a h1)) (by rw [pairs, List.length_map]; rfl)⟩
  | .properties kt vt fl m =>
    rw [MapProperty.writeBody] at h
    obtain ⟨a, h1, h⟩ := Res.bind_inv h
    wr_tac h
    exact ⟨.map (.properties kt vt fl m) (own_string _) (own_string _),
      .map (.properties kt vt fl m) (own_entries m a h1)⟩
theorem own_struct (v : StructPropertyValue) (o : Out)
    (h : StructPropertyValue.writeBody cv v = .ok o) : Own.StructBody cv o.bytes v := by
  match v with
  | .customStruct fs =>
    rw [StructPropertyValue.writeBody] at h
    obtain ⟨a, h1, h⟩ := Res.bind_inv h
    wr_tac h
    exact .custom (own_fields fs a h1) (own_string "None")
  | .vector2F .. | .vector2D .. | .vectorF .. | .vectorD .. | .rotatorF .. | .rotatorD ..
  | .quatF .. | .quatD .. | .dateTime .. | .timespan .. | .guid .. | .linearColor ..
  | .intPoint .. | .gameplayTagContainer .. =>
    exact .builtin (own_builtin h (fun _ => by intro e; cases e))
theorem own_list (l : List Property) (o : Out) (h : writeList cv l = .ok o) :
    Own.Bares cv o.bytes l := by
  match l with
  | [] => rw [writeList] at h; wr_tac h; exact .nil
  | p :: l =>
    rw [writeList] at h
    obtain ⟨a, h1, h⟩ := Res.bind_inv h
    obtain ⟨b, h2, h⟩ := Res.bind_inv h
    wr_tac h
    exact .cons (own_property false p a h1) (own_list l b h2)
theorem own_structs (l : List StructPropertyValue) (o : Out) (h : writeStructs cv l = .ok o) :
    Own.StructBodies cv o.bytes l := by
  match l with
  | [] => rw [writeStructs] at h; wr_tac h; exact .nil
  | p :: l =>
    rw [writeStructs] at h
    obtain ⟨a, h1, h⟩ := Res.bind_inv h
    obtain ⟨b, h2, h⟩ := Res.bind_inv h
    wr_tac h
    exact .cons (own_struct p a h1) (own_structs l b h2)
theorem own_values {k : String → Property} (hk : ∀ s, Own.Bare cv (writeString s).bytes (k s))
    (l : List (String × Property)) (o : Out) (h : writeStrProps cv l = .ok o) :
    Own.Entries cv o.bytes (pairs k id l) := by
  match l with
  | [] => rw [writeStrProps] at h; wr_tac h; exact .nil
  | (s, p) :: l =>
    rw [writeStrProps] at h
    obtain ⟨a, h1, h⟩ := Res.bind_inv h
    obtain ⟨b, h2, h⟩ := Res.bind_inv h
    wr_tac h
    exact at_eq (.cons (hk s) (own_property false p a h1) (own_values hk l b h2)) (by by_tac)
theorem own_entries (l : List (Property × Property)) (o : Out) (h : writePairs cv l = .ok o) :
    Own.Entries cv o.bytes l := by
  match l with
  | [] => rw [writePairs] at h; wr_tac h; exact .nil
  | (k, p) :: l =>
    rw [writePairs] at h
    obtain ⟨a, h1, h⟩ := Res.bind_inv h
    obtain ⟨b, h2, h⟩ := Res.bind_inv h
    obtain ⟨c, h3, h⟩ := Res.bind_inv h
    wr_tac h
    exact at_eq (.cons (own_property false k a h1) (own_property false p b h2)
      (own_entries l c h3)) (by by_tac)
theorem own_fields (l : List (String × List Property)) (o : Out) (h : writeFields cv l = .ok o) :
    Own.Fields cv o.bytes (Own.named l) := by
  match l with
  | [] => rw [writeFields] at h; wr_tac h; exact .nil
  | (k, ps) :: l =>
    rw [writeFields] at h
    obtain ⟨a, h1, h⟩ := Res.bind_inv h
    obtain ⟨b, h2, h⟩ := Res.bind_inv h
    wr_tac h
    exact Own.Fields.append (own_vals k ps a h1) (own_fields l b h2)
theorem own_vals (k : String) (l : List Property) (o : Out) (h : writeFieldVals cv k l = .ok o) :
    Own.Fields cv o.bytes (l.map fun p => (k, p)) := by
  match l with
  | [] => rw [writeFieldVals] at h; wr_tac h; exact .nil
  | p :: l =>
    rw [writeFieldVals] at h
    obtain ⟨a, h1, h⟩ := Res.bind_inv h
    obtain ⟨b, h2, h⟩ := Res.bind_inv h
    wr_tac h
    obtain ⟨ty, b', hf, hb⟩ := own_property true p a h1
    refine at_eq (.cons (own_string k) (own_string ty) hf (own_vals k l b h2)) ?_
    simp only [Out.app_bytes, hb, List.append_assoc]
end

end Gvas
