import Verif.Lemmas.WrittenTree
import Verif.Model.File

/-! # All of the grammar of written files is written -/

namespace Gvas

open Spec Format

variable {cv : List (Guid × UInt32)}

/-! ## Collections -/

private theorem w_list_map {α : Type} {f : α → Out} {g : α → Property}
    (hf : ∀ a, Property.write cv false (g a) = .ok (f a)) (l : List α) :
    writeList cv (l.map g) = .ok (concatOut f l) := by
  induction l with
  | nil => rw [List.map_nil, writeList]; rfl
  | cons a l ih => rw [List.map_cons, writeList, hf, ih]; rfl

private theorem w_pairs_map {α β : Type} {fk : α → Out} {fv : β → Out} {k : α → Property}
    {v : β → Property} (hk : ∀ a, Property.write cv false (k a) = .ok (fk a))
    (hv : ∀ a, Property.write cv false (v a) = .ok (fv a)) (l : List (α × β)) :
    writePairs cv (pairs k v l) = .ok (concatOut (fun e => fk e.1 ++ fv e.2) l) := by
  induction l with
  | nil => rw [pairs, List.map_nil, writePairs]; rfl
  | cons a l ih =>
    rw [pairs] at ih
    rw [pairs, List.map_cons, writePairs, hk, hv, ih]; rfl

theorem writePairs_values {k : String → Property}
    (hk : ∀ s, Property.write cv false (k s) = .ok (writeString s)) (l : List (String × Property)) :
    writePairs cv (pairs k id l) = writeStrProps cv l := by
  induction l with
  | nil => rw [pairs, List.map_nil, writePairs, writeStrProps]
  | cons a l ih =>
    obtain ⟨s, p⟩ := a
    rw [pairs] at ih
    rw [pairs, List.map_cons, writePairs, writeStrProps, hk, ih]; rfl

theorem elements_type {a : ArrayProperty} {ty : String} {ps : List Property}
    (h : Own.ElementsOf a ty ps) : a.propertyType = ty := by
  rcases h with h | rfl
  · cases h <;> rfl
  · rfl

theorem wrote_elements {a : ArrayProperty} {ty : String} {ps : List Property} {b : Bytes}
    (h : Own.ElementsOf a ty ps) (hb : Wrote (writeList cv ps) b) :
    Wrote (ArrayProperty.writeBody cv a) (u32B (UInt32.ofNat ps.length) ++ b) := by
  have compact : ∀ {α : Type} {f : α → Out} {g : α → Property} (l : List α),
      (∀ a, Property.write cv false (g a) = .ok (f a)) → ps = l.map g →
      (u32O (UInt32.ofNat l.length) ++ concatOut f l).bytes = u32B (UInt32.ofNat ps.length) ++ b := by
    rintro α f g l hf rfl
    rw [w_list_map hf] at hb
    obtain ⟨o, ho, rfl⟩ := hb
    cases ho
    rw [List.length_map]
    rfl
  rcases h with h | rfl
  · cases h with
    | bools vs =>
      rw [ArrayProperty.writeBody]; exact .ok (compact vs (fun _ => by rw [Property.write]; rfl) rfl)
    | bytes vs =>
      rw [ArrayProperty.writeBody]; exact .ok (compact vs (fun _ => by rw [Property.write]; rfl) rfl)
    | enums vs =>
      rw [ArrayProperty.writeBody]; exact .ok (compact vs (fun _ => by rw [Property.write]; rfl) rfl)
    | ints vs =>
      rw [ArrayProperty.writeBody]; exact .ok (compact vs (fun _ => by rw [Property.write]; rfl) rfl)
    | floats vs =>
      rw [ArrayProperty.writeBody]; exact .ok (compact vs (fun _ => by rw [Property.write]; rfl) rfl)
    | names vs =>
      rw [ArrayProperty.writeBody]; exact .ok (compact vs (fun _ => by rw [Property.write]; rfl) rfl)
    | strings vs =>
      rw [ArrayProperty.writeBody]; exact .ok (compact vs (fun _ => by rw [Property.write]; rfl) rfl)
  · rw [ArrayProperty.writeBody]
    exact hb.map fun o ho => by rw [← ho]; rfl

theorem entries_types {m : MapProperty} {kt vt : String} {fl : UInt32}
    {es : List (Property × Property)} (h : Own.EntriesOf m kt vt fl es) :
    m.keyType = kt ∧ m.valueType = vt := by
  cases h <;> exact ⟨rfl, rfl⟩

private theorem w_bool (v : Bool) : Property.write cv false (.bool v) = .ok ⟨boolB v, 1⟩ := by
  rw [Property.write]; rfl
private theorem w_int (v : Int32) : Property.write cv false (.int v) = .ok ⟨i32B v, 4⟩ := by
  rw [Property.write]; rfl
private theorem w_str (v : Option String) :
    Property.write cv false (.str v) = .ok (writeFString v) := by
  rw [Property.write]; rfl
private theorem w_key_str (v : String) :
    Property.write cv false (.str (some v)) = .ok (writeString v) := w_str _
private theorem w_key_name (v : String) :
    Property.write cv false (.name 0 (some v)) = .ok (writeString v) := by
  rw [Property.write]; rfl
private theorem w_key_enum (v : String) :
    Property.write cv false (.enum none v) = .ok (writeString v) := by
  rw [Property.write]; rfl

theorem wrote_entriesOf {m : MapProperty} {kt vt : String} {fl : UInt32}
    {es : List (Property × Property)} {b : Bytes}
    (h : Own.EntriesOf m kt vt fl es) (hb : Wrote (writePairs cv es) b) :
    Wrote (MapProperty.writeBody cv m) (u32B fl ++ u32B (UInt32.ofNat es.length) ++ b) := by
  have compact : ∀ {α β : Type} {fk : α → Out} {fv : β → Out} {k : α → Property} {v : β → Property}
      (l : List (α × β)), (∀ a, Property.write cv false (k a) = .ok (fk a)) →
      (∀ a, Property.write cv false (v a) = .ok (fv a)) → es = pairs k v l →
      (mapHead 0 l.length ++ concatOut (fun e => fk e.1 ++ fv e.2) l).bytes =
        u32B 0 ++ u32B (UInt32.ofNat es.length) ++ b := by
    rintro α β fk fv k v l hk hv rfl
    rw [w_pairs_map hk hv] at hb
    obtain ⟨o, ho, rfl⟩ := hb
    cases ho
    rw [pairs, List.length_map]
    rfl
  have values : ∀ {k : String → Property} (l : List (String × Property)),
      (∀ a, Property.write cv false (k a) = .ok (writeString a)) → es = pairs k id l →
      Wrote (writeStrProps cv l >>= fun o => Pure.pure (mapHead 0 l.length ++ o))
        (u32B 0 ++ u32B (UInt32.ofNat es.length) ++ b) := by
    rintro k l hk rfl
    rw [writePairs_values hk] at hb
    exact hb.map fun o ho => by rw [← ho, pairs, List.length_map]; rfl
  cases h with
  | enumBool l => rw [MapProperty.writeBody]; exact .ok (compact l w_key_enum w_bool rfl)
  | enumInt l => rw [MapProperty.writeBody]; exact .ok (compact l w_key_enum w_int rfl)
  | nameBool l => rw [MapProperty.writeBody]; exact .ok (compact l w_key_name w_bool rfl)
  | nameInt l => rw [MapProperty.writeBody]; exact .ok (compact l w_key_name w_int rfl)
  | strBool l => rw [MapProperty.writeBody]; exact .ok (compact l w_key_str w_bool rfl)
  | strInt l => rw [MapProperty.writeBody]; exact .ok (compact l w_key_str w_int rfl)
  | strStr l => rw [MapProperty.writeBody]; exact .ok (compact l w_key_str w_str rfl)
  | enumProperty vt l => rw [MapProperty.writeBody]; exact values l w_key_enum rfl
  | nameProperty vt l => rw [MapProperty.writeBody]; exact values l w_key_name rfl
  | strProperty vt l => rw [MapProperty.writeBody]; exact values l w_key_str rfl
  | properties kt vt fl es =>
    rw [MapProperty.writeBody]; exact hb.map fun o ho => by rw [← ho]; rfl

/-! ## Fields -/

theorem wrote_top_append {l l' : List (String × Property)} {b : Bytes}
    (h : Wrote (writeTop cv (l ++ l')) b) :
    ∃ b1 b2, b = b1 ++ b2 ∧ Wrote (writeTop cv l) b1 ∧ Wrote (writeTop cv l') b2 := by
  induction l generalizing b with
  | nil => exact ⟨[], b, rfl, .ok rfl, h⟩
  | cons e l ih =>
    obtain ⟨k, p⟩ := e
    obtain ⟨o, ho, rfl⟩ := h
    rw [List.cons_append, writeTop] at ho
    obtain ⟨a, h1, ho⟩ := Res.bind_inv ho
    obtain ⟨r, h2, ho⟩ := Res.bind_inv ho
    wr_tac ho
    obtain ⟨b1, b2, e, w1, w2⟩ := ih ⟨r, h2, rfl⟩
    refine ⟨(writeString k ++ a).bytes ++ b1, b2, ?_, ?_, w2⟩
    · rw [Out.app_bytes, e, List.append_assoc]
    · rw [writeTop, h1]
      exact w1.map fun o ho => by rw [← ho]; rfl

theorem writeTop_vals (k : String) (ps : List Property) :
    writeTop cv (ps.map fun p => (k, p)) = writeFieldVals cv k ps := by
  induction ps with
  | nil => rw [List.map_nil, writeTop, writeFieldVals]
  | cons p ps ih => rw [List.map_cons, writeTop, writeFieldVals, ih]

theorem wrote_fields_of_top {fs : List (String × List Property)} {b : Bytes}
    (h : Wrote (writeTop cv (Own.named fs)) b) : Wrote (writeFields cv fs) b := by
  induction fs generalizing b with
  | nil => rw [writeFields]; exact h
  | cons f fs ih =>
    obtain ⟨k, ps⟩ := f
    rw [writeFields]
    obtain ⟨b1, b2, rfl, w1, w2⟩ := wrote_top_append (l := ps.map fun p => (k, p)) h
    rw [writeTop_vals] at w1
    exact w1.bind fun o ho => (ih w2).map fun o' ho' => by rw [← ho, ← ho']; rfl

/-! ## Headers -/

theorem wrote_parts {ty : String} {t b : Bytes} {p : Property} (h : Own.Parts cv ty t p)
    (hb : Wrote (Property.write cv false p) b) :
    Wrote (Property.write cv true p) ((writeString ty).bytes ++ sized t b) := by
  have key : ∀ {parts : Out} {r : Res Out}, parts.bytes = t → Wrote r b →
      Wrote (r >>= fun o => Pure.pure (headed true ty parts o))
        ((writeString ty).bytes ++ sized t b) := by
    rintro parts r rfl ⟨o, rfl, rfl⟩
    exact .ok (headed_true ty parts o)
  have un : ∀ {parts : Out} {r : Res Out},
      Wrote (r >>= fun o => Pure.pure (headed false ty parts o)) b → Wrote r b := by
    rintro parts r ⟨o, ho, rfl⟩
    obtain ⟨a, rfl, ho⟩ := Res.bind_inv ho
    cases ho
    exact .ok rfl
  cases h with
  | plain h =>
    obtain ⟨o, ho, e⟩ := own_plain_eq h true
    obtain ⟨o', ho', e'⟩ := own_plain_eq h false
    rw [ho'] at hb
    obtain ⟨_, h', rfl⟩ := hb
    cases h'
    rw [ho]
    refine .ok ?_
    rw [headed_true, headed_false, e, e']
    rfl
  | enum v h =>
    rw [Property.write] at hb ⊢
    obtain ⟨_, h', rfl⟩ := hb
    cases h'
    refine .ok ?_
    rw [headed_true, own_fstring_eq h]
    rfl
  | struct g v h =>
    rw [Property.write] at hb ⊢
    exact key (by rw [own_string_eq h]; rfl) (un hb)
  | array he h =>
    rw [Property.write] at hb ⊢
    exact key (by rw [own_string_eq h, elements_type he]) (un hb)
  | structs field ty g vs h =>
    rw [Property.write] at hb ⊢
    exact key (by rw [own_string_eq h]; rfl) (un hb)
  | set fl ps h =>
    rw [Property.write] at hb ⊢
    obtain ⟨o, ho, rfl⟩ := hb
    obtain ⟨a, ha, ho⟩ := Res.bind_inv ho
    cases ho
    rw [ha]
    refine .ok ?_
    rw [headed_true, own_string_eq h]
    rfl
  | map he h1 h2 =>
    rw [Property.write] at hb ⊢
    obtain ⟨e1, e2⟩ := entries_types he
    exact key (by rw [own_string_eq h1, own_string_eq h2, e1, e2]; rfl) (un hb)

/-! ## Properties -/

mutual
theorem wrote_full {ty : String} {b : Bytes} {p : Property} (h : Own.Full cv ty b p) :
    Wrote (Property.write cv true p) ((writeString ty).bytes ++ b) := by
  match h with
  | .bool v =>
    rw [Property.write]
    exact .ok (by simp only [writeBoolProperty, if_true, Out.app_bytes, boolB_eq, u8B_eq,
      List.append_assoc])
  | .byte h1 h2 =>
    rw [Property.write, own_fstring_eq h1, own_byte_eq h2]
    exact .ok (by simp only [if_true, byteHeader, List.append_assoc])
  | .name idx h1 =>
    rw [Property.write, own_fstring_eq h1]
    exact .ok (by simp only [if_true, withHeaderIndex, List.append_assoc])
  | .sized h1 h2 => exact wrote_parts h1 (wrote_bare h2)
theorem wrote_bare {b : Bytes} {p : Property} (h : Own.Bare cv b p) :
    Wrote (Property.write cv false p) b := by
  match h with
  | .bool v => rw [w_bool]; exact .ok (boolB_eq v)
  | .byte name h1 => rw [Property.write, own_byte_eq h1]; exact .ok rfl
  | .name idx h1 => rw [Property.write, own_fstring_eq h1]; exact .ok rfl
  | .plain h1 =>
    obtain ⟨o, ho, rfl⟩ := own_plain_eq h1 false
    rw [ho]
    exact .ok rfl
  | .enum ty h1 => rw [Property.write, own_string_eq h1]; exact .ok rfl
  | .struct g ty h1 =>
    rw [Property.write]
    exact (wrote_struct h1).map fun o ho => ho
  | .structValue h1 =>
    rw [Property.write, if_neg (by decide)]
    exact wrote_struct h1
  | .array he h1 =>
    rw [Property.write]
    exact (wrote_elements he (wrote_bares h1)).map fun o ho => ho
  | .structs g h1 h2 h3 h4 =>
    rw [Property.write, ArrayProperty.writeBody, own_string_eq h1, own_string_eq h2,
      own_string_eq h3]
    exact Wrote.map (Wrote.map (wrote_structs h4) fun o ho => by
      rw [← ho]; simp only [structArrayBody, u8B_eq]) fun o ho => ho
  | .set ty fl h1 =>
    rw [Property.write]
    exact (wrote_bares h1).map fun o ho => by rw [← ho]; rfl
  | .map he h1 =>
    rw [Property.write]
    exact (wrote_entriesOf he (wrote_entries h1)).map fun o ho => ho
theorem wrote_bares {b : Bytes} {ps : List Property} (h : Own.Bares cv b ps) :
    Wrote (writeList cv ps) b := by
  match h with
  | .nil => rw [writeList]; exact .ok rfl
  | .cons h1 h2 =>
    rw [writeList]
    exact (wrote_bare h1).bind fun o ho => (wrote_bares h2).map fun o' ho' => by
      rw [← ho, ← ho']; rfl
theorem wrote_entries {b : Bytes} {es : List (Property × Property)} (h : Own.Entries cv b es) :
    Wrote (writePairs cv es) b := by
  match h with
  | .nil => rw [writePairs]; exact .ok rfl
  | .cons h1 h2 h3 =>
    rw [writePairs]
    exact (wrote_bare h1).bind fun o ho => (wrote_bare h2).bind fun o' ho' =>
      (wrote_entries h3).map fun o'' ho'' => by rw [← ho, ← ho', ← ho'']; rfl
theorem wrote_struct {b : Bytes} {v : StructPropertyValue} (h : Own.StructBody cv b v) :
    Wrote (StructPropertyValue.writeBody cv v) b := by
  match h with
  | .builtin h1 => exact wrote_builtin h1
  | .custom h1 h2 =>
    rw [StructPropertyValue.writeBody, own_string_eq h2]
    exact (wrote_fields_of_top (wrote_fields h1)).map fun o ho => by rw [← ho]; rfl
theorem wrote_structs {b : Bytes} {vs : List StructPropertyValue} (h : Own.StructBodies cv b vs) :
    Wrote (writeStructs cv vs) b := by
  match h with
  | .nil => rw [writeStructs]; exact .ok rfl
  | .cons h1 h2 =>
    rw [writeStructs]
    exact (wrote_struct h1).bind fun o ho => (wrote_structs h2).map fun o' ho' => by
      rw [← ho, ← ho']; rfl
theorem wrote_fields {b : Bytes} {es : List (String × Property)} (h : Own.Fields cv b es) :
    Wrote (writeTop cv es) b := by
  match h with
  | .nil => rw [writeTop]; exact .ok rfl
  | .cons h1 h2 h3 h4 =>
    rw [writeTop, own_string_eq h1, own_string_eq h2]
    exact (wrote_full h3).bind fun o ho => (wrote_fields h4).map fun o' ho' => by
      rw [← ho']; simp only [Out.app_bytes, ho, List.append_assoc]
end

/-! ## Files -/

theorem own_top (l : List (String × Property)) (o : Out) (h : writeTop cv l = .ok o) :
    Own.Fields cv o.bytes l := by
  induction l generalizing o with
  | nil => rw [writeTop] at h; wr_tac h; exact .nil
  | cons e l ih =>
    obtain ⟨k, p⟩ := e
    rw [writeTop] at h
    obtain ⟨a, h1, h⟩ := Res.bind_inv h
    obtain ⟨b, h2, h⟩ := Res.bind_inv h
    wr_tac h
    obtain ⟨ty, b', hf, hb⟩ := own_property true p a h1
    refine at_eq (.cons (own_string k) (own_string ty) hf (ih b h2)) ?_
    simp only [Out.app_bytes, hb, List.append_assoc]

private theorem own_tail (ev : FEngineVersion) (format : UInt32) (cvs : List (Guid × UInt32))
    (name : String) : Own.HeaderTail (writeHeaderTail ev format cvs name).bytes ev format cvs name := by
  obtain ⟨ma, mi, pa, cl, branch⟩ := ev
  refine at_eq (L := fun b (_ : Unit) => Own.HeaderTail b _ _ _ _) (a := ())
    (.mk ma mi pa cl format (own_string branch)
    (own_counted (f := FCustomVersion.write) (fun e => Own.VersionAt.mk e.1 e.2) cvs)
    (own_string name)) ?_
  simp only [writeHeaderTail, FEngineVersion.write, Out.app_bytes, List.append_assoc, u32O]

private theorem own_tail_eq {b : Bytes} {ev : FEngineVersion} {format : UInt32}
    {cvs : List (Guid × UInt32)} {name : String} (h : Own.HeaderTail b ev format cvs name) :
    b = (writeHeaderTail ev format cvs name).bytes := by
  cases h with
  | mk ma mi pa cl format h1 h2 h3 =>
    rw [own_string_eq h1, own_string_eq h3, own_counted_eq (f := FCustomVersion.write)
      (fun _ _ h => by cases h; rfl) h2]
    simp only [writeHeaderTail, FEngineVersion.write, Out.app_bytes, List.append_assoc, u32O]

theorem own_header (h : GvasHeader) : Own.Header h.write.bytes h := by
  cases h with
  | version2 pkg ev format cvs name =>
    exact at_eq (.two pkg (own_tail ev format cvs name)) rfl
  | version3 pkg ue5 ev format cvs name =>
    exact at_eq (.three pkg ue5 (own_tail ev format cvs name)) rfl

theorem own_header_eq {b : Bytes} {h : GvasHeader} (hh : Own.Header b h) : b = h.write.bytes := by
  cases hh with
  | two pkg h1 => rw [own_tail_eq h1]; rfl
  | three pkg ue5 h1 => rw [own_tail_eq h1]; rfl

end Gvas
