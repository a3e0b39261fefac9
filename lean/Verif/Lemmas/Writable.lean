import Verif.Spec.Writable
import Verif.Lemmas.Text

/-! # When writing a property succeeds -/

namespace Gvas

open Spec

/-- A value if both conditions hold; an error only if the first fails, a panic only if the second
does. -/
def Outcome {α : Type} (cs ct : Prop) (r : Res α) : Prop :=
  (cs ∧ ct ∧ ∃ a, r = .ok a) ∨ (¬ cs ∧ ∃ msg, r = .err (.serializeInvalidValue msg)) ∨
    (¬ ct ∧ ∃ msg, r = .panic msg)

theorem Outcome.ok {α : Type} {a : α} : Outcome True True (.ok a) :=
  .inl ⟨trivial, trivial, a, rfl⟩

theorem Outcome.pure {α : Type} {a : α} : Outcome True True (Pure.pure a : Res α) :=
  .inl ⟨trivial, trivial, a, rfl⟩

theorem Outcome.map {α β : Type} {cs ct : Prop} {m : Res α} {g : α → β} (h : Outcome cs ct m) :
    Outcome cs ct (m >>= fun a => Pure.pure (g a)) := by
  rcases h with ⟨hc, ht, a, rfl⟩ | ⟨hc, msg, rfl⟩ | ⟨hc, msg, rfl⟩
  · exact .inl ⟨hc, ht, _, rfl⟩
  · exact .inr (.inl ⟨hc, msg, rfl⟩)
  · exact .inr (.inr ⟨hc, msg, rfl⟩)

theorem Outcome.bind {α β : Type} {cs cs' ct ct' : Prop} {m : Res α} {f : α → Res β}
    (h : Outcome cs ct m) (h' : ∀ a, Outcome cs' ct' (f a)) :
    Outcome (cs ∧ cs') (ct ∧ ct') (m >>= f) := by
  rcases h with ⟨hc, ht, a, rfl⟩ | ⟨hc, msg, rfl⟩ | ⟨hc, msg, rfl⟩
  · rcases h' a with ⟨hc', ht', b, hb⟩ | ⟨hc', msg, hb⟩ | ⟨hc', msg, hb⟩
    · exact .inl ⟨⟨hc, hc'⟩, ⟨ht, ht'⟩, b, hb⟩
    · exact .inr (.inl ⟨fun h => hc' h.2, msg, hb⟩)
    · exact .inr (.inr ⟨fun h => hc' h.2, msg, hb⟩)
  · exact .inr (.inl ⟨fun h => hc h.1, msg, rfl⟩)
  · exact .inr (.inr ⟨fun h => hc h.1, msg, rfl⟩)

theorem outcome_writeIf {c : Bool} {o : Out} {msg : String} {cs : Prop} (h : cs ↔ c = true) :
    Outcome cs True (writeIf c o msg) := by
  unfold writeIf
  cases c
  · exact .inr (.inl ⟨by simp [h], msg, rfl⟩)
  · exact .inl ⟨h.mpr rfl, trivial, o, rfl⟩

mutual
theorem write_property (cv : List (Guid × UInt32)) (h : Bool) (p : Property) :
    Outcome (WidthsFit cv h p) (TextsFit cv p) (Property.write cv h p) := by
  match p with
  | .array v => simp only [WidthsFit, TextsFit, Property.write]; exact (write_array cv v).map
  | .map v => simp only [WidthsFit, TextsFit, Property.write]; exact (write_map cv v).map
  | .set _ _ ps => simp only [WidthsFit, TextsFit, Property.write]; exact (write_list cv ps).map
  | .struct _ _ v => simp only [WidthsFit, TextsFit, Property.write]; exact (write_struct cv v).map
  | .structValue v =>
    simp only [WidthsFit, TextsFit, Property.write]
    cases h
    · simpa using write_struct cv v
    · exact .inr (.inl ⟨by simp, _, rfl⟩)
  | .text t =>
    simp only [WidthsFit, TextsFit, Property.write]
    refine Outcome.map ?_
    rcases write_text cv t with ⟨hc, out, ho⟩ | ⟨hc, msg, ho⟩
    · exact .inl ⟨trivial, hc, out, ho⟩
    · exact .inr (.inr ⟨hc, msg, ho⟩)
  | .bool _ => simp only [WidthsFit, TextsFit, Property.write]; exact .ok
  | .byte _ _ => simp only [WidthsFit, TextsFit, Property.write]; exact .ok
  | .double _ => simp only [WidthsFit, TextsFit, Property.write]; exact .ok
  | .enum _ _ => simp only [WidthsFit, TextsFit, Property.write]; exact .ok
  | .float _ => simp only [WidthsFit, TextsFit, Property.write]; exact .ok
  | .int16 _ => simp only [WidthsFit, TextsFit, Property.write]; exact .ok
  | .int64 _ => simp only [WidthsFit, TextsFit, Property.write]; exact .ok
  | .int8 _ => simp only [WidthsFit, TextsFit, Property.write]; exact .ok
  | .int _ => simp only [WidthsFit, TextsFit, Property.write]; exact .ok
  | .name _ _ => simp only [WidthsFit, TextsFit, Property.write]; exact .ok
  | .object _ => simp only [WidthsFit, TextsFit, Property.write]; exact .ok
  | .delegate _ => simp only [WidthsFit, TextsFit, Property.write]; exact .ok
  | .multicastInlineDelegate _ => simp only [WidthsFit, TextsFit, Property.write]; exact .ok
  | .multicastSparseDelegate _ => simp only [WidthsFit, TextsFit, Property.write]; exact .ok
  | .fieldPath _ => simp only [WidthsFit, TextsFit, Property.write]; exact .ok
  | .str _ => simp only [WidthsFit, TextsFit, Property.write]; exact .ok
  | .uint16 _ => simp only [WidthsFit, TextsFit, Property.write]; exact .ok
  | .uint32 _ => simp only [WidthsFit, TextsFit, Property.write]; exact .ok
  | .uint64 _ => simp only [WidthsFit, TextsFit, Property.write]; exact .ok
  | .unknown _ _ => simp only [WidthsFit, TextsFit, Property.write]; exact .ok
theorem write_array (cv : List (Guid × UInt32)) (v : ArrayProperty) :
    Outcome (ArrayWidths cv v) (ArrayTexts cv v) (ArrayProperty.writeBody cv v) := by
  match v with
  | .structs _ _ _ v =>
    simp only [ArrayWidths, ArrayTexts, ArrayProperty.writeBody]; exact (write_structs cv v).map
  | .properties _ ps =>
    simp only [ArrayWidths, ArrayTexts, ArrayProperty.writeBody]; exact (write_list cv ps).map
  | .bools _ => simp only [ArrayWidths, ArrayTexts, ArrayProperty.writeBody]; exact .ok
  | .bytes _ => simp only [ArrayWidths, ArrayTexts, ArrayProperty.writeBody]; exact .ok
  | .enums _ => simp only [ArrayWidths, ArrayTexts, ArrayProperty.writeBody]; exact .ok
  | .floats _ => simp only [ArrayWidths, ArrayTexts, ArrayProperty.writeBody]; exact .ok
  | .ints _ => simp only [ArrayWidths, ArrayTexts, ArrayProperty.writeBody]; exact .ok
  | .names _ => simp only [ArrayWidths, ArrayTexts, ArrayProperty.writeBody]; exact .ok
  | .strings _ => simp only [ArrayWidths, ArrayTexts, ArrayProperty.writeBody]; exact .ok
theorem write_map (cv : List (Guid × UInt32)) (v : MapProperty) :
    Outcome (MapWidths cv v) (MapTexts cv v) (MapProperty.writeBody cv v) := by
  match v with
  | .enumProperty _ v =>
    simp only [MapWidths, MapTexts, MapProperty.writeBody]; exact (write_values cv v).map
  | .nameProperty _ v =>
    simp only [MapWidths, MapTexts, MapProperty.writeBody]; exact (write_values cv v).map
  | .strProperty _ v =>
    simp only [MapWidths, MapTexts, MapProperty.writeBody]; exact (write_values cv v).map
  | .properties _ _ _ m =>
    simp only [MapWidths, MapTexts, MapProperty.writeBody]; exact (write_entries cv m).map
  | .enumBool _ => simp only [MapWidths, MapTexts, MapProperty.writeBody]; exact .ok
  | .enumInt _ => simp only [MapWidths, MapTexts, MapProperty.writeBody]; exact .ok
  | .nameBool _ => simp only [MapWidths, MapTexts, MapProperty.writeBody]; exact .ok
  | .nameInt _ => simp only [MapWidths, MapTexts, MapProperty.writeBody]; exact .ok
  | .strBool _ => simp only [MapWidths, MapTexts, MapProperty.writeBody]; exact .ok
  | .strInt _ => simp only [MapWidths, MapTexts, MapProperty.writeBody]; exact .ok
  | .strStr _ => simp only [MapWidths, MapTexts, MapProperty.writeBody]; exact .ok
theorem write_struct (cv : List (Guid × UInt32)) (v : StructPropertyValue) :
    Outcome (StructWidths cv v) (StructTexts cv v) (StructPropertyValue.writeBody cv v) := by
  match v with
  | .vector2F _ _ =>
    simp only [StructWidths, StructTexts, StructPropertyValue.writeBody]
    exact outcome_writeIf (by simp)
  | .vector2D _ _ =>
    simp only [StructWidths, StructTexts, StructPropertyValue.writeBody]
    exact outcome_writeIf (by simp)
  | .vectorF _ _ _ =>
    simp only [StructWidths, StructTexts, StructPropertyValue.writeBody]
    exact outcome_writeIf (by simp)
  | .vectorD _ _ _ =>
    simp only [StructWidths, StructTexts, StructPropertyValue.writeBody]
    exact outcome_writeIf (by simp)
  | .rotatorF _ _ _ =>
    simp only [StructWidths, StructTexts, StructPropertyValue.writeBody]
    exact outcome_writeIf (by simp)
  | .rotatorD _ _ _ =>
    simp only [StructWidths, StructTexts, StructPropertyValue.writeBody]
    exact outcome_writeIf (by simp)
  | .quatF _ _ _ _ =>
    simp only [StructWidths, StructTexts, StructPropertyValue.writeBody]
    exact outcome_writeIf (by simp)
  | .quatD _ _ _ _ =>
    simp only [StructWidths, StructTexts, StructPropertyValue.writeBody]
    exact outcome_writeIf (by simp)
  | .dateTime _ => simp only [StructWidths, StructTexts, StructPropertyValue.writeBody]; exact .ok
  | .timespan _ => simp only [StructWidths, StructTexts, StructPropertyValue.writeBody]; exact .ok
  | .guid _ => simp only [StructWidths, StructTexts, StructPropertyValue.writeBody]; exact .ok
  | .linearColor _ _ _ _ =>
    simp only [StructWidths, StructTexts, StructPropertyValue.writeBody]; exact .ok
  | .intPoint _ _ =>
    simp only [StructWidths, StructTexts, StructPropertyValue.writeBody]; exact .ok
  | .gameplayTagContainer _ =>
    simp only [StructWidths, StructTexts, StructPropertyValue.writeBody]; exact .ok
  | .customStruct fs =>
    simp only [StructWidths, StructTexts, StructPropertyValue.writeBody]
    exact (write_fields cv fs).map
theorem write_list (cv : List (Guid × UInt32)) (l : List Property) :
    Outcome (ListWidths cv l) (ListTexts cv l) (writeList cv l) := by
  match l with
  | [] => simp only [ListWidths, ListTexts, writeList]; exact .ok
  | p :: l =>
    simp only [ListWidths, ListTexts, writeList]
    exact (write_property cv false p).bind fun _ => (write_list cv l).map
theorem write_structs (cv : List (Guid × UInt32)) (l : List StructPropertyValue) :
    Outcome (StructsWidths cv l) (StructsTexts cv l) (writeStructs cv l) := by
  match l with
  | [] => simp only [StructsWidths, StructsTexts, writeStructs]; exact .ok
  | v :: l =>
    simp only [StructsWidths, StructsTexts, writeStructs]
    exact (write_struct cv v).bind fun _ => (write_structs cv l).map
theorem write_values (cv : List (Guid × UInt32)) (l : List (String × Property)) :
    Outcome (ValuesWidths cv l) (ValuesTexts cv l) (writeStrProps cv l) := by
  match l with
  | [] => simp only [ValuesWidths, ValuesTexts, writeStrProps]; exact .ok
  | (_, p) :: l =>
    simp only [ValuesWidths, ValuesTexts, writeStrProps]
    exact (write_property cv false p).bind fun _ => (write_values cv l).map
theorem write_entries (cv : List (Guid × UInt32)) (l : List (Property × Property)) :
    Outcome (EntriesWidths cv l) (EntriesTexts cv l) (writePairs cv l) := by
  match l with
  | [] => simp only [EntriesWidths, EntriesTexts, writePairs]; exact .ok
  | (k, p) :: l =>
    simp only [EntriesWidths, EntriesTexts, writePairs]
    exact (write_property cv false k).bind fun _ =>
      (write_property cv false p).bind fun _ => (write_entries cv l).map
theorem write_fields (cv : List (Guid × UInt32)) (l : List (String × List Property)) :
    Outcome (FieldsWidths cv l) (FieldsTexts cv l) (writeFields cv l) := by
  match l with
  | [] => simp only [FieldsWidths, FieldsTexts, writeFields]; exact .ok
  | (k, ps) :: l =>
    simp only [FieldsWidths, FieldsTexts, writeFields]
    exact (write_vals cv k ps).bind fun _ => (write_fields cv l).map
theorem write_vals (cv : List (Guid × UInt32)) (k : String) (l : List Property) :
    Outcome (HeadedWidths cv l) (ListTexts cv l) (writeFieldVals cv k l) := by
  match l with
  | [] => simp only [HeadedWidths, ListTexts, writeFieldVals]; exact .ok
  | p :: l =>
    simp only [HeadedWidths, ListTexts, writeFieldVals]
    exact (write_property cv true p).bind fun _ => (write_vals cv k l).map
end

/-! ## Representable properties fit -/

variable {env : Env}

mutual
theorem headOK_fits (st : List String) (p : Property) (h : HeadOK env st p) :
    WidthsFit env.cv true p ∧ TextsFit env.cv p := by
  match p with
  | .array v =>
    simp only [HeadOK] at h
    simp only [WidthsFit, TextsFit]; exact arrayOK_fits _ v h
  | .map v =>
    simp only [HeadOK] at h
    simp only [WidthsFit, TextsFit]; exact mapOK_fits _ v h
  | .set _ _ ps =>
    simp only [HeadOK] at h
    simp only [WidthsFit, TextsFit]; exact baresOK_fits _ _ ps h.2.2.2
  | .struct _ _ v =>
    simp only [HeadOK] at h
    simp only [WidthsFit, TextsFit]; exact structOK_fits _ _ v h.2
  | .structValue v => simp only [HeadOK] at h
  | .text t =>
    simp only [HeadOK] at h
    simp only [WidthsFit, TextsFit]; exact ⟨trivial, h.1⟩
  | .bool _ => simp [WidthsFit, TextsFit]
  | .byte _ _ => simp [WidthsFit, TextsFit]
  | .double _ => simp [WidthsFit, TextsFit]
  | .enum _ _ => simp [WidthsFit, TextsFit]
  | .float _ => simp [WidthsFit, TextsFit]
  | .int16 _ => simp [WidthsFit, TextsFit]
  | .int64 _ => simp [WidthsFit, TextsFit]
  | .int8 _ => simp [WidthsFit, TextsFit]
  | .int _ => simp [WidthsFit, TextsFit]
  | .name _ _ => simp [WidthsFit, TextsFit]
  | .object _ => simp [WidthsFit, TextsFit]
  | .delegate _ => simp [WidthsFit, TextsFit]
  | .multicastInlineDelegate _ => simp [WidthsFit, TextsFit]
  | .multicastSparseDelegate _ => simp [WidthsFit, TextsFit]
  | .fieldPath _ => simp [WidthsFit, TextsFit]
  | .str _ => simp [WidthsFit, TextsFit]
  | .uint16 _ => simp [WidthsFit, TextsFit]
  | .uint32 _ => simp [WidthsFit, TextsFit]
  | .uint64 _ => simp [WidthsFit, TextsFit]
  | .unknown _ _ => simp [WidthsFit, TextsFit]
theorem bareOK_fits (st : List String) (ty : String) (p : Property) (h : BareOK env st ty p) :
    WidthsFit env.cv false p ∧ TextsFit env.cv p := by
  match p with
  | .array v => simp only [BareOK] at h
  | .map v => simp only [BareOK] at h
  | .set _ _ ps => simp only [BareOK] at h
  | .struct _ _ v => simp only [BareOK] at h
  | .structValue v =>
    simp only [BareOK] at h
    obtain ⟨-, hint, -, h⟩ := h
    simp only [WidthsFit, TextsFit, true_and]; exact structOK_fits _ _ v h
  | .text t =>
    simp only [BareOK] at h
    simp only [WidthsFit, TextsFit]; exact ⟨trivial, h.2.1⟩
  | .bool _ => simp [WidthsFit, TextsFit]
  | .byte _ _ => simp [WidthsFit, TextsFit]
  | .double _ => simp [WidthsFit, TextsFit]
  | .enum _ _ => simp [WidthsFit, TextsFit]
  | .float _ => simp [WidthsFit, TextsFit]
  | .int16 _ => simp [WidthsFit, TextsFit]
  | .int64 _ => simp [WidthsFit, TextsFit]
  | .int8 _ => simp [WidthsFit, TextsFit]
  | .int _ => simp [WidthsFit, TextsFit]
  | .name _ _ => simp [WidthsFit, TextsFit]
  | .object _ => simp [WidthsFit, TextsFit]
  | .delegate _ => simp [WidthsFit, TextsFit]
  | .multicastInlineDelegate _ => simp [WidthsFit, TextsFit]
  | .multicastSparseDelegate _ => simp [WidthsFit, TextsFit]
  | .fieldPath _ => simp [WidthsFit, TextsFit]
  | .str _ => simp [WidthsFit, TextsFit]
  | .uint16 _ => simp [WidthsFit, TextsFit]
  | .uint32 _ => simp [WidthsFit, TextsFit]
  | .uint64 _ => simp [WidthsFit, TextsFit]
  | .unknown _ _ => simp [WidthsFit, TextsFit]
theorem arrayOK_fits (st : List String) (v : ArrayProperty) (h : ArrayOK env st v) :
    ArrayWidths env.cv v ∧ ArrayTexts env.cv v := by
  match v with
  | .structs _ _ _ v =>
    simp only [ArrayOK] at h
    simp only [ArrayWidths, ArrayTexts]; exact structsOK_fits _ _ v h.2.2.2
  | .properties _ ps =>
    simp only [ArrayOK] at h
    simp only [ArrayWidths, ArrayTexts]; exact baresOK_fits _ _ ps h.2.2.2.2.2.2
  | .bools _ => simp [ArrayWidths, ArrayTexts]
  | .bytes _ => simp [ArrayWidths, ArrayTexts]
  | .enums _ => simp [ArrayWidths, ArrayTexts]
  | .floats _ => simp [ArrayWidths, ArrayTexts]
  | .ints _ => simp [ArrayWidths, ArrayTexts]
  | .names _ => simp [ArrayWidths, ArrayTexts]
  | .strings _ => simp [ArrayWidths, ArrayTexts]
theorem mapOK_fits (st : List String) (v : MapProperty) (h : MapOK env st v) :
    MapWidths env.cv v ∧ MapTexts env.cv v := by
  match v with
  | .enumProperty _ v =>
    simp only [MapOK] at h
    simp only [MapWidths, MapTexts]; exact valuesOK_fits _ _ v h.2.2.2
  | .nameProperty _ v =>
    simp only [MapOK] at h
    simp only [MapWidths, MapTexts]; exact valuesOK_fits _ _ v h.2.2.2
  | .strProperty _ v =>
    simp only [MapOK] at h
    simp only [MapWidths, MapTexts]; exact valuesOK_fits _ _ v h.2.2.2
  | .properties _ _ _ m =>
    simp only [MapOK] at h
    simp only [MapWidths, MapTexts]; exact entriesOK_fits _ _ _ m h.2.2.2.2.2.2
  | .enumBool _ => simp [MapWidths, MapTexts]
  | .enumInt _ => simp [MapWidths, MapTexts]
  | .nameBool _ => simp [MapWidths, MapTexts]
  | .nameInt _ => simp [MapWidths, MapTexts]
  | .strBool _ => simp [MapWidths, MapTexts]
  | .strInt _ => simp [MapWidths, MapTexts]
  | .strStr _ => simp [MapWidths, MapTexts]
theorem structOK_fits (st : List String) (ty : String) (v : StructPropertyValue)
    (h : StructOK env st ty v) : StructWidths env.cv v ∧ StructTexts env.cv v := by
  match v with
  | .vector2F _ _ | .vector2D _ _ | .vectorF _ _ _ | .vectorD _ _ _ | .rotatorF _ _ _
  | .rotatorD _ _ _ | .quatF _ _ _ _ | .quatD _ _ _ _ =>
    simp only [StructOK] at h
    simp only [StructWidths, StructTexts]
    exact ⟨h.2, trivial⟩
  | .dateTime _ => simp [StructWidths, StructTexts]
  | .timespan _ => simp [StructWidths, StructTexts]
  | .guid _ => simp [StructWidths, StructTexts]
  | .linearColor _ _ _ _ => simp [StructWidths, StructTexts]
  | .intPoint _ _ => simp [StructWidths, StructTexts]
  | .gameplayTagContainer _ => simp [StructWidths, StructTexts]
  | .customStruct fs =>
    simp only [StructOK] at h
    simp only [StructWidths, StructTexts]
    exact fieldsOK_fits _ fs h.2.2
theorem baresOK_fits (st : List String) (ty : String) (l : List Property)
    (h : BaresOK env st ty l) : ListWidths env.cv l ∧ ListTexts env.cv l := by
  match l with
  | [] => simp [ListWidths, ListTexts]
  | p :: l =>
    simp only [BaresOK] at h
    simp only [ListWidths, ListTexts]
    have h1 := bareOK_fits _ _ p h.1
    have h2 := baresOK_fits _ _ l h.2
    exact ⟨⟨h1.1, h2.1⟩, h1.2, h2.2⟩
theorem structsOK_fits (st : List String) (ty : String) (l : List StructPropertyValue)
    (h : StructsOK env st ty l) : StructsWidths env.cv l ∧ StructsTexts env.cv l := by
  match l with
  | [] => simp [StructsWidths, StructsTexts]
  | p :: l =>
    simp only [StructsOK] at h
    simp only [StructsWidths, StructsTexts]
    have h1 := structOK_fits _ _ p h.1
    have h2 := structsOK_fits _ _ l h.2
    exact ⟨⟨h1.1, h2.1⟩, h1.2, h2.2⟩
theorem valuesOK_fits (st : List String) (ty : String) (l : List (String × Property))
    (h : ValuesOK env st ty l) : ValuesWidths env.cv l ∧ ValuesTexts env.cv l := by
  match l with
  | [] => simp [ValuesWidths, ValuesTexts]
  | (k, p) :: l =>
    simp only [ValuesOK] at h
    simp only [ValuesWidths, ValuesTexts]
    have h1 := bareOK_fits _ _ p h.2.1
    have h2 := valuesOK_fits _ _ l h.2.2
    exact ⟨⟨h1.1, h2.1⟩, h1.2, h2.2⟩
theorem entriesOK_fits (st : List String) (kt vt : String) (l : List (Property × Property))
    (h : EntriesOK env st kt vt l) : EntriesWidths env.cv l ∧ EntriesTexts env.cv l := by
  match l with
  | [] => simp [EntriesWidths, EntriesTexts]
  | (k, p) :: l =>
    simp only [EntriesOK] at h
    simp only [EntriesWidths, EntriesTexts]
    have h0 := bareOK_fits _ _ k h.2.1
    have h1 := bareOK_fits _ _ p h.2.2.2.1
    have h2 := entriesOK_fits _ _ _ l h.2.2.2.2
    exact ⟨⟨h0.1, h1.1, h2.1⟩, h0.2, h1.2, h2.2⟩
theorem fieldsOK_fits (st : List String) (l : List (String × List Property))
    (h : FieldsOK env st l) : FieldsWidths env.cv l ∧ FieldsTexts env.cv l := by
  match l with
  | [] => simp [FieldsWidths, FieldsTexts]
  | (k, ps) :: l =>
    simp only [FieldsOK] at h
    simp only [FieldsWidths, FieldsTexts]
    have h1 := valsOK_fits _ _ ps h.2.2.2.1
    have h2 := fieldsOK_fits _ l h.2.2.2.2
    exact ⟨⟨h1.1, h2.1⟩, h1.2, h2.2⟩
theorem valsOK_fits (st : List String) (i : Nat) (l : List Property)
    (h : ValsOK env st i l) : HeadedWidths env.cv l ∧ ListTexts env.cv l := by
  match l with
  | [] => simp [HeadedWidths, ListTexts]
  | p :: l =>
    simp only [ValsOK] at h
    simp only [HeadedWidths, ListTexts]
    have h1 := headOK_fits _ p h.2.1
    have h2 := valsOK_fits _ _ l h.2.2
    exact ⟨⟨h1.1, h2.1⟩, h1.2, h2.2⟩
end

theorem Outcome.get {α : Type} {cs ct : Prop} {r : Res α} (h : Outcome cs ct r) (hc : cs ∧ ct) :
    ∃ a, r = .ok a := by
  rcases h with ⟨_, _, h⟩ | ⟨h, _⟩ | ⟨h, _⟩
  · exact h
  · exact absurd hc.1 h
  · exact absurd hc.2 h

theorem headOK_writes {st : List String} {p : Property} (h : HeadOK env st p) :
    ∃ out, Property.write env.cv true p = .ok out :=
  (write_property env.cv true p).get (headOK_fits st p h)

theorem bareOK_writes {st : List String} {ty : String} {p : Property} (h : BareOK env st ty p) :
    ∃ out, Property.write env.cv false p = .ok out :=
  (write_property env.cv false p).get (bareOK_fits st ty p h)

end Gvas
