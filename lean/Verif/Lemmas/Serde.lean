import Verif.Model.Serde
import Verif.Lemmas.Json

/-!
# Lemmas: what a file hands to a serializer
-/

namespace Gvas.Sd

open Spec

variable {α : Type}

/-! ## As a value -/

theorem serList_map (num : F32 → F64) (f : α → Ser) (l : List α) :
    serList num (l.map f) = l.map fun a => (f a).toJ num := by
  induction l with
  | nil => rfl
  | cons a l ih => simp [serList, ih]

theorem serEntries_map (num : F32 → F64) (k : α → String) (f : α → Ser) (l : List α) :
    serEntries num (l.map fun a => (k a, f a)) = l.map fun a => (k a, (f a).toJ num) := by
  induction l with
  | nil => rfl
  | cons a l ih => simp [serEntries, ih]

theorem serEntries_append (num : F32 → F64) (a b : List (String × Ser)) :
    serEntries num (a ++ b) = serEntries num a ++ serEntries num b := by
  induction a with
  | nil => rfl
  | cons e a ih => obtain ⟨k, s⟩ := e; simp [serEntries, ih]

section value

variable [FloatJ]

theorem optS_toJ (s : Option String) : (optS s).toJ FloatJ.num = optJ s := by cases s <;> rfl

theorem optES_toJ (k : String) (s : Option String) :
    serEntries FloatJ.num (optES k s) = optE k s := by cases s <;> rfl

theorem nonzeroES_toJ (k : String) (v : UInt32) :
    serEntries FloatJ.num (nonzeroES k v) = nonzeroE k v := by
  unfold nonzeroES nonzeroE; split <;> rfl

theorem guidES_toJ (g : Guid) : serEntries FloatJ.num (guidES g) = guidE g := by
  unfold guidES guidE; split <;> rfl

theorem optionsES_toJ (o : Option NumberFormattingOptions) :
    serEntries FloatJ.num (optionsES o) = optionsE o := by cases o <;> rfl

theorem float_toJ (f : F32) : (F32.toS f).toJ FloatJ.num = f.toJ := rfl

theorem double_toJ (f : F64) : (F64.toS f).toJ FloatJ.num = f.toJ := rfl

theorem ticks_toJ (t : UInt64) : (ticksS t).toJ FloatJ.num = ticksJ t := rfl

theorem guid_toJ (g : Guid) : g.toS.toJ FloatJ.num = g.toJ := rfl

mutual
theorem text_toJ : ∀ t : FText, serEntries FloatJ.num t.entriesS = t.entries
  | .mk flags h => by
    simp only [FText.entriesS, FText.entries, serEntries_append, nonzeroES_toJ, history_toJ h]
theorem history_toJ : ∀ h : FTextHistory, serEntries FloatJ.num h.entriesS = h.entries
  | .empty => rfl
  | .none s => by
    simp only [FTextHistory.entriesS, FTextHistory.entries, serEntries, optES_toJ, Ser.toJ]
  | .base a b c => by
    simp only [FTextHistory.entriesS, FTextHistory.entries, serEntries, serEntries_append,
      optES_toJ, Ser.toJ]
  | .namedFormat src args => by
    simp only [FTextHistory.entriesS, FTextHistory.entries, serEntries, Ser.toJ, text_toJ src,
      namedArgs_toJ args]
  | .orderedFormat src args => by
    simp only [FTextHistory.entriesS, FTextHistory.entries, serEntries, Ser.toJ, text_toJ src,
      args_toJ args]
  | .argumentFormat src args => by
    simp only [FTextHistory.entriesS, FTextHistory.entries, serEntries, Ser.toJ, text_toJ src,
      namedArgs_toJ args]
  | .asNumber v o c => by
    simp only [FTextHistory.entriesS, FTextHistory.entries, serEntries, serEntries_append, Ser.toJ,
      arg_toJ v, optionsES_toJ, optES_toJ]
  | .asPercent v o c => by
    simp only [FTextHistory.entriesS, FTextHistory.entries, serEntries, serEntries_append, Ser.toJ,
      arg_toJ v, optionsES_toJ, optES_toJ]
  | .asCurrency a v o c => by
    simp only [FTextHistory.entriesS, FTextHistory.entries, serEntries, serEntries_append, Ser.toJ,
      arg_toJ v, optionsES_toJ, optES_toJ]
  | .asDate _ _ _ => rfl
  | .asTime _ _ _ _ => rfl
  | .asDateTime _ _ _ _ _ => rfl
  | .transform src tt => by
    simp only [FTextHistory.entriesS, FTextHistory.entries, serEntries, Ser.toJ, text_toJ src]
  | .stringTableEntry _ _ => rfl
theorem arg_toJ : ∀ v : FormatArgumentValue, v.toS.toJ FloatJ.num = v.toJ
  | .int _ => rfl
  | .uint _ => rfl
  | .float _ => rfl
  | .double _ => rfl
  | .text t => by
    simp only [FormatArgumentValue.toS, FormatArgumentValue.toJ, serEntries, Ser.toJ, text_toJ t]
  | .int64 _ => rfl
  | .uint64 _ => rfl
theorem args_toJ : ∀ l : List FormatArgumentValue, serList FloatJ.num (argsS l) = argsJ l
  | [] => rfl
  | v :: l => by simp only [argsS, argsJ, serList, arg_toJ v, args_toJ l]
theorem namedArgs_toJ : ∀ l : List (String × FormatArgumentValue),
    serEntries FloatJ.num (namedArgsS l) = namedArgsJ l
  | [] => rfl
  | (k, v) :: l => by simp only [namedArgsS, namedArgsJ, serEntries, arg_toJ v, namedArgs_toJ l]
end

theorem byte_toJ (v : BytePropertyValue) :
    (v.entryS.1, v.entryS.2.toJ FloatJ.num) = v.entry := by cases v <;> rfl

theorem delegate_toJ (d : Delegate) : d.toS.toJ FloatJ.num = d.toJ := rfl

theorem multicast_toJ (ds : List Delegate) : (multicastS ds).toJ FloatJ.num = multicastJ ds := by
  simp only [multicastS, multicastJ, Ser.toJ, serEntries, serList_map, delegate_toJ]

theorem fieldPath_toJ (p : FieldPath) : p.toS.toJ FloatJ.num = p.toJ := by
  simp only [FieldPath.toS, FieldPath.toJ, Ser.toJ, serEntries, serList_map]

mutual
theorem property_toJ : ∀ p : Property, p.toS.toJ FloatJ.num = p.toJ
  | .array v => by simp only [Property.toS, Property.toJ, Ser.toJ, serEntries, array_toJ v]
  | .bool _ => rfl
  | .byte name v => by
    have := byte_toJ v
    simp only [Property.toS, Property.toJ, Ser.toJ, serEntries, serEntries_append, optES_toJ, this]
  | .double _ => rfl
  | .enum t v => by
    simp only [Property.toS, Property.toJ, Ser.toJ, serEntries, serEntries_append, optES_toJ]
  | .float _ => rfl
  | .int16 _ => rfl
  | .int64 _ => rfl
  | .int8 _ => rfl
  | .int _ => rfl
  | .map v => by simp only [Property.toS, Property.toJ, Ser.toJ, serEntries, map_toJ v]
  | .name i v => by
    simp only [Property.toS, Property.toJ, Ser.toJ, serEntries, serEntries_append, optES_toJ,
      nonzeroES_toJ]
  | .object _ => rfl
  | .delegate _ => rfl
  | .multicastInlineDelegate v => by
    simp only [Property.toS, Property.toJ, Ser.toJ, serEntries, multicast_toJ]
  | .multicastSparseDelegate v => by
    simp only [Property.toS, Property.toJ, Ser.toJ, serEntries, multicast_toJ]
  | .fieldPath v => by
    simp only [Property.toS, Property.toJ, Ser.toJ, serEntries, fieldPath_toJ]
  | .set t fl ps => by simp only [Property.toS, Property.toJ, Ser.toJ, serEntries, props_toJ ps]
  | .str v => by simp only [Property.toS, Property.toJ, Ser.toJ, serEntries, optES_toJ]
  | .struct g t v => by
    have := struct_toJ v
    simp only [Property.toS, Property.toJ, Ser.toJ, serEntries, serEntries_append, guidES_toJ, this]
  | .structValue v => by
    have := struct_toJ v
    simp only [Property.toS, Property.toJ, Ser.toJ, serEntries, this]
  | .text v => by simp only [Property.toS, Property.toJ, Ser.toJ, serEntries, text_toJ v]
  | .uint16 _ => rfl
  | .uint32 _ => rfl
  | .uint64 _ => rfl
  | .unknown name raw => by
    simp only [Property.toS, Property.toJ, Ser.toJ, serEntries, serList_map]
theorem array_toJ : ∀ v : ArrayProperty, serEntries FloatJ.num v.entriesS = v.entries
  | .bools v => by
    simp only [ArrayProperty.entriesS, ArrayProperty.entries, Ser.toJ, serEntries, serList_map]
  | .bytes _ => rfl
  | .enums v => by
    simp only [ArrayProperty.entriesS, ArrayProperty.entries, Ser.toJ, serEntries, serList_map]
  | .floats v => by
    simp only [ArrayProperty.entriesS, ArrayProperty.entries, Ser.toJ, serEntries, serList_map,
      float_toJ]
  | .ints v => by
    simp only [ArrayProperty.entriesS, ArrayProperty.entries, Ser.toJ, serEntries, serList_map]
  | .names v => by
    simp only [ArrayProperty.entriesS, ArrayProperty.entries, Ser.toJ, serEntries, serList_map,
      optS_toJ]
  | .strings v => by
    simp only [ArrayProperty.entriesS, ArrayProperty.entries, Ser.toJ, serEntries, serList_map,
      optS_toJ]
  | .structs field ty g v => by
    simp only [ArrayProperty.entriesS, ArrayProperty.entries, Ser.toJ, serEntries,
      serEntries_append, guidES_toJ, structs_toJ v]
  | .properties ty ps => by
    simp only [ArrayProperty.entriesS, ArrayProperty.entries, Ser.toJ, serEntries, props_toJ ps]
theorem map_toJ : ∀ v : MapProperty, serEntries FloatJ.num v.entriesS = v.entries
  | .enumBool v | .nameBool v | .strBool v => by
    simp only [MapProperty.entriesS, MapProperty.entries, Ser.toJ, serEntries, serEntries_map]
  | .enumInt v | .nameInt v | .strInt v => by
    simp only [MapProperty.entriesS, MapProperty.entries, Ser.toJ, serEntries, serEntries_map]
  | .enumProperty t v | .nameProperty t v | .strProperty t v => by
    simp only [MapProperty.entriesS, MapProperty.entries, Ser.toJ, serEntries, values_toJ v]
  | .properties kt vt fl v => by
    simp only [MapProperty.entriesS, MapProperty.entries, Ser.toJ, serEntries, pairs_toJ v]
  | .strStr v => by
    simp only [MapProperty.entriesS, MapProperty.entries, Ser.toJ, serEntries, serEntries_map,
      optS_toJ]
theorem struct_toJ : ∀ v : StructPropertyValue,
    (v.entryS.1, v.entryS.2.toJ FloatJ.num) = v.entry
  | .vector2F _ _ => rfl
  | .vector2D _ _ => rfl
  | .vectorF _ _ _ => rfl
  | .vectorD _ _ _ => rfl
  | .rotatorF _ _ _ => rfl
  | .rotatorD _ _ _ => rfl
  | .quatF _ _ _ _ => rfl
  | .quatD _ _ _ _ => rfl
  | .dateTime _ => rfl
  | .timespan _ => rfl
  | .guid _ => rfl
  | .linearColor _ _ _ _ => rfl
  | .intPoint _ _ => rfl
  | .gameplayTagContainer tags => by
    simp only [StructPropertyValue.entryS, StructPropertyValue.entry, Ser.toJ, serList_map]
  | .customStruct fs => by
    simp only [StructPropertyValue.entryS, StructPropertyValue.entry, Ser.toJ, fields_toJ fs]
theorem props_toJ : ∀ l : List Property, serList FloatJ.num (propsS l) = propsJ l
  | [] => rfl
  | p :: l => by simp only [propsS, propsJ, serList, property_toJ p, props_toJ l]
theorem structs_toJ : ∀ l : List StructPropertyValue, serList FloatJ.num (structsS l) = structsJ l
  | [] => rfl
  | v :: l => by
    have := struct_toJ v
    simp only [structsS, structsJ, serList, Ser.toJ, serEntries, this, structs_toJ l]
theorem values_toJ : ∀ l : List (String × Property),
    serEntries FloatJ.num (strPropsS l) = strPropsJ l
  | [] => rfl
  | (k, p) :: l => by simp only [strPropsS, strPropsJ, serEntries, property_toJ p, values_toJ l]
theorem pairs_toJ : ∀ l : List (Property × Property), serList FloatJ.num (pairsS l) = pairsJ l
  | [] => rfl
  | (k, p) :: l => by
    simp only [pairsS, pairsJ, serList, Ser.toJ, property_toJ k, property_toJ p, pairs_toJ l]
theorem fields_toJ : ∀ l : List (String × List Property),
    serEntries FloatJ.num (fieldsS l) = fieldsJ l
  | [] => rfl
  | (k, ps) :: l => by
    simp only [fieldsS, fieldsJ, serEntries, Ser.toJ, props_toJ ps, fields_toJ l]
end

theorem versions_toJ (cv : List (Guid × UInt32)) :
    (customVersionsS cv).toJ FloatJ.num = customVersionsJ cv := by
  simp only [customVersionsS, customVersionsJ, Ser.toJ, serEntries_map]

theorem header_toJ (h : GvasHeader) : h.toS.toJ FloatJ.num = h.toJ := by
  cases h <;> simp only [GvasHeader.toS, GvasHeader.toJ, Ser.toJ, serEntries, versions_toJ,
    FEngineVersion.toS, FEngineVersion.toJ]

theorem file_toJ (f : GvasFile) : f.toSerde.toJ FloatJ.num = f.toJson := by
  obtain ⟨g, h, ps⟩ := f
  cases g <;> simp only [GvasFile.toSerde, GvasFile.toJson, Ser.toJ, serEntries, serEntries_append,
    List.nil_append, header_toJ, values_toJ]

end value

/-! ## Whole numbers fit, and names are distinct -/

mutual
/-- Whole numbers have 64 bits, and no name is repeated in an object. -/
def Fine : Ser → Prop
  | .int n => -2 ^ 63 ≤ n ∧ n < 2 ^ 64
  | .arr l => FineList l
  | .obj l => (l.map Prod.fst).Pairwise (· ≠ ·) ∧ FineEntries l
  | _ => True
/-- In all elements. -/
def FineList : List Ser → Prop
  | [] => True
  | a :: l => Fine a ∧ FineList l
/-- In all entries. -/
def FineEntries : List (String × Ser) → Prop
  | [] => True
  | (_, a) :: l => Fine a ∧ FineEntries l
end

theorem fineList_map (f : α → Ser) (l : List α) (h : ∀ a ∈ l, Fine (f a)) : FineList (l.map f) := by
  induction l with
  | nil => exact trivial
  | cons a l ih => exact ⟨h a (by simp), ih fun b hb => h b (by simp [hb])⟩

theorem fineEntries_map (k : α → String) (f : α → Ser) (l : List α) (h : ∀ a ∈ l, Fine (f a)) :
    FineEntries (l.map fun a => (k a, f a)) := by
  induction l with
  | nil => exact trivial
  | cons a l ih => exact ⟨h a (by simp), ih fun b hb => h b (by simp [hb])⟩

theorem fineEntries_append {a b : List (String × Ser)} (ha : FineEntries a) (hb : FineEntries b) :
    FineEntries (a ++ b) := by
  induction a with
  | nil => exact hb
  | cons e a ih => exact ⟨ha.1, ih ha.2⟩

theorem fine_nat {n : Nat} (h : n < 2 ^ 64) : Fine (.int n) := by
  simp only [Fine]; omega

theorem fine_int {n : Int} (h1 : -2 ^ 63 ≤ n) (h2 : n < 2 ^ 63) : Fine (.int n) := by
  simp only [Fine]; omega

theorem fine_u8 (v : UInt8) : Fine (.int v.toNat) := fine_nat (by have := v.toNat_lt; omega)
theorem fine_u16 (v : UInt16) : Fine (.int v.toNat) := fine_nat (by have := v.toNat_lt; omega)
theorem fine_u32 (v : UInt32) : Fine (.int v.toNat) := fine_nat (by have := v.toNat_lt; omega)
theorem fine_u64 (v : UInt64) : Fine (.int v.toNat) := fine_nat (by have := v.toNat_lt; omega)
theorem fine_i8 (v : Int8) : Fine (.int v.toInt) :=
  fine_int (by have := v.le_toInt; omega) (by have := v.toInt_lt; omega)
theorem fine_i16 (v : Int16) : Fine (.int v.toInt) :=
  fine_int (by have := v.le_toInt; omega) (by have := v.toInt_lt; omega)
theorem fine_i32 (v : Int32) : Fine (.int v.toInt) :=
  fine_int (by have := v.le_toInt; omega) (by have := v.toInt_lt; omega)
theorem fine_i64 (v : Int64) : Fine (.int v.toInt) :=
  fine_int (by have := v.le_toInt; omega) (by have := v.toInt_lt; omega)

theorem optS_fine (s : Option String) : Fine (optS s) := by cases s <;> trivial

theorem optES_fine (k : String) (s : Option String) : FineEntries (optES k s) := by
  cases s <;> simp [optES, FineEntries, Fine]

theorem optES_keys (k : String) (s : Option String) :
    ((optES k s).map Prod.fst).Sublist [k] := by
  cases s <;> simp [optES]

theorem nonzeroES_fine (k : String) (v : UInt32) : FineEntries (nonzeroES k v) := by
  unfold nonzeroES; split
  · trivial
  · exact ⟨fine_u32 v, trivial⟩

theorem nonzeroES_keys (k : String) (v : UInt32) :
    ((nonzeroES k v).map Prod.fst).Sublist [k] := by
  unfold nonzeroES; split <;> simp

theorem guidES_fine (g : Guid) : FineEntries (guidES g) := by
  unfold guidES; split <;> simp [FineEntries, Fine, Guid.toS]

theorem guidES_keys (g : Guid) : ((guidES g).map Prod.fst).Sublist ["guid"] := by
  unfold guidES; split <;> simp

theorem options_fine (o : NumberFormattingOptions) : Fine o.toS := by
  simp only [NumberFormattingOptions.toS, Fine, FineEntries]
  refine ⟨by simp, trivial, trivial, trivial, ?_, ?_, ?_, ?_, trivial⟩ <;> exact fine_i32 _

theorem optionsES_fine (o : Option NumberFormattingOptions) : FineEntries (optionsES o) := by
  cases o
  · trivial
  · exact ⟨options_fine _, trivial⟩

theorem optionsES_keys (o : Option NumberFormattingOptions) :
    ((optionsES o).map Prod.fst).Sublist ["format_options"] := by
  cases o <;> simp [optionsES]

theorem ticks_fine (t : UInt64) : Fine (ticksS t) := ⟨by simp, fine_u64 t, trivial⟩

theorem f32_fine (f : F32) : Fine f.toS := trivial
theorem f64_fine (f : F64) : Fine f.toS := trivial

/-- The names in the entries of a history. -/
def historyKeys : FTextHistory → List String
  | .empty => ["history"]
  | .none _ => "history" :: ["culture_invariant_string"]
  | .base _ _ _ => "history" :: (["namespace"] ++ ["key"] ++ ["source_string"])
  | .namedFormat _ _ | .orderedFormat _ _ | .argumentFormat _ _ =>
    ["history", "source_format", "arguments"]
  | .asNumber _ _ _ | .asPercent _ _ _ =>
    "history" :: "source_value" :: (["format_options"] ++ ["target_culture"])
  | .asCurrency _ _ _ _ => "history" :: (["currency_code"] ++
      "source_value" :: (["format_options"] ++ ["target_culture"]))
  | .asDate _ _ _ => ["history", "date_time", "date_style", "target_culture"]
  | .asTime _ _ _ _ =>
    ["history", "source_date_time", "time_style", "time_zone", "target_culture"]
  | .asDateTime _ _ _ _ _ =>
    ["history", "source_date_time", "date_style", "time_style", "time_zone", "target_culture"]
  | .transform _ _ => ["history", "source_text", "transform"]
  | .stringTableEntry _ _ => ["history", "table_id", "key"]

theorem history_keys (h : FTextHistory) : (h.entriesS.map Prod.fst).Sublist (historyKeys h) := by
  cases h <;> simp only [FTextHistory.entriesS, historyKeys, List.map_cons, List.map_append,
    List.map_nil]
  case none => exact .cons_cons _ (optES_keys _ _)
  case base =>
    exact .cons_cons _ (((optES_keys _ _).append (optES_keys _ _)).append (optES_keys _ _))
  case asNumber =>
    exact .cons_cons _ (.cons_cons _ ((optionsES_keys _).append (optES_keys _ _)))
  case asPercent =>
    exact .cons_cons _ (.cons_cons _ ((optionsES_keys _).append (optES_keys _ _)))
  case asCurrency =>
    exact .cons_cons _ ((optES_keys _ _).append
      (.cons_cons _ ((optionsES_keys _).append (optES_keys _ _))))
  all_goals exact List.Sublist.refl _

theorem text_keys (t : FText) : ("type" :: t.entriesS.map Prod.fst).Pairwise (· ≠ ·) := by
  obtain ⟨flags, h⟩ := t
  simp only [FText.entriesS, List.map_append]
  refine List.Pairwise.sublist (.cons_cons _ ((nonzeroES_keys _ _).append (history_keys h))) ?_
  cases h <;> simp [historyKeys]

theorem text_keys' (t : FText) : (t.entriesS.map Prod.fst).Pairwise (· ≠ ·) :=
  (List.pairwise_cons.mp (text_keys t)).2

theorem namedArgsS_keys (l : List (String × FormatArgumentValue)) :
    (namedArgsS l).map Prod.fst = l.map Prod.fst := by
  induction l with
  | nil => rfl
  | cons e l ih => obtain ⟨k, v⟩ := e; simp [namedArgsS, ih]

mutual
theorem text_fine : ∀ t : FText, TextMaps t → FineEntries t.entriesS
  | .mk flags h, hm => by
    simp only [FText.entriesS]
    exact fineEntries_append (nonzeroES_fine _ _) (history_fine h hm)
theorem history_fine : ∀ h : FTextHistory, HistoryMaps h → FineEntries h.entriesS
  | .empty, _ => ⟨trivial, trivial⟩
  | .none s, _ => ⟨trivial, optES_fine _ _⟩
  | .base a b c, _ => ⟨trivial, fineEntries_append (fineEntries_append (optES_fine _ _)
      (optES_fine _ _)) (optES_fine _ _)⟩
  | .namedFormat src args, hm => ⟨trivial, ⟨text_keys' src, text_fine src hm.1⟩,
      ⟨by rw [namedArgsS_keys]; exact hm.2.1, namedArgs_fine args hm.2.2⟩, trivial⟩
  | .orderedFormat src args, hm => ⟨trivial, ⟨text_keys' src, text_fine src hm.1⟩,
      args_fine args hm.2, trivial⟩
  | .argumentFormat src args, hm => ⟨trivial, ⟨text_keys' src, text_fine src hm.1⟩,
      ⟨by rw [namedArgsS_keys]; exact hm.2.1, namedArgs_fine args hm.2.2⟩, trivial⟩
  | .asNumber v o c, hm => ⟨trivial, arg_fine v hm,
      fineEntries_append (optionsES_fine _) (optES_fine _ _)⟩
  | .asPercent v o c, hm => ⟨trivial, arg_fine v hm,
      fineEntries_append (optionsES_fine _) (optES_fine _ _)⟩
  | .asCurrency a v o c, hm => ⟨trivial, fineEntries_append (optES_fine _ _) ⟨arg_fine v hm,
      fineEntries_append (optionsES_fine _) (optES_fine _ _)⟩⟩
  | .asDate _ _ _, _ => ⟨trivial, ticks_fine _, trivial, trivial, trivial⟩
  | .asTime _ _ _ _, _ => ⟨trivial, ticks_fine _, trivial, trivial, trivial, trivial⟩
  | .asDateTime _ _ _ _ _, _ =>
    ⟨trivial, ticks_fine _, trivial, trivial, trivial, trivial, trivial⟩
  | .transform src tt, hm => ⟨trivial, ⟨text_keys' src, text_fine src hm⟩, trivial, trivial⟩
  | .stringTableEntry _ _, _ => ⟨trivial, trivial, trivial, trivial⟩
theorem arg_fine : ∀ v : FormatArgumentValue, ArgMaps v → Fine v.toS
  | .int _, _ => ⟨by simp, fine_i32 _, trivial⟩
  | .uint _, _ => ⟨by simp, fine_u32 _, trivial⟩
  | .float _, _ => ⟨by simp, trivial, trivial⟩
  | .double _, _ => ⟨by simp, trivial, trivial⟩
  | .text t, hm => ⟨by simp, ⟨text_keys' t, text_fine t hm⟩, trivial⟩
  | .int64 _, _ => ⟨by simp, fine_i64 _, trivial⟩
  | .uint64 _, _ => ⟨by simp, fine_u64 _, trivial⟩
theorem args_fine : ∀ l : List FormatArgumentValue, ArgsMaps l → FineList (argsS l)
  | [], _ => trivial
  | v :: l, hm => ⟨arg_fine v hm.1, args_fine l hm.2⟩
theorem namedArgs_fine : ∀ l : List (String × FormatArgumentValue), NamedArgsMaps l →
    FineEntries (namedArgsS l)
  | [], _ => trivial
  | (_, v) :: l, hm => ⟨arg_fine v hm.1, namedArgs_fine l hm.2⟩
end

theorem byte_fine (v : BytePropertyValue) : Fine v.entryS.2 := by
  cases v
  · exact fine_u8 _
  · trivial

theorem delegate_fine (d : Delegate) : Fine d.toS := ⟨by simp, trivial, trivial, trivial⟩

theorem multicast_fine (ds : List Delegate) : Fine (multicastS ds) :=
  ⟨by simp, fineList_map _ _ fun _ _ => delegate_fine _, trivial⟩

theorem fieldPath_fine (p : FieldPath) : Fine p.toS :=
  ⟨by simp, fineList_map _ _ fun _ _ => trivial, trivial, trivial⟩

theorem strPropsS_keys (l : List (String × Property)) :
    (strPropsS l).map Prod.fst = l.map Prod.fst := by
  induction l with
  | nil => rfl
  | cons e l ih => obtain ⟨k, v⟩ := e; simp [strPropsS, ih]

theorem fieldsS_keys (l : List (String × List Property)) :
    (fieldsS l).map Prod.fst = l.map Prod.fst := by
  induction l with
  | nil => rfl
  | cons e l ih => obtain ⟨k, v⟩ := e; simp [fieldsS, ih]

theorem map_keys {β : Type} (f : β → Ser) {l : List (String × β)} (h : KeysDistinct l) :
    ((l.map fun e => (e.1, f e.2)).map Prod.fst).Pairwise (· ≠ ·) := by
  rw [List.map_map]; exact h

theorem struct_key (v : StructPropertyValue) : v.entryS.1 ≠ "type" ∧ v.entryS.1 ≠ "guid" ∧
    v.entryS.1 ≠ "type_name" := by
  cases v <;> simp [StructPropertyValue.entryS]

theorem array_keys (v : ArrayProperty) :
    ("type" :: v.entriesS.map Prod.fst).Pairwise (· ≠ ·) := by
  cases v <;> simp only [ArrayProperty.entriesS, List.map_append, List.map_cons, List.map_nil]
  case structs =>
    refine List.Pairwise.sublist (.cons_cons _ (((List.Sublist.refl _).append
      (guidES_keys _)).append (List.Sublist.refl _))) ?_
    simp
  all_goals simp

theorem map_keys' (v : MapProperty) :
    ("type" :: v.entriesS.map Prod.fst).Pairwise (· ≠ ·) := by
  cases v <;> simp [MapProperty.entriesS]

theorem plain_obj {k : String} {s : Ser} (h : Fine s) : Fine (.obj [(k, s)]) :=
  ⟨by simp, h, trivial⟩

theorem value_obj {n : String} {s : Ser} (h : Fine s) :
    Fine (.obj [("type", .str n), ("value", s)]) := ⟨by simp, trivial, h, trivial⟩

mutual
theorem property_fine : ∀ p : Property, MapsDistinct p → Fine p.toS
  | .array v, hm => ⟨array_keys v, trivial, array_fine v hm⟩
  | .bool _, _ => value_obj trivial
  | .byte name v, _ => by
    simp only [Property.toS, Fine, FineEntries, List.map_cons, List.map_append, List.map_nil,
      true_and]
    refine ⟨List.Pairwise.sublist (.cons_cons _ ((optES_keys _ _).append (List.Sublist.refl _))) ?_,
      fineEntries_append (optES_fine _ _) ⟨byte_fine v, trivial⟩⟩
    cases v <;> simp [BytePropertyValue.entryS]
  | .double _, _ => value_obj trivial
  | .enum t v, _ => by
    simp only [Property.toS, Fine, FineEntries, List.map_cons, List.map_append, List.map_nil,
      true_and]
    refine ⟨List.Pairwise.sublist (.cons_cons _ ((optES_keys _ _).append (List.Sublist.refl _))) ?_,
      fineEntries_append (optES_fine _ _) ⟨trivial, trivial⟩⟩
    simp
  | .float _, _ => value_obj trivial
  | .int16 _, _ => value_obj (fine_i16 _)
  | .int64 _, _ => value_obj (fine_i64 _)
  | .int8 _, _ => value_obj (fine_i8 _)
  | .int _, _ => value_obj (fine_i32 _)
  | .map v, hm => ⟨map_keys' v, trivial, map_fine v hm⟩
  | .name i v, _ => by
    simp only [Property.toS, Fine, FineEntries, List.map_cons, List.map_append, true_and]
    refine ⟨List.Pairwise.sublist (.cons_cons _ ((nonzeroES_keys _ _).append (optES_keys _ _))) ?_,
      fineEntries_append (nonzeroES_fine _ _) (optES_fine _ _)⟩
    simp
  | .object _, _ => value_obj trivial
  | .delegate _, _ => value_obj (delegate_fine _)
  | .multicastInlineDelegate v, _ => value_obj (multicast_fine _)
  | .multicastSparseDelegate v, _ => value_obj (multicast_fine _)
  | .fieldPath v, _ => value_obj (fieldPath_fine _)
  | .set t fl ps, hm => ⟨by simp, trivial, trivial, fine_u32 _, props_fine ps hm, trivial⟩
  | .str v, _ => by
    simp only [Property.toS, Fine, FineEntries, List.map_cons, true_and]
    refine ⟨List.Pairwise.sublist (.cons_cons _ (optES_keys _ _)) ?_, optES_fine _ _⟩
    simp
  | .struct g t v, hm => by
    have hk := struct_key v
    simp only [Property.toS, Fine, FineEntries, List.map_cons, List.map_append, List.map_nil,
      true_and]
    refine ⟨List.Pairwise.sublist (.cons_cons _ ((guidES_keys _).append (List.Sublist.refl _))) ?_,
      fineEntries_append (guidES_fine _) ⟨trivial, struct_fine v hm, trivial⟩⟩
    simp [hk.1.symm, hk.2.1.symm, hk.2.2.symm]
  | .structValue v, hm => by
    have hk := struct_key v
    exact ⟨by simp [hk.1.symm], trivial, struct_fine v hm, trivial⟩
  | .text v, hm => ⟨text_keys v, trivial, text_fine v hm⟩
  | .uint16 _, _ => value_obj (fine_u16 _)
  | .uint32 _, _ => value_obj (fine_u32 _)
  | .uint64 _, _ => value_obj (fine_u64 _)
  | .unknown name raw, _ =>
    ⟨by simp, trivial, trivial, fineList_map _ _ fun _ _ => fine_u8 _, trivial⟩
theorem array_fine : ∀ v : ArrayProperty, ArrayMaps v → FineEntries v.entriesS
  | .bools _, _ => ⟨fineList_map _ _ fun _ _ => trivial, trivial⟩
  | .bytes _, _ => ⟨trivial, trivial⟩
  | .enums _, _ => ⟨fineList_map _ _ fun _ _ => trivial, trivial⟩
  | .floats _, _ => ⟨fineList_map _ _ fun _ _ => trivial, trivial⟩
  | .ints _, _ => ⟨fineList_map _ _ fun _ _ => fine_i32 _, trivial⟩
  | .names _, _ => ⟨fineList_map _ _ fun _ _ => optS_fine _, trivial⟩
  | .strings _, _ => ⟨fineList_map _ _ fun _ _ => optS_fine _, trivial⟩
  | .structs _ _ _ v, hm => fineEntries_append
      (fineEntries_append ⟨trivial, trivial, trivial⟩ (guidES_fine _)) ⟨structs_fine v hm, trivial⟩
  | .properties _ ps, hm => ⟨trivial, props_fine ps hm, trivial⟩
theorem map_fine : ∀ v : MapProperty, MapMaps v → FineEntries v.entriesS
  | .enumBool v, hm | .nameBool v, hm | .strBool v, hm =>
    ⟨⟨map_keys _ hm, fineEntries_map _ _ _ fun _ _ => trivial⟩, trivial⟩
  | .enumInt v, hm | .nameInt v, hm | .strInt v, hm =>
    ⟨⟨map_keys (fun x : Int32 => .int x.toInt) hm, fineEntries_map _ _ _ fun _ _ => fine_i32 _⟩,
      trivial⟩
  | .enumProperty t v, hm | .nameProperty t v, hm | .strProperty t v, hm =>
    ⟨trivial, ⟨by rw [strPropsS_keys]; exact hm.1, values_fine v hm.2⟩, trivial⟩
  | .properties kt vt fl v, hm => ⟨trivial, trivial, fine_u32 _, pairs_fine v hm.2, trivial⟩
  | .strStr v, hm => ⟨⟨map_keys _ hm, fineEntries_map _ _ _ fun _ _ => optS_fine _⟩, trivial⟩
theorem struct_fine : ∀ v : StructPropertyValue, StructMaps v → Fine v.entryS.2
  | .vector2F _ _, _ | .vector2D _ _, _ => ⟨by simp, trivial, trivial, trivial⟩
  | .vectorF _ _ _, _ | .vectorD _ _ _, _ | .rotatorF _ _ _, _ | .rotatorD _ _ _, _ =>
    ⟨by simp, trivial, trivial, trivial, trivial⟩
  | .quatF _ _ _ _, _ | .quatD _ _ _ _, _ | .linearColor _ _ _ _, _ =>
    ⟨by simp, trivial, trivial, trivial, trivial, trivial⟩
  | .dateTime _, _ | .timespan _, _ => ticks_fine _
  | .guid _, _ => trivial
  | .intPoint _ _, _ => ⟨by simp, fine_i32 _, fine_i32 _, trivial⟩
  | .gameplayTagContainer tags, _ => fineList_map _ _ fun _ _ => trivial
  | .customStruct fs, hm => ⟨by rw [fieldsS_keys]; exact hm.1, fields_fine fs hm.2⟩
theorem props_fine : ∀ l : List Property, PropsMaps l → FineList (propsS l)
  | [], _ => trivial
  | p :: l, hm => ⟨property_fine p hm.1, props_fine l hm.2⟩
theorem structs_fine : ∀ l : List StructPropertyValue, StructsMaps l → FineList (structsS l)
  | [], _ => trivial
  | v :: l, hm => ⟨plain_obj (struct_fine v hm.1), structs_fine l hm.2⟩
theorem values_fine : ∀ l : List (String × Property), ValuesMaps l → FineEntries (strPropsS l)
  | [], _ => trivial
  | (_, p) :: l, hm => ⟨property_fine p hm.1, values_fine l hm.2⟩
theorem pairs_fine : ∀ l : List (Property × Property), EntriesMaps l → FineList (pairsS l)
  | [], _ => trivial
  | (k, p) :: l, hm => ⟨⟨property_fine k hm.1, property_fine p hm.2.1, trivial⟩,
      pairs_fine l hm.2.2⟩
theorem fields_fine : ∀ l : List (String × List Property), FieldsMaps l → FineEntries (fieldsS l)
  | [], _ => trivial
  | (_, ps) :: l, hm => ⟨props_fine ps hm.1, fields_fine l hm.2⟩
end

theorem versions_fine (cv : List (Guid × UInt32)) (h : (cv.map Prod.fst).Nodup) :
    Fine (customVersionsS cv) := by
  refine ⟨?_, fineEntries_map _ _ _ fun _ _ => fine_u32 _⟩
  rw [List.map_map, List.pairwise_map]
  rw [List.nodup_iff_pairwise_ne, List.pairwise_map] at h
  refine h.imp fun {a b} hab e => hab ?_
  exact C10_guid_display_injective _ _ (String.ofList_injective e)

theorem engine_fine (v : FEngineVersion) : Fine v.toS :=
  ⟨by simp, fine_u16 _, fine_u16 _, fine_u16 _, fine_u32 _, trivial, trivial⟩

theorem header_fine (h : GvasHeader) (hc : (h.customVersions.map Prod.fst).Nodup) :
    Fine h.toS := by
  cases h
  · exact ⟨by simp, trivial, fine_u32 _, engine_fine _, fine_u32 _, versions_fine _ hc, trivial,
      trivial⟩
  · exact ⟨by simp, trivial, fine_u32 _, fine_u32 _, engine_fine _, fine_u32 _, versions_fine _ hc,
      trivial, trivial⟩

theorem file_fine (f : GvasFile) (hm : FileMaps f) : Fine f.toSerde := by
  obtain ⟨g, h, ps⟩ := f
  obtain ⟨h1, h2, h3⟩ := hm
  have hh := header_fine h h1
  have hp : Fine (.obj (strPropsS ps)) :=
    ⟨by rw [strPropsS_keys]; exact h2, values_fine ps ((Js.ValuesMaps_iff _).mpr h3)⟩
  cases g
  · exact ⟨by simp, hh, hp, trivial⟩
  · exact ⟨by simp, plain_obj trivial, hh, hp, trivial⟩

end Gvas.Sd
