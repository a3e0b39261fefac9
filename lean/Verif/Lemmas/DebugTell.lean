import Verif.Lemmas.DebugTree

/-!
# The trees that `Debug` prints tell the value, up to NaNs
-/

namespace Gvas.Dt

open Spec

/-! ## Parts without floats -/

theorem int_tell (a b : Int) : intD a = intD b ↔ a = b :=
  ⟨fun h => decInt_inj (by injection h), fun h => by rw [h]⟩

theorem bool_tell (a b : Bool) : boolD a = boolD b ↔ a = b := by
  cases a <;> cases b <;> simp [boolD]

theorem unit_tell (a b : String) : unitD a = unitD b ↔ a = b := by
  simp [unitD, String.toList_inj]

theorem typed_tell (a b : List Char) (ty : String) : typedD a ty = typedD b ty ↔ a = b := by
  simp [typedD]

theorem dec_tell (a b : Int) : (decInt a).toList = (decInt b).toList ↔ a = b :=
  ⟨fun h => decInt_inj h, fun h => by rw [h]⟩

theorem optStr_tell (a b : Option String) : optStrD a = optStrD b ↔ a = b := by
  cases a <;> cases b <;> simp [optStrD, optD, unitD]

theorem guid_tell (a b : Guid) : a.dbg = b.dbg ↔ a = b := by
  refine ⟨fun h => C10_guid_display_injective a b ?_, fun h => by rw [h]⟩
  injection h

theorem map_tell (a b : List (Dbg × Dbg)) : mapD a = mapD b ↔ a = b := by simp [mapD]

theorem u8_tell (a b : UInt8) : (a.toNat : Int) = (b.toNat : Int) ↔ a = b := by
  rw [Int.ofNat_inj, UInt8.toNat_inj]

theorem u16_tell (a b : UInt16) : (a.toNat : Int) = (b.toNat : Int) ↔ a = b := by
  rw [Int.ofNat_inj, UInt16.toNat_inj]

theorem u32_tell (a b : UInt32) : (a.toNat : Int) = (b.toNat : Int) ↔ a = b := by
  rw [Int.ofNat_inj, UInt32.toNat_inj]

theorem u64_tell (a b : UInt64) : (a.toNat : Int) = (b.toNat : Int) ↔ a = b := by
  rw [Int.ofNat_inj, UInt64.toNat_inj]

theorem ticks_tell (k : String) (a b : UInt64) : ticksD k a = ticksD k b ↔ a = b := by
  simp [ticksD, int_tell, u64_tell]

theorem rounding_tell (a b : RoundingMode) : a.json = b.json ↔ a = b := by
  cases a <;> cases b <;> simp [RoundingMode.json]

theorem style_tell (a b : DateTimeStyle) : a.json = b.json ↔ a = b := by
  cases a <;> cases b <;> simp [DateTimeStyle.json]

theorem transform_tell (a b : TransformType) : a.json = b.json ↔ a = b := by
  cases a <;> cases b <;> simp [TransformType.json]

theorem compression_tell (a b : PalworldCompressionType) : a.json = b.json ↔ a = b := by
  cases a <;> cases b <;> simp [PalworldCompressionType.json]

theorem options_tell (a b : NumberFormattingOptions) : a.dbg = b.dbg ↔ a = b := by
  obtain ⟨a1, a2, a3, a4, a5, a6, a7⟩ := a
  obtain ⟨b1, b2, b3, b4, b5, b6, b7⟩ := b
  simp [NumberFormattingOptions.dbg, bool_tell, unit_tell, rounding_tell, int_tell, Int32.toInt_inj]

theorem optOptions_tell (a b : Option NumberFormattingOptions) :
    optD (a.map NumberFormattingOptions.dbg) = optD (b.map NumberFormattingOptions.dbg) ↔ a = b := by
  cases a <;> cases b <;> simp [optD, unitD, options_tell]

/-- Items, each told up to something. -/
theorem items_tell {α β γ : Type} {f : α → β} {g : α → γ} (h : ∀ a b, f a = f b ↔ g a = g b)
    (l l' : List α) : l.map f = l'.map f ↔ l.map g = l'.map g := by
  induction l generalizing l' with
  | nil => cases l' <;> simp
  | cons a l ih => cases l' <;> simp [h, ih]

theorem items_inj {α β : Type} {f : α → β} (h : ∀ a b, f a = f b ↔ a = b) (l l' : List α) :
    l.map f = l'.map f ↔ l = l' := by
  simpa using items_tell (g := id) h l l'

theorem strMap_tell {α : Type} {f : α → Dbg} (h : ∀ a b, f a = f b ↔ a = b)
    (l l' : List (String × α)) : strMapD f l = strMapD f l' ↔ l = l' := by
  rw [strMapD, strMapD, map_tell]
  refine items_inj (fun a b => ?_) l l'
  obtain ⟨a1, a2⟩ := a
  obtain ⟨b1, b2⟩ := b
  simp [h]

theorem delegate_tell (a b : Delegate) : a.dbg = b.dbg ↔ a = b := by
  obtain ⟨a1, a2⟩ := a
  obtain ⟨b1, b2⟩ := b
  simp [Delegate.dbg]

theorem multicast_tell (a b : List Delegate) : multicastD a = multicastD b ↔ a = b := by
  simp [multicastD, items_inj delegate_tell]

theorem strs_tell (a b : List String) : a.map Dbg.str = b.map Dbg.str ↔ a = b :=
  items_inj (by simp) a b

theorem fieldPath_tell (a b : FieldPath) : a.dbg = b.dbg ↔ a = b := by
  obtain ⟨a1, a2⟩ := a
  obtain ⟨b1, b2⟩ := b
  simp [FieldPath.dbg, strs_tell]

theorem byte_tell (a b : BytePropertyValue) : a.dbg = b.dbg ↔ a = b := by
  cases a <;> cases b <;> simp [BytePropertyValue.dbg, int_tell, u8_tell]

theorem bytes_tell (a b : List UInt8) :
    (a.map fun x => intD x.toNat) = (b.map fun x => intD x.toNat) ↔ a = b :=
  items_inj (fun x y => by rw [int_tell, u8_tell]) a b

theorem ints_tell (a b : List Int32) :
    (a.map fun x => intD x.toInt) = (b.map fun x => intD x.toInt) ↔ a = b :=
  items_inj (fun x y => by rw [int_tell, Int32.toInt_inj]) a b

theorem intMap_tell (a b : List (String × Int32)) :
    strMapD (fun x => intD x.toInt) a = strMapD (fun x => intD x.toInt) b ↔ a = b :=
  strMap_tell (fun x y => by rw [int_tell, Int32.toInt_inj]) a b

/-! ## Values -/

section
variable {t : Fmt} (ht : TellFloats t)
include ht

omit ht in
theorem ordered_tell (a b : List Char) : t.ordered a = t.ordered b ↔ a = b := by
  unfold Fmt.ordered
  split <;> simp

theorem f32_tell (a b : F32) : t.f32 a = t.f32 b ↔ calm32 a = calm32 b :=
  (ordered_tell _ _).trans (ht.debug32 a b)

theorem f64_tell (a b : F64) : t.f64 a = t.f64 b ↔ calm64 a = calm64 b :=
  (ordered_tell _ _).trans (ht.debug64 a b)

mutual
theorem text_tell (x y : FText) : x.dbg t = y.dbg t ↔ calmText x = calmText y := by
  match x, y with
  | .mk f h, .mk f' h' =>
    have := history_tell h h'
    simp [FText.dbg, calmText, int_tell, u32_tell, this]
theorem history_tell (x y : FTextHistory) : x.dbg t = y.dbg t ↔ calmHistory x = calmHistory y := by
  match x with
  | .namedFormat src args =>
    cases y <;> simp [FTextHistory.dbg, calmHistory, unitD, map_tell, text_tell src, namedArgs_tell args]
  | .orderedFormat src args =>
    cases y <;> simp [FTextHistory.dbg, calmHistory, unitD, text_tell src, args_tell args]
  | .argumentFormat src args =>
    cases y <;> simp [FTextHistory.dbg, calmHistory, unitD, map_tell, text_tell src, namedArgs_tell args]
  | .asNumber v o c =>
    cases y <;> simp [FTextHistory.dbg, calmHistory, unitD, arg_tell v, optOptions_tell, optStr_tell]
  | .asPercent v o c =>
    cases y <;> simp [FTextHistory.dbg, calmHistory, unitD, arg_tell v, optOptions_tell, optStr_tell]
  | .asCurrency a v o c =>
    cases y <;> simp [FTextHistory.dbg, calmHistory, unitD, arg_tell v, optOptions_tell, optStr_tell]
  | .transform src tt =>
    cases y <;> simp [FTextHistory.dbg, calmHistory, text_tell src, unitD, String.toList_inj,
      transform_tell]
  | .empty => cases y <;> simp [FTextHistory.dbg, calmHistory, unitD]
  | .none s => cases y <;> simp [FTextHistory.dbg, calmHistory, unitD, optStr_tell]
  | .base a b c => cases y <;> simp [FTextHistory.dbg, calmHistory, unitD, optStr_tell]
  | .asDate d st c =>
    cases y <;> simp [FTextHistory.dbg, calmHistory, unitD, ticks_tell, String.toList_inj, style_tell]
  | .asTime d st z c =>
    cases y <;> simp [FTextHistory.dbg, calmHistory, unitD, ticks_tell, String.toList_inj, style_tell]
  | .asDateTime d ds ts z c =>
    cases y <;> simp [FTextHistory.dbg, calmHistory, unitD, ticks_tell, String.toList_inj, style_tell]
  | .stringTableEntry a b => cases y <;> simp [FTextHistory.dbg, calmHistory, unitD]
theorem arg_tell (x y : FormatArgumentValue) : x.dbg t = y.dbg t ↔ calmArg x = calmArg y := by
  match x with
  | .text v => cases y <;> simp [FormatArgumentValue.dbg, calmArg, text_tell v]
  | .int v => cases y <;> simp [FormatArgumentValue.dbg, calmArg, int_tell, Int32.toInt_inj]
  | .uint v => cases y <;> simp [FormatArgumentValue.dbg, calmArg, int_tell, u32_tell]
  | .float v => cases y <;> simp [FormatArgumentValue.dbg, calmArg, f32_tell ht]
  | .double v => cases y <;> simp [FormatArgumentValue.dbg, calmArg, f64_tell ht]
  | .int64 v => cases y <;> simp [FormatArgumentValue.dbg, calmArg, int_tell, Int64.toInt_inj]
  | .uint64 v => cases y <;> simp [FormatArgumentValue.dbg, calmArg, int_tell, u64_tell]
theorem args_tell (l l' : List FormatArgumentValue) :
    dbgArgs t l = dbgArgs t l' ↔ calmArgs l = calmArgs l' := by
  match l with
  | [] => cases l' <;> simp [dbgArgs, calmArgs]
  | v :: l => cases l' <;> simp [dbgArgs, calmArgs, arg_tell v, args_tell l]
theorem namedArgs_tell (l l' : List (String × FormatArgumentValue)) :
    dbgNamedArgs t l = dbgNamedArgs t l' ↔ calmNamedArgs l = calmNamedArgs l' := by
  match l with
  | [] => cases l' <;> simp [dbgNamedArgs, calmNamedArgs]
  | (k, v) :: l => cases l' <;> simp [dbgNamedArgs, calmNamedArgs, arg_tell v, namedArgs_tell l]
end

theorem floats_tell (a b : List F32) : a.map t.f32 = b.map t.f32 ↔ a.map calm32 = b.map calm32 :=
  items_tell (f32_tell ht) a b

mutual
theorem prop_tell (p q : Property) : p.dbg t = q.dbg t ↔ calm p = calm q := by
  match p with
  | .array v => cases q <;> simp [Property.dbg, calm, array_tell v]
  | .map v => cases q <;> simp [Property.dbg, calm, mapProp_tell v]
  | .set ty fl ps => cases q <;> simp [Property.dbg, calm, int_tell, u32_tell, props_tell ps]
  | .struct g ty v => cases q <;> simp [Property.dbg, calm, guid_tell, struct_tell v]
  | .structValue v => cases q <;> simp [Property.dbg, calm, struct_tell v]
  | .text v => cases q <;> simp [Property.dbg, calm, text_tell ht]
  | .bool v => cases q <;> simp [Property.dbg, calm, bool_tell]
  | .byte name v => cases q <;> simp [Property.dbg, calm, optStr_tell, byte_tell]
  | .double v => cases q <;> simp [Property.dbg, calm, typed_tell, ht.display64]
  | .enum ty v => cases q <;> simp [Property.dbg, calm, optStr_tell]
  | .float v => cases q <;> simp [Property.dbg, calm, typed_tell, ht.display32]
  | .int16 v => cases q <;> simp [Property.dbg, calm, typed_tell, dec_tell, Int16.toInt_inj]
  | .int64 v => cases q <;> simp [Property.dbg, calm, typed_tell, dec_tell, Int64.toInt_inj]
  | .int8 v => cases q <;> simp [Property.dbg, calm, typed_tell, dec_tell, Int8.toInt_inj]
  | .int v => cases q <;> simp [Property.dbg, calm, typed_tell, dec_tell, Int32.toInt_inj]
  | .name i v => cases q <;> simp [Property.dbg, calm, int_tell, u32_tell, optStr_tell]
  | .object v => cases q <;> simp [Property.dbg, calm]
  | .delegate v => cases q <;> simp [Property.dbg, calm, delegate_tell]
  | .multicastInlineDelegate v => cases q <;> simp [Property.dbg, calm, multicast_tell]
  | .multicastSparseDelegate v => cases q <;> simp [Property.dbg, calm, multicast_tell]
  | .fieldPath v => cases q <;> simp [Property.dbg, calm, fieldPath_tell]
  | .str v => cases q <;> simp [Property.dbg, calm, optStr_tell]
  | .uint16 v => cases q <;> simp [Property.dbg, calm, typed_tell, dec_tell, u16_tell]
  | .uint32 v => cases q <;> simp [Property.dbg, calm, typed_tell, dec_tell, u32_tell]
  | .uint64 v => cases q <;> simp [Property.dbg, calm, typed_tell, dec_tell, u64_tell]
  | .unknown name raw => cases q <;> simp [Property.dbg, calm, bytes_tell]
theorem array_tell (a b : ArrayProperty) : a.dbg t = b.dbg t ↔ calmArray a = calmArray b := by
  match a with
  | .structs f ty g v => cases b <;> simp [ArrayProperty.dbg, calmArray, guid_tell, structs_tell v]
  | .properties ty v => cases b <;> simp [ArrayProperty.dbg, calmArray, props_tell v]
  | .bools v => cases b <;> simp [ArrayProperty.dbg, calmArray, items_inj bool_tell]
  | .bytes v => cases b <;> simp [ArrayProperty.dbg, calmArray, bytes_tell]
  | .enums v => cases b <;> simp [ArrayProperty.dbg, calmArray, strs_tell]
  | .floats v => cases b <;> simp [ArrayProperty.dbg, calmArray, floats_tell ht]
  | .ints v => cases b <;> simp [ArrayProperty.dbg, calmArray, ints_tell]
  | .names v => cases b <;> simp [ArrayProperty.dbg, calmArray, items_inj optStr_tell]
  | .strings v => cases b <;> simp [ArrayProperty.dbg, calmArray, items_inj optStr_tell]
theorem mapProp_tell (a b : MapProperty) : a.dbg t = b.dbg t ↔ calmMap a = calmMap b := by
  match a with
  | .enumProperty ty v => cases b <;> simp [MapProperty.dbg, calmMap, map_tell, strProps_tell v]
  | .nameProperty ty v => cases b <;> simp [MapProperty.dbg, calmMap, map_tell, strProps_tell v]
  | .strProperty ty v => cases b <;> simp [MapProperty.dbg, calmMap, map_tell, strProps_tell v]
  | .properties kt vt fl v =>
    cases b <;> simp [MapProperty.dbg, calmMap, map_tell, int_tell, u32_tell, pairs_tell v]
  | .enumBool v => cases b <;> simp [MapProperty.dbg, calmMap, strMap_tell bool_tell]
  | .enumInt v => cases b <;> simp [MapProperty.dbg, calmMap, intMap_tell]
  | .nameBool v => cases b <;> simp [MapProperty.dbg, calmMap, strMap_tell bool_tell]
  | .nameInt v => cases b <;> simp [MapProperty.dbg, calmMap, intMap_tell]
  | .strBool v => cases b <;> simp [MapProperty.dbg, calmMap, strMap_tell bool_tell]
  | .strInt v => cases b <;> simp [MapProperty.dbg, calmMap, intMap_tell]
  | .strStr v => cases b <;> simp [MapProperty.dbg, calmMap, strMap_tell optStr_tell]
theorem struct_tell (a b : StructPropertyValue) : a.dbg t = b.dbg t ↔ calmStruct a = calmStruct b := by
  match a with
  | .customStruct fs => cases b <;> simp [StructPropertyValue.dbg, calmStruct, map_tell,
      fieldLists_tell fs]
  | .vector2F x y => cases b <;> simp [StructPropertyValue.dbg, calmStruct, f32_tell ht]
  | .vector2D x y => cases b <;> simp [StructPropertyValue.dbg, calmStruct, f64_tell ht]
  | .vectorF x y z => cases b <;> simp [StructPropertyValue.dbg, calmStruct, f32_tell ht]
  | .vectorD x y z => cases b <;> simp [StructPropertyValue.dbg, calmStruct, f64_tell ht]
  | .rotatorF x y z => cases b <;> simp [StructPropertyValue.dbg, calmStruct, f32_tell ht]
  | .rotatorD x y z => cases b <;> simp [StructPropertyValue.dbg, calmStruct, f64_tell ht]
  | .quatF x y z w => cases b <;> simp [StructPropertyValue.dbg, calmStruct, f32_tell ht]
  | .quatD x y z w => cases b <;> simp [StructPropertyValue.dbg, calmStruct, f64_tell ht]
  | .dateTime d => cases b <;> simp [StructPropertyValue.dbg, calmStruct, ticks_tell]
  | .timespan d => cases b <;> simp [StructPropertyValue.dbg, calmStruct, ticks_tell]
  | .guid g => cases b <;> simp [StructPropertyValue.dbg, calmStruct, guid_tell]
  | .linearColor r g b' a => cases b <;> simp [StructPropertyValue.dbg, calmStruct, f32_tell ht]
  | .intPoint x y => cases b <;> simp [StructPropertyValue.dbg, calmStruct, int_tell, Int32.toInt_inj]
  | .gameplayTagContainer tags => cases b <;> simp [StructPropertyValue.dbg, calmStruct, strs_tell]
theorem props_tell (l l' : List Property) : dbgProps t l = dbgProps t l' ↔
    calmProps l = calmProps l' := by
  match l with
  | [] => cases l' <;> simp [dbgProps, calmProps]
  | p :: l => cases l' <;> simp [dbgProps, calmProps, prop_tell p, props_tell l]
theorem structs_tell (l l' : List StructPropertyValue) : dbgStructs t l = dbgStructs t l' ↔
    calmStructs l = calmStructs l' := by
  match l with
  | [] => cases l' <;> simp [dbgStructs, calmStructs]
  | p :: l => cases l' <;> simp [dbgStructs, calmStructs, struct_tell p, structs_tell l]
theorem strProps_tell (l l' : List (String × Property)) : dbgStrProps t l = dbgStrProps t l' ↔
    calmStrProps l = calmStrProps l' := by
  match l with
  | [] => cases l' <;> simp [dbgStrProps, calmStrProps]
  | (k, p) :: l => cases l' <;> simp [dbgStrProps, calmStrProps, prop_tell p, strProps_tell l]
theorem pairs_tell (l l' : List (Property × Property)) : dbgPairs t l = dbgPairs t l' ↔
    calmPairs l = calmPairs l' := by
  match l with
  | [] => cases l' <;> simp [dbgPairs, calmPairs]
  | (k, p) :: l => cases l' <;> simp [dbgPairs, calmPairs, prop_tell k, prop_tell p, pairs_tell l]
theorem fieldLists_tell (l l' : List (String × List Property)) :
    dbgFieldLists t l = dbgFieldLists t l' ↔ calmFields l = calmFields l' := by
  match l with
  | [] => cases l' <;> simp [dbgFieldLists, calmFields]
  | (k, ps) :: l => cases l' <;> simp [dbgFieldLists, calmFields, props_tell ps, fieldLists_tell l]
end

end

theorem engine_tell (a b : FEngineVersion) : a.dbg = b.dbg ↔ a = b := by
  obtain ⟨a1, a2, a3, a4, a5⟩ := a
  obtain ⟨b1, b2, b3, b4, b5⟩ := b
  simp [FEngineVersion.dbg, int_tell, u16_tell, u32_tell]

theorem versions_tell (a b : List (Guid × UInt32)) : versionsD a = versionsD b ↔ a = b := by
  rw [versionsD, versionsD, map_tell]
  refine items_inj (fun x y => ?_) a b
  obtain ⟨x1, x2⟩ := x
  obtain ⟨y1, y2⟩ := y
  simp [guid_tell, int_tell, u32_tell]

theorem header_tell (a b : GvasHeader) : a.dbg = b.dbg ↔ a = b := by
  cases a <;> cases b <;>
    simp [GvasHeader.dbg, int_tell, u32_tell, engine_tell, versions_tell]

theorem gameVersion_tell (a b : DeserializedGameVersion) : a.dbg = b.dbg ↔ a = b := by
  cases a <;> cases b <;>
    simp [DeserializedGameVersion.dbg, unitD, String.toList_inj, compression_tell]

theorem file_tell {t : Fmt} (ht : TellFloats t) (f g : GvasFile) :
    f.dbg t = g.dbg t ↔ calmFile f = calmFile g := by
  obtain ⟨f1, f2, f3⟩ := f
  obtain ⟨g1, g2, g3⟩ := g
  simp [GvasFile.dbg, calmFile, gameVersion_tell, header_tell, map_tell, strProps_tell ht]

end Gvas.Dt
