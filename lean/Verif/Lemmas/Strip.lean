import Verif.Spec.Strip
import Verif.Spec.Writable
import Verif.Spec.Json
import Verif.Lemmas.File

/-! # Texts under other versions -/

namespace Gvas

open Spec

theorem stripArgs_length (l : List FormatArgumentValue) : (stripArgs l).length = l.length := by
  induction l with
  | nil => rfl
  | cons v l ih => simp [stripArgs, ih]

theorem stripNamed_length (l : List (String × FormatArgumentValue)) :
    (stripNamed l).length = l.length := by
  induction l with
  | nil => rfl
  | cons v l ih => simp [stripNamed, ih]

section
variable {cv : List (Guid × UInt32)}

mutual
theorem write_stripText (hc : cultureInvariant cv = false) : ∀ t, FText.write cv (stripText t) = FText.write cv t
  | .mk flags h => by simp only [stripText, FText.write, write_stripHistory hc h]
theorem write_stripHistory (hc : cultureInvariant cv = false) :
    ∀ h, FTextHistory.write cv (stripHistory h) = FTextHistory.write cv h
  | .none _ => by simp [stripHistory, FTextHistory.write, hc]
  | .namedFormat t args => by
      simp only [stripHistory, FTextHistory.write, write_stripText hc t, write_stripNamed hc args,
        stripNamed_length]
  | .orderedFormat t args => by
      simp only [stripHistory, FTextHistory.write, write_stripText hc t, write_stripArgs hc args,
        stripArgs_length]
  | .argumentFormat t args => by
      simp only [stripHistory, FTextHistory.write, write_stripText hc t, write_stripNamed hc args,
        stripNamed_length]
  | .asNumber v o c => by simp only [stripHistory, FTextHistory.write, write_stripArg hc v]
  | .asPercent v o c => by simp only [stripHistory, FTextHistory.write, write_stripArg hc v]
  | .asCurrency code v o c => by simp only [stripHistory, FTextHistory.write, write_stripArg hc v]
  | .transform t k => by simp only [stripHistory, FTextHistory.write, write_stripText hc t]
  | .empty => rfl
  | .base a b c => rfl
  | .asDate a b c => rfl
  | .asTime a b c d => rfl
  | .asDateTime a b c d e => rfl
  | .stringTableEntry a b => rfl
theorem write_stripArg (hc : cultureInvariant cv = false) :
    ∀ v, FormatArgumentValue.write cv (stripArg v) = FormatArgumentValue.write cv v
  | .text t => by simp only [stripArg, FormatArgumentValue.write, write_stripText hc t]
  | .int v => rfl
  | .uint v => rfl
  | .float v => rfl
  | .double v => rfl
  | .int64 v => rfl
  | .uint64 v => rfl
theorem write_stripArgs (hc : cultureInvariant cv = false) : ∀ l, writeArgs cv (stripArgs l) = writeArgs cv l
  | [] => rfl
  | v :: l => by simp only [stripArgs, writeArgs, write_stripArg hc v, write_stripArgs hc l]
theorem write_stripNamed (hc : cultureInvariant cv = false) :
    ∀ l, writeNamedArgs cv (stripNamed l) = writeNamedArgs cv l
  | [] => rfl
  | (k, v) :: l => by simp only [stripNamed, writeNamedArgs, write_stripArg hc v, write_stripNamed hc l]
end
end

/-! ## Everything but the texts -/

section
variable {T : FText → FText}

theorem mapElems_eq (l : List Property) : mapElems T l = l.map (mapTexts T) := by
  induction l with
  | nil => rfl
  | cons p l ih => rw [mapElems, ih]; rfl

theorem mapStructs_eq (l : List StructPropertyValue) : mapStructs T l = l.map (mapStruct T) := by
  induction l with
  | nil => rfl
  | cons p l ih => rw [mapStructs, ih]; rfl

theorem mapValues_eq (l : List (String × Property)) :
    mapValues T l = l.map fun e => (e.1, mapTexts T e.2) := by
  induction l with
  | nil => rfl
  | cons p l ih => obtain ⟨k, p⟩ := p; rw [mapValues, ih]; rfl

theorem mapEntries_eq (l : List (Property × Property)) :
    mapEntries T l = l.map fun e => (mapTexts T e.1, mapTexts T e.2) := by
  induction l with
  | nil => rfl
  | cons p l ih => obtain ⟨k, p⟩ := p; rw [mapEntries, ih]; rfl

theorem mapFields_eq (l : List (String × List Property)) :
    mapFields T l = l.map fun e => (e.1, mapElems T e.2) := by
  induction l with
  | nil => rfl
  | cons p l ih => obtain ⟨k, p⟩ := p; rw [mapFields, ih]; rfl

@[simp] theorem sizeClass_mapTexts (p : Property) : sizeClass (mapTexts T p) = sizeClass p := by
  cases p <;> simp only [mapTexts]
  all_goals rfl

theorem sizeFree_mapTexts (p : Property) : SizeFree (mapTexts T p) ↔ SizeFree p := by
  cases p <;> simp only [mapTexts, SizeFree]

theorem isNamespaced_mapTexts (p : Property) : isNamespaced (mapTexts T p) ↔ isNamespaced p := by
  cases p <;> simp only [mapTexts, isNamespaced]

theorem isNullKey_mapTexts (p : Property) : isNullKey (mapTexts T p) ↔ isNullKey p := by
  cases p <;> simp only [mapTexts, isNullKey]

@[simp] theorem storedIndex_mapTexts (p : Property) : storedIndex (mapTexts T p) = storedIndex p := by
  cases p <;> simp only [mapTexts, storedIndex]

theorem uniform_mapElems {l : List Property} (h : Uniform l) : Uniform (mapElems T l) := by
  rw [mapElems_eq]
  simpa [Uniform] using h

theorem keysOK_mapValues {l : List (String × Property)} (h : KeysOK l) : KeysOK (mapValues T l) := by
  rw [mapValues_eq]
  refine ⟨by simpa using h.1, ?_, ?_⟩
  · rw [List.map_map]
    exact h.2.1
  · intro e he
    obtain ⟨x, hx, rfl⟩ := List.mem_map.mp he
    exact h.2.2 x hx

mutual
theorem mapTexts_id : ∀ p, mapTexts id p = p
  | .array v => by simp only [mapTexts, mapArray_id v]
  | .map v => by simp only [mapTexts, mapMap_id v]
  | .set ty fl ps => by simp only [mapTexts, mapElems_id ps]
  | .struct g ty v => by simp only [mapTexts, mapStruct_id v]
  | .structValue v => by simp only [mapTexts, mapStruct_id v]
  | .text t => by simp only [mapTexts, id]
  | .bool _ | .byte _ _ | .double _ | .enum _ _ | .float _ | .int16 _ | .int64 _ | .int8 _ | .int _
  | .name _ _ | .object _ | .delegate _ | .multicastInlineDelegate _ | .multicastSparseDelegate _
  | .fieldPath _ | .str _ | .uint16 _ | .uint32 _ | .uint64 _ | .unknown _ _ => by simp only [mapTexts]
theorem mapArray_id : ∀ v, mapArray id v = v
  | .structs f ty g v => by simp only [mapArray, mapStructs_id v]
  | .properties ty ps => by simp only [mapArray, mapElems_id ps]
  | .bools _ | .bytes _ | .enums _ | .floats _ | .ints _ | .names _ | .strings _ => by
    simp only [mapArray]
theorem mapMap_id : ∀ v, mapMap id v = v
  | .enumProperty _ v | .nameProperty _ v | .strProperty _ v => by simp only [mapMap, mapValues_id v]
  | .properties _ _ _ m => by simp only [mapMap, mapEntries_id m]
  | .enumBool _ | .enumInt _ | .nameBool _ | .nameInt _ | .strBool _ | .strInt _ | .strStr _ => by
    simp only [mapMap]
theorem mapStruct_id : ∀ v, mapStruct id v = v
  | .customStruct fs => by simp only [mapStruct, mapFields_id fs]
  | .vector2F _ _ | .vector2D _ _ | .vectorF _ _ _ | .vectorD _ _ _ | .rotatorF _ _ _
  | .rotatorD _ _ _ | .quatF _ _ _ _ | .quatD _ _ _ _ | .dateTime _ | .timespan _ | .guid _
  | .linearColor _ _ _ _ | .intPoint _ _ | .gameplayTagContainer _ => by simp only [mapStruct]
theorem mapElems_id : ∀ l, mapElems id l = l
  | [] => rfl
  | p :: l => by simp only [mapElems, mapTexts_id p, mapElems_id l]
theorem mapStructs_id : ∀ l, mapStructs id l = l
  | [] => rfl
  | p :: l => by simp only [mapStructs, mapStruct_id p, mapStructs_id l]
theorem mapValues_id : ∀ l, mapValues id l = l
  | [] => rfl
  | (k, p) :: l => by simp only [mapValues, mapTexts_id p, mapValues_id l]
theorem mapEntries_id : ∀ l, mapEntries id l = l
  | [] => rfl
  | (k, p) :: l => by simp only [mapEntries, mapTexts_id k, mapTexts_id p, mapEntries_id l]
theorem mapFields_id : ∀ l, mapFields id l = l
  | [] => rfl
  | (k, p) :: l => by simp only [mapFields, mapElems_id p, mapFields_id l]
end

/-! ## Writing -/

variable {cv cv' : List (Guid × UInt32)}

theorem mapElems_length (l : List Property) : (mapElems T l).length = l.length := by
  rw [mapElems_eq, List.length_map]

theorem mapStructs_length (l : List StructPropertyValue) : (mapStructs T l).length = l.length := by
  rw [mapStructs_eq, List.length_map]

theorem mapValues_length (l : List (String × Property)) : (mapValues T l).length = l.length := by
  rw [mapValues_eq, List.length_map]

theorem mapEntries_length (l : List (Property × Property)) :
    (mapEntries T l).length = l.length := by
  rw [mapEntries_eq, List.length_map]

theorem propertyType_mapArray (v : ArrayProperty) : (mapArray T v).propertyType = v.propertyType := by
  cases v <;> simp only [mapArray, ArrayProperty.propertyType]

theorem keyType_mapMap (v : MapProperty) : (mapMap T v).keyType = v.keyType := by
  cases v <;> simp only [mapMap, MapProperty.keyType]

theorem valueType_mapMap (v : MapProperty) : (mapMap T v).valueType = v.valueType := by
  cases v <;> simp only [mapMap, MapProperty.valueType]

mutual
theorem write_mapTexts (hT : ∀ t, FText.write cv' (T t) = FText.write cv t) (hl : lwc cv' = lwc cv)
    (h : Bool) : ∀ p, Property.write cv' h (mapTexts T p) = Property.write cv h p
  | .array v => by simp only [mapTexts, Property.write, write_mapArray hT hl v, propertyType_mapArray]
  | .map v => by
    simp only [mapTexts, Property.write, write_mapMap hT hl v, keyType_mapMap, valueType_mapMap]
  | .set ty fl ps => by
    simp only [mapTexts, Property.write, write_mapElems hT hl ps, mapElems_length]
  | .struct g ty v => by simp only [mapTexts, Property.write, write_mapStruct hT hl v]
  | .structValue v => by simp only [mapTexts, Property.write, write_mapStruct hT hl v]
  | .text t => by simp only [mapTexts, Property.write, hT]
  | .bool _ | .byte _ _ | .double _ | .enum _ _ | .float _ | .int16 _ | .int64 _ | .int8 _ | .int _
  | .name _ _ | .object _ | .delegate _ | .multicastInlineDelegate _ | .multicastSparseDelegate _
  | .fieldPath _ | .str _ | .uint16 _ | .uint32 _ | .uint64 _ | .unknown _ _ => by
    simp only [mapTexts, Property.write]
theorem write_mapArray (hT : ∀ t, FText.write cv' (T t) = FText.write cv t) (hl : lwc cv' = lwc cv) :
    ∀ v, ArrayProperty.writeBody cv' (mapArray T v) = ArrayProperty.writeBody cv v
  | .structs f ty g v => by
    simp only [mapArray, ArrayProperty.writeBody, write_mapStructs hT hl v, mapStructs_length]
  | .properties ty ps => by
    simp only [mapArray, ArrayProperty.writeBody, write_mapElems hT hl ps, mapElems_length]
  | .bools _ | .bytes _ | .enums _ | .floats _ | .ints _ | .names _ | .strings _ => by
    simp only [mapArray, ArrayProperty.writeBody]
theorem write_mapMap (hT : ∀ t, FText.write cv' (T t) = FText.write cv t) (hl : lwc cv' = lwc cv) :
    ∀ v, MapProperty.writeBody cv' (mapMap T v) = MapProperty.writeBody cv v
  | .enumProperty _ v | .nameProperty _ v | .strProperty _ v => by
    simp only [mapMap, MapProperty.writeBody, write_mapValues hT hl v, mapValues_length]
  | .properties _ _ _ m => by
    simp only [mapMap, MapProperty.writeBody, write_mapEntries hT hl m, mapEntries_length]
  | .enumBool _ | .enumInt _ | .nameBool _ | .nameInt _ | .strBool _ | .strInt _ | .strStr _ => by
    simp only [mapMap, MapProperty.writeBody]
theorem write_mapStruct (hT : ∀ t, FText.write cv' (T t) = FText.write cv t) (hl : lwc cv' = lwc cv) :
    ∀ v, StructPropertyValue.writeBody cv' (mapStruct T v) = StructPropertyValue.writeBody cv v
  | .customStruct fs => by
    simp only [mapStruct, StructPropertyValue.writeBody, write_mapFields hT hl fs]
  | .vector2F _ _ | .vector2D _ _ | .vectorF _ _ _ | .vectorD _ _ _ | .rotatorF _ _ _
  | .rotatorD _ _ _ | .quatF _ _ _ _ | .quatD _ _ _ _ | .dateTime _ | .timespan _ | .guid _
  | .linearColor _ _ _ _ | .intPoint _ _ | .gameplayTagContainer _ => by
    simp only [mapStruct, StructPropertyValue.writeBody, hl]
theorem write_mapElems (hT : ∀ t, FText.write cv' (T t) = FText.write cv t) (hl : lwc cv' = lwc cv) :
    ∀ l, writeList cv' (mapElems T l) = writeList cv l
  | [] => rfl
  | p :: l => by
    simp only [mapElems, writeList, write_mapTexts hT hl false p, write_mapElems hT hl l]
theorem write_mapStructs (hT : ∀ t, FText.write cv' (T t) = FText.write cv t)
    (hl : lwc cv' = lwc cv) : ∀ l, writeStructs cv' (mapStructs T l) = writeStructs cv l
  | [] => rfl
  | p :: l => by
    simp only [mapStructs, writeStructs, write_mapStruct hT hl p, write_mapStructs hT hl l]
theorem write_mapValues (hT : ∀ t, FText.write cv' (T t) = FText.write cv t)
    (hl : lwc cv' = lwc cv) : ∀ l, writeStrProps cv' (mapValues T l) = writeStrProps cv l
  | [] => rfl
  | (k, p) :: l => by
    simp only [mapValues, writeStrProps, write_mapTexts hT hl false p, write_mapValues hT hl l]
theorem write_mapEntries (hT : ∀ t, FText.write cv' (T t) = FText.write cv t)
    (hl : lwc cv' = lwc cv) : ∀ l, writePairs cv' (mapEntries T l) = writePairs cv l
  | [] => rfl
  | (k, p) :: l => by
    simp only [mapEntries, writePairs, write_mapTexts hT hl false k, write_mapTexts hT hl false p,
      write_mapEntries hT hl l]
theorem write_mapFields (hT : ∀ t, FText.write cv' (T t) = FText.write cv t)
    (hl : lwc cv' = lwc cv) : ∀ l, writeFields cv' (mapFields T l) = writeFields cv l
  | [] => rfl
  | (k, p) :: l => by
    simp only [mapFields, writeFields, write_mapVals hT hl k p, write_mapFields hT hl l]
theorem write_mapVals (hT : ∀ t, FText.write cv' (T t) = FText.write cv t)
    (hl : lwc cv' = lwc cv) (k : String) :
    ∀ l, writeFieldVals cv' k (mapElems T l) = writeFieldVals cv k l
  | [] => rfl
  | p :: l => by
    simp only [mapElems, writeFieldVals, write_mapTexts hT hl true p, write_mapVals hT hl k l]
end

end

/-! ## Being representable under other versions -/

section
variable {T : FText → FText} {env : Env} {cv : List (Guid × UInt32)}

mutual
theorem head_moved (hT : ∀ t, TextOK env.cv t → WidthsOK cv t → TextOK cv (T t)) (st : List String) :
    ∀ p : Property, HeadOK env st p → WidthsFit cv true p → TextsFit cv p →
      MapsDistinct (mapTexts T p) → HeadOK { env with cv := cv } st (mapTexts T p)
  | .array v, h, hw, ht, hm => by
    simp only [HeadOK, mapTexts, WidthsFit, TextsFit, MapsDistinct] at *
    exact array_moved hT _ v h hw ht hm
  | .map v, h, hw, ht, hm => by
    simp only [HeadOK, mapTexts, WidthsFit, TextsFit, MapsDistinct] at *
    exact map_moved hT _ v h hw ht hm
  | .set ty _ ps, h, hw, ht, hm => by
    simp only [HeadOK, mapTexts, WidthsFit, TextsFit, MapsDistinct, mapElems_length] at *
    exact ⟨h.1, h.2.1, uniform_mapElems h.2.2.1, bares_moved hT _ _ ps h.2.2.2 hw ht hm⟩
  | .struct _ ty v, h, hw, ht, hm => by
    simp only [HeadOK, mapTexts, WidthsFit, TextsFit, MapsDistinct] at *
    exact ⟨h.1, struct_moved hT _ ty v h.2 hw ht hm⟩
  | .structValue _, h, _, _, _ => by simp only [HeadOK] at h
  | .text t, h, _, ht, _ => by
    simp only [HeadOK, mapTexts, TextsFit] at *
    exact hT t h ht
  | .bool _, h, _, _, _ => by simp only [HeadOK, mapTexts]
  | .byte _ _, h, _, _, _ => by simpa only [HeadOK, mapTexts] using h
  | .double _, h, _, _, _ => by simp only [HeadOK, mapTexts]
  | .enum _ _, h, _, _, _ => by simpa only [HeadOK, mapTexts] using h
  | .float _, h, _, _, _ => by simp only [HeadOK, mapTexts]
  | .int16 _, h, _, _, _ => by simp only [HeadOK, mapTexts]
  | .int64 _, h, _, _, _ => by simp only [HeadOK, mapTexts]
  | .int8 _, h, _, _, _ => by simp only [HeadOK, mapTexts]
  | .int _, h, _, _, _ => by simp only [HeadOK, mapTexts]
  | .name _ _, h, _, _, _ => by simpa only [HeadOK, mapTexts] using h
  | .object _, h, _, _, _ => by simpa only [HeadOK, mapTexts] using h
  | .delegate _, h, _, _, _ => by simpa only [HeadOK, mapTexts] using h
  | .multicastInlineDelegate _, h, _, _, _ => by simpa only [HeadOK, mapTexts] using h
  | .multicastSparseDelegate _, h, _, _, _ => by simpa only [HeadOK, mapTexts] using h
  | .fieldPath _, h, _, _, _ => by simpa only [HeadOK, mapTexts] using h
  | .str _, h, _, _, _ => by simpa only [HeadOK, mapTexts] using h
  | .uint16 _, h, _, _, _ => by simp only [HeadOK, mapTexts]
  | .uint32 _, h, _, _, _ => by simp only [HeadOK, mapTexts]
  | .uint64 _, h, _, _, _ => by simp only [HeadOK, mapTexts]
  | .unknown _ _, h, _, _, _ => by simpa only [HeadOK, mapTexts] using h
theorem bare_moved (hT : ∀ t, TextOK env.cv t → WidthsOK cv t → TextOK cv (T t)) (st : List String)
    (ty : String) : ∀ p : Property, BareOK env st ty p → WidthsFit cv false p → TextsFit cv p →
      MapsDistinct (mapTexts T p) → BareOK { env with cv := cv } st ty (mapTexts T p)
  | .array _, h, _, _, _ => by simp only [BareOK] at h
  | .map _, h, _, _, _ => by simp only [BareOK] at h
  | .set _ _ _, h, _, _, _ => by simp only [BareOK] at h
  | .struct _ _ _, h, _, _, _ => by simp only [BareOK] at h
  | .structValue v, h, hw, ht, hm => by
    simp only [BareOK, mapTexts, WidthsFit, TextsFit, MapsDistinct] at *
    obtain ⟨hty, hint, hh, hs⟩ := h
    exact ⟨hty, hint, hh, struct_moved hT _ hint v hs hw.2 ht hm⟩
  | .text t, h, _, ht, _ => by
    simp only [BareOK, mapTexts, TextsFit] at *
    exact ⟨h.1, hT t h.2 ht⟩
  | .bool _, h, _, _, _ => by simpa only [BareOK, mapTexts] using h
  | .byte _ _, h, _, _, _ => by simpa only [BareOK, mapTexts] using h
  | .double _, h, _, _, _ => by simpa only [BareOK, mapTexts] using h
  | .enum _ _, h, _, _, _ => by simpa only [BareOK, mapTexts] using h
  | .float _, h, _, _, _ => by simpa only [BareOK, mapTexts] using h
  | .int16 _, h, _, _, _ => by simpa only [BareOK, mapTexts] using h
  | .int64 _, h, _, _, _ => by simpa only [BareOK, mapTexts] using h
  | .int8 _, h, _, _, _ => by simpa only [BareOK, mapTexts] using h
  | .int _, h, _, _, _ => by simpa only [BareOK, mapTexts] using h
  | .name _ _, h, _, _, _ => by simpa only [BareOK, mapTexts] using h
  | .object _, h, _, _, _ => by simpa only [BareOK, mapTexts] using h
  | .delegate _, h, _, _, _ => by simpa only [BareOK, mapTexts] using h
  | .multicastInlineDelegate _, h, _, _, _ => by simpa only [BareOK, mapTexts] using h
  | .multicastSparseDelegate _, h, _, _, _ => by simpa only [BareOK, mapTexts] using h
  | .fieldPath _, h, _, _, _ => by simpa only [BareOK, mapTexts] using h
  | .str _, h, _, _, _ => by simpa only [BareOK, mapTexts] using h
  | .uint16 _, h, _, _, _ => by simpa only [BareOK, mapTexts] using h
  | .uint32 _, h, _, _, _ => by simpa only [BareOK, mapTexts] using h
  | .uint64 _, h, _, _, _ => by simpa only [BareOK, mapTexts] using h
  | .unknown _ _, h, _, _, _ => by simpa only [BareOK, mapTexts] using h
theorem array_moved (hT : ∀ t, TextOK env.cv t → WidthsOK cv t → TextOK cv (T t)) (st : List String) :
    ∀ v : ArrayProperty, ArrayOK env st v → ArrayWidths cv v → ArrayTexts cv v →
      ArrayMaps (mapArray T v) → ArrayOK { env with cv := cv } st (mapArray T v)
  | .structs _ ty _ v, h, hw, ht, hm => by
    simp only [ArrayOK, mapArray, ArrayWidths, ArrayTexts, ArrayMaps, mapStructs_length] at *
    exact ⟨h.1, h.2.1, h.2.2.1, structs_moved hT _ ty v h.2.2.2 hw ht hm⟩
  | .properties ty ps, h, hw, ht, hm => by
    simp only [ArrayOK, mapArray, ArrayWidths, ArrayTexts, ArrayMaps, mapElems_length] at *
    obtain ⟨h1, h2, h3, h4, h5, h6, h7⟩ := h
    refine ⟨h1, h2, h3, fun e => ?_, h5, uniform_mapElems h6, bares_moved hT _ _ ps h7 hw ht hm⟩
    obtain ⟨p, hp, hn⟩ := h4 e
    exact ⟨mapTexts T p, by rw [mapElems_eq]; exact List.mem_map_of_mem hp,
      (isNamespaced_mapTexts p).mpr hn⟩
  | .bools _, h, _, _, _ => by simpa only [ArrayOK, mapArray] using h
  | .bytes _, h, _, _, _ => by simpa only [ArrayOK, mapArray] using h
  | .enums _, h, _, _, _ => by simpa only [ArrayOK, mapArray] using h
  | .floats _, h, _, _, _ => by simpa only [ArrayOK, mapArray] using h
  | .ints _, h, _, _, _ => by simpa only [ArrayOK, mapArray] using h
  | .names _, h, _, _, _ => by simpa only [ArrayOK, mapArray] using h
  | .strings _, h, _, _, _ => by simpa only [ArrayOK, mapArray] using h
theorem map_moved (hT : ∀ t, TextOK env.cv t → WidthsOK cv t → TextOK cv (T t)) (st : List String) :
    ∀ v : MapProperty, MapOK env st v → MapWidths cv v → MapTexts cv v →
      MapMaps (mapMap T v) → MapOK { env with cv := cv } st (mapMap T v)
  | .enumProperty _ v, h, hw, ht, hm => by
    simp only [MapOK, mapMap, MapWidths, MapTexts, MapMaps] at *
    exact ⟨h.1, h.2.1, keysOK_mapValues h.2.2.1, values_moved hT _ _ v h.2.2.2 hw ht hm.2⟩
  | .nameProperty _ v, h, hw, ht, hm => by
    simp only [MapOK, mapMap, MapWidths, MapTexts, MapMaps] at *
    exact ⟨h.1, h.2.1, keysOK_mapValues h.2.2.1, values_moved hT _ _ v h.2.2.2 hw ht hm.2⟩
  | .strProperty _ v, h, hw, ht, hm => by
    simp only [MapOK, mapMap, MapWidths, MapTexts, MapMaps] at *
    exact ⟨h.1, h.2.1, keysOK_mapValues h.2.2.1, values_moved hT _ _ v h.2.2.2 hw ht hm.2⟩
  | .properties _ _ _ m, h, hw, ht, hm => by
    simp only [MapOK, mapMap, MapWidths, MapTexts, MapMaps, mapEntries_length] at *
    obtain ⟨h1, h2, h3, h4, h5, h6, h7⟩ := h
    refine ⟨h1, h2, h3, hm.1, h5, fun e e' => ?_, entries_moved hT _ _ _ m h7 hw ht hm.2⟩
    obtain ⟨p, hp, hn⟩ := h6 e e'
    exact ⟨_, by rw [mapEntries_eq]; exact List.mem_map_of_mem hp, (isNullKey_mapTexts p.1).mpr hn⟩
  | .enumBool _, h, _, _, _ => by simpa only [MapOK, mapMap] using h
  | .enumInt _, h, _, _, _ => by simpa only [MapOK, mapMap] using h
  | .nameBool _, h, _, _, _ => by simpa only [MapOK, mapMap] using h
  | .nameInt _, h, _, _, _ => by simpa only [MapOK, mapMap] using h
  | .strBool _, h, _, _, _ => by simpa only [MapOK, mapMap] using h
  | .strInt _, h, _, _, _ => by simpa only [MapOK, mapMap] using h
  | .strStr _, h, _, _, _ => by simpa only [MapOK, mapMap] using h
theorem struct_moved (hT : ∀ t, TextOK env.cv t → WidthsOK cv t → TextOK cv (T t)) (st : List String)
    (ty : String) : ∀ v : StructPropertyValue, StructOK env st ty v → StructWidths cv v →
      StructTexts cv v → StructMaps (mapStruct T v) →
      StructOK { env with cv := cv } st ty (mapStruct T v)
  | .customStruct fs, h, hw, ht, hm => by
    simp only [StructOK, mapStruct, StructWidths, StructTexts, StructMaps] at *
    refine ⟨h.1, ?_, fields_moved hT _ fs h.2.2 hw ht hm.2⟩
    rw [mapFields_eq, List.map_map]
    exact h.2.1
  | .vector2F _ _, h, hw, _, _ => by
    simp only [StructOK, mapStruct, StructWidths] at *; exact ⟨h.1, hw⟩
  | .vector2D _ _, h, hw, _, _ => by
    simp only [StructOK, mapStruct, StructWidths] at *; exact ⟨h.1, hw⟩
  | .vectorF _ _ _, h, hw, _, _ => by
    simp only [StructOK, mapStruct, StructWidths] at *; exact ⟨h.1, hw⟩
  | .vectorD _ _ _, h, hw, _, _ => by
    simp only [StructOK, mapStruct, StructWidths] at *; exact ⟨h.1, hw⟩
  | .rotatorF _ _ _, h, hw, _, _ => by
    simp only [StructOK, mapStruct, StructWidths] at *; exact ⟨h.1, hw⟩
  | .rotatorD _ _ _, h, hw, _, _ => by
    simp only [StructOK, mapStruct, StructWidths] at *; exact ⟨h.1, hw⟩
  | .quatF _ _ _ _, h, hw, _, _ => by
    simp only [StructOK, mapStruct, StructWidths] at *; exact ⟨h.1, hw⟩
  | .quatD _ _ _ _, h, hw, _, _ => by
    simp only [StructOK, mapStruct, StructWidths] at *; exact ⟨h.1, hw⟩
  | .dateTime _, h, _, _, _ => by simpa only [StructOK, mapStruct] using h
  | .timespan _, h, _, _, _ => by simpa only [StructOK, mapStruct] using h
  | .guid _, h, _, _, _ => by simpa only [StructOK, mapStruct] using h
  | .linearColor _ _ _ _, h, _, _, _ => by simpa only [StructOK, mapStruct] using h
  | .intPoint _ _, h, _, _, _ => by simpa only [StructOK, mapStruct] using h
  | .gameplayTagContainer _, h, _, _, _ => by simpa only [StructOK, mapStruct] using h
theorem bares_moved (hT : ∀ t, TextOK env.cv t → WidthsOK cv t → TextOK cv (T t)) (st : List String)
    (ty : String) : ∀ l : List Property, BaresOK env st ty l → ListWidths cv l → ListTexts cv l →
      PropsMaps (mapElems T l) → BaresOK { env with cv := cv } st ty (mapElems T l)
  | [], _, _, _, _ => by simp only [BaresOK, mapElems]
  | p :: l, h, hw, ht, hm => by
    simp only [BaresOK, mapElems, ListWidths, ListTexts, PropsMaps] at *
    exact ⟨bare_moved hT _ ty p h.1 hw.1 ht.1 hm.1, bares_moved hT _ ty l h.2 hw.2 ht.2 hm.2⟩
theorem structs_moved (hT : ∀ t, TextOK env.cv t → WidthsOK cv t → TextOK cv (T t))
    (st : List String) (ty : String) : ∀ l : List StructPropertyValue, StructsOK env st ty l →
      StructsWidths cv l → StructsTexts cv l → StructsMaps (mapStructs T l) →
      StructsOK { env with cv := cv } st ty (mapStructs T l)
  | [], _, _, _, _ => by simp only [StructsOK, mapStructs]
  | p :: l, h, hw, ht, hm => by
    simp only [StructsOK, mapStructs, StructsWidths, StructsTexts, StructsMaps] at *
    exact ⟨struct_moved hT _ ty p h.1 hw.1 ht.1 hm.1, structs_moved hT _ ty l h.2 hw.2 ht.2 hm.2⟩
theorem values_moved (hT : ∀ t, TextOK env.cv t → WidthsOK cv t → TextOK cv (T t))
    (st : List String) (ty : String) : ∀ l : List (String × Property), ValuesOK env st ty l →
      ValuesWidths cv l → ValuesTexts cv l → ValuesMaps (mapValues T l) →
      ValuesOK { env with cv := cv } st ty (mapValues T l)
  | [], _, _, _, _ => by simp only [ValuesOK, mapValues]
  | (k, p) :: l, h, hw, ht, hm => by
    simp only [ValuesOK, mapValues, ValuesWidths, ValuesTexts, ValuesMaps] at *
    exact ⟨(sizeFree_mapTexts p).mpr h.1, bare_moved hT _ ty p h.2.1 hw.1 ht.1 hm.1,
      values_moved hT _ ty l h.2.2 hw.2 ht.2 hm.2⟩
theorem entries_moved (hT : ∀ t, TextOK env.cv t → WidthsOK cv t → TextOK cv (T t))
    (st : List String) (kt vt : String) : ∀ l : List (Property × Property),
      EntriesOK env st kt vt l → EntriesWidths cv l → EntriesTexts cv l →
      EntriesMaps (mapEntries T l) → EntriesOK { env with cv := cv } st kt vt (mapEntries T l)
  | [], _, _, _, _ => by simp only [EntriesOK, mapEntries]
  | (k, p) :: l, h, hw, ht, hm => by
    simp only [EntriesOK, mapEntries, EntriesWidths, EntriesTexts, EntriesMaps] at *
    exact ⟨(sizeFree_mapTexts k).mpr h.1, bare_moved hT _ kt k h.2.1 hw.1 ht.1 hm.1,
      (sizeFree_mapTexts p).mpr h.2.2.1, bare_moved hT _ vt p h.2.2.2.1 hw.2.1 ht.2.1 hm.2.1,
      entries_moved hT _ kt vt l h.2.2.2.2 hw.2.2 ht.2.2 hm.2.2⟩
theorem fields_moved (hT : ∀ t, TextOK env.cv t → WidthsOK cv t → TextOK cv (T t))
    (st : List String) : ∀ l : List (String × List Property), FieldsOK env st l →
      FieldsWidths cv l → FieldsTexts cv l → FieldsMaps (mapFields T l) →
      FieldsOK { env with cv := cv } st (mapFields T l)
  | [], _, _, _, _ => by simp only [FieldsOK, mapFields]
  | (k, ps) :: l, h, hw, ht, hm => by
    simp only [FieldsOK, mapFields, FieldsWidths, FieldsTexts, FieldsMaps] at *
    refine ⟨h.1, h.2.1, ?_, vals_moved hT _ 0 ps h.2.2.2.1 hw.1 ht.1 hm.1,
      fields_moved hT _ l h.2.2.2.2 hw.2 ht.2 hm.2⟩
    intro e
    have := h.2.2.1
    rw [mapElems_eq, List.map_eq_nil_iff] at e
    exact this e
theorem vals_moved (hT : ∀ t, TextOK env.cv t → WidthsOK cv t → TextOK cv (T t))
    (st : List String) (i : Nat) : ∀ l : List Property, ValsOK env st i l → HeadedWidths cv l →
      ListTexts cv l → PropsMaps (mapElems T l) →
      ValsOK { env with cv := cv } st i (mapElems T l)
  | [], _, _, _, _ => by simp only [ValsOK, mapElems]
  | p :: l, h, hw, ht, hm => by
    simp only [ValsOK, mapElems, HeadedWidths, ListTexts, PropsMaps, storedIndex_mapTexts] at *
    exact ⟨h.1, head_moved hT _ p h.2.1 hw.1 ht.1 hm.1, vals_moved hT _ (i + 1) l h.2.2 hw.2 ht.2 hm.2⟩
end

end

/-! ## Texts under other versions -/

section
variable {cv cv' : List (Guid × UInt32)}

theorem stripNamed_keys (l : List (String × FormatArgumentValue)) :
    (stripNamed l).map Prod.fst = l.map Prod.fst := by
  induction l with
  | nil => rfl
  | cons v l ih => obtain ⟨k, v⟩ := v; simp only [stripNamed, List.map_cons, ih]

mutual
theorem stripText_widths : ∀ t, WidthsOK cv t → WidthsOK cv (stripText t)
  | .mk _ h => by simp only [WidthsOK, stripText]; exact stripHistory_widths h
theorem stripHistory_widths : ∀ t, HistoryWidthsOK cv t → HistoryWidthsOK cv (stripHistory t)
  | .namedFormat t a | .argumentFormat t a => by
    simp only [HistoryWidthsOK, stripHistory]
    exact fun h => ⟨stripText_widths t h.1, stripNamed_widths a h.2⟩
  | .orderedFormat t a => by
    simp only [HistoryWidthsOK, stripHistory]
    exact fun h => ⟨stripText_widths t h.1, stripArgs_widths a h.2⟩
  | .asNumber v _ _ | .asPercent v _ _ | .asCurrency _ v _ _ => by
    simp only [HistoryWidthsOK, stripHistory]; exact stripArg_widths v
  | .transform t _ => by simp only [HistoryWidthsOK, stripHistory]; exact stripText_widths t
  | .none _ | .empty | .base _ _ _ | .asDate _ _ _ | .asTime _ _ _ _ | .asDateTime _ _ _ _ _
  | .stringTableEntry _ _ => by simp only [HistoryWidthsOK, stripHistory]; exact id
theorem stripArg_widths : ∀ t, ArgWidthsOK cv t → ArgWidthsOK cv (stripArg t)
  | .text t => by simp only [ArgWidthsOK, stripArg]; exact stripText_widths t
  | .int _ | .uint _ | .float _ | .double _ | .int64 _ | .uint64 _ => by
    simp only [stripArg]; exact id
theorem stripArgs_widths : ∀ t, ArgsWidthsOK cv t → ArgsWidthsOK cv (stripArgs t)
  | [] => id
  | v :: l => by
    simp only [ArgsWidthsOK, stripArgs]
    exact fun h => ⟨stripArg_widths v h.1, stripArgs_widths l h.2⟩
theorem stripNamed_widths : ∀ t, NamedWidthsOK cv t → NamedWidthsOK cv (stripNamed t)
  | [] => id
  | (k, v) :: l => by
    simp only [NamedWidthsOK, stripNamed]
    exact fun h => ⟨stripArg_widths v h.1, stripNamed_widths l h.2⟩
end

mutual
theorem stripText_shape : ∀ t, TextShapeOK cv t → TextShapeOK cv' (stripText t)
  | .mk _ h => by simp only [TextShapeOK, stripText]; exact stripHistory_shape h
theorem stripHistory_shape : ∀ t, HistoryShapeOK cv t → HistoryShapeOK cv' (stripHistory t)
  | .namedFormat t a | .argumentFormat t a => by
    simp only [HistoryShapeOK, stripHistory, stripNamed_keys, stripNamed_length]
    exact fun h => ⟨stripText_shape t h.1, stripNamed_shape a h.2.1, h.2.2⟩
  | .orderedFormat t a => by
    simp only [HistoryShapeOK, stripHistory, stripArgs_length]
    exact fun h => ⟨stripText_shape t h.1, stripArgs_shape a h.2.1, h.2.2⟩
  | .asNumber v _ _ | .asPercent v _ _ => by
    simp only [HistoryShapeOK, stripHistory]
    exact fun h => ⟨stripArg_shape v h.1, h.2⟩
  | .asCurrency _ v _ _ => by
    simp only [HistoryShapeOK, stripHistory]
    exact fun h => ⟨h.1, stripArg_shape v h.2.1, h.2.2⟩
  | .transform t _ => by simp only [HistoryShapeOK, stripHistory]; exact stripText_shape t
  | .none _ => by simp only [HistoryShapeOK, stripHistory]; exact fun _ => trivial
  | .empty | .base _ _ _ | .asDate _ _ _ | .asTime _ _ _ _ | .asDateTime _ _ _ _ _
  | .stringTableEntry _ _ => by simp only [HistoryShapeOK, stripHistory]; exact id
theorem stripArg_shape : ∀ t, ArgShapeOK cv t → ArgShapeOK cv' (stripArg t)
  | .text t => by simp only [ArgShapeOK, stripArg]; exact stripText_shape t
  | .int _ | .uint _ | .float _ | .double _ | .int64 _ | .uint64 _ => by
    simp only [stripArg, ArgShapeOK]; exact id
theorem stripArgs_shape : ∀ t, ArgsShapeOK cv t → ArgsShapeOK cv' (stripArgs t)
  | [] => by simp only [ArgsShapeOK, stripArgs]; exact id
  | v :: l => by
    simp only [ArgsShapeOK, stripArgs]
    exact fun h => ⟨stripArg_shape v h.1, stripArgs_shape l h.2⟩
theorem stripNamed_shape : ∀ t, NamedShapeOK cv t → NamedShapeOK cv' (stripNamed t)
  | [] => by simp only [NamedShapeOK, stripNamed]; exact id
  | (k, v) :: l => by
    simp only [NamedShapeOK, stripNamed]
    exact fun h => ⟨h.1, stripArg_shape v h.2.1, stripNamed_shape l h.2.2⟩
end

mutual
theorem text_shape_new (hc : cultureInvariant cv' = true) :
    ∀ t, TextShapeOK cv t → TextShapeOK cv' t
  | .mk _ h => by simp only [TextShapeOK]; exact history_shape_new hc h
theorem history_shape_new (hc : cultureInvariant cv' = true) :
    ∀ t, HistoryShapeOK cv t → HistoryShapeOK cv' t
  | .namedFormat t a | .argumentFormat t a => by
    simp only [HistoryShapeOK]
    exact fun h => ⟨text_shape_new hc t h.1, named_shape_new hc a h.2.1, h.2.2⟩
  | .orderedFormat t a => by
    simp only [HistoryShapeOK]
    exact fun h => ⟨text_shape_new hc t h.1, args_shape_new hc a h.2.1, h.2.2⟩
  | .asNumber v _ _ | .asPercent v _ _ => by
    simp only [HistoryShapeOK]
    exact fun h => ⟨arg_shape_new hc v h.1, h.2⟩
  | .asCurrency _ v _ _ => by
    simp only [HistoryShapeOK]
    exact fun h => ⟨h.1, arg_shape_new hc v h.2.1, h.2.2⟩
  | .transform t _ => by simp only [HistoryShapeOK]; exact text_shape_new hc t
  | .none _ => by simp only [HistoryShapeOK]; exact fun h => ⟨hc, h.2⟩
  | .empty | .base _ _ _ | .asDate _ _ _ | .asTime _ _ _ _ | .asDateTime _ _ _ _ _
  | .stringTableEntry _ _ => by simp only [HistoryShapeOK]; exact id
theorem arg_shape_new (hc : cultureInvariant cv' = true) :
    ∀ t, ArgShapeOK cv t → ArgShapeOK cv' t
  | .text t => by simp only [ArgShapeOK]; exact text_shape_new hc t
  | .int _ | .uint _ | .float _ | .double _ | .int64 _ | .uint64 _ => by
    simp only [ArgShapeOK]; exact id
theorem args_shape_new (hc : cultureInvariant cv' = true) :
    ∀ t, ArgsShapeOK cv t → ArgsShapeOK cv' t
  | [] => by simp only [ArgsShapeOK]; exact id
  | v :: l => by
    simp only [ArgsShapeOK]
    exact fun h => ⟨arg_shape_new hc v h.1, args_shape_new hc l h.2⟩
theorem named_shape_new (hc : cultureInvariant cv' = true) :
    ∀ t, NamedShapeOK cv t → NamedShapeOK cv' t
  | [] => by simp only [NamedShapeOK]; exact id
  | (k, v) :: l => by
    simp only [NamedShapeOK]
    exact fun h => ⟨h.1, arg_shape_new hc v h.2.1, named_shape_new hc l h.2.2⟩
end

mutual
theorem stripText_same (hc : cultureInvariant cv = false) :
    ∀ t, TextShapeOK cv t → stripText t = t
  | .mk _ h => by
    simp only [TextShapeOK, stripText]
    exact fun h' => by rw [stripHistory_same hc h h']
theorem stripHistory_same (hc : cultureInvariant cv = false) :
    ∀ t, HistoryShapeOK cv t → stripHistory t = t
  | .namedFormat t a | .argumentFormat t a => by
    simp only [HistoryShapeOK, stripHistory]
    exact fun h => by rw [stripText_same hc t h.1, stripNamed_same hc a h.2.1]
  | .orderedFormat t a => by
    simp only [HistoryShapeOK, stripHistory]
    exact fun h => by rw [stripText_same hc t h.1, stripArgs_same hc a h.2.1]
  | .asNumber v _ _ | .asPercent v _ _ => by
    simp only [HistoryShapeOK, stripHistory]
    exact fun h => by rw [stripArg_same hc v h.1]
  | .asCurrency _ v _ _ => by
    simp only [HistoryShapeOK, stripHistory]
    exact fun h => by rw [stripArg_same hc v h.2.1]
  | .transform t _ => by
    simp only [HistoryShapeOK, stripHistory]
    exact fun h => by rw [stripText_same hc t h]
  | .none _ => by
    simp only [HistoryShapeOK, hc]
    exact fun h => absurd h.1 (by decide)
  | .empty | .base _ _ _ | .asDate _ _ _ | .asTime _ _ _ _ | .asDateTime _ _ _ _ _
  | .stringTableEntry _ _ => by simp only [stripHistory]; exact fun _ => trivial
theorem stripArg_same (hc : cultureInvariant cv = false) :
    ∀ t, ArgShapeOK cv t → stripArg t = t
  | .text t => by
    simp only [ArgShapeOK, stripArg]
    exact fun h => by rw [stripText_same hc t h]
  | .int _ | .uint _ | .float _ | .double _ | .int64 _ | .uint64 _ => by
    simp only [stripArg]; exact fun _ => trivial
theorem stripArgs_same (hc : cultureInvariant cv = false) :
    ∀ t, ArgsShapeOK cv t → stripArgs t = t
  | [] => fun _ => rfl
  | v :: l => by
    simp only [ArgsShapeOK, stripArgs]
    exact fun h => by rw [stripArg_same hc v h.1, stripArgs_same hc l h.2]
theorem stripNamed_same (hc : cultureInvariant cv = false) :
    ∀ t, NamedShapeOK cv t → stripNamed t = t
  | [] => fun _ => rfl
  | (k, v) :: l => by
    simp only [NamedShapeOK, stripNamed]
    exact fun h => by rw [stripArg_same hc v h.2.1, stripNamed_same hc l h.2.2]
end

end

/-! ## Representable means nothing to change -/

section
variable {T : FText → FText} {env : Env}

mutual
theorem head_steady (hT : ∀ t, TextOK env.cv t → T t = t) (st : List String) :
    ∀ p : Property, HeadOK env st p → mapTexts T p = p
  | .array v, h => by
    simp only [HeadOK, mapTexts] at *; rw [array_steady hT _ v h]
  | .map v, h => by
    simp only [HeadOK, mapTexts] at *; rw [map_steady hT _ v h]
  | .set _ _ ps, h => by
    simp only [HeadOK, mapTexts] at *; rw [bares_steady hT _ _ ps h.2.2.2]
  | .struct _ _ v, h => by
    simp only [HeadOK, mapTexts] at *; rw [struct_steady hT _ _ v h.2]
  | .structValue _, h => by simp only [HeadOK] at h
  | .text t, h => by simp only [HeadOK, mapTexts] at *; rw [hT t h]
  | .bool _, _ | .byte _ _, _ | .double _, _ | .enum _ _, _ | .float _, _ | .int16 _, _ | .int64 _, _
  | .int8 _, _ | .int _, _ | .name _ _, _ | .object _, _ | .delegate _, _
  | .multicastInlineDelegate _, _ | .multicastSparseDelegate _, _ | .fieldPath _, _ | .str _, _
  | .uint16 _, _ | .uint32 _, _ | .uint64 _, _ | .unknown _ _, _ => by simp only [mapTexts]
theorem bare_steady (hT : ∀ t, TextOK env.cv t → T t = t) (st : List String) (ty : String) :
    ∀ p : Property, BareOK env st ty p → mapTexts T p = p
  | .array v, h => by simp only [BareOK] at h
  | .map v, h => by simp only [BareOK] at h
  | .set _ _ ps, h => by simp only [BareOK] at h
  | .struct _ _ v, h => by simp only [BareOK] at h
  | .structValue v, h => by
    simp only [BareOK, mapTexts] at *
    obtain ⟨_, hint, _, hs⟩ := h
    rw [struct_steady hT _ hint v hs]
  | .text t, h => by simp only [BareOK, mapTexts] at *; rw [hT t h.2]
  | .bool _, _ | .byte _ _, _ | .double _, _ | .enum _ _, _ | .float _, _ | .int16 _, _ | .int64 _, _
  | .int8 _, _ | .int _, _ | .name _ _, _ | .object _, _ | .delegate _, _
  | .multicastInlineDelegate _, _ | .multicastSparseDelegate _, _ | .fieldPath _, _ | .str _, _
  | .uint16 _, _ | .uint32 _, _ | .uint64 _, _ | .unknown _ _, _ => by simp only [mapTexts]
theorem array_steady (hT : ∀ t, TextOK env.cv t → T t = t) (st : List String) :
    ∀ v : ArrayProperty, ArrayOK env st v → mapArray T v = v
  | .structs _ ty _ v, h => by
    simp only [ArrayOK, mapArray] at *; rw [structs_steady hT _ ty v h.2.2.2]
  | .properties ty ps, h => by
    simp only [ArrayOK, mapArray] at *; rw [bares_steady hT _ ty ps h.2.2.2.2.2.2]
  | .bools _, _ | .bytes _, _ | .enums _, _ | .floats _, _ | .ints _, _ | .names _, _
  | .strings _, _ => by simp only [mapArray]
theorem map_steady (hT : ∀ t, TextOK env.cv t → T t = t) (st : List String) :
    ∀ v : MapProperty, MapOK env st v → mapMap T v = v
  | .enumProperty _ v, h | .nameProperty _ v, h | .strProperty _ v, h => by
    simp only [MapOK, mapMap] at *; rw [values_steady hT _ _ v h.2.2.2]
  | .properties _ _ _ m, h => by
    simp only [MapOK, mapMap] at *; rw [entries_steady hT _ _ _ m h.2.2.2.2.2.2]
  | .enumBool _, _ | .enumInt _, _ | .nameBool _, _ | .nameInt _, _ | .strBool _, _ | .strInt _, _
  | .strStr _, _ => by simp only [mapMap]
theorem struct_steady (hT : ∀ t, TextOK env.cv t → T t = t) (st : List String) (ty : String) :
    ∀ v : StructPropertyValue, StructOK env st ty v → mapStruct T v = v
  | .customStruct fs, h => by
    simp only [StructOK, mapStruct] at *; rw [fields_steady hT _ fs h.2.2]
  | .vector2F _ _, _ | .vector2D _ _, _ | .vectorF _ _ _, _ | .vectorD _ _ _, _
  | .rotatorF _ _ _, _ | .rotatorD _ _ _, _ | .quatF _ _ _ _, _ | .quatD _ _ _ _, _
  | .dateTime _, _ | .timespan _, _ | .guid _, _ | .linearColor _ _ _ _, _ | .intPoint _ _, _
  | .gameplayTagContainer _, _ => by simp only [mapStruct]
theorem bares_steady (hT : ∀ t, TextOK env.cv t → T t = t) (st : List String) (ty : String) :
    ∀ l : List Property, BaresOK env st ty l → mapElems T l = l
  | [], _ => rfl
  | p :: l, h => by
    simp only [BaresOK, mapElems] at *
    rw [bare_steady hT _ ty p h.1, bares_steady hT _ ty l h.2]
theorem structs_steady (hT : ∀ t, TextOK env.cv t → T t = t) (st : List String) (ty : String) :
    ∀ l : List StructPropertyValue, StructsOK env st ty l → mapStructs T l = l
  | [], _ => rfl
  | p :: l, h => by
    simp only [StructsOK, mapStructs] at *
    rw [struct_steady hT _ ty p h.1, structs_steady hT _ ty l h.2]
theorem values_steady (hT : ∀ t, TextOK env.cv t → T t = t) (st : List String) (ty : String) :
    ∀ l : List (String × Property), ValuesOK env st ty l → mapValues T l = l
  | [], _ => rfl
  | (k, p) :: l, h => by
    simp only [ValuesOK, mapValues] at *
    rw [bare_steady hT _ ty p h.2.1, values_steady hT _ ty l h.2.2]
theorem entries_steady (hT : ∀ t, TextOK env.cv t → T t = t) (st : List String) (kt vt : String) :
    ∀ l : List (Property × Property), EntriesOK env st kt vt l → mapEntries T l = l
  | [], _ => rfl
  | (k, p) :: l, h => by
    simp only [EntriesOK, mapEntries] at *
    rw [bare_steady hT _ kt k h.2.1, bare_steady hT _ vt p h.2.2.2.1,
      entries_steady hT _ kt vt l h.2.2.2.2]
theorem fields_steady (hT : ∀ t, TextOK env.cv t → T t = t) (st : List String) :
    ∀ l : List (String × List Property), FieldsOK env st l → mapFields T l = l
  | [], _ => rfl
  | (k, ps) :: l, h => by
    simp only [FieldsOK, mapFields] at *
    rw [vals_steady hT _ 0 ps h.2.2.2.1, fields_steady hT _ l h.2.2.2.2]
theorem vals_steady (hT : ∀ t, TextOK env.cv t → T t = t) (st : List String) (i : Nat) :
    ∀ l : List Property, ValsOK env st i l → mapElems T l = l
  | [], _ => rfl
  | p :: l, h => by
    simp only [ValsOK, mapElems] at *
    rw [head_steady hT _ p h.2.1, vals_steady hT _ (i + 1) l h.2.2]
end

end

/-! ## Reading depends on three answers -/

section
variable {cv cv' : List (Guid × UInt32)}

theorem argument_read_same (h : text64 cv = text64 cv') (rd : R FText) :
    FormatArgumentValue.readWith cv rd = FormatArgumentValue.readWith cv' rd := by
  unfold FormatArgumentValue.readWith
  rw [h]

theorem history_read_same (h : text64 cv = text64 cv')
    (h' : cultureInvariant cv = cultureInvariant cv') (rd : R FText) :
    FTextHistory.readWith cv rd = FTextHistory.readWith cv' rd := by
  unfold FTextHistory.readWith
  simp only [readArguments, argument_read_same h, h']

theorem text_read_same (h : text64 cv = text64 cv')
    (h' : cultureInvariant cv = cultureInvariant cv') (n : Nat) :
    FText.read cv n = FText.read cv' n := by
  induction n with
  | zero => rfl
  | succ n ih => rw [FText.read, FText.read, ih, history_read_same h h']

theorem builtin_read_same (h : lwc cv = lwc cv') (k : StructKind) :
    readBuiltin cv k = readBuiltin cv' k := by
  cases k <;> simp only [readBuiltin, h]

theorem property_read_same (debug : Bool) (hints : String → Option String) (hl : lwc cv = lwc cv')
    (h : text64 cv = text64 cv') (h' : cultureInvariant cv = cultureInvariant cv') (n : Nat) :
    Property.read ⟨debug, hints, cv⟩ n = Property.read ⟨debug, hints, cv'⟩ n := by
  have hb : ∀ fuel rec, readStructBody ⟨debug, hints, cv⟩ fuel rec =
      readStructBody ⟨debug, hints, cv'⟩ fuel rec := by
    intro fuel rec
    funext ty
    unfold readStructBody
    cases StructKind.ofName ty with
    | none => rfl
    | some k => exact builtin_read_same hl k
  induction n with
  | zero => rfl
  | succ n ih =>
    rw [Property.read, Property.read, ih]
    funext ty hdr sg
    unfold Property.readStep
    cases Kind.ofName ty with
    | none => rfl
    | some k =>
      simp only
      congr 1
      cases k
      case text => simp only [readKind, text_read_same h h']
      case struct => simp only [readKind, readStructProperty, hb]
      case array => simp only [readKind, readArrayProperty, readArrayBody, hb]
      all_goals rfl

end

end Gvas
