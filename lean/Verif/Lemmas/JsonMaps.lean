import Verif.Spec.Json
import Verif.Spec.File

/-! # Representable values have distinct keys in all their maps -/

namespace Gvas.Js

open Spec

mutual
theorem text_maps (cv : List (Guid × UInt32)) : ∀ t, TextShapeOK cv t → TextMaps t
  | .mk _ h, hs => by
    simp only [TextShapeOK] at hs
    simp only [TextMaps]
    exact history_maps cv h hs
theorem history_maps (cv : List (Guid × UInt32)) : ∀ h, HistoryShapeOK cv h → HistoryMaps h
  | .namedFormat t args, hs => by
    simp only [HistoryShapeOK] at hs
    simp only [HistoryMaps]
    exact ⟨text_maps cv t hs.1, hs.2.2.1, named_maps cv args hs.2.1⟩
  | .orderedFormat t args, hs => by
    simp only [HistoryShapeOK] at hs
    simp only [HistoryMaps]
    exact ⟨text_maps cv t hs.1, args_maps cv args hs.2.1⟩
  | .argumentFormat t args, hs => by
    simp only [HistoryShapeOK] at hs
    simp only [HistoryMaps]
    exact ⟨text_maps cv t hs.1, hs.2.2.1, named_maps cv args hs.2.1⟩
  | .asNumber v _ _, hs => by
    simp only [HistoryShapeOK] at hs
    simp only [HistoryMaps]
    exact arg_maps cv v hs.1
  | .asPercent v _ _, hs => by
    simp only [HistoryShapeOK] at hs
    simp only [HistoryMaps]
    exact arg_maps cv v hs.1
  | .asCurrency _ v _ _, hs => by
    simp only [HistoryShapeOK] at hs
    simp only [HistoryMaps]
    exact arg_maps cv v hs.2.1
  | .transform t _, hs => by
    simp only [HistoryShapeOK] at hs
    simp only [HistoryMaps]
    exact text_maps cv t hs
  | .empty, _ => by simp only [HistoryMaps]
  | .none _, _ => by simp only [HistoryMaps]
  | .base _ _ _, _ => by simp only [HistoryMaps]
  | .asDate _ _ _, _ => by simp only [HistoryMaps]
  | .asTime _ _ _ _, _ => by simp only [HistoryMaps]
  | .asDateTime _ _ _ _ _, _ => by simp only [HistoryMaps]
  | .stringTableEntry _ _, _ => by simp only [HistoryMaps]
theorem arg_maps (cv : List (Guid × UInt32)) : ∀ v, ArgShapeOK cv v → ArgMaps v
  | .text t, hs => by
    simp only [ArgShapeOK] at hs
    simp only [ArgMaps]
    exact text_maps cv t hs
  | .int _, _ => by simp only [ArgMaps]
  | .uint _, _ => by simp only [ArgMaps]
  | .float _, _ => by simp only [ArgMaps]
  | .double _, _ => by simp only [ArgMaps]
  | .int64 _, _ => by simp only [ArgMaps]
  | .uint64 _, _ => by simp only [ArgMaps]
theorem args_maps (cv : List (Guid × UInt32)) : ∀ l, ArgsShapeOK cv l → ArgsMaps l
  | [], _ => by simp only [ArgsMaps]
  | v :: l, hs => by
    simp only [ArgsShapeOK] at hs
    simp only [ArgsMaps]
    exact ⟨arg_maps cv v hs.1, args_maps cv l hs.2⟩
theorem named_maps (cv : List (Guid × UInt32)) : ∀ l, NamedShapeOK cv l → NamedArgsMaps l
  | [], _ => by simp only [NamedArgsMaps]
  | (k, v) :: l, hs => by
    simp only [NamedShapeOK] at hs
    simp only [NamedArgsMaps]
    exact ⟨arg_maps cv v hs.2.1, named_maps cv l hs.2.2⟩
end

mutual
theorem head_maps (env : Env) : ∀ st p, HeadOK env st p → MapsDistinct p
  | st, .array v, h => by
    simp only [HeadOK] at h; simp only [MapsDistinct]; exact array_maps env _ v h
  | st, .map v, h => by
    simp only [HeadOK] at h; simp only [MapsDistinct]; exact map_maps env _ v h
  | st, .set ty _ ps, h => by
    simp only [HeadOK] at h; simp only [MapsDistinct]; exact bares_maps env _ ty ps h.2.2.2
  | st, .struct _ ty v, h => by
    simp only [HeadOK] at h; simp only [MapsDistinct]; exact struct_maps env _ ty v h.2
  | st, .structValue v, h => by simp only [HeadOK] at h
  | st, .text t, h => by
    simp only [HeadOK] at h; simp only [MapsDistinct]; exact text_maps env.cv t h.2
  | _, .bool _, _ => by simp only [MapsDistinct]
  | _, .byte _ _, _ => by simp only [MapsDistinct]
  | _, .double _, _ => by simp only [MapsDistinct]
  | _, .enum _ _, _ => by simp only [MapsDistinct]
  | _, .float _, _ => by simp only [MapsDistinct]
  | _, .int16 _, _ => by simp only [MapsDistinct]
  | _, .int64 _, _ => by simp only [MapsDistinct]
  | _, .int8 _, _ => by simp only [MapsDistinct]
  | _, .int _, _ => by simp only [MapsDistinct]
  | _, .name _ _, _ => by simp only [MapsDistinct]
  | _, .object _, _ => by simp only [MapsDistinct]
  | _, .delegate _, _ => by simp only [MapsDistinct]
  | _, .multicastInlineDelegate _, _ => by simp only [MapsDistinct]
  | _, .multicastSparseDelegate _, _ => by simp only [MapsDistinct]
  | _, .fieldPath _, _ => by simp only [MapsDistinct]
  | _, .str _, _ => by simp only [MapsDistinct]
  | _, .uint16 _, _ => by simp only [MapsDistinct]
  | _, .uint32 _, _ => by simp only [MapsDistinct]
  | _, .uint64 _, _ => by simp only [MapsDistinct]
  | _, .unknown _ _, _ => by simp only [MapsDistinct]
theorem bare_maps (env : Env) : ∀ st ty p, BareOK env st ty p → MapsDistinct p
  | st, _, .array v, h => by simp only [BareOK] at h
  | st, _, .map v, h => by simp only [BareOK] at h
  | st, _, .set _ _ ps, h => by simp only [BareOK] at h
  | st, _, .struct _ _ v, h => by simp only [BareOK] at h
  | st, _, .structValue v, h => by
    simp only [BareOK] at h
    obtain ⟨_, hint, _, h⟩ := h
    simp only [MapsDistinct]; exact struct_maps env _ hint v h
  | st, _, .text t, h => by
    simp only [BareOK] at h; simp only [MapsDistinct]; exact text_maps env.cv t h.2.2
  | _, _, .bool _, _ => by simp only [MapsDistinct]
  | _, _, .byte _ _, _ => by simp only [MapsDistinct]
  | _, _, .double _, _ => by simp only [MapsDistinct]
  | _, _, .enum _ _, _ => by simp only [MapsDistinct]
  | _, _, .float _, _ => by simp only [MapsDistinct]
  | _, _, .int16 _, _ => by simp only [MapsDistinct]
  | _, _, .int64 _, _ => by simp only [MapsDistinct]
  | _, _, .int8 _, _ => by simp only [MapsDistinct]
  | _, _, .int _, _ => by simp only [MapsDistinct]
  | _, _, .name _ _, _ => by simp only [MapsDistinct]
  | _, _, .object _, _ => by simp only [MapsDistinct]
  | _, _, .delegate _, _ => by simp only [MapsDistinct]
  | _, _, .multicastInlineDelegate _, _ => by simp only [MapsDistinct]
  | _, _, .multicastSparseDelegate _, _ => by simp only [MapsDistinct]
  | _, _, .fieldPath _, _ => by simp only [MapsDistinct]
  | _, _, .str _, _ => by simp only [MapsDistinct]
  | _, _, .uint16 _, _ => by simp only [MapsDistinct]
  | _, _, .uint32 _, _ => by simp only [MapsDistinct]
  | _, _, .uint64 _, _ => by simp only [MapsDistinct]
  | _, _, .unknown _ _, _ => by simp only [MapsDistinct]
theorem array_maps (env : Env) : ∀ st v, ArrayOK env st v → ArrayMaps v
  | st, .structs _ ty _ l, h => by
    simp only [ArrayOK] at h; simp only [ArrayMaps]; exact structs_maps env st ty l h.2.2.2
  | st, .properties ty ps, h => by
    simp only [ArrayOK] at h; simp only [ArrayMaps]
    exact bares_maps env st ty ps h.2.2.2.2.2.2
  | _, .bools _, _ => by simp only [ArrayMaps]
  | _, .bytes _, _ => by simp only [ArrayMaps]
  | _, .enums _, _ => by simp only [ArrayMaps]
  | _, .floats _, _ => by simp only [ArrayMaps]
  | _, .ints _, _ => by simp only [ArrayMaps]
  | _, .names _, _ => by simp only [ArrayMaps]
  | _, .strings _, _ => by simp only [ArrayMaps]
theorem map_maps (env : Env) : ∀ st v, MapOK env st v → MapMaps v
  | _, .enumBool _, h => by simp only [MapOK] at h; simp only [MapMaps]; exact h.2.1
  | _, .enumInt _, h => by simp only [MapOK] at h; simp only [MapMaps]; exact h.2.1
  | _, .enumProperty vt v, h => by
    simp only [MapOK] at h; simp only [MapMaps]
    exact ⟨h.2.2.1.2.1, values_maps env _ vt v h.2.2.2⟩
  | _, .nameBool _, h => by simp only [MapOK] at h; simp only [MapMaps]; exact h.2.1
  | _, .nameInt _, h => by simp only [MapOK] at h; simp only [MapMaps]; exact h.2.1
  | _, .nameProperty vt v, h => by
    simp only [MapOK] at h; simp only [MapMaps]
    exact ⟨h.2.2.1.2.1, values_maps env _ vt v h.2.2.2⟩
  | st, .properties kt vt fl m, h => by
    simp only [MapOK] at h; simp only [MapMaps]
    exact ⟨h.2.2.2.1, entries_maps env st kt vt m h.2.2.2.2.2.2⟩
  | _, .strBool _, h => by simp only [MapOK] at h; simp only [MapMaps]; exact h.2.1
  | _, .strInt _, h => by simp only [MapOK] at h; simp only [MapMaps]; exact h.2.1
  | _, .strProperty vt v, h => by
    simp only [MapOK] at h; simp only [MapMaps]
    exact ⟨h.2.2.1.2.1, values_maps env _ vt v h.2.2.2⟩
  | _, .strStr _, h => by simp only [MapOK] at h; simp only [MapMaps]; exact h.1.2.1
theorem struct_maps (env : Env) : ∀ st ty v, StructOK env st ty v → StructMaps v
  | st, ty, .customStruct fs, h => by
    simp only [StructOK] at h; simp only [StructMaps]
    exact ⟨h.2.1, fields_maps env st fs h.2.2⟩
  | _, _, .vector2F _ _, _ => by simp only [StructMaps]
  | _, _, .vector2D _ _, _ => by simp only [StructMaps]
  | _, _, .vectorF _ _ _, _ => by simp only [StructMaps]
  | _, _, .vectorD _ _ _, _ => by simp only [StructMaps]
  | _, _, .rotatorF _ _ _, _ => by simp only [StructMaps]
  | _, _, .rotatorD _ _ _, _ => by simp only [StructMaps]
  | _, _, .quatF _ _ _ _, _ => by simp only [StructMaps]
  | _, _, .quatD _ _ _ _, _ => by simp only [StructMaps]
  | _, _, .dateTime _, _ => by simp only [StructMaps]
  | _, _, .timespan _, _ => by simp only [StructMaps]
  | _, _, .guid _, _ => by simp only [StructMaps]
  | _, _, .linearColor _ _ _ _, _ => by simp only [StructMaps]
  | _, _, .intPoint _ _, _ => by simp only [StructMaps]
  | _, _, .gameplayTagContainer _, _ => by simp only [StructMaps]
theorem bares_maps (env : Env) : ∀ st ty l, BaresOK env st ty l → PropsMaps l
  | _, _, [], _ => by simp only [PropsMaps]
  | st, ty, p :: l, h => by
    simp only [BaresOK] at h; simp only [PropsMaps]
    exact ⟨bare_maps env st ty p h.1, bares_maps env st ty l h.2⟩
theorem structs_maps (env : Env) : ∀ st ty l, StructsOK env st ty l → StructsMaps l
  | _, _, [], _ => by simp only [StructsMaps]
  | st, ty, p :: l, h => by
    simp only [StructsOK] at h; simp only [StructsMaps]
    exact ⟨struct_maps env st ty p h.1, structs_maps env st ty l h.2⟩
theorem values_maps (env : Env) : ∀ st ty l, ValuesOK env st ty l → ValuesMaps l
  | _, _, [], _ => by simp only [ValuesMaps]
  | st, ty, (k, p) :: l, h => by
    simp only [ValuesOK] at h; simp only [ValuesMaps]
    exact ⟨bare_maps env st ty p h.2.1, values_maps env st ty l h.2.2⟩
theorem entries_maps (env : Env) : ∀ st kt vt l, EntriesOK env st kt vt l → EntriesMaps l
  | _, _, _, [], _ => by simp only [EntriesMaps]
  | st, kt, vt, (k, p) :: l, h => by
    simp only [EntriesOK] at h; simp only [EntriesMaps]
    exact ⟨bare_maps env _ kt k h.2.1, bare_maps env _ vt p h.2.2.2.1,
      entries_maps env st kt vt l h.2.2.2.2⟩
theorem fields_maps (env : Env) : ∀ st l, FieldsOK env st l → FieldsMaps l
  | _, [], _ => by simp only [FieldsMaps]
  | st, (k, ps) :: l, h => by
    simp only [FieldsOK] at h; simp only [FieldsMaps]
    exact ⟨vals_maps env _ 0 ps h.2.2.2.1, fields_maps env st l h.2.2.2.2⟩
theorem vals_maps (env : Env) : ∀ st i l, ValsOK env st i l → PropsMaps l
  | _, _, [], _ => by simp only [PropsMaps]
  | st, i, p :: l, h => by
    simp only [ValsOK] at h; simp only [PropsMaps]
    exact ⟨head_maps env st p h.2.1, vals_maps env st (i + 1) l h.2.2⟩
end

theorem fileOK_maps {debug : Bool} {hints : String → Option String} {f : GvasFile}
    (h : FileOK debug hints f) : FileMaps f := by
  obtain ⟨hh, hn, hp⟩ := h
  refine ⟨?_, hn, fun e he => head_maps _ _ _ (hp e he).2.2⟩
  cases hf : f.header <;> simp only [hf, HeaderOK] at hh <;>
    simp only [GvasHeader.customVersions] <;> first | exact hh.2.2.distinct | exact hh.2.2.2.2.distinct

end Gvas.Js
