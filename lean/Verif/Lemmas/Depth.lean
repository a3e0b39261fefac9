import Verif.Lemmas.Count
import Verif.Lemmas.Accept
import Verif.Spec.Depth

/-! # Every level of nesting takes bytes -/

namespace Gvas

open Spec

theorem writeString_four (s : String) : 4 ≤ (writeString s).bytes.length := by
  rw [writeString_length, strBytes]
  split <;> omega

theorem headed_body_le (h : Bool) (ty : String) (parts body : Out) :
    body.bytes.length ≤ (headed h ty parts body).bytes.length := by
  cases h with
  | false => exact Nat.le_refl _
  | true => rw [headed_true_length]; omega

attribute [local simp] historyTag_length

mutual
theorem text_depth (cv : List (Guid × UInt32)) (t : FText) (o : Out) (h : FText.write cv t = .ok o) :
    5 * textDepth t ≤ o.bytes.length := by
  match t with
  | .mk fl hi =>
    rw [FText.write] at h
    obtain ⟨a, h1, h⟩ := Res.bind_inv h
    dev_tac h
    have := history_depth cv hi a h1
    simp only [textDepth, Out.app_bytes, List.length_append, u32B_length]
    omega
theorem history_depth (cv : List (Guid × UInt32)) (t : FTextHistory) (o : Out)
    (h : FTextHistory.write cv t = .ok o) : 5 * historyDepth t + 1 ≤ o.bytes.length := by
  match t with
  | .empty =>
    rw [FTextHistory.write] at h
    dev_tac h
    simp [historyDepth]
  | .none s =>
    rw [FTextHistory.write] at h
    dev_tac h
    simp [historyDepth]
  | .base ns key src =>
    rw [FTextHistory.write] at h
    dev_tac h
    simp [historyDepth]
    try omega
  | .namedFormat src args =>
    rw [FTextHistory.write] at h
    obtain ⟨a, h1, h⟩ := Res.bind_inv h
    obtain ⟨b, h2, h⟩ := Res.bind_inv h
    dev_tac h
    have := text_depth cv src a h1
    have := named_depth cv args b h2
    simp [historyDepth]
    try omega
  | .orderedFormat src args =>
    rw [FTextHistory.write] at h
    obtain ⟨a, h1, h⟩ := Res.bind_inv h
    obtain ⟨b, h2, h⟩ := Res.bind_inv h
    dev_tac h
    have := text_depth cv src a h1
    have := args_depth cv args b h2
    simp [historyDepth]
    try omega
  | .argumentFormat src args =>
    rw [FTextHistory.write] at h
    obtain ⟨a, h1, h⟩ := Res.bind_inv h
    obtain ⟨b, h2, h⟩ := Res.bind_inv h
    dev_tac h
    have := text_depth cv src a h1
    have := named_depth cv args b h2
    simp [historyDepth]
    try omega
  | .asNumber v op c =>
    rw [FTextHistory.write] at h
    obtain ⟨a, h1, h⟩ := Res.bind_inv h
    dev_tac h
    have := arg_depth cv v a h1
    simp [historyDepth]
    try omega
  | .asPercent v op c =>
    rw [FTextHistory.write] at h
    obtain ⟨a, h1, h⟩ := Res.bind_inv h
    dev_tac h
    have := arg_depth cv v a h1
    simp [historyDepth]
    try omega
  | .asCurrency code v op c =>
    rw [FTextHistory.write] at h
    obtain ⟨a, h1, h⟩ := Res.bind_inv h
    dev_tac h
    have := arg_depth cv v a h1
    simp [historyDepth]
    try omega
  | .asDate t st c =>
    rw [FTextHistory.write] at h
    dev_tac h
    simp [historyDepth]
    try omega
  | .asTime t st z c =>
    rw [FTextHistory.write] at h
    dev_tac h
    simp [historyDepth]
    try omega
  | .asDateTime t ds ts z c =>
    rw [FTextHistory.write] at h
    dev_tac h
    simp [historyDepth]
    try omega
  | .transform src tt =>
    rw [FTextHistory.write] at h
    obtain ⟨a, h1, h⟩ := Res.bind_inv h
    dev_tac h
    have := text_depth cv src a h1
    simp [historyDepth]
    try omega
  | .stringTableEntry tid key =>
    rw [FTextHistory.write] at h
    dev_tac h
    simp [historyDepth]
    try omega
theorem arg_depth (cv : List (Guid × UInt32)) (v : FormatArgumentValue) (o : Out)
    (h : FormatArgumentValue.write cv v = .ok o) : 5 * argDepth v ≤ o.bytes.length := by
  match v with
  | .int v => simp [argDepth]
  | .int64 v => simp [argDepth]
  | .uint v => simp [argDepth]
  | .uint64 v => simp [argDepth]
  | .float v => simp [argDepth]
  | .double v => simp [argDepth]
  | .text t =>
    rw [FormatArgumentValue.write] at h
    obtain ⟨a, h1, h⟩ := Res.bind_inv h
    dev_tac h
    have := text_depth cv t a h1
    simp [argDepth]; omega
theorem args_depth (cv : List (Guid × UInt32)) (l : List FormatArgumentValue) (o : Out)
    (h : writeArgs cv l = .ok o) : 5 * argsDepth l ≤ o.bytes.length := by
  match l with
  | [] => simp [argsDepth]
  | v :: l =>
    rw [writeArgs] at h
    obtain ⟨a, h1, h⟩ := Res.bind_inv h
    obtain ⟨b, h2, h⟩ := Res.bind_inv h
    dev_tac h
    have := arg_depth cv v a h1
    have := args_depth cv l b h2
    simp [argsDepth]; omega
theorem named_depth (cv : List (Guid × UInt32)) (l : List (String × FormatArgumentValue)) (o : Out)
    (h : writeNamedArgs cv l = .ok o) : 5 * namedDepth l ≤ o.bytes.length := by
  match l with
  | [] => simp [namedDepth]
  | (k, v) :: l =>
    rw [writeNamedArgs] at h
    obtain ⟨a, h1, h⟩ := Res.bind_inv h
    obtain ⟨b, h2, h⟩ := Res.bind_inv h
    dev_tac h
    have := arg_depth cv v a h1
    have := named_depth cv l b h2
    simp [namedDepth]; omega
end

mutual
theorem property_depth (cv : List (Guid × UInt32)) (hd : Bool) (p : Property) (o : Out)
    (h : Property.write cv hd p = .ok o) : 4 * depth p ≤ o.bytes.length + 4 := by
  match p with
  | .array v =>
    rw [Property.write] at h
    obtain ⟨a, h1, h⟩ := Res.bind_inv h
    dev_tac h
    have := array_depth cv v a h1
    have := headed_body_le hd "ArrayProperty" (writeString v.propertyType) a
    simp only [depth]; omega
  | .map v =>
    rw [Property.write] at h
    obtain ⟨a, h1, h⟩ := Res.bind_inv h
    dev_tac h
    have := map_depth cv v a h1
    have := headed_body_le hd "MapProperty" (writeString v.keyType ++ writeString v.valueType) a
    simp only [depth]; omega
  | .set ty fl ps =>
    rw [Property.write] at h
    obtain ⟨a, h1, h⟩ := Res.bind_inv h
    dev_tac h
    have := props_depth cv ps a h1
    have := headed_body_le hd "SetProperty" (writeString ty)
      (u32O fl ++ u32O (UInt32.ofNat ps.length) ++ a)
    simp only [depth, Out.app_bytes, List.length_append, u32O_bytes, u32B_length] at this ⊢
    omega
  | .struct guid ty v =>
    rw [Property.write] at h
    obtain ⟨a, h1, h⟩ := Res.bind_inv h
    dev_tac h
    have := struct_depth cv v a h1
    have := headed_body_le hd "StructProperty" (writeString ty ++ ⟨guidB guid, 16⟩) a
    simp only [depth]; omega
  | .structValue v =>
    rw [Property.write] at h
    split at h
    · cases h
    · have := struct_depth cv v o h
      simp only [depth]; omega
  | .text v =>
    rw [Property.write] at h
    obtain ⟨a, h1, h⟩ := Res.bind_inv h
    dev_tac h
    have := text_depth cv v a h1
    have := headed_body_le hd "TextProperty" Out.nil a
    simp only [depth]; omega
  | .bool _ => simp [depth]
  | .byte _ _ => simp [depth]
  | .double _ => simp [depth]
  | .enum _ _ => simp [depth]
  | .float _ => simp [depth]
  | .int16 _ => simp [depth]
  | .int64 _ => simp [depth]
  | .int8 _ => simp [depth]
  | .int _ => simp [depth]
  | .name _ _ => simp [depth]
  | .object _ => simp [depth]
  | .delegate _ => simp [depth]
  | .multicastInlineDelegate _ => simp [depth]
  | .multicastSparseDelegate _ => simp [depth]
  | .fieldPath _ => simp [depth]
  | .str _ => simp [depth]
  | .uint16 _ => simp [depth]
  | .uint32 _ => simp [depth]
  | .uint64 _ => simp [depth]
  | .unknown _ _ => simp [depth]
theorem array_depth (cv : List (Guid × UInt32)) (v : ArrayProperty) (o : Out)
    (h : ArrayProperty.writeBody cv v = .ok o) : 4 * arrayDepth v ≤ o.bytes.length := by
  match v with
  | .structs field ty guid v =>
    rw [ArrayProperty.writeBody] at h
    obtain ⟨a, h1, h⟩ := Res.bind_inv h
    dev_tac h
    have := structs_depth cv v a h1
    simp only [arrayDepth, structArrayBody, List.length_append, u32B_length]
    omega
  | .properties ty v =>
    rw [ArrayProperty.writeBody] at h
    obtain ⟨a, h1, h⟩ := Res.bind_inv h
    dev_tac h
    have := props_depth cv v a h1
    simp only [arrayDepth, Out.app_bytes, List.length_append, u32O_bytes, u32B_length]
    omega
  | .bools _ => simp [arrayDepth]
  | .bytes _ => simp [arrayDepth]
  | .enums _ => simp [arrayDepth]
  | .floats _ => simp [arrayDepth]
  | .ints _ => simp [arrayDepth]
  | .names _ => simp [arrayDepth]
  | .strings _ => simp [arrayDepth]
theorem map_depth (cv : List (Guid × UInt32)) (v : MapProperty) (o : Out)
    (h : MapProperty.writeBody cv v = .ok o) : 4 * mapDepth v ≤ o.bytes.length := by
  match v with
  | .enumProperty ty v =>
    rw [MapProperty.writeBody] at h
    obtain ⟨a, h1, h⟩ := Res.bind_inv h
    dev_tac h
    have := values_depth cv v a h1
    simp only [mapDepth, Out.app_bytes, List.length_append]
    omega
  | .nameProperty ty v =>
    rw [MapProperty.writeBody] at h
    obtain ⟨a, h1, h⟩ := Res.bind_inv h
    dev_tac h
    have := values_depth cv v a h1
    simp only [mapDepth, Out.app_bytes, List.length_append]
    omega
  | .strProperty ty v =>
    rw [MapProperty.writeBody] at h
    obtain ⟨a, h1, h⟩ := Res.bind_inv h
    dev_tac h
    have := values_depth cv v a h1
    simp only [mapDepth, Out.app_bytes, List.length_append]
    omega
  | .properties kt vt fl v =>
    rw [MapProperty.writeBody] at h
    obtain ⟨a, h1, h⟩ := Res.bind_inv h
    dev_tac h
    have := entries_depth cv v a h1
    simp only [mapDepth, mapHead, Out.app_bytes, List.length_append, u32O_bytes, u32B_length]
    omega
  | .enumBool _ => simp [mapDepth]
  | .enumInt _ => simp [mapDepth]
  | .nameBool _ => simp [mapDepth]
  | .nameInt _ => simp [mapDepth]
  | .strBool _ => simp [mapDepth]
  | .strInt _ => simp [mapDepth]
  | .strStr _ => simp [mapDepth]
theorem struct_depth (cv : List (Guid × UInt32)) (v : StructPropertyValue) (o : Out)
    (h : StructPropertyValue.writeBody cv v = .ok o) : 4 * structDepth v ≤ o.bytes.length := by
  match v with
  | .customStruct fs =>
    rw [StructPropertyValue.writeBody] at h
    obtain ⟨a, h1, h⟩ := Res.bind_inv h
    dev_tac h
    have := fields_depth cv fs a h1
    simp only [structDepth, Out.app_bytes, List.length_append]
    omega
  | .vector2F _ _ => simp [structDepth]
  | .vector2D _ _ => simp [structDepth]
  | .vectorF _ _ _ => simp [structDepth]
  | .vectorD _ _ _ => simp [structDepth]
  | .rotatorF _ _ _ => simp [structDepth]
  | .rotatorD _ _ _ => simp [structDepth]
  | .quatF _ _ _ _ => simp [structDepth]
  | .quatD _ _ _ _ => simp [structDepth]
  | .dateTime _ => simp [structDepth]
  | .timespan _ => simp [structDepth]
  | .guid _ => simp [structDepth]
  | .linearColor _ _ _ _ => simp [structDepth]
  | .intPoint _ _ => simp [structDepth]
  | .gameplayTagContainer _ => simp [structDepth]
theorem props_depth (cv : List (Guid × UInt32)) (l : List Property) (o : Out)
    (h : writeList cv l = .ok o) : 4 * propsDepth l ≤ o.bytes.length + 4 := by
  match l with
  | [] => simp [propsDepth]
  | p :: l =>
    rw [writeList] at h
    obtain ⟨a, h1, h⟩ := Res.bind_inv h
    obtain ⟨b, h2, h⟩ := Res.bind_inv h
    dev_tac h
    have := property_depth cv false p a h1
    have := props_depth cv l b h2
    simp only [propsDepth, Out.app_bytes, List.length_append]
    omega
theorem structs_depth (cv : List (Guid × UInt32)) (l : List StructPropertyValue) (o : Out)
    (h : writeStructs cv l = .ok o) : 4 * structsDepth l ≤ o.bytes.length + 4 := by
  match l with
  | [] => simp [structsDepth]
  | p :: l =>
    rw [writeStructs] at h
    obtain ⟨a, h1, h⟩ := Res.bind_inv h
    obtain ⟨b, h2, h⟩ := Res.bind_inv h
    dev_tac h
    have := struct_depth cv p a h1
    have := structs_depth cv l b h2
    simp only [structsDepth, Out.app_bytes, List.length_append]
    omega
theorem values_depth (cv : List (Guid × UInt32)) (l : List (String × Property)) (o : Out)
    (h : writeStrProps cv l = .ok o) : 4 * valuesDepth l ≤ o.bytes.length := by
  match l with
  | [] => simp [valuesDepth]
  | (k, p) :: l =>
    rw [writeStrProps] at h
    obtain ⟨a, h1, h⟩ := Res.bind_inv h
    obtain ⟨b, h2, h⟩ := Res.bind_inv h
    dev_tac h
    have := property_depth cv false p a h1
    have := values_depth cv l b h2
    have := writeString_four k
    simp only [valuesDepth, Out.app_bytes, List.length_append]
    omega
theorem entries_depth (cv : List (Guid × UInt32)) (l : List (Property × Property)) (o : Out)
    (h : writePairs cv l = .ok o) : 4 * entriesDepth l ≤ o.bytes.length + 4 := by
  match l with
  | [] => simp [entriesDepth]
  | (k, p) :: l =>
    rw [writePairs] at h
    obtain ⟨a, h1, h⟩ := Res.bind_inv h
    obtain ⟨b, h2, h⟩ := Res.bind_inv h
    obtain ⟨c, h3, h⟩ := Res.bind_inv h
    dev_tac h
    have := property_depth cv false k a h1
    have := property_depth cv false p b h2
    have := entries_depth cv l c h3
    simp only [entriesDepth, Out.app_bytes, List.length_append]
    omega
theorem fields_depth (cv : List (Guid × UInt32)) (l : List (String × List Property)) (o : Out)
    (h : writeFields cv l = .ok o) : 4 * fieldsDepth l ≤ o.bytes.length := by
  match l with
  | [] => simp [fieldsDepth]
  | (k, ps) :: l =>
    rw [writeFields] at h
    obtain ⟨a, h1, h⟩ := Res.bind_inv h
    obtain ⟨b, h2, h⟩ := Res.bind_inv h
    dev_tac h
    have := field_depth cv k ps a h1
    have := fields_depth cv l b h2
    simp only [fieldsDepth, Out.app_bytes, List.length_append]
    omega
theorem field_depth (cv : List (Guid × UInt32)) (k : String) (l : List Property) (o : Out)
    (h : writeFieldVals cv k l = .ok o) : 4 * propsDepth l ≤ o.bytes.length := by
  match l with
  | [] => simp [propsDepth]
  | p :: l =>
    rw [writeFieldVals] at h
    obtain ⟨a, h1, h⟩ := Res.bind_inv h
    obtain ⟨b, h2, h⟩ := Res.bind_inv h
    dev_tac h
    have := property_depth cv true p a h1
    have := field_depth cv k l b h2
    have := writeString_four k
    simp only [propsDepth, Out.app_bytes, List.length_append]
    omega
end

theorem top_depth (cv : List (Guid × UInt32)) (l : List (String × Property)) (o : Out)
    (h : writeTop cv l = .ok o) : ∀ x ∈ l, 4 * depth x.2 ≤ o.bytes.length := by
  induction l generalizing o with
  | nil => simp
  | cons e l ih =>
    rw [writeTop] at h
    obtain ⟨a, h1, h⟩ := Res.bind_inv h
    obtain ⟨b, h2, h⟩ := Res.bind_inv h
    dev_tac h
    have := property_depth cv true e.2 a h1
    have h4 := writeString_four e.1
    intro x hx
    simp only [Out.app_bytes, List.length_append]
    rcases List.mem_cons.mp hx with rfl | hx
    · omega
    · have := ih b h2 x hx
      omega

end Gvas
