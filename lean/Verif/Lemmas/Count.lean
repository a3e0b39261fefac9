import Verif.Lemmas.Text
import Verif.Spec.Count

/-! # How far reported byte counts are off -/

namespace Gvas

open Spec

/-- Reported minus written. -/
def Out.dev (o : Out) : Int := (o.n : Int) - o.bytes.length

@[simp] theorem Out.dev_app (a b : Out) : (a ++ b).dev = a.dev + b.dev := by
  show ((a.n + b.n : Nat) : Int) - ((a.bytes ++ b.bytes).length : Nat) = _
  simp only [Out.dev, List.length_append]
  omega

@[simp] theorem Out.dev_nil : Out.nil.dev = 0 := rfl

@[simp] theorem Out.dev_mk (b : Bytes) (n : Nat) : (Out.mk b n).dev = (n : Int) - b.length := rfl

@[simp] theorem writeString_dev (s : String) : (writeString s).dev = strOver s := by
  rw [Out.dev, writeString_length, strBytes, strOver]
  by_cases h : s.toList.all (fun c => decide (c.toNat < 128)) = true
  · rw [if_pos h, if_pos h, strUnits_ascii h]
    simp only [writeString, if_pos (show isAscii s.toList = true from h)]
    omega
  · rw [if_neg h, if_neg h, strUnits_wide h]
    simp only [writeString, if_neg (show ¬ isAscii s.toList = true from h)]
    omega

@[simp] theorem writeFString_dev (s : Option String) : (writeFString s).dev = optOver s := by
  cases s with
  | none => decide
  | some t => exact writeString_dev t

theorem concatOut_dev {α : Type} {f : α → Out} {g : α → Int} (h : ∀ a, (f a).dev = g a) (l : List α) :
    (concatOut f l).dev = sumOver g l := by
  induction l with
  | nil => rfl
  | cons a l ih => rw [concatOut, Out.dev_app, h, ih, sumOver]

theorem concatOut_dev_zero {α : Type} {f : α → Out} (h : ∀ a, (f a).dev = 0) (l : List α) :
    (concatOut f l).dev = 0 := by
  induction l with
  | nil => rfl
  | cons a l ih => rw [concatOut, Out.dev_app, h, ih]; rfl

@[simp] theorem u32O_dev (x : UInt32) : (u32O x).dev = 0 := by simp [u32O]

theorem withHeader_dev (ty : String) (parts body : Out) :
    (withHeader ty parts body).dev = strOver ty + parts.dev + body.dev := by
  have := writeString_dev ty
  simp only [Out.dev, withHeader, List.length_append, u32B_length, List.length_cons,
    List.length_nil] at this ⊢
  omega

theorem headed_dev (h : Bool) (ty : String) (parts body : Out) :
    (headed h ty parts body).dev = headOver h ty parts.dev body.dev := by
  unfold headed headOver
  split
  · exact withHeader_dev ty parts body
  · rfl

theorem withHeaderIndex_dev (idx : UInt32) (body : Out) :
    (withHeaderIndex "NameProperty" idx body).dev = body.dev - 17 := by
  have : (writeString "NameProperty").bytes.length = 17 := by decide
  simp only [Out.dev, withHeaderIndex, List.length_append, u32B_length, List.length_cons,
    List.length_nil, this]
  omega

theorem byteHeader_dev (name : Option String) (body : Out) :
    (byteHeader name body).dev = strOver "ByteProperty" + optOver name + body.dev := by
  have h1 := writeString_dev "ByteProperty"
  have h2 := writeFString_dev name
  simp only [Out.dev, byteHeader, List.length_append, u64B_length, List.length_cons,
    List.length_nil] at h1 h2 ⊢
  omega

theorem structArrayBody_dev (count : Nat) (field ty : String) (guid : Guid) (elems : Out) :
    (structArrayBody count field ty guid elems).dev =
      strOver field + strOver "StructProperty" + strOver ty + elems.dev := by
  have h1 := writeString_dev field
  have h2 := writeString_dev "StructProperty"
  have h3 := writeString_dev ty
  simp only [Out.dev, structArrayBody, List.length_append, u64B_length, u32B_length, u8B_length,
    guidB_length] at h1 h2 h3 ⊢
  omega

theorem delegate_dev (d : Delegate) : d.write.dev = strOver d.object + strOver d.functionName := by
  simp [Delegate.write]

@[simp] theorem historyTag_dev (t : TextHistoryType) : (historyTag t).dev = 0 := by simp [historyTag]

@[simp] theorem writeFormatOptions_dev (o : Option NumberFormattingOptions) :
    (writeFormatOptions o).dev = 0 := by
  cases o with
  | none => simp [writeFormatOptions]
  | some o => simp [writeFormatOptions, NumberFormattingOptions.write]

/-- Solve a claim about a writer made of others. -/
macro "dev_tac" h:ident : tactic => `(tactic|
  ((try simp only [Res.ok.injEq, Pure.pure] at $h:ident); subst $h:ident))

mutual
theorem text_dev (cv : List (Guid × UInt32)) (t : FText) (o : Out) (h : FText.write cv t = .ok o) :
    o.dev = textOver (cultureInvariant cv) t := by
  match t with
  | .mk fl hi =>
    rw [FText.write] at h
    obtain ⟨a, h1, h⟩ := Res.bind_inv h
    dev_tac h
    rw [textOver, Out.dev_app, history_dev cv hi a h1]
    simp
theorem history_dev (cv : List (Guid × UInt32)) (t : FTextHistory) (o : Out)
    (h : FTextHistory.write cv t = .ok o) : o.dev = historyOver (cultureInvariant cv) t := by
  match t with
  | .empty =>
    rw [FTextHistory.write] at h
    dev_tac h
    rw [historyOver, Out.dev_app]
    split <;> simp
  | .none s =>
    rw [FTextHistory.write] at h
    dev_tac h
    rw [historyOver, Out.dev_app]
    split <;> simp
  | .base ns key src =>
    rw [FTextHistory.write] at h
    dev_tac h
    simp [historyOver]
  | .namedFormat src args =>
    rw [FTextHistory.write] at h
    obtain ⟨a, h1, h⟩ := Res.bind_inv h
    obtain ⟨b, h2, h⟩ := Res.bind_inv h
    dev_tac h
    simp [historyOver, text_dev cv src a h1, named_dev cv args b h2]
  | .orderedFormat src args =>
    rw [FTextHistory.write] at h
    obtain ⟨a, h1, h⟩ := Res.bind_inv h
    obtain ⟨b, h2, h⟩ := Res.bind_inv h
    dev_tac h
    simp [historyOver, text_dev cv src a h1, args_dev cv args b h2]
  | .argumentFormat src args =>
    rw [FTextHistory.write] at h
    obtain ⟨a, h1, h⟩ := Res.bind_inv h
    obtain ⟨b, h2, h⟩ := Res.bind_inv h
    dev_tac h
    simp [historyOver, text_dev cv src a h1, named_dev cv args b h2]
  | .asNumber v op c =>
    rw [FTextHistory.write] at h
    obtain ⟨a, h1, h⟩ := Res.bind_inv h
    dev_tac h
    simp [historyOver, arg_dev cv v a h1]
  | .asPercent v op c =>
    rw [FTextHistory.write] at h
    obtain ⟨a, h1, h⟩ := Res.bind_inv h
    dev_tac h
    simp [historyOver, arg_dev cv v a h1]
  | .asCurrency code v op c =>
    rw [FTextHistory.write] at h
    obtain ⟨a, h1, h⟩ := Res.bind_inv h
    dev_tac h
    simp [historyOver, arg_dev cv v a h1]
  | .asDate t st c =>
    rw [FTextHistory.write] at h
    dev_tac h
    simp [historyOver]
  | .asTime t st z c =>
    rw [FTextHistory.write] at h
    dev_tac h
    simp [historyOver]
  | .asDateTime t ds ts z c =>
    rw [FTextHistory.write] at h
    dev_tac h
    simp [historyOver]
  | .transform src tt =>
    rw [FTextHistory.write] at h
    obtain ⟨a, h1, h⟩ := Res.bind_inv h
    dev_tac h
    simp [historyOver, text_dev cv src a h1]
  | .stringTableEntry tid key =>
    rw [FTextHistory.write] at h
    dev_tac h
    simp [historyOver]
theorem arg_dev (cv : List (Guid × UInt32)) (v : FormatArgumentValue) (o : Out)
    (h : FormatArgumentValue.write cv v = .ok o) : o.dev = argOver (cultureInvariant cv) v := by
  match v with
  | .int v =>
    rw [FormatArgumentValue.write] at h
    split at h
    · cases h
    · dev_tac h; simp [argOver]
  | .int64 v =>
    rw [FormatArgumentValue.write] at h
    split at h
    · dev_tac h; simp [argOver]
    · cases h
  | .uint v =>
    rw [FormatArgumentValue.write] at h
    split at h
    · cases h
    · dev_tac h; simp [argOver]
  | .uint64 v =>
    rw [FormatArgumentValue.write] at h
    split at h
    · dev_tac h; simp [argOver]
    · cases h
  | .float v => rw [FormatArgumentValue.write] at h; dev_tac h; simp [argOver]
  | .double v => rw [FormatArgumentValue.write] at h; dev_tac h; simp [argOver]
  | .text t =>
    rw [FormatArgumentValue.write] at h
    obtain ⟨a, h1, h⟩ := Res.bind_inv h
    dev_tac h
    simp [argOver, text_dev cv t a h1]
theorem args_dev (cv : List (Guid × UInt32)) (l : List FormatArgumentValue) (o : Out)
    (h : writeArgs cv l = .ok o) : o.dev = argsOver (cultureInvariant cv) l := by
  match l with
  | [] => rw [writeArgs] at h; dev_tac h; simp [argsOver]
  | v :: l =>
    rw [writeArgs] at h
    obtain ⟨a, h1, h⟩ := Res.bind_inv h
    obtain ⟨b, h2, h⟩ := Res.bind_inv h
    dev_tac h
    simp [argsOver, arg_dev cv v a h1, args_dev cv l b h2]
theorem named_dev (cv : List (Guid × UInt32)) (l : List (String × FormatArgumentValue)) (o : Out)
    (h : writeNamedArgs cv l = .ok o) : o.dev = namedOver (cultureInvariant cv) l := by
  match l with
  | [] => rw [writeNamedArgs] at h; dev_tac h; simp [namedOver]
  | (k, v) :: l =>
    rw [writeNamedArgs] at h
    obtain ⟨a, h1, h⟩ := Res.bind_inv h
    obtain ⟨b, h2, h⟩ := Res.bind_inv h
    dev_tac h
    simp [namedOver, arg_dev cv v a h1, named_dev cv l b h2]
end

theorem writeIf_dev {c : Bool} {o o' : Out} {msg : String} (h : writeIf c o msg = .ok o') : o' = o := by
  unfold writeIf at h
  split at h
  · simpa using h.symm
  · cases h

theorem entries_dev_zero {α : Type} (f : α → Bytes) (n : Nat) (hf : ∀ a, (f a).length = n)
    (l : List (String × α)) :
    (concatOut (fun e => writeString e.1 ++ ⟨f e.2, n⟩) l).dev = sumOver (fun e => strOver e.1) l := by
  refine concatOut_dev (fun e => ?_) l
  rw [Out.dev_app, writeString_dev, Out.dev_mk, hf]
  omega

mutual
theorem property_dev (cv : List (Guid × UInt32)) (hd : Bool) (p : Property) (o : Out)
    (h : Property.write cv hd p = .ok o) : o.dev = countOver (cultureInvariant cv) hd p := by
  match p with
  | .array v =>
    rw [Property.write] at h
    obtain ⟨a, h1, h⟩ := Res.bind_inv h
    dev_tac h
    rw [headed_dev, countOver, array_dev cv v a h1, writeString_dev]
  | .bool v =>
    rw [Property.write] at h
    dev_tac h
    rw [countOver, writeBoolProperty]
    split <;> simp
  | .byte name (.byte v) =>
    rw [Property.write] at h
    dev_tac h
    rw [countOver]
    split
    · rw [byteHeader_dev]; simp [BytePropertyValue.write]
    · simp [BytePropertyValue.write]
  | .byte name (.namespaced v) =>
    rw [Property.write] at h
    dev_tac h
    rw [countOver, headOver]
    split
    · rw [byteHeader_dev]; simp [BytePropertyValue.write]
    · simp [BytePropertyValue.write]
  | .double v => rw [Property.write] at h; dev_tac h; rw [headed_dev, countOver]; simp
  | .enum ty v => rw [Property.write] at h; dev_tac h; rw [headed_dev, countOver]; simp
  | .float v => rw [Property.write] at h; dev_tac h; rw [headed_dev, countOver]; simp
  | .int16 v => rw [Property.write] at h; dev_tac h; rw [headed_dev, countOver]; simp
  | .int64 v => rw [Property.write] at h; dev_tac h; rw [headed_dev, countOver]; simp
  | .int8 v => rw [Property.write] at h; dev_tac h; rw [headed_dev, countOver]; simp
  | .int v => rw [Property.write] at h; dev_tac h; rw [headed_dev, countOver]; simp
  | .map v =>
    rw [Property.write] at h
    obtain ⟨a, h1, h⟩ := Res.bind_inv h
    dev_tac h
    rw [headed_dev, countOver, map_dev cv v a h1, Out.dev_app, writeString_dev, writeString_dev]
  | .name idx v =>
    rw [Property.write] at h
    dev_tac h
    rw [countOver]
    split
    · rw [withHeaderIndex_dev, writeFString_dev]
    · rw [writeFString_dev]
  | .object v => rw [Property.write] at h; dev_tac h; rw [headed_dev, countOver]; simp
  | .delegate v =>
    rw [Property.write] at h; dev_tac h; rw [headed_dev, countOver, delegate_dev]; simp
  | .multicastInlineDelegate v =>
    rw [Property.write] at h; dev_tac h
    rw [headed_dev, countOver, writeMulticast, Out.dev_app, concatOut_dev delegate_dev]; simp
  | .multicastSparseDelegate v =>
    rw [Property.write] at h; dev_tac h
    rw [headed_dev, countOver, writeMulticast, Out.dev_app, concatOut_dev delegate_dev]; simp
  | .fieldPath v =>
    rw [Property.write] at h; dev_tac h
    rw [headed_dev, countOver, FieldPath.write, Out.dev_app, Out.dev_app,
      concatOut_dev writeString_dev]; simp
  | .set ty fl ps =>
    rw [Property.write] at h
    obtain ⟨a, h1, h⟩ := Res.bind_inv h
    dev_tac h
    rw [headed_dev, countOver, writeString_dev]
    simp [props_dev cv ps a h1]
  | .str v => rw [Property.write] at h; dev_tac h; rw [headed_dev, countOver]; simp
  | .struct guid ty v =>
    rw [Property.write] at h
    obtain ⟨a, h1, h⟩ := Res.bind_inv h
    dev_tac h
    rw [headed_dev, countOver, struct_dev cv v a h1]
    simp
  | .structValue v =>
    rw [Property.write] at h
    split at h
    · cases h
    · rw [countOver, struct_dev cv v o h]
  | .text v =>
    rw [Property.write] at h
    obtain ⟨a, h1, h⟩ := Res.bind_inv h
    dev_tac h
    rw [headed_dev, countOver, text_dev cv v a h1]
    simp
  | .uint16 v => rw [Property.write] at h; dev_tac h; rw [headed_dev, countOver]; simp
  | .uint32 v => rw [Property.write] at h; dev_tac h; rw [headed_dev, countOver]; simp
  | .uint64 v => rw [Property.write] at h; dev_tac h; rw [headed_dev, countOver]; simp
  | .unknown name raw => rw [Property.write] at h; dev_tac h; rw [headed_dev, countOver]; simp
theorem array_dev (cv : List (Guid × UInt32)) (v : ArrayProperty) (o : Out)
    (h : ArrayProperty.writeBody cv v = .ok o) : o.dev = arrayOver (cultureInvariant cv) v := by
  match v with
  | .bools v =>
    rw [ArrayProperty.writeBody] at h; dev_tac h
    rw [Out.dev_app, concatOut_dev_zero (by simp)]; simp [arrayOver]
  | .bytes v =>
    rw [ArrayProperty.writeBody] at h; dev_tac h
    rw [Out.dev_app, concatOut_dev_zero (by simp)]; simp [arrayOver]
  | .enums v =>
    rw [ArrayProperty.writeBody] at h; dev_tac h
    rw [Out.dev_app, concatOut_dev writeString_dev]; simp [arrayOver]
  | .floats v =>
    rw [ArrayProperty.writeBody] at h; dev_tac h
    rw [Out.dev_app, concatOut_dev_zero (by simp)]; simp [arrayOver]
  | .ints v =>
    rw [ArrayProperty.writeBody] at h; dev_tac h
    rw [Out.dev_app, concatOut_dev_zero (by simp)]; simp [arrayOver]
  | .names v =>
    rw [ArrayProperty.writeBody] at h; dev_tac h
    rw [Out.dev_app, concatOut_dev writeFString_dev]; simp [arrayOver]
  | .strings v =>
    rw [ArrayProperty.writeBody] at h; dev_tac h
    rw [Out.dev_app, concatOut_dev writeFString_dev]; simp [arrayOver]
  | .structs field ty guid v =>
    rw [ArrayProperty.writeBody] at h
    obtain ⟨a, h1, h⟩ := Res.bind_inv h
    dev_tac h
    rw [structArrayBody_dev, structs_dev cv v a h1, arrayOver]
  | .properties ty v =>
    rw [ArrayProperty.writeBody] at h
    obtain ⟨a, h1, h⟩ := Res.bind_inv h
    dev_tac h
    simp [arrayOver, props_dev cv v a h1]
theorem map_dev (cv : List (Guid × UInt32)) (v : MapProperty) (o : Out)
    (h : MapProperty.writeBody cv v = .ok o) : o.dev = mapOver (cultureInvariant cv) v := by
  match v with
  | .enumBool v =>
    rw [MapProperty.writeBody] at h; dev_tac h
    rw [Out.dev_app, entries_dev_zero boolB 1 boolB_length]; simp [mapOver, mapHead]
  | .nameBool v =>
    rw [MapProperty.writeBody] at h; dev_tac h
    rw [Out.dev_app, entries_dev_zero boolB 1 boolB_length]; simp [mapOver, mapHead]
  | .strBool v =>
    rw [MapProperty.writeBody] at h; dev_tac h
    rw [Out.dev_app, entries_dev_zero boolB 1 boolB_length]; simp [mapOver, mapHead]
  | .enumInt v =>
    rw [MapProperty.writeBody] at h; dev_tac h
    rw [Out.dev_app, entries_dev_zero i32B 4 i32B_length]; simp [mapOver, mapHead]
  | .nameInt v =>
    rw [MapProperty.writeBody] at h; dev_tac h
    rw [Out.dev_app, entries_dev_zero i32B 4 i32B_length]; simp [mapOver, mapHead]
  | .strInt v =>
    rw [MapProperty.writeBody] at h; dev_tac h
    rw [Out.dev_app, entries_dev_zero i32B 4 i32B_length]; simp [mapOver, mapHead]
  | .enumProperty ty v =>
    rw [MapProperty.writeBody] at h
    obtain ⟨a, h1, h⟩ := Res.bind_inv h
    dev_tac h
    simp [mapOver, mapHead, values_dev cv v a h1]
  | .nameProperty ty v =>
    rw [MapProperty.writeBody] at h
    obtain ⟨a, h1, h⟩ := Res.bind_inv h
    dev_tac h
    simp [mapOver, mapHead, values_dev cv v a h1]
  | .strProperty ty v =>
    rw [MapProperty.writeBody] at h
    obtain ⟨a, h1, h⟩ := Res.bind_inv h
    dev_tac h
    simp [mapOver, mapHead, values_dev cv v a h1]
  | .strStr v =>
    rw [MapProperty.writeBody] at h; dev_tac h
    rw [Out.dev_app, concatOut_dev (g := fun e => strOver e.1 + optOver e.2) (by simp)]
    simp [mapOver, mapHead]
  | .properties kt vt fl v =>
    rw [MapProperty.writeBody] at h
    obtain ⟨a, h1, h⟩ := Res.bind_inv h
    dev_tac h
    simp [mapOver, mapHead, entries_dev cv v a h1]
theorem struct_dev (cv : List (Guid × UInt32)) (v : StructPropertyValue) (o : Out)
    (h : StructPropertyValue.writeBody cv v = .ok o) :
    o.dev = structOver (cultureInvariant cv) v := by
  match v with
  | .vector2F x y => rw [StructPropertyValue.writeBody] at h; rw [writeIf_dev h]; simp [structOver]
  | .vector2D x y => rw [StructPropertyValue.writeBody] at h; rw [writeIf_dev h]; simp [structOver]
  | .vectorF x y z => rw [StructPropertyValue.writeBody] at h; rw [writeIf_dev h]; simp [structOver]
  | .vectorD x y z => rw [StructPropertyValue.writeBody] at h; rw [writeIf_dev h]; simp [structOver]
  | .rotatorF x y z => rw [StructPropertyValue.writeBody] at h; rw [writeIf_dev h]; simp [structOver]
  | .rotatorD x y z => rw [StructPropertyValue.writeBody] at h; rw [writeIf_dev h]; simp [structOver]
  | .quatF x y z w => rw [StructPropertyValue.writeBody] at h; rw [writeIf_dev h]; simp [structOver]
  | .quatD x y z w => rw [StructPropertyValue.writeBody] at h; rw [writeIf_dev h]; simp [structOver]
  | .dateTime t => rw [StructPropertyValue.writeBody] at h; dev_tac h; simp [structOver]
  | .timespan t => rw [StructPropertyValue.writeBody] at h; dev_tac h; simp [structOver]
  | .linearColor r g b a => rw [StructPropertyValue.writeBody] at h; dev_tac h; simp [structOver]
  | .intPoint x y => rw [StructPropertyValue.writeBody] at h; dev_tac h; simp [structOver]
  | .guid g => rw [StructPropertyValue.writeBody] at h; dev_tac h; simp [structOver]
  | .gameplayTagContainer tags =>
    rw [StructPropertyValue.writeBody] at h; dev_tac h
    rw [Out.dev_app, concatOut_dev writeString_dev]; simp [structOver]
  | .customStruct fs =>
    rw [StructPropertyValue.writeBody] at h
    obtain ⟨a, h1, h⟩ := Res.bind_inv h
    dev_tac h
    simp [structOver, fields_dev cv fs a h1]
theorem props_dev (cv : List (Guid × UInt32)) (l : List Property) (o : Out)
    (h : writeList cv l = .ok o) : o.dev = propsOver (cultureInvariant cv) l := by
  match l with
  | [] => rw [writeList] at h; dev_tac h; simp [propsOver]
  | p :: l =>
    rw [writeList] at h
    obtain ⟨a, h1, h⟩ := Res.bind_inv h
    obtain ⟨b, h2, h⟩ := Res.bind_inv h
    dev_tac h
    simp [propsOver, property_dev cv false p a h1, props_dev cv l b h2]
theorem structs_dev (cv : List (Guid × UInt32)) (l : List StructPropertyValue) (o : Out)
    (h : writeStructs cv l = .ok o) : o.dev = structsOver (cultureInvariant cv) l := by
  match l with
  | [] => rw [writeStructs] at h; dev_tac h; simp [structsOver]
  | p :: l =>
    rw [writeStructs] at h
    obtain ⟨a, h1, h⟩ := Res.bind_inv h
    obtain ⟨b, h2, h⟩ := Res.bind_inv h
    dev_tac h
    simp [structsOver, struct_dev cv p a h1, structs_dev cv l b h2]
theorem values_dev (cv : List (Guid × UInt32)) (l : List (String × Property)) (o : Out)
    (h : writeStrProps cv l = .ok o) : o.dev = valuesOver (cultureInvariant cv) l := by
  match l with
  | [] => rw [writeStrProps] at h; dev_tac h; simp [valuesOver]
  | (k, p) :: l =>
    rw [writeStrProps] at h
    obtain ⟨a, h1, h⟩ := Res.bind_inv h
    obtain ⟨b, h2, h⟩ := Res.bind_inv h
    dev_tac h
    simp [valuesOver, property_dev cv false p a h1, values_dev cv l b h2]
theorem entries_dev (cv : List (Guid × UInt32)) (l : List (Property × Property)) (o : Out)
    (h : writePairs cv l = .ok o) : o.dev = entriesOver (cultureInvariant cv) l := by
  match l with
  | [] => rw [writePairs] at h; dev_tac h; simp [entriesOver]
  | (k, p) :: l =>
    rw [writePairs] at h
    obtain ⟨a, h1, h⟩ := Res.bind_inv h
    obtain ⟨b, h2, h⟩ := Res.bind_inv h
    obtain ⟨c, h3, h⟩ := Res.bind_inv h
    dev_tac h
    simp [entriesOver, property_dev cv false k a h1, property_dev cv false p b h2,
      entries_dev cv l c h3]
theorem fields_dev (cv : List (Guid × UInt32)) (l : List (String × List Property)) (o : Out)
    (h : writeFields cv l = .ok o) : o.dev = fieldsOver (cultureInvariant cv) l := by
  match l with
  | [] => rw [writeFields] at h; dev_tac h; simp [fieldsOver]
  | (k, ps) :: l =>
    rw [writeFields] at h
    obtain ⟨a, h1, h⟩ := Res.bind_inv h
    obtain ⟨b, h2, h⟩ := Res.bind_inv h
    dev_tac h
    simp [fieldsOver, field_dev cv k ps a h1, fields_dev cv l b h2]
theorem field_dev (cv : List (Guid × UInt32)) (k : String) (l : List Property) (o : Out)
    (h : writeFieldVals cv k l = .ok o) : o.dev = fieldOver (cultureInvariant cv) k l := by
  match l with
  | [] => rw [writeFieldVals] at h; dev_tac h; simp [fieldOver]
  | p :: l =>
    rw [writeFieldVals] at h
    obtain ⟨a, h1, h⟩ := Res.bind_inv h
    obtain ⟨b, h2, h⟩ := Res.bind_inv h
    dev_tac h
    simp [fieldOver, property_dev cv true p a h1, field_dev cv k l b h2]
end

theorem header_dev (h : GvasHeader) : h.write.dev = headerOver h := by
  have e : ∀ ev : FEngineVersion, ev.write.dev = strOver ev.branch := by
    intro ev
    rw [FEngineVersion.write, Out.dev_app, writeString_dev]
    simp
  have c : ∀ l, (concatOut FCustomVersion.write l).dev = 0 := fun l =>
    concatOut_dev_zero (by intro a; simp [FCustomVersion.write]) l
  cases h <;> simp [GvasHeader.write, writeHeaderTail, headerOver, e, c]

end Gvas
