import Verif.Spec.Faults
import Verif.Lemmas.GrammarText

/-! # The first thing that cannot be saved makes saving fail -/

namespace Gvas

open Spec Format

/-- How saving something fails. -/
def Spec.Demand.fault (cv : List (Guid × UInt32)) : Demand → Option Fail
  | .small name other => if lwc cv then some (.err (.serializeInvalidValue
      (name ++ " not supported when LWC is enabled, use " ++ other))) else none
  | .large name other => if lwc cv then none else some (.err (.serializeInvalidValue
      (name ++ " not supported when LWC is disabled, use " ++ other)))
  | .narrow name => if text64 cv then some (.panic ("FormatArgumentValue::" ++ name ++
      " is not compatible with TextFormatArgumentData64bitSupport")) else none
  | .wide name => if text64 cv then none else some (.panic ("FormatArgumentValue::" ++ name ++
      " requires TextFormatArgumentData64bitSupport"))
  | .bare => some (.err (.serializeInvalidValue
      "StructPropertyValue can not be serialized with a header"))

theorem unfit_iff {cv : List (Guid × UInt32)} {d : Demand} {e : Fail} :
    Unfit cv d e ↔ d.fault cv = some e := by
  constructor
  · rintro (⟨_, _, h⟩ | ⟨_, _, h⟩ | ⟨_, h⟩ | ⟨_, h⟩ | _)
    · simp [Demand.fault, largeWorld_iff.mp h]
    · simp [Demand.fault, mt largeWorld_iff.mpr h]
    · simp [Demand.fault, wideArguments_iff.mp h]
    · simp [Demand.fault, mt wideArguments_iff.mpr h]
    · rfl
  · intro h
    cases d with
    | small name other =>
      by_cases hl : lwc cv = true
      · simp only [Demand.fault, hl, if_true, Option.some.injEq] at h
        exact h ▸ .small _ _ (largeWorld_iff.mpr hl)
      · simp [Demand.fault, hl] at h
    | large name other =>
      by_cases hl : lwc cv = true
      · simp [Demand.fault, hl] at h
      · simp only [Demand.fault, hl] at h
        exact Option.some.inj h ▸ .large _ _ (mt largeWorld_iff.mp hl)
    | narrow name =>
      by_cases hl : text64 cv = true
      · simp only [Demand.fault, hl, if_true, Option.some.injEq] at h
        exact h ▸ .narrow _ (wideArguments_iff.mpr hl)
      · simp [Demand.fault, hl] at h
    | wide name =>
      by_cases hl : text64 cv = true
      · simp [Demand.fault, hl] at h
      · simp only [Demand.fault, hl] at h
        exact Option.some.inj h ▸ .wide _ (mt wideArguments_iff.mp hl)
    | bare => exact Option.some.inj h ▸ .bare

theorem firstUnfit_iff {cv : List (Guid × UInt32)} {ds : List Demand} {e : Fail} :
    FirstUnfit cv ds e ↔ ds.findSome? (Demand.fault cv) = some e := by
  rw [List.findSome?_eq_some_iff]
  constructor
  · rintro ⟨l, d, r, rfl, hl, hd⟩
    refine ⟨l, d, r, rfl, unfit_iff.mp hd, fun x hx => ?_⟩
    cases hf : x.fault cv with
    | none => rfl
    | some e => exact absurd (unfit_iff.mpr hf) (hl x hx e)
  · rintro ⟨l, d, r, rfl, hd, hl⟩
    refine ⟨l, d, r, rfl, fun x hx e he => ?_, unfit_iff.mpr hd⟩
    have := hl x hx
    rw [unfit_iff.mp he] at this
    cases this

/-- How something failed, if it did. -/
def Res.fault {α : Type} : Res α → Option Fail
  | .ok _ => none
  | .bad e => some e

theorem Res.fault_eq {α : Type} {r : Res α} {e : Fail} : r.fault = some e ↔ r = .bad e := by
  cases r <;> simp [Res.fault]

/-- `r` fails as the first of `ds` that cannot be saved. -/
def Blame {α : Type} (cv : List (Guid × UInt32)) (ds : List Demand) (r : Res α) : Prop :=
  r.fault = ds.findSome? (Demand.fault cv)

section
variable {cv : List (Guid × UInt32)}

theorem Blame.ok {α : Type} {a : α} : Blame cv [] (.ok a) := rfl

theorem Blame.pure {α : Type} {a : α} : Blame cv [] (Pure.pure a : Res α) := rfl

theorem Blame.map {α β : Type} {ds : List Demand} {m : Res α} {g : α → β} (h : Blame cv ds m) :
    Blame cv ds (m >>= fun a => Pure.pure (g a)) := by
  unfold Blame at *
  rw [← h]
  cases m <;> rfl

theorem Blame.bind {α β : Type} {ds es : List Demand} {m : Res α} {f : α → Res β}
    (h : Blame cv ds m) (h' : ∀ a, Blame cv es (f a)) : Blame cv (ds ++ es) (m >>= f) := by
  unfold Blame at *
  rw [List.findSome?_append, ← h]
  cases m with
  | ok a => exact h' a
  | bad e => rfl

mutual
theorem blame_text : ∀ t : FText, Blame cv (textDemands t) (FText.write cv t)
  | .mk _ h => by simp only [textDemands, FText.write]; exact (blame_history h).map
theorem blame_history : ∀ h : FTextHistory, Blame cv (historyDemands h) (FTextHistory.write cv h)
  | .namedFormat t args => by
    simp only [historyDemands, FTextHistory.write]
    exact (blame_text t).bind fun _ => (blame_named args).map
  | .orderedFormat t args => by
    simp only [historyDemands, FTextHistory.write]
    exact (blame_text t).bind fun _ => (blame_args args).map
  | .argumentFormat t args => by
    simp only [historyDemands, FTextHistory.write]
    exact (blame_text t).bind fun _ => (blame_named args).map
  | .asNumber v _ _ => by simp only [historyDemands, FTextHistory.write]; exact (blame_arg v).map
  | .asPercent v _ _ => by simp only [historyDemands, FTextHistory.write]; exact (blame_arg v).map
  | .asCurrency _ v _ _ => by
    simp only [historyDemands, FTextHistory.write]; exact (blame_arg v).map
  | .transform t _ => by simp only [historyDemands, FTextHistory.write]; exact (blame_text t).map
  | .empty => by simp only [historyDemands, FTextHistory.write]; exact .ok
  | .none _ => by simp only [historyDemands, FTextHistory.write]; exact .ok
  | .base _ _ _ => by simp only [historyDemands, FTextHistory.write]; exact .ok
  | .asDate _ _ _ => by simp only [historyDemands, FTextHistory.write]; exact .ok
  | .asTime _ _ _ _ => by simp only [historyDemands, FTextHistory.write]; exact .ok
  | .asDateTime _ _ _ _ _ => by simp only [historyDemands, FTextHistory.write]; exact .ok
  | .stringTableEntry _ _ => by simp only [historyDemands, FTextHistory.write]; exact .ok
theorem blame_arg : ∀ v : FormatArgumentValue,
    Blame cv (argDemands v) (FormatArgumentValue.write cv v)
  | .int _ => by
    simp only [argDemands, FormatArgumentValue.write, Blame, List.findSome?, Demand.fault]
    cases text64 cv <;> rfl
  | .uint _ => by
    simp only [argDemands, FormatArgumentValue.write, Blame, List.findSome?, Demand.fault]
    cases text64 cv <;> rfl
  | .int64 _ => by
    simp only [argDemands, FormatArgumentValue.write, Blame, List.findSome?, Demand.fault]
    cases text64 cv <;> rfl
  | .uint64 _ => by
    simp only [argDemands, FormatArgumentValue.write, Blame, List.findSome?, Demand.fault]
    cases text64 cv <;> rfl
  | .text t => by simp only [argDemands, FormatArgumentValue.write]; exact (blame_text t).map
  | .float _ => by simp only [argDemands, FormatArgumentValue.write]; exact .ok
  | .double _ => by simp only [argDemands, FormatArgumentValue.write]; exact .ok
theorem blame_args : ∀ l : List FormatArgumentValue, Blame cv (argsDemands l) (writeArgs cv l)
  | [] => by simp only [argsDemands, writeArgs]; exact .ok
  | v :: l => by
    simp only [argsDemands, writeArgs]
    exact (blame_arg v).bind fun _ => (blame_args l).map
theorem blame_named : ∀ l : List (String × FormatArgumentValue),
    Blame cv (namedDemands l) (writeNamedArgs cv l)
  | [] => by simp only [namedDemands, writeNamedArgs]; exact .ok
  | (_, v) :: l => by
    simp only [namedDemands, writeNamedArgs]
    exact (blame_arg v).bind fun _ => (blame_named l).map
end

mutual
theorem blame_property (h : Bool) : ∀ p : Property,
    Blame cv (demands h p) (Property.write cv h p)
  | .array v => by simp only [demands, Property.write]; exact (blame_array v).map
  | .map v => by simp only [demands, Property.write]; exact (blame_map v).map
  | .set _ _ ps => by simp only [demands, Property.write]; exact (blame_elems ps).map
  | .struct _ _ v => by simp only [demands, Property.write]; exact (blame_struct v).map
  | .structValue v => by
    simp only [demands, Property.write]
    cases h
    · exact blame_struct v
    · rfl
  | .text t => by simp only [demands, Property.write]; exact (blame_text t).map
  | .bool _ => by simp only [demands, Property.write]; exact .ok
  | .byte _ _ => by simp only [demands, Property.write]; exact .ok
  | .double _ => by simp only [demands, Property.write]; exact .ok
  | .enum _ _ => by simp only [demands, Property.write]; exact .ok
  | .float _ => by simp only [demands, Property.write]; exact .ok
  | .int16 _ => by simp only [demands, Property.write]; exact .ok
  | .int64 _ => by simp only [demands, Property.write]; exact .ok
  | .int8 _ => by simp only [demands, Property.write]; exact .ok
  | .int _ => by simp only [demands, Property.write]; exact .ok
  | .name _ _ => by simp only [demands, Property.write]; exact .ok
  | .object _ => by simp only [demands, Property.write]; exact .ok
  | .delegate _ => by simp only [demands, Property.write]; exact .ok
  | .multicastInlineDelegate _ => by simp only [demands, Property.write]; exact .ok
  | .multicastSparseDelegate _ => by simp only [demands, Property.write]; exact .ok
  | .fieldPath _ => by simp only [demands, Property.write]; exact .ok
  | .str _ => by simp only [demands, Property.write]; exact .ok
  | .uint16 _ => by simp only [demands, Property.write]; exact .ok
  | .uint32 _ => by simp only [demands, Property.write]; exact .ok
  | .uint64 _ => by simp only [demands, Property.write]; exact .ok
  | .unknown _ _ => by simp only [demands, Property.write]; exact .ok
theorem blame_array : ∀ v : ArrayProperty, Blame cv (arrayDemands v) (ArrayProperty.writeBody cv v)
  | .structs _ _ _ v => by
    simp only [arrayDemands, ArrayProperty.writeBody]; exact (blame_structs v).map
  | .properties _ ps => by
    simp only [arrayDemands, ArrayProperty.writeBody]; exact (blame_elems ps).map
  | .bools _ => by simp only [arrayDemands, ArrayProperty.writeBody]; exact .ok
  | .bytes _ => by simp only [arrayDemands, ArrayProperty.writeBody]; exact .ok
  | .enums _ => by simp only [arrayDemands, ArrayProperty.writeBody]; exact .ok
  | .floats _ => by simp only [arrayDemands, ArrayProperty.writeBody]; exact .ok
  | .ints _ => by simp only [arrayDemands, ArrayProperty.writeBody]; exact .ok
  | .names _ => by simp only [arrayDemands, ArrayProperty.writeBody]; exact .ok
  | .strings _ => by simp only [arrayDemands, ArrayProperty.writeBody]; exact .ok
theorem blame_map : ∀ v : MapProperty, Blame cv (mapDemands v) (MapProperty.writeBody cv v)
  | .enumProperty _ v => by
    simp only [mapDemands, MapProperty.writeBody]; exact (blame_values v).map
  | .nameProperty _ v => by
    simp only [mapDemands, MapProperty.writeBody]; exact (blame_values v).map
  | .strProperty _ v => by
    simp only [mapDemands, MapProperty.writeBody]; exact (blame_values v).map
  | .properties _ _ _ m => by
    simp only [mapDemands, MapProperty.writeBody]; exact (blame_entries m).map
  | .enumBool _ => by simp only [mapDemands, MapProperty.writeBody]; exact .ok
  | .enumInt _ => by simp only [mapDemands, MapProperty.writeBody]; exact .ok
  | .nameBool _ => by simp only [mapDemands, MapProperty.writeBody]; exact .ok
  | .nameInt _ => by simp only [mapDemands, MapProperty.writeBody]; exact .ok
  | .strBool _ => by simp only [mapDemands, MapProperty.writeBody]; exact .ok
  | .strInt _ => by simp only [mapDemands, MapProperty.writeBody]; exact .ok
  | .strStr _ => by simp only [mapDemands, MapProperty.writeBody]; exact .ok
theorem blame_struct : ∀ v : StructPropertyValue,
    Blame cv (structDemands v) (StructPropertyValue.writeBody cv v)
  | .vector2F _ _ | .vector2D _ _ | .vectorF _ _ _ | .vectorD _ _ _ | .rotatorF _ _ _
  | .rotatorD _ _ _ | .quatF _ _ _ _ | .quatD _ _ _ _ => by
    simp only [structDemands, StructPropertyValue.writeBody, Blame, List.findSome?, Demand.fault,
      writeIf]
    cases lwc cv <;> rfl
  | .dateTime _ => by simp only [structDemands, StructPropertyValue.writeBody]; exact .ok
  | .timespan _ => by simp only [structDemands, StructPropertyValue.writeBody]; exact .ok
  | .guid _ => by simp only [structDemands, StructPropertyValue.writeBody]; exact .ok
  | .linearColor _ _ _ _ => by simp only [structDemands, StructPropertyValue.writeBody]; exact .ok
  | .intPoint _ _ => by simp only [structDemands, StructPropertyValue.writeBody]; exact .ok
  | .gameplayTagContainer _ => by
    simp only [structDemands, StructPropertyValue.writeBody]; exact .ok
  | .customStruct fs => by
    simp only [structDemands, StructPropertyValue.writeBody]; exact (blame_fields fs).map
theorem blame_elems : ∀ l : List Property, Blame cv (elemsDemands l) (writeList cv l)
  | [] => by simp only [elemsDemands, writeList]; exact .ok
  | p :: l => by
    simp only [elemsDemands, writeList]
    exact (blame_property false p).bind fun _ => (blame_elems l).map
theorem blame_structs : ∀ l : List StructPropertyValue,
    Blame cv (structsDemands l) (writeStructs cv l)
  | [] => by simp only [structsDemands, writeStructs]; exact .ok
  | p :: l => by
    simp only [structsDemands, writeStructs]
    exact (blame_struct p).bind fun _ => (blame_structs l).map
theorem blame_values : ∀ l : List (String × Property),
    Blame cv (valuesDemands l) (writeStrProps cv l)
  | [] => by simp only [valuesDemands, writeStrProps]; exact .ok
  | (_, p) :: l => by
    simp only [valuesDemands, writeStrProps]
    exact (blame_property false p).bind fun _ => (blame_values l).map
theorem blame_entries : ∀ l : List (Property × Property),
    Blame cv (entriesDemands l) (writePairs cv l)
  | [] => by simp only [entriesDemands, writePairs]; exact .ok
  | (k, p) :: l => by
    simp only [entriesDemands, writePairs, List.append_assoc]
    exact (blame_property false k).bind fun _ => (blame_property false p).bind fun _ =>
      (blame_entries l).map
theorem blame_fields : ∀ l : List (String × List Property),
    Blame cv (fieldsDemands l) (writeFields cv l)
  | [] => by simp only [fieldsDemands, writeFields]; exact .ok
  | (k, ps) :: l => by
    simp only [fieldsDemands, writeFields]
    exact (blame_headed k ps).bind fun _ => (blame_fields l).map
theorem blame_headed (k : String) : ∀ l : List Property,
    Blame cv (headedDemands l) (writeFieldVals cv k l)
  | [] => by simp only [headedDemands, writeFieldVals]; exact .ok
  | p :: l => by
    simp only [headedDemands, writeFieldVals]
    exact (blame_property true p).bind fun _ => (blame_headed k l).map
end

theorem blame_top : ∀ l : List (String × Property),
    Blame cv (l.flatMap fun e => demands true e.2) (writeTop cv l)
  | [] => .ok
  | (k, p) :: l => by
    simp only [List.flatMap_cons, writeTop]
    exact (blame_property true p).bind fun _ => (blame_top l).map

end

theorem blame_file (f : GvasFile) : Blame f.header.customVersions (fileDemands f) f.encode := by
  unfold GvasFile.encode fileDemands
  exact (blame_top f.properties).map

end Gvas
