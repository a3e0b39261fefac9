import Verif.Lemmas.DebugText
import Verif.Props.Guid

/-!
# The trees that `Debug` prints have plain names, and tell the value
-/

namespace Gvas.Dt

open Spec

instance (s : List Char) : Decidable (Plain s) := inferInstanceAs (Decidable (_ ∧ _))

/-! ## Plain texts -/

theorem plain_toDigits (n : Nat) : Plain (Nat.toDigits 10 n) := by
  refine ⟨fun h => ?_, fun c hc => ?_⟩
  · have := Nat.length_toDigits_pos (b := 10) (n := n)
    rw [h] at this
    exact absurd this (by simp)
  · obtain ⟨d, hd, rfl⟩ := mem_toDigits (by omega) n hc
    have : ∀ d : Fin 10, isMark (Nat.digitChar d.val) = false := by decide
    exact this ⟨d, hd⟩

theorem plain_decInt (n : Int) : Plain (decInt n).toList := by
  rw [decInt_toList]
  have h := plain_toDigits n.natAbs
  split
  · refine ⟨by simp, fun c hc => ?_⟩
    rcases List.mem_cons.mp hc with rfl | hc
    · rfl
    · exact h.2 c hc
  · exact h

theorem Plain.append {a b : List Char} (ha : Plain a) (hb : Plain b) : Plain (a ++ b) := by
  refine ⟨by simp [ha.1], fun c hc => ?_⟩
  rcases List.mem_append.mp hc with h | h
  · exact ha.2 c h
  · exact hb.2 c h

theorem plain_hex2 (b : UInt8) : ∀ c ∈ hex2 b, isMark c = false ∧ c ≠ 'G' := by
  have h : ∀ n : Fin 256, ∀ c ∈ hex2 (UInt8.ofNat n.val), isMark c = false ∧ c ≠ 'G' := by
    decide +kernel
  have := h ⟨b.toNat, b.toNat_lt⟩
  simpa using this

theorem plain_guid (g : Guid) : Plain g.display ∧ g.display.head? ≠ some 'G' := by
  have hh : ∀ (l : List UInt8), ∀ c ∈ l.flatMap hex2, isMark c = false ∧ c ≠ 'G' := by
    intro l c hc
    obtain ⟨b, _, hb⟩ := List.mem_flatMap.mp hc
    exact plain_hex2 b c hb
  have all : g.display ≠ [] ∧ ∀ c ∈ g.display, isMark c = false ∧ c ≠ 'G' := by
    unfold Guid.display
    split
    · exact ⟨by simp, by decide⟩
    · refine ⟨by simp, fun c hc => ?_⟩
      simp only [List.append_assoc, List.cons_append, List.mem_append, List.mem_cons] at hc
      rcases hc with h | rfl | h | rfl | h | rfl | h | rfl | h
      all_goals first | exact hh _ _ h | exact ⟨by decide, by decide⟩
  refine ⟨⟨all.1, fun c hc => (all.2 c hc).1⟩, fun h => ?_⟩
  exact (all.2 'G' (List.mem_of_mem_head? h)).2 rfl

theorem ok_guid (g : Guid) : Ok g.dbg := plain_guid g

theorem ok_int (n : Int) : Ok (intD n) := plain_decInt n

theorem ok_bool (b : Bool) : Ok (boolD b) := by cases b <;> (show Plain _; decide +kernel)

theorem ok_opt (s : Option String) : Ok (optStrD s) := by
  cases s with
  | none => show Plain _; decide +kernel
  | some s => exact ⟨by decide +kernel, fun h => absurd h (by decide), trivial⟩

theorem ok_map {l : List (Dbg × Dbg)} (h : OkEntries l) : Ok (mapD l) :=
  ⟨by decide +kernel, fun h => absurd h (by decide), h⟩

theorem ok_ticks (name : String) (h : Plain name.toList) (t : UInt64) : Ok (ticksD name t) :=
  ⟨h, by decide +kernel, ok_int _, trivial⟩

theorem ok_items {α : Type} {f : α → Dbg} (h : ∀ a, Ok (f a)) (l : List α) : OkItems (l.map f) := by
  rw [okItems]
  intro d hd
  obtain ⟨a, _, rfl⟩ := List.mem_map.mp hd
  exact h a

theorem ok_strs (l : List String) : OkItems (l.map Dbg.str) :=
  ok_items (f := Dbg.str) (fun _ => trivial) l

theorem ok_strMap {α : Type} {f : α → Dbg} (h : ∀ a, Ok (f a)) (l : List (String × α)) :
    Ok (strMapD f l) := by
  refine ok_map (okEntries.mpr fun e he => ?_)
  obtain ⟨a, _, rfl⟩ := List.mem_map.mp he
  exact ⟨trivial, h a.2⟩

theorem ok_options (o : NumberFormattingOptions) : Ok o.dbg := by
  refine ⟨by decide +kernel, ?_⟩
  simp only [OkFields]
  repeat' with_reducible refine And.intro ?_ ?_
  all_goals first
    | with_reducible exact ok_int _
    | with_reducible exact ok_bool _
    | with_reducible trivial
    | decide +kernel
    | (show Plain _; cases o.roundingMode <;> decide +kernel)

theorem ok_optOptions (o : Option NumberFormattingOptions) : Ok (optD (o.map NumberFormattingOptions.dbg)) := by
  cases o with
  | none => show Plain _; decide +kernel
  | some o => exact ⟨by decide +kernel, fun h => absurd h (by decide), ok_options o⟩

theorem ok_style (s : DateTimeStyle) : Ok (unitD s.json) := by
  cases s <;> (show Plain _; decide +kernel)

theorem ok_transform (s : TransformType) : Ok (unitD s.json) := by
  cases s <;> (show Plain _; decide +kernel)

theorem ok_compression (s : PalworldCompressionType) : Ok (unitD s.json) := by
  cases s <;> (show Plain _; decide +kernel)

theorem ok_delegate (d : Delegate) : Ok d.dbg :=
  ⟨by decide +kernel, by decide +kernel, trivial, by decide +kernel, trivial, trivial⟩

theorem ok_multicast (ds : List Delegate) : Ok (multicastD ds) :=
  ⟨by decide +kernel, by decide +kernel, ok_items ok_delegate ds, trivial⟩

theorem ok_fieldPath (p : FieldPath) : Ok p.dbg :=
  ⟨by decide +kernel, by decide +kernel, ok_items (f := Dbg.str) (fun _ => trivial) _,
    by decide +kernel, trivial, trivial⟩

theorem ok_byte (v : BytePropertyValue) : Ok v.dbg := by
  cases v with
  | byte v => exact ⟨by decide +kernel, fun h => absurd h (by decide), ok_int _⟩
  | namespaced s => exact ⟨by decide +kernel, fun h => absurd h (by decide), trivial⟩

/-! ## All trees are plain -/

theorem ok_ordered {t : Fmt} {s : List Char} (h : Plain s) : Ok (t.ordered s) := by
  unfold Fmt.ordered
  split
  · exact ⟨by decide +kernel, fun h => absurd h (by decide), h⟩
  · exact h

theorem ok_f32 {t : Fmt} (ht : TellFloats t) (v : F32) : Ok (t.f32 v) := ok_ordered (ht.plain_debug32 v)

theorem ok_f64 {t : Fmt} (ht : TellFloats t) (v : F64) : Ok (t.f64 v) := ok_ordered (ht.plain_debug64 v)

/-- Plain names, and parts that are. -/
macro "plain_parts" : tactic => `(tactic| (
  (repeat' with_reducible refine And.intro ?_ ?_) <;> first
    | with_reducible trivial
    | with_reducible assumption
    | decide +kernel
    | exact fun h => absurd h (by decide)
    | with_reducible exact ok_int _
    | with_reducible exact ok_bool _
    | with_reducible exact ok_opt _
    | with_reducible exact ok_guid _
    | with_reducible exact ok_optOptions _
    | with_reducible exact ok_style _
    | with_reducible exact ok_transform _
    | with_reducible exact ok_delegate _
    | with_reducible exact ok_multicast _
    | with_reducible exact ok_fieldPath _
    | with_reducible exact ok_byte _
    | (with_reducible refine ok_ticks _ ?_ _; decide +kernel)
    | with_reducible exact ok_strMap ok_bool _
    | with_reducible exact ok_strMap ok_opt _
    | with_reducible exact ok_strMap (fun _ => ok_int _) _
    | with_reducible exact ok_items ok_bool _
    | with_reducible exact ok_items ok_opt _
    | with_reducible exact ok_items (fun _ => ok_int _) _
    | with_reducible exact ok_strs _
    | (with_reducible refine Plain.append (plain_decInt _) ?_; decide +kernel)))

section
variable {t : Fmt} (ht : TellFloats t)
include ht

mutual
theorem ok_text (x : FText) : Ok (x.dbg t) := by
  match x with
  | .mk flags h =>
    have := ok_history h
    simp only [FText.dbg, Ok, OkFields]
    plain_parts
theorem ok_history (x : FTextHistory) : Ok (x.dbg t) := by
  match x with
  | .empty => show Plain _; decide +kernel
  | .none s => simp only [FTextHistory.dbg, Ok, OkFields]; plain_parts
  | .base a b c => simp only [FTextHistory.dbg, Ok, OkFields]; plain_parts
  | .namedFormat src args =>
    have h1 := ok_text src
    have h2 := ok_map (ok_namedArgs args)
    simp only [FTextHistory.dbg, Ok, OkFields]; plain_parts
  | .orderedFormat src args =>
    have h1 := ok_text src
    have h2 := ok_args args
    simp only [FTextHistory.dbg, Ok, OkFields]; plain_parts
  | .argumentFormat src args =>
    have h1 := ok_text src
    have h2 := ok_map (ok_namedArgs args)
    simp only [FTextHistory.dbg, Ok, OkFields]; plain_parts
  | .asNumber v o c =>
    have h1 := ok_arg v
    simp only [FTextHistory.dbg, Ok, OkFields]; plain_parts
  | .asPercent v o c =>
    have h1 := ok_arg v
    simp only [FTextHistory.dbg, Ok, OkFields]; plain_parts
  | .asCurrency a v o c =>
    have h1 := ok_arg v
    simp only [FTextHistory.dbg, Ok, OkFields]; plain_parts
  | .asDate d st c => simp only [FTextHistory.dbg, Ok, OkFields]; plain_parts
  | .asTime d st z c => simp only [FTextHistory.dbg, Ok, OkFields]; plain_parts
  | .asDateTime d ds ts z c => simp only [FTextHistory.dbg, Ok, OkFields]; plain_parts
  | .transform src tt =>
    have h1 := ok_text src
    simp only [FTextHistory.dbg, Ok, OkFields]; plain_parts
  | .stringTableEntry a b => simp only [FTextHistory.dbg, Ok, OkFields]; plain_parts
theorem ok_arg (x : FormatArgumentValue) : Ok (x.dbg t) := by
  match x with
  | .int v => simp only [FormatArgumentValue.dbg, Ok]; plain_parts
  | .uint v => simp only [FormatArgumentValue.dbg, Ok]; plain_parts
  | .float v =>
    have := ok_f32 ht v
    simp only [FormatArgumentValue.dbg, Ok]; plain_parts
  | .double v =>
    have := ok_f64 ht v
    simp only [FormatArgumentValue.dbg, Ok]; plain_parts
  | .text v =>
    have := ok_text v
    simp only [FormatArgumentValue.dbg, Ok]; plain_parts
  | .int64 v => simp only [FormatArgumentValue.dbg, Ok]; plain_parts
  | .uint64 v => simp only [FormatArgumentValue.dbg, Ok]; plain_parts
theorem ok_args (l : List FormatArgumentValue) : OkItems (dbgArgs t l) := by
  match l with
  | [] => trivial
  | v :: l => exact ⟨ok_arg v, ok_args l⟩
theorem ok_namedArgs (l : List (String × FormatArgumentValue)) : OkEntries (dbgNamedArgs t l) := by
  match l with
  | [] => trivial
  | (k, v) :: l => exact ⟨trivial, ok_arg v, ok_namedArgs l⟩
end

theorem ok_floats (l : List F32) : OkItems (l.map t.f32) :=
  ok_items (f := t.f32) (ok_f32 ht) l

mutual
theorem ok_prop (p : Property) : Ok (p.dbg t) := by
  cases p
  case array v =>
    have := ok_array v
    simp only [Property.dbg, Ok]; plain_parts
  case map v =>
    have := ok_mapProp v
    simp only [Property.dbg, Ok]; plain_parts
  case set ty fl ps =>
    have := ok_props ps
    simp only [Property.dbg, Ok, OkFields]; plain_parts
  case struct g ty v =>
    have := ok_struct v
    simp only [Property.dbg, Ok, OkFields]; plain_parts
  case structValue v =>
    have := ok_struct v
    simp only [Property.dbg, Ok, OkFields]; plain_parts
  case text v =>
    have := ok_text ht v
    simp only [Property.dbg, Ok, OkFields]; plain_parts
  case double v =>
    have := Plain.append (ht.plain_display64 v) (b := "f64".toList) (by decide +kernel)
    simp only [Property.dbg, Ok, typedD]; plain_parts
  case float v =>
    have := Plain.append (ht.plain_display32 v) (b := "f32".toList) (by decide +kernel)
    simp only [Property.dbg, Ok, typedD]; plain_parts
  all_goals
    simp only [Property.dbg, Ok, OkFields, typedD]; plain_parts
theorem ok_array (a : ArrayProperty) : Ok (a.dbg t) := by
  cases a
  case floats v =>
    have := ok_floats ht v
    simp only [ArrayProperty.dbg, Ok, OkFields]; plain_parts
  case structs f ty g v =>
    have := ok_structs v
    simp only [ArrayProperty.dbg, Ok, OkFields]; plain_parts
  case properties ty v =>
    have := ok_props v
    simp only [ArrayProperty.dbg, Ok, OkFields]; plain_parts
  all_goals
    simp only [ArrayProperty.dbg, Ok, OkFields]; plain_parts
theorem ok_mapProp (m : MapProperty) : Ok (m.dbg t) := by
  cases m
  case enumProperty ty v =>
    have := ok_map (ok_strProps v)
    simp only [MapProperty.dbg, Ok, OkFields]; plain_parts
  case nameProperty ty v =>
    have := ok_map (ok_strProps v)
    simp only [MapProperty.dbg, Ok, OkFields]; plain_parts
  case strProperty ty v =>
    have := ok_map (ok_strProps v)
    simp only [MapProperty.dbg, Ok, OkFields]; plain_parts
  case properties kt vt fl v =>
    have := ok_map (ok_pairs v)
    simp only [MapProperty.dbg, Ok, OkFields]; plain_parts
  all_goals
    simp only [MapProperty.dbg, Ok, OkFields]; plain_parts
theorem ok_struct (v : StructPropertyValue) : Ok (v.dbg t) := by
  have h32 := ok_f32 ht
  have h64 := ok_f64 ht
  cases v
  case customStruct fs =>
    have := ok_map (ok_fieldLists fs)
    simp only [StructPropertyValue.dbg, Ok]; plain_parts
  case guid g => exact ⟨by decide +kernel, fun _ => ⟨_, rfl⟩, ok_guid g⟩
  all_goals
    simp only [StructPropertyValue.dbg, Ok, OkFields, h32, h64, true_and]; plain_parts
theorem ok_props (l : List Property) : OkItems (dbgProps t l) := by
  match l with
  | [] => trivial
  | p :: l => exact ⟨ok_prop p, ok_props l⟩
theorem ok_structs (l : List StructPropertyValue) : OkItems (dbgStructs t l) := by
  match l with
  | [] => trivial
  | p :: l => exact ⟨ok_struct p, ok_structs l⟩
theorem ok_strProps (l : List (String × Property)) : OkEntries (dbgStrProps t l) := by
  match l with
  | [] => trivial
  | (k, p) :: l => exact ⟨trivial, ok_prop p, ok_strProps l⟩
theorem ok_pairs (l : List (Property × Property)) : OkEntries (dbgPairs t l) := by
  match l with
  | [] => trivial
  | (k, p) :: l => exact ⟨ok_prop k, ok_prop p, ok_pairs l⟩
theorem ok_fieldLists (l : List (String × List Property)) : OkEntries (dbgFieldLists t l) := by
  match l with
  | [] => trivial
  | (k, ps) :: l => exact ⟨trivial, ok_props ps, ok_fieldLists l⟩
end

theorem ok_engine (v : FEngineVersion) : Ok v.dbg := by
  simp only [FEngineVersion.dbg, Ok, OkFields]; plain_parts

theorem ok_versions (vs : List (Guid × UInt32)) : Ok (versionsD vs) := by
  refine ok_map (okEntries.mpr fun e he => ?_)
  obtain ⟨a, _, rfl⟩ := List.mem_map.mp he
  exact ⟨ok_guid _, ok_int _⟩

theorem ok_header (h : GvasHeader) : Ok h.dbg := by
  cases h with
  | version2 p e f vs c =>
    have h1 := ok_engine ht e
    have h2 := ok_versions ht vs
    simp only [GvasHeader.dbg, Ok, OkFields]; plain_parts
  | version3 p q e f vs c =>
    have h1 := ok_engine ht e
    have h2 := ok_versions ht vs
    simp only [GvasHeader.dbg, Ok, OkFields]; plain_parts

theorem ok_file (f : GvasFile) : Ok (f.dbg t) := by
  have h1 := ok_header ht f.header
  have h2 := ok_map (ok_strProps ht f.properties)
  have h3 : Ok f.gameVersion.dbg := by
    cases f.gameVersion with
    | default => show Plain _; decide +kernel
    | palworld c => exact ⟨by decide +kernel, fun h => absurd h (by decide), ok_compression c⟩
  simp only [GvasFile.dbg, Ok, OkFields]; plain_parts

end

end Gvas.Dt
