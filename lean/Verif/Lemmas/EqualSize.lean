import Verif.Lemmas.EqualMaps
import Verif.Lemmas.Text
import Verif.Lemmas.Ens

/-!
# Equal values are written alike: with the same success and the same size
-/

namespace Gvas

open Spec

/-- The length of what is written and the count returned; nothing if writing fails. -/
def outSize : Res Out → Option (Nat × Nat)
  | .ok o => some (o.bytes.length, o.n)
  | .bad _ => none

/-- Outputs of the same length, with the same count. -/
def SameSize (o o' : Out) : Prop := o.bytes.length = o'.bytes.length ∧ o.n = o'.n

/-- Both fail, or both write outputs of the same size. -/
def Alike (r s : Res Out) : Prop := outSize r = outSize s

/-- Versions that mean the same to the writer. -/
def SameVersions (cv cv' : List (Guid × UInt32)) : Prop :=
  lwc cv = lwc cv' ∧ text64 cv = text64 cv' ∧ cultureInvariant cv = cultureInvariant cv'

theorem Alike.refl (r : Res Out) : Alike r r := rfl
theorem Alike.symm {r s : Res Out} (h : Alike r s) : Alike s r := Eq.symm h
theorem Alike.trans {r s t : Res Out} (h : Alike r s) (h' : Alike s t) : Alike r t := Eq.trans h h'

theorem SameSize.refl (o : Out) : SameSize o o := ⟨rfl, rfl⟩

theorem Alike.ok {o o' : Out} (h : SameSize o o') : Alike (.ok o) (.ok o') := by
  simp only [Alike, outSize, h.1, h.2]

theorem Alike.bind {m m' : Res Out} {f f' : Out → Res Out} (h : Alike m m')
    (hf : ∀ o o', SameSize o o' → Alike (f o) (f' o')) : Alike (m >>= f) (m' >>= f') := by
  cases m <;> cases m' <;> simp only [Alike, outSize, Option.some.injEq, Prod.mk.injEq,
    reduceCtorEq] at h
  · exact hf _ _ h
  · rfl

theorem Alike.map {m m' : Res Out} {g g' : Out → Out} (h : Alike m m')
    (hg : ∀ o o', SameSize o o' → SameSize (g o) (g' o')) :
    Alike (m >>= fun o => pure (g o)) (m' >>= fun o => pure (g' o)) :=
  h.bind fun o o' ho => Alike.ok (hg o o' ho)

theorem SameSize.app {a a' b b' : Out} (h : SameSize a a') (h' : SameSize b b') :
    SameSize (a ++ b) (a' ++ b') := by
  refine ⟨?_, ?_⟩
  · show (a.bytes ++ b.bytes).length = (a'.bytes ++ b'.bytes).length
    rw [List.length_append, List.length_append, h.1, h'.1]
  · show a.n + b.n = a'.n + b'.n
    rw [h.2, h'.2]

theorem SameSize.headed {h : Bool} {ty : String} {parts parts' body body' : Out}
    (hp : SameSize parts parts') (hb : SameSize body body') :
    SameSize (headed h ty parts body) (headed h ty parts' body') := by
  cases h
  · exact hb
  · simp only [SameSize, Gvas.headed, withHeader, if_true, List.length_append, u32B_length] at *
    omega

theorem SameSize.concat {α β : Type} {f : α → Out} {g : β → Out} {l : List α} {m : List β}
    (h : Pairs (fun a b => SameSize (f a) (g b)) l m) : SameSize (concatOut f l) (concatOut g m) := by
  induction h with
  | nil => exact .refl _
  | cons hab _ ih => exact hab.app ih

theorem SameSize.comm {a b c : Out} : SameSize (a ++ (b ++ c)) (b ++ (a ++ c)) := by
  refine ⟨?_, ?_⟩
  · show (a.bytes ++ (b.bytes ++ c.bytes)).length = (b.bytes ++ (a.bytes ++ c.bytes)).length
    simp only [List.length_append]; omega
  · show a.n + (b.n + c.n) = b.n + (a.n + c.n); omega

theorem SameSize.trans {a b c : Out} (h : SameSize a b) (h' : SameSize b c) : SameSize a c :=
  ⟨h.1.trans h'.1, h.2.trans h'.2⟩

theorem SameSize.concat_perm {α : Type} (f : α → Out) {l m : List α} (h : l.Perm m) :
    SameSize (concatOut f l) (concatOut f m) := by
  induction h with
  | nil => exact .refl _
  | cons a _ ih => exact (SameSize.refl _).app ih
  | swap a b l => exact SameSize.comm
  | trans _ _ ih ih' => exact ih.trans ih'

/-- A loop of writes: outputs put one behind the other. -/
theorem alike_loop_perm {α : Type} (w : α → Res Out) (ws : List α → Res Out)
    (hc : ∀ a l, Alike (ws (a :: l)) (w a >>= fun x => ws l >>= fun y => pure (x ++ y)))
    {l m : List α} (h : l.Perm m) : Alike (ws l) (ws m) := by
  induction h with
  | nil => exact .refl _
  | cons a _ ih =>
    refine (hc _ _).trans (.trans ?_ (hc _ _).symm)
    exact Alike.bind (.refl _) fun o o' ho => ih.map fun p p' hp => ho.app hp
  | swap a b l =>
    refine (hc _ _).trans (.trans ?_ (hc _ _).symm)
    have e1 : Alike (w b >>= fun x => ws (a :: l) >>= fun y => pure (x ++ y))
        (w b >>= fun x => (w a >>= fun x => ws l >>= fun y => pure (x ++ y)) >>=
          fun y => pure (x ++ y)) :=
      Alike.bind (.refl _) fun o o' ho => (hc a l).map fun p p' hp => ho.app hp
    have e2 : Alike (w a >>= fun x => ws (b :: l) >>= fun y => pure (x ++ y))
        (w a >>= fun x => (w b >>= fun x => ws l >>= fun y => pure (x ++ y)) >>=
          fun y => pure (x ++ y)) :=
      Alike.bind (.refl _) fun o o' ho => (hc b l).map fun p p' hp => ho.app hp
    refine e1.trans (.trans ?_ e2.symm)
    cases w a <;> cases w b <;> try rfl
    cases ws l
    · exact Alike.ok SameSize.comm
    · rfl
  | trans _ _ ih ih' => exact ih.trans ih'

theorem size_u32 (a b : UInt32) : SameSize (u32O a) (u32O b) := by
  simp [SameSize, u32O]

theorem size_i32 (a b : Int32) (n : Nat) : SameSize ⟨i32B a, n⟩ ⟨i32B b, n⟩ := by
  simp [SameSize]

theorem size_mapHead (a b : UInt32) (n m : Nat) : SameSize (mapHead a n) (mapHead b m) :=
  (size_u32 ..).app (size_u32 ..)

theorem alike_writeIf {c c' : Bool} {o o' : Out} {m m' : String} (hc : c = c')
    (ho : SameSize o o') : Alike (writeIf c o m) (writeIf c' o' m') := by
  subst hc
  cases c
  · rfl
  · exact Alike.ok ho

theorem alike_strs {cv cv' : List (Guid × UInt32)} {k : String} {p q : Property}
    {l m : List (String × Property)} (h : Alike (Property.write cv false p) (Property.write cv' false q))
    (hl : Alike (writeStrProps cv l) (writeStrProps cv' m)) :
    Alike (writeStrProps cv ((k, p) :: l)) (writeStrProps cv' ((k, q) :: m)) := by
  rw [writeStrProps, writeStrProps]
  exact h.bind fun o o' ho => hl.map fun b b' hb => ((SameSize.refl _).app ho).app hb

theorem alike_pairs {cv cv' : List (Guid × UInt32)} {k k' p q : Property}
    {l m : List (Property × Property)}
    (hk : Alike (Property.write cv false k) (Property.write cv' false k'))
    (h : Alike (Property.write cv false p) (Property.write cv' false q))
    (hl : Alike (writePairs cv l) (writePairs cv' m)) :
    Alike (writePairs cv ((k, p) :: l)) (writePairs cv' ((k', q) :: m)) := by
  rw [writePairs, writePairs]
  exact hk.bind fun a a' ha => h.bind fun o o' ho => hl.map fun b b' hb => (ha.app ho).app hb

theorem alike_vals {cv cv' : List (Guid × UInt32)} {k : String} {p q : Property}
    {l m : List Property} (h : Alike (Property.write cv true p) (Property.write cv' true q))
    (hl : Alike (writeFieldVals cv k l) (writeFieldVals cv' k m)) :
    Alike (writeFieldVals cv k (p :: l)) (writeFieldVals cv' k (q :: m)) := by
  rw [writeFieldVals, writeFieldVals]
  exact h.bind fun o o' ho => hl.map fun b b' hb => ((SameSize.refl _).app ho).app hb

theorem alike_fields {cv cv' : List (Guid × UInt32)} {k : String} {p q : List Property}
    {l m : List (String × List Property)}
    (h : Alike (writeFieldVals cv k p) (writeFieldVals cv' k q))
    (hl : Alike (writeFields cv l) (writeFields cv' m)) :
    Alike (writeFields cv ((k, p) :: l)) (writeFields cv' ((k, q) :: m)) := by
  rw [writeFields, writeFields]
  exact h.bind fun o o' ho => hl.map fun b b' hb => ho.app hb

theorem alike_list {cv cv' : List (Guid × UInt32)} {p q : Property}
    {l m : List Property} (h : Alike (Property.write cv false p) (Property.write cv' false q))
    (hl : Alike (writeList cv l) (writeList cv' m)) :
    Alike (writeList cv (p :: l)) (writeList cv' (q :: m)) := by
  rw [writeList, writeList]
  exact h.bind fun o o' ho => hl.map fun b b' hb => ho.app hb

theorem alike_structs {cv cv' : List (Guid × UInt32)} {p q : StructPropertyValue}
    {l m : List StructPropertyValue} (h : Alike (p.writeBody cv) (q.writeBody cv'))
    (hl : Alike (writeStructs cv l) (writeStructs cv' m)) :
    Alike (writeStructs cv (p :: l)) (writeStructs cv' (q :: m)) := by
  rw [writeStructs, writeStructs]
  exact h.bind fun o o' ho => hl.map fun b b' hb => ho.app hb

theorem alike_args {cv cv' : List (Guid × UInt32)} {p q : FormatArgumentValue}
    {l m : List FormatArgumentValue} (h : Alike (p.write cv) (q.write cv'))
    (hl : Alike (writeArgs cv l) (writeArgs cv' m)) :
    Alike (writeArgs cv (p :: l)) (writeArgs cv' (q :: m)) := by
  rw [writeArgs, writeArgs]
  exact h.bind fun o o' ho => hl.map fun b b' hb => ho.app hb

theorem alike_named {cv cv' : List (Guid × UInt32)} {k : String} {p q : FormatArgumentValue}
    {l m : List (String × FormatArgumentValue)} (h : Alike (p.write cv) (q.write cv'))
    (hl : Alike (writeNamedArgs cv l) (writeNamedArgs cv' m)) :
    Alike (writeNamedArgs cv ((k, p) :: l)) (writeNamedArgs cv' ((k, q) :: m)) := by
  rw [writeNamedArgs, writeNamedArgs]
  exact h.bind fun o o' ho => hl.map fun b b' hb => ((SameSize.refl _).app ho).app hb

theorem size_structArray (n n' : Nat) (f t : String) (g g' : Guid) {o o' : Out} (h : SameSize o o') :
    SameSize (structArrayBody n f t g o) (structArrayBody n' f t g' o') := by
  simp only [SameSize, structArrayBody, List.length_append, u32B_length, u64B_length, u8B_length,
    guidB_length] at *
  omega

/-- Closes goals about two ways to write the same thing. -/
local macro "alike_ok" : tactic => `(tactic| exact Alike.ok (by simp [SameSize]))

/-! ## Normalised floats -/

mutual
theorem text_alike {cv cv' : List (Guid × UInt32)} (hv : SameVersions cv cv') :
    ∀ t : FText, Alike ((normText t).write cv) (t.write cv')
  | .mk f h => by
    rw [normText, FText.write, FText.write]
    exact (history_alike hv h).map fun o o' ho => (SameSize.refl _).app ho
theorem history_alike {cv cv' : List (Guid × UInt32)} (hv : SameVersions cv cv') :
    ∀ t : FTextHistory, Alike ((normHistory t).write cv) (t.write cv')
  | .empty => by
    simp only [normHistory, FTextHistory.write, hv.2.2]; exact .refl _
  | .none s => by
    simp only [normHistory, FTextHistory.write, hv.2.2]; exact .refl _
  | .base .. => .refl _
  | .asDate .. => .refl _
  | .asTime .. => .refl _
  | .asDateTime .. => .refl _
  | .stringTableEntry .. => .refl _
  | .namedFormat src args => by
    rw [normHistory, FTextHistory.write, FTextHistory.write]
    exact (text_alike hv src).bind fun o o' ho => (named_alike hv args).map fun b b' hb =>
      (((SameSize.refl _).app ho).app (size_i32 ..)).app hb
  | .argumentFormat src args => by
    rw [normHistory, FTextHistory.write, FTextHistory.write]
    exact (text_alike hv src).bind fun o o' ho => (named_alike hv args).map fun b b' hb =>
      (((SameSize.refl _).app ho).app (size_i32 ..)).app hb
  | .orderedFormat src args => by
    rw [normHistory, FTextHistory.write, FTextHistory.write]
    exact (text_alike hv src).bind fun o o' ho => (args_alike hv args).map fun b b' hb =>
      (((SameSize.refl _).app ho).app (size_i32 ..)).app hb
  | .asNumber v _ _ => by
    rw [normHistory, FTextHistory.write, FTextHistory.write]
    exact (arg_alike hv v).map fun o o' ho =>
      (((SameSize.refl _).app ho).app (.refl _)).app (.refl _)
  | .asPercent v _ _ => by
    rw [normHistory, FTextHistory.write, FTextHistory.write]
    exact (arg_alike hv v).map fun o o' ho =>
      (((SameSize.refl _).app ho).app (.refl _)).app (.refl _)
  | .asCurrency _ v _ _ => by
    rw [normHistory, FTextHistory.write, FTextHistory.write]
    exact (arg_alike hv v).map fun o o' ho =>
      (((SameSize.refl _).app ho).app (.refl _)).app (.refl _)
  | .transform src _ => by
    rw [normHistory, FTextHistory.write, FTextHistory.write]
    exact (text_alike hv src).map fun o o' ho => ((SameSize.refl _).app ho).app (.refl _)
theorem arg_alike {cv cv' : List (Guid × UInt32)} (hv : SameVersions cv cv') :
    ∀ v : FormatArgumentValue, Alike ((normArg v).write cv) (v.write cv')
  | .text t => by
    rw [normArg, FormatArgumentValue.write, FormatArgumentValue.write]
    exact (text_alike hv t).map fun o o' ho => (SameSize.refl _).app ho
  | .int _ => by simp only [normArg, FormatArgumentValue.write, hv.2.1]; exact .refl _
  | .uint _ => by simp only [normArg, FormatArgumentValue.write, hv.2.1]; exact .refl _
  | .float _ => by alike_ok
  | .double _ => by alike_ok
  | .int64 _ => by simp only [normArg, FormatArgumentValue.write, hv.2.1]; exact .refl _
  | .uint64 _ => by simp only [normArg, FormatArgumentValue.write, hv.2.1]; exact .refl _
theorem args_alike {cv cv' : List (Guid × UInt32)} (hv : SameVersions cv cv') :
    ∀ l, Alike (writeArgs cv (normArgs l)) (writeArgs cv' l)
  | [] => .refl _
  | v :: l => alike_args (arg_alike hv v) (args_alike hv l)
theorem named_alike {cv cv' : List (Guid × UInt32)} (hv : SameVersions cv cv') :
    ∀ l, Alike (writeNamedArgs cv (normNamedArgs l)) (writeNamedArgs cv' l)
  | [] => .refl _
  | (_, v) :: l => alike_named (arg_alike hv v) (named_alike hv l)
end

theorem normArray_type (v : ArrayProperty) : (normArray v).propertyType = v.propertyType := by
  cases v <;> rfl
theorem normMap_key (v : MapProperty) : (normMap v).keyType = v.keyType := by
  cases v <;> rfl
theorem normMap_value (v : MapProperty) : (normMap v).valueType = v.valueType := by
  cases v <;> rfl

theorem pairs_map_left {α β : Type} {r : β → α → Prop} (f : α → β) (h : ∀ a, r (f a) a) :
    ∀ l : List α, Pairs r (l.map f) l
  | [] => .nil
  | a :: l => .cons (h a) (pairs_map_left f h l)

mutual
theorem prop_alike {cv cv' : List (Guid × UInt32)} (hv : SameVersions cv cv') (h : Bool) :
    ∀ p : Property, Alike ((norm p).write cv h) (p.write cv' h)
  | .array v => by
    rw [norm, Property.write, Property.write, normArray_type]
    exact (array_alike hv v).map fun o o' ho => (SameSize.refl _).headed ho
  | .map v => by
    rw [norm, Property.write, Property.write, normMap_key, normMap_value]
    exact (map_alike hv v).map fun o o' ho => (SameSize.refl _).headed ho
  | .set _ _ ps => by
    rw [norm, Property.write, Property.write]
    exact (props_alike hv ps).map fun o o' ho => (SameSize.refl _).headed
      (((SameSize.refl _).app (size_u32 ..)).app ho)
  | .struct _ _ v => by
    rw [norm, Property.write, Property.write]
    exact (struct_alike hv v).map fun o o' ho => (SameSize.refl _).headed ho
  | .structValue v => by
    rw [norm, Property.write, Property.write]
    cases h
    · exact struct_alike hv v
    · rfl
  | .text t => by
    rw [norm, Property.write, Property.write]
    exact (text_alike hv t).map fun o o' ho => (SameSize.refl _).headed ho
  | .double _ => Alike.ok ((SameSize.refl _).headed (by simp [SameSize]))
  | .float _ => Alike.ok ((SameSize.refl _).headed (by simp [SameSize]))
  | .bool _ => .refl _
  | .byte .. => .refl _
  | .enum .. => .refl _
  | .int16 _ => .refl _
  | .int64 _ => .refl _
  | .int8 _ => .refl _
  | .int _ => .refl _
  | .name .. => .refl _
  | .object _ => .refl _
  | .delegate _ => .refl _
  | .multicastInlineDelegate _ => .refl _
  | .multicastSparseDelegate _ => .refl _
  | .fieldPath _ => .refl _
  | .str _ => .refl _
  | .uint16 _ => .refl _
  | .uint32 _ => .refl _
  | .uint64 _ => .refl _
  | .unknown .. => .refl _
theorem array_alike {cv cv' : List (Guid × UInt32)} (hv : SameVersions cv cv') :
    ∀ v : ArrayProperty, Alike ((normArray v).writeBody cv) (v.writeBody cv')
  | .floats l => by
    rw [normArray, ArrayProperty.writeBody, ArrayProperty.writeBody]
    exact Alike.ok ((size_u32 ..).app (.concat (pairs_map_left _ (fun a => by simp [SameSize]) l)))
  | .structs _ _ _ l => by
    rw [normArray, ArrayProperty.writeBody, ArrayProperty.writeBody]
    exact (structs_alike hv l).map fun o o' ho => size_structArray _ _ _ _ _ _ ho
  | .properties _ l => by
    rw [normArray, ArrayProperty.writeBody, ArrayProperty.writeBody]
    exact (props_alike hv l).map fun o o' ho => (size_u32 ..).app ho
  | .bools _ => .refl _
  | .bytes _ => .refl _
  | .enums _ => .refl _
  | .ints _ => .refl _
  | .names _ => .refl _
  | .strings _ => .refl _
theorem map_alike {cv cv' : List (Guid × UInt32)} (hv : SameVersions cv cv') :
    ∀ v : MapProperty, Alike ((normMap v).writeBody cv) (v.writeBody cv')
  | .enumProperty _ l => by
    rw [normMap, MapProperty.writeBody, MapProperty.writeBody]
    exact (strs_alike hv l).map fun o o' ho => (size_mapHead ..).app ho
  | .nameProperty _ l => by
    rw [normMap, MapProperty.writeBody, MapProperty.writeBody]
    exact (strs_alike hv l).map fun o o' ho => (size_mapHead ..).app ho
  | .strProperty _ l => by
    rw [normMap, MapProperty.writeBody, MapProperty.writeBody]
    exact (strs_alike hv l).map fun o o' ho => (size_mapHead ..).app ho
  | .properties _ _ _ l => by
    rw [normMap, MapProperty.writeBody, MapProperty.writeBody]
    exact (pairs_alike hv l).map fun o o' ho => (size_mapHead ..).app ho
  | .enumBool _ => .refl _
  | .enumInt _ => .refl _
  | .nameBool _ => .refl _
  | .nameInt _ => .refl _
  | .strBool _ => .refl _
  | .strInt _ => .refl _
  | .strStr _ => .refl _
theorem struct_alike {cv cv' : List (Guid × UInt32)} (hv : SameVersions cv cv') :
    ∀ v : StructPropertyValue, Alike ((normStruct v).writeBody cv) (v.writeBody cv')
  | .vector2F _ _ => by exact alike_writeIf (by rw [hv.1]) (by simp [SameSize])
  | .vector2D _ _ => by exact alike_writeIf (by rw [hv.1]) (by simp [SameSize])
  | .vectorF _ _ _ => by exact alike_writeIf (by rw [hv.1]) (by simp [SameSize])
  | .vectorD _ _ _ => by exact alike_writeIf (by rw [hv.1]) (by simp [SameSize])
  | .rotatorF _ _ _ => by exact alike_writeIf (by rw [hv.1]) (by simp [SameSize])
  | .rotatorD _ _ _ => by exact alike_writeIf (by rw [hv.1]) (by simp [SameSize])
  | .quatF _ _ _ _ => by exact alike_writeIf (by rw [hv.1]) (by simp [SameSize])
  | .quatD _ _ _ _ => by exact alike_writeIf (by rw [hv.1]) (by simp [SameSize])
  | .linearColor .. => by alike_ok
  | .dateTime _ => .refl _
  | .timespan _ => .refl _
  | .guid _ => .refl _
  | .intPoint .. => .refl _
  | .gameplayTagContainer _ => .refl _
  | .customStruct fs => by
    rw [normStruct, StructPropertyValue.writeBody, StructPropertyValue.writeBody]
    exact (fields_alike hv fs).map fun o o' ho => ho.app (.refl _)
theorem props_alike {cv cv' : List (Guid × UInt32)} (hv : SameVersions cv cv') :
    ∀ l, Alike (writeList cv (normProps l)) (writeList cv' l)
  | [] => .refl _
  | p :: l => alike_list (prop_alike hv false p) (props_alike hv l)
theorem structs_alike {cv cv' : List (Guid × UInt32)} (hv : SameVersions cv cv') :
    ∀ l, Alike (writeStructs cv (normStructs l)) (writeStructs cv' l)
  | [] => .refl _
  | p :: l => alike_structs (struct_alike hv p) (structs_alike hv l)
theorem strs_alike {cv cv' : List (Guid × UInt32)} (hv : SameVersions cv cv') :
    ∀ l, Alike (writeStrProps cv (normStrProps l)) (writeStrProps cv' l)
  | [] => .refl _
  | (_, p) :: l => alike_strs (prop_alike hv false p) (strs_alike hv l)
theorem pairs_alike {cv cv' : List (Guid × UInt32)} (hv : SameVersions cv cv') :
    ∀ l, Alike (writePairs cv (normPairs l)) (writePairs cv' l)
  | [] => .refl _
  | (k, p) :: l => alike_pairs (prop_alike hv false k) (prop_alike hv false p) (pairs_alike hv l)
theorem fields_alike {cv cv' : List (Guid × UInt32)} (hv : SameVersions cv cv') :
    ∀ l, Alike (writeFields cv (normFields l)) (writeFields cv' l)
  | [] => .refl _
  | (k, ps) :: l => alike_fields (vals_alike hv k ps) (fields_alike hv l)
theorem vals_alike {cv cv' : List (Guid × UInt32)} (hv : SameVersions cv cv') (k : String) :
    ∀ l, Alike (writeFieldVals cv k (normProps l)) (writeFieldVals cv' k l)
  | [] => .refl _
  | p :: l => alike_vals (prop_alike hv true p) (vals_alike hv k l)
end

/-! ## Equal values -/

theorem tree_like {cv cv' : List (Guid × UInt32)} (hv : SameVersions cv cv') (h : Bool)
    {a b : Property} (e : a.tree = b.tree) : Alike (a.write cv h) (b.write cv' h) := by
  have h1 := prop_alike ⟨rfl, rfl, rfl⟩ h (cv := cv) (cv' := cv) a
  have h2 := prop_alike hv h b
  rw [(tree_eq_iff a b).mp e] at h1
  exact h1.symm.trans h2

theorem array_tree_like {cv cv' : List (Guid × UInt32)} (hv : SameVersions cv cv')
    {a b : ArrayProperty} (e : a.tree = b.tree) : Alike (a.writeBody cv) (b.writeBody cv') := by
  have h1 := array_alike (cv := cv) (cv' := cv) ⟨rfl, rfl, rfl⟩ a
  have h2 := array_alike hv b
  have := (tree_eq_iff (.array a) (.array b)).mp (by rw [Property.tree, Property.tree, e])
  rw [norm, norm, Property.array.injEq] at this
  rw [this] at h1
  exact h1.symm.trans h2

theorem struct_tree_like {cv cv' : List (Guid × UInt32)} (hv : SameVersions cv cv')
    {a b : StructPropertyValue} (e : a.tree = b.tree) :
    Alike (a.writeBody cv) (b.writeBody cv') := by
  have h1 := struct_alike (cv := cv) (cv' := cv) ⟨rfl, rfl, rfl⟩ a
  have h2 := struct_alike hv b
  have := (tree_eq_iff (.structValue a) (.structValue b)).mp (by rw [Property.tree, Property.tree, e])
  rw [norm, norm, Property.structValue.injEq] at this
  rw [this] at h1
  exact h1.symm.trans h2

theorem history_tree_like {cv cv' : List (Guid × UInt32)} (hv : SameVersions cv cv')
    {a b : FTextHistory} (e : a.tree = b.tree) : Alike (a.write cv) (b.write cv') := by
  have h1 := history_alike (cv := cv) (cv' := cv) ⟨rfl, rfl, rfl⟩ a
  have h2 := history_alike hv b
  have := (tree_eq_iff (.text (.mk 0 a)) (.text (.mk 0 b))).mp
    (by rw [Property.tree, Property.tree, FText.tree, FText.tree, e])
  rw [norm, norm, normText, normText, Property.text.injEq, FText.mk.injEq] at this
  rw [this.2] at h1
  exact h1.symm.trans h2

theorem arg_tree_like {cv cv' : List (Guid × UInt32)} (hv : SameVersions cv cv')
    {a b : FormatArgumentValue} (e : a.tree = b.tree) : Alike (a.write cv) (b.write cv') := by
  have h1 := arg_alike (cv := cv) (cv' := cv) ⟨rfl, rfl, rfl⟩ a
  have h2 := arg_alike hv b
  have := (tree_eq_iff (.text (.mk 0 (.orderedFormat (.mk 0 .empty) [a])))
    (.text (.mk 0 (.orderedFormat (.mk 0 .empty) [b])))).mp
    (by simp only [Property.tree, FText.tree, FTextHistory.tree, treeArgs, e])
  simp only [norm, normText, normHistory, normArgs, Property.text.injEq, FText.mk.injEq,
    FTextHistory.orderedFormat.injEq, List.cons.injEq, and_true, true_and] at this
  rw [this] at h1
  exact h1.symm.trans h2

theorem leaf_like {cv cv' : List (Guid × UInt32)} (hv : SameVersions cv cv') (h : Bool)
    {a b : Property} {ts : List Tok} (e : (Tree.leaf ts).eqv b.tree = true)
    (ha : a.tree = .leaf ts := by rfl) : Alike (a.write cv h) (b.write cv' h) :=
  tree_like hv h (by rw [eqv_leaf e, ha])

theorem named_perm (cv : List (Guid × UInt32)) {l m : List (String × FormatArgumentValue)}
    (h : l.Perm m) : Alike (writeNamedArgs cv l) (writeNamedArgs cv m) := by
  refine alike_loop_perm (fun e => e.2.write cv >>= fun a => pure (writeString e.1 ++ a)) _ ?_ h
  rintro ⟨k, v⟩ l
  rw [writeNamedArgs]
  cases v.write cv <;> rfl

theorem strs_perm (cv : List (Guid × UInt32)) {l m : List (String × Property)}
    (h : l.Perm m) : Alike (writeStrProps cv l) (writeStrProps cv m) := by
  refine alike_loop_perm (fun e => e.2.write cv false >>= fun a => pure (writeString e.1 ++ a)) _
    ?_ h
  rintro ⟨k, v⟩ l
  rw [writeStrProps]
  cases v.write cv false <;> rfl

theorem pairs_perm (cv : List (Guid × UInt32)) {l m : List (Property × Property)}
    (h : l.Perm m) : Alike (writePairs cv l) (writePairs cv m) := by
  refine alike_loop_perm (fun e => e.1.write cv false >>= fun a => e.2.write cv false >>=
    fun b => pure (a ++ b)) _ ?_ h
  rintro ⟨k, v⟩ l
  rw [writePairs]
  cases k.write cv false <;> cases v.write cv false <;> rfl

theorem fields_perm (cv : List (Guid × UInt32)) {l m : List (String × List Property)}
    (h : l.Perm m) : Alike (writeFields cv l) (writeFields cv m) := by
  refine alike_loop_perm (fun e => writeFieldVals cv e.1 e.2) _ ?_ h
  rintro ⟨k, v⟩ l
  rw [writeFields]
  exact .refl _

theorem top_perm (cv : List (Guid × UInt32)) {l m : List (String × Property)}
    (h : l.Perm m) : Alike (writeTop cv l) (writeTop cv m) := by
  refine alike_loop_perm (fun e => e.2.write cv true >>= fun a => pure (writeString e.1 ++ a)) _
    ?_ h
  rintro ⟨k, v⟩ l
  rw [writeTop]
  cases v.write cv true <;> rfl

theorem treeNamedArgs_map (l : List (String × FormatArgumentValue)) :
    treeNamedArgs l = l.map fun e => ([Tok.s e.1], e.2.tree) := by
  induction l with
  | nil => rfl
  | cons e l ih => rw [treeNamedArgs, ih]; rfl

theorem named_iff {l m : List (String × FormatArgumentValue)} (hl : KeysDistinct l)
    (hm : KeysDistinct m) :
    (Tree.umap (treeNamedArgs l)).eqv (.umap (treeNamedArgs m)) = true ↔
      ∃ p, p.Perm m ∧ Pairs (fun a b => a.1 = b.1 ∧ a.2.tree.eqv b.2.tree = true) l p := by
  rw [treeNamedArgs_map, treeNamedArgs_map, umap_iff]
  · constructor <;> rintro ⟨p, hp, hq⟩ <;> refine ⟨p, hp, pairs_imp ?_ hq⟩ <;>
      rintro a b ⟨h1, h2⟩ <;> exact ⟨by simpa using h1, h2⟩
  · have := nodup_str hl; rwa [List.map_map] at this
  · have := nodup_str hm; rwa [List.map_map] at this

/-- Equal maps with string keys and flat values are reorderings. -/
theorem leafMap_alike {α : Type} (f : α → List Tok) (w : α → Out)
    (hw : ∀ a b, f a = f b → SameSize (w a) (w b)) {l m : List (String × α)}
    (hl : KeysDistinct l) (hm : KeysDistinct m)
    (h : (Tree.umap (l.map fun e => ([Tok.s e.1], Tree.leaf (f e.2)))).eqv
      (.umap (m.map fun e => ([Tok.s e.1], Tree.leaf (f e.2)))) = true) :
    SameSize (mapHead 0 l.length ++ concatOut (fun e => writeString e.1 ++ w e.2) l)
      (mapHead 0 m.length ++ concatOut (fun e => writeString e.1 ++ w e.2) m) := by
  rw [umap_iff (fun e : String × α => [Tok.s e.1]) (fun e : String × α => [Tok.s e.1])
    (fun e => .leaf (f e.2)) (fun e => .leaf (f e.2))] at h
  · obtain ⟨p, hp, hq⟩ := h
    refine (size_mapHead ..).app (.trans (.concat (pairs_imp ?_ hq)) (.concat_perm _ hp))
    rintro a b ⟨h1, h2⟩
    rw [List.cons.injEq, Tok.s.injEq] at h1
    rw [h1.1]
    exact (SameSize.refl _).app (hw _ _ ((eqv_leaf_iff _ _).mp h2))
  · have := nodup_str hl; rwa [List.map_map] at this
  · have := nodup_str hm; rwa [List.map_map] at this

theorem size_feedOpt (a b : Option String) (h : feedOpt a = feedOpt b) :
    SameSize (writeFString a) (writeFString b) := by
  cases a <;> cases b <;> simp [feedOpt] at h
  · exact .refl _
  · rw [h]; exact .refl _

theorem namedMaps_iff (l : List (String × FormatArgumentValue)) :
    NamedArgsMaps l ↔ ∀ e ∈ l, ArgMaps e.2 := by
  induction l with
  | nil => simp [NamedArgsMaps]
  | cons e l ih => simp [NamedArgsMaps, ih]

theorem namedMaps_perm {l m : List (String × FormatArgumentValue)} (h : l.Perm m)
    (hl : NamedArgsMaps l) : NamedArgsMaps m := by
  rw [namedMaps_iff] at *
  exact fun e he => hl e (h.mem_iff.mpr he)

theorem valuesMaps_iff (l : List (String × Property)) :
    ValuesMaps l ↔ ∀ e ∈ l, MapsDistinct e.2 := by
  induction l with
  | nil => simp [ValuesMaps]
  | cons e l ih => simp [ValuesMaps, ih]

theorem valuesMaps_perm {l m : List (String × Property)} (h : l.Perm m)
    (hl : ValuesMaps l) : ValuesMaps m := by
  rw [valuesMaps_iff] at *
  exact fun e he => hl e (h.mem_iff.mpr he)

theorem entriesMaps_iff (l : List (Property × Property)) :
    EntriesMaps l ↔ ∀ e ∈ l, MapsDistinct e.1 ∧ MapsDistinct e.2 := by
  induction l with
  | nil => simp [EntriesMaps]
  | cons e l ih => simp [EntriesMaps, ih, and_assoc]

theorem entriesMaps_perm {l m : List (Property × Property)} (h : l.Perm m)
    (hl : EntriesMaps l) : EntriesMaps m := by
  rw [entriesMaps_iff] at *
  exact fun e he => hl e (h.mem_iff.mpr he)

theorem fieldsMaps_iff (l : List (String × List Property)) :
    FieldsMaps l ↔ ∀ e ∈ l, PropsMaps e.2 := by
  induction l with
  | nil => simp [FieldsMaps]
  | cons e l ih => simp [FieldsMaps, ih]

theorem fieldsMaps_perm {l m : List (String × List Property)} (h : l.Perm m)
    (hl : FieldsMaps l) : FieldsMaps m := by
  rw [fieldsMaps_iff] at *
  exact fun e he => hl e (h.mem_iff.mpr he)

theorem options_inj {o o' : Option NumberFormattingOptions} {c c' : Option String}
    (h : feedFormatOptions o = feedFormatOptions o') (h' : feedOpt c = feedOpt c') :
    o = o' ∧ c = c' := by
  have := (tree_eq_iff (.text (.mk 0 (.asNumber (.int 0) o c)))
    (.text (.mk 0 (.asNumber (.int 0) o' c')))).mp
    (by simp only [Property.tree, FText.tree, FTextHistory.tree, h, h'])
  simpa only [norm, normText, normHistory, normArg, Property.text.injEq, FText.mk.injEq,
    FTextHistory.asNumber.injEq, and_true, true_and] using this

mutual
theorem text_like {cv cv' : List (Guid × UInt32)} (hv : SameVersions cv cv') :
    ∀ a b : FText, TextMaps a → TextMaps b → a.tree.eqv b.tree = true →
      Alike (a.write cv) (b.write cv')
  | .mk f h, .mk f' h', ha, hb, he => by
    simp only [FText.tree, eqv_node_iff, eqvList_cons_iff, eqv_leaf_iff] at he
    rw [FText.write, FText.write]
    exact (history_like hv h h' ha hb he.2.1).map fun o o' ho =>
      SameSize.app (by simp [SameSize]) ho
theorem history_like {cv cv' : List (Guid × UInt32)} (hv : SameVersions cv cv') :
    ∀ a b : FTextHistory, HistoryMaps a → HistoryMaps b → a.tree.eqv b.tree = true →
      Alike (a.write cv) (b.write cv')
  | .empty, b, _, _, e => history_tree_like hv (eqv_leaf e).symm
  | .none .., b, _, _, e => history_tree_like hv (eqv_leaf e).symm
  | .base .., b, _, _, e => history_tree_like hv (eqv_leaf e).symm
  | .asDate .., b, _, _, e => history_tree_like hv (eqv_leaf e).symm
  | .asTime .., b, _, _, e => history_tree_like hv (eqv_leaf e).symm
  | .asDateTime .., b, _, _, e => history_tree_like hv (eqv_leaf e).symm
  | .stringTableEntry .., b, _, _, e => history_tree_like hv (eqv_leaf e).symm
  | .namedFormat src args, b, ha, hb, he => by
    cases b <;> try (exfalso; revert he; simp [FTextHistory.tree, Tree.eqv, eqvList]; done)
    simp only [FTextHistory.tree, eqv_node_iff, eqvList_cons_iff] at he
    rename_i src' args'
    obtain ⟨p, hp, hq⟩ := (named_iff ha.2.1 hb.2.1).mp he.2.2.1
    rw [FTextHistory.write, FTextHistory.write]
    refine (text_like hv src src' ha.1 hb.1 he.2.1).bind fun o o' ho =>
      ((named_like hv args p ha.2.2 (namedMaps_perm hp.symm hb.2.2) hq).trans (named_perm cv' hp)).map
        fun q q' hqq => ?_
    exact (((SameSize.refl _).app ho).app (size_i32 ..)).app hqq
  | .argumentFormat src args, b, ha, hb, he => by
    cases b <;> try (exfalso; revert he; simp [FTextHistory.tree, Tree.eqv, eqvList]; done)
    simp only [FTextHistory.tree, eqv_node_iff, eqvList_cons_iff] at he
    rename_i src' args'
    obtain ⟨p, hp, hq⟩ := (named_iff ha.2.1 hb.2.1).mp he.2.2.1
    rw [FTextHistory.write, FTextHistory.write]
    refine (text_like hv src src' ha.1 hb.1 he.2.1).bind fun o o' ho =>
      ((named_like hv args p ha.2.2 (namedMaps_perm hp.symm hb.2.2) hq).trans (named_perm cv' hp)).map
        fun q q' hqq => ?_
    exact (((SameSize.refl _).app ho).app (size_i32 ..)).app hqq
  | .orderedFormat src args, b, ha, hb, he => by
    cases b <;> simp [FTextHistory.tree, Tree.eqv, eqvList] at he
    rename_i src' args'
    rw [FTextHistory.write, FTextHistory.write]
    refine (text_like hv src src' ha.1 hb.1 he.1).bind fun o o' ho =>
      (args_like hv args args' ha.2 hb.2 he.2).map fun q q' hqq => ?_
    exact (((SameSize.refl _).app ho).app (size_i32 ..)).app hqq
  | .asNumber v o c, b, ha, hb, he => by
    cases b <;> simp [FTextHistory.tree, Tree.eqv, eqvList] at he
    rename_i v' o' c'
    obtain ⟨rfl, rfl⟩ := options_inj he.2.1 he.2.2
    rw [FTextHistory.write, FTextHistory.write]
    exact (arg_like hv v v' ha hb he.1).map fun o o' ho =>
      (((SameSize.refl _).app ho).app (.refl _)).app (.refl _)
  | .asPercent v o c, b, ha, hb, he => by
    cases b <;> simp [FTextHistory.tree, Tree.eqv, eqvList] at he
    rename_i v' o' c'
    obtain ⟨rfl, rfl⟩ := options_inj he.2.1 he.2.2
    rw [FTextHistory.write, FTextHistory.write]
    exact (arg_like hv v v' ha hb he.1).map fun o o' ho =>
      (((SameSize.refl _).app ho).app (.refl _)).app (.refl _)
  | .asCurrency k v o c, b, ha, hb, he => by
    cases b <;> simp [FTextHistory.tree, Tree.eqv, eqvList] at he
    rename_i k' v' o' c'
    obtain ⟨rfl, rfl⟩ := options_inj he.2.2.1 he.2.2.2
    rw [FTextHistory.write, FTextHistory.write]
    exact (arg_like hv v v' ha hb he.2.1).map fun o o' ho =>
      ((((SameSize.refl _).app (size_feedOpt _ _ he.1)).app ho).app (.refl _)).app (.refl _)
  | .transform src tt, b, ha, hb, he => by
    cases b <;> simp [FTextHistory.tree, Tree.eqv, eqvList] at he
    rw [FTextHistory.write, FTextHistory.write]
    exact (text_like hv src _ ha hb he.1).map fun o o' ho =>
      ((SameSize.refl _).app ho).app (by simp [SameSize])
theorem arg_like {cv cv' : List (Guid × UInt32)} (hv : SameVersions cv cv') :
    ∀ a b : FormatArgumentValue, ArgMaps a → ArgMaps b → a.tree.eqv b.tree = true →
      Alike (a.write cv) (b.write cv')
  | .text t, b, ha, hb, he => by
    cases b <;> simp [FormatArgumentValue.tree, Tree.eqv, eqvList] at he
    rw [FormatArgumentValue.write, FormatArgumentValue.write]
    exact (text_like hv t _ ha hb he).map fun o o' ho => (SameSize.refl _).app ho
  | .int _, b, _, _, e => arg_tree_like hv (eqv_leaf e).symm
  | .uint _, b, _, _, e => arg_tree_like hv (eqv_leaf e).symm
  | .float _, b, _, _, e => arg_tree_like hv (eqv_leaf e).symm
  | .double _, b, _, _, e => arg_tree_like hv (eqv_leaf e).symm
  | .int64 _, b, _, _, e => arg_tree_like hv (eqv_leaf e).symm
  | .uint64 _, b, _, _, e => arg_tree_like hv (eqv_leaf e).symm
theorem args_like {cv cv' : List (Guid × UInt32)} (hv : SameVersions cv cv') :
    ∀ a b : List FormatArgumentValue, ArgsMaps a → ArgsMaps b →
      eqvList (treeArgs a) (treeArgs b) = true → Alike (writeArgs cv a) (writeArgs cv' b)
  | [], b, _, _, he => by cases b <;> simp [treeArgs, eqvList] at he; exact .refl _
  | v :: l, b, ha, hb, he => by
    cases b <;> simp [treeArgs, eqvList] at he
    exact alike_args (arg_like hv v _ ha.1 hb.1 he.1) (args_like hv l _ ha.2 hb.2 he.2)
theorem named_like {cv cv' : List (Guid × UInt32)} (hv : SameVersions cv cv') :
    ∀ a b : List (String × FormatArgumentValue), NamedArgsMaps a → NamedArgsMaps b →
      Pairs (fun a b => a.1 = b.1 ∧ a.2.tree.eqv b.2.tree = true) a b →
      Alike (writeNamedArgs cv a) (writeNamedArgs cv' b)
  | [], b, _, _, he => by cases he; exact .refl _
  | (k, v) :: l, b, ha, hb, he => by
    cases he with
    | @cons _ b _ bs h1 h2 =>
      obtain ⟨k', v'⟩ := b
      obtain ⟨rfl, h1⟩ := h1
      exact alike_named (arg_like hv v _ ha.1 hb.1 h1) (named_like hv l _ ha.2 hb.2 h2)
end

theorem pairTree_umap {l : List (Property × Property)} (h : l.length ≠ 1) :
    pairTree (treeKeys l) (treePairs l) = .umap (treePairs l) := by
  rcases l with _ | ⟨a, _ | ⟨b, l⟩⟩
  · rfl
  · exact absurd rfl h
  · rfl

theorem pairs_iff {l m : List (Property × Property)}
    (hl : (l.map Prod.fst).Pairwise fun a b => sameKey a b = false)
    (hm : (m.map Prod.fst).Pairwise fun a b => sameKey a b = false) (hd : EntriesMaps m) :
    (pairTree (treeKeys l) (treePairs l)).eqv (pairTree (treeKeys m) (treePairs m)) = true ↔
      ∃ p, p.Perm m ∧ Pairs (fun a b =>
        (a.1.feed = b.1.feed ∨ l.length = 1 ∧ a.1.tree.eqv b.1.tree = true) ∧
          a.2.tree.eqv b.2.tree = true) l p := by
  have hn : ∀ {r : Property × Property → Property × Property → Prop},
      (∃ p, p.Perm m ∧ Pairs r l p) → l.length = m.length := fun ⟨p, hp, hq⟩ => by
    rw [← hp.length_eq, (pairs_mem hq).1]
  by_cases h1 : l.length = 1 <;> by_cases h2 : m.length = 1
  · obtain ⟨⟨k, v⟩, rfl⟩ := List.length_eq_one_iff.mp h1
    obtain ⟨⟨k', v'⟩, rfl⟩ := List.length_eq_one_iff.mp h2
    simp only [treeKeys, treePairs, pairTree, eqv_node_iff, eqvList_cons_iff, eqv_leaf_iff, true_and,
      eqvList_nil, and_true, List.perm_singleton, exists_eq_left, List.length_cons, List.length_nil]
    constructor
    · exact fun h => .cons ⟨.inr h.1, h.2⟩ .nil
    · intro h
      cases h with
      | cons h _ =>
        refine ⟨h.1.elim (fun h => ?_) id, h.2⟩
        rw [(tree_eq_iff k k').mpr ((sameKey_iff _ _).mp (by rw [sameKey, beq_iff_eq, h]))]
        exact Tree.eqv_refl _ (prop_distinct _ hd.1)
  · refine iff_of_false ?_ fun h => h2 (hn h ▸ h1)
    rw [pairTree_umap h2]
    obtain ⟨⟨k, v⟩, rfl⟩ := List.length_eq_one_iff.mp h1
    simp [treeKeys, treePairs, pairTree, Tree.eqv]
  · refine iff_of_false ?_ fun h => h1 (hn h ▸ h2)
    rw [pairTree_umap h1]
    obtain ⟨⟨k, v⟩, rfl⟩ := List.length_eq_one_iff.mp h2
    simp [treeKeys, treePairs, pairTree, Tree.eqv]
  · rw [pairTree_umap h1, pairTree_umap h2, treePairs_map, treePairs_map, umap_iff]
    · simp only [h1, false_and, or_false]
    · have := pairs_nodup hl; rwa [treePairs_map, List.map_map] at this
    · have := pairs_nodup hm; rwa [treePairs_map, List.map_map] at this

theorem pairs_eqv {l m : List (Property × Property)}
    (hl : (l.map Prod.fst).Pairwise fun a b => sameKey a b = false)
    (hm : (m.map Prod.fst).Pairwise fun a b => sameKey a b = false) (hd : EntriesMaps m)
    (h : (pairTree (treeKeys l) (treePairs l)).eqv (pairTree (treeKeys m) (treePairs m)) = true) :
    ∃ p, p.Perm m ∧ EntriesMaps p ∧ Pairs (fun a b => a.1.tree.eqv b.1.tree = true ∧
      a.2.tree.eqv b.2.tree = true) l p := by
  obtain ⟨p, hp, hq⟩ := (pairs_iff hl hm hd).mp h
  have hd := entriesMaps_perm hp.symm hd
  refine ⟨p, hp, hd, ?_⟩
  generalize l.length = n at hq
  clear hl hm h hp
  induction hq with
  | nil => exact .nil
  | @cons a b _ _ h _ ih =>
    refine .cons ⟨h.1.elim (fun h => ?_) (·.2), h.2⟩ (ih hd.2.2)
    rw [(tree_eq_iff a.1 b.1).mpr ((sameKey_iff _ _).mp (by rw [sameKey, beq_iff_eq, h]))]
    exact Tree.eqv_refl _ (prop_distinct _ hd.1)

theorem fields_iff {l m : List (String × List Property)} (hl : KeysDistinct l)
    (hm : KeysDistinct m) :
    (Tree.umap (treeFields l)).eqv (.umap (treeFields m)) = true ↔
      ∃ p, p.Perm m ∧ Pairs (fun a b => a.1 = b.1 ∧
        eqvList (treeProps a.2) (treeProps b.2) = true) l p := by
  rw [treeFields_map, treeFields_map, umap_iff]
  · constructor <;> rintro ⟨p, hp, hq⟩ <;> refine ⟨p, hp, pairs_imp ?_ hq⟩ <;>
      rintro a b ⟨h1, h2⟩ <;> exact ⟨by simpa using h1, by rw [eqv_list_iff] at *; exact h2⟩
  · have := nodup_str hl; rwa [List.map_map] at this
  · have := nodup_str hm; rwa [List.map_map] at this

theorem feed_like {cv cv' : List (Guid × UInt32)} (hv : SameVersions cv cv') {a b : Property} (e : a.feed = b.feed) :
    Alike (a.write cv false) (b.write cv' false) := by
  refine tree_like hv false ((tree_eq_iff a b).mpr ?_)
  rwa [← sameKey_iff, sameKey, beq_iff_eq]

theorem array_type_eq {a b : ArrayProperty} (e : a.tree.eqv b.tree = true) :
    a.propertyType = b.propertyType := by
  cases a <;> cases b <;>
    first | rfl | (exfalso; revert e; simp [ArrayProperty.tree, ArrayProperty.feed, Tree.eqv, eqvList]; done) |
      (simp [ArrayProperty.tree, Tree.eqv, eqvList] at e; exact e.1)

theorem map_type_eq {a b : MapProperty} (e : a.tree.eqv b.tree = true) :
    a.keyType = b.keyType ∧ a.valueType = b.valueType := by
  cases a <;> cases b <;>
    first | exact ⟨rfl, rfl⟩ | (exfalso; revert e; simp [MapProperty.tree, eqv_node_iff, eqvList_cons_iff, eqv_leaf_iff, eqvList_nil]; done) |
      (simp [MapProperty.tree, eqv_node_iff, eqvList_cons_iff, eqv_leaf_iff, eqvList_nil] at e; exact ⟨rfl, e.1⟩) |
      (simp [MapProperty.tree, eqv_node_iff, eqvList_cons_iff, eqv_leaf_iff, eqvList_nil] at e; exact ⟨e.1.1, e.1.2.1⟩)

mutual
theorem prop_like {cv cv' : List (Guid × UInt32)} (hv : SameVersions cv cv') (h : Bool) :
    ∀ a b : Property, MapsDistinct a → MapsDistinct b → a.tree.eqv b.tree = true →
      Alike (a.write cv h) (b.write cv' h)
  | .bool _, b, _, _, e => tree_like hv h (eqv_leaf e).symm
  | .byte .., b, _, _, e => tree_like hv h (eqv_leaf e).symm
  | .enum .., b, _, _, e => tree_like hv h (eqv_leaf e).symm
  | .int16 _, b, _, _, e => tree_like hv h (eqv_leaf e).symm
  | .int64 _, b, _, _, e => tree_like hv h (eqv_leaf e).symm
  | .int8 _, b, _, _, e => tree_like hv h (eqv_leaf e).symm
  | .int _, b, _, _, e => tree_like hv h (eqv_leaf e).symm
  | .name .., b, _, _, e => tree_like hv h (eqv_leaf e).symm
  | .object _, b, _, _, e => tree_like hv h (eqv_leaf e).symm
  | .delegate _, b, _, _, e => tree_like hv h (eqv_leaf e).symm
  | .multicastInlineDelegate _, b, _, _, e => tree_like hv h (eqv_leaf e).symm
  | .multicastSparseDelegate _, b, _, _, e => tree_like hv h (eqv_leaf e).symm
  | .fieldPath _, b, _, _, e => tree_like hv h (eqv_leaf e).symm
  | .str _, b, _, _, e => tree_like hv h (eqv_leaf e).symm
  | .uint16 _, b, _, _, e => tree_like hv h (eqv_leaf e).symm
  | .uint32 _, b, _, _, e => tree_like hv h (eqv_leaf e).symm
  | .uint64 _, b, _, _, e => tree_like hv h (eqv_leaf e).symm
  | .unknown .., b, _, _, e => tree_like hv h (eqv_leaf e).symm
  | .double _, b, _, _, e => tree_like hv h (eqv_leaf e).symm
  | .float _, b, _, _, e => tree_like hv h (eqv_leaf e).symm
  | .array v, b, ha, hb, he => by
    cases b <;> try (exfalso; revert he; simp [Property.tree, Tree.eqv, eqvList]; done)
    simp only [Property.tree, eqv_node_iff, eqvList_cons_iff] at he
    rw [Property.write, Property.write, array_type_eq he.2.1]
    exact (array_like hv v _ ha hb he.2.1).map fun o o' ho => (SameSize.refl _).headed ho
  | .map v, b, ha, hb, he => by
    cases b <;> try (exfalso; revert he; simp [Property.tree, Tree.eqv, eqvList]; done)
    simp only [Property.tree, eqv_node_iff, eqvList_cons_iff] at he
    rw [Property.write, Property.write, (map_type_eq he.2.1).1, (map_type_eq he.2.1).2]
    exact (map_like hv v _ ha hb he.2.1).map fun o o' ho => (SameSize.refl _).headed ho
  | .structValue v, b, ha, hb, he => by
    cases b <;> try (exfalso; revert he; simp [Property.tree, Tree.eqv, eqvList]; done)
    simp only [Property.tree, eqv_node_iff, eqvList_cons_iff] at he
    rw [Property.write, Property.write]
    cases h
    · exact struct_like hv v _ ha hb he.2.1
    · rfl
  | .text v, b, ha, hb, he => by
    cases b <;> try (exfalso; revert he; simp [Property.tree, Tree.eqv, eqvList]; done)
    simp only [Property.tree, eqv_node_iff, eqvList_cons_iff] at he
    rw [Property.write, Property.write]
    exact (text_like hv v _ ha hb he.2.1).map fun o o' ho => (SameSize.refl _).headed ho
  | .struct g t v, b, ha, hb, he => by
    cases b <;> try (exfalso; revert he; simp [Property.tree, Tree.eqv, eqvList]; done)
    rename_i g' t' v'
    simp only [Property.tree, eqv_node_iff, eqvList_cons_iff, eqv_leaf_iff, List.cons.injEq,
      true_and] at he
    have ht := (guidFeed_inj he.1).2
    rw [List.cons.injEq, Tok.s.injEq] at ht
    rw [Property.write, Property.write, ht.1]
    exact (struct_like hv v _ ha hb he.2.1).map fun o o' ho =>
      ((SameSize.refl _).app (by simp [SameSize])).headed ho
  | .set t fl ps, b, ha, hb, he => by
    cases b <;> simp only [Property.tree, eqv_node_iff, eqvList_cons_iff, eqv_leaf_iff] at he <;>
      first | (exfalso; simp at he; done) | (exfalso; simp [Tree.eqv] at he; done) | skip
    rw [eqv_list_iff, List.cons.injEq, List.cons.injEq, Tok.s.injEq] at he
    rw [Property.write, Property.write, he.1.2.1]
    exact (props_like hv ps _ ha hb he.2.1).map fun o o' ho => (SameSize.refl _).headed
      (((size_u32 ..).app (size_u32 ..)).app ho)
termination_by structural a => a
theorem array_like {cv cv' : List (Guid × UInt32)} (hv : SameVersions cv cv') :
    ∀ a b : ArrayProperty, ArrayMaps a → ArrayMaps b → a.tree.eqv b.tree = true →
      Alike (a.writeBody cv) (b.writeBody cv')
  | .bools _, b, _, _, e => array_tree_like hv (eqv_leaf e).symm
  | .bytes _, b, _, _, e => array_tree_like hv (eqv_leaf e).symm
  | .enums _, b, _, _, e => array_tree_like hv (eqv_leaf e).symm
  | .floats _, b, _, _, e => array_tree_like hv (eqv_leaf e).symm
  | .ints _, b, _, _, e => array_tree_like hv (eqv_leaf e).symm
  | .names _, b, _, _, e => array_tree_like hv (eqv_leaf e).symm
  | .strings _, b, _, _, e => array_tree_like hv (eqv_leaf e).symm
  | .structs f t g v, b, ha, hb, he => by
    cases b <;> simp only [ArrayProperty.tree, eqv_node_iff, eqvList_cons_iff, eqv_leaf_iff] at he <;>
      first | (exfalso; simp at he; done) | (exfalso; simp [Tree.eqv] at he; done) | skip
    rename_i f' t' g' v'
    have he' := he.1
    simp only [List.cons.injEq, Tok.s.injEq, true_and] at he'
    rw [ArrayProperty.writeBody, ArrayProperty.writeBody, he'.1, he'.2.1]
    rw [eqv_list_iff] at he
    refine (structs_like hv v _ ha hb he.2.1).map fun o o' ho => ?_
    exact size_structArray _ _ _ _ _ _ ho
  | .properties _ v, b, ha, hb, he => by
    cases b <;> simp only [ArrayProperty.tree, eqv_node_iff, eqvList_cons_iff, eqv_leaf_iff] at he <;>
      first | (exfalso; simp at he; done) | (exfalso; simp [Tree.eqv] at he; done) | skip
    rw [eqv_list_iff] at he
    rw [ArrayProperty.writeBody, ArrayProperty.writeBody]
    exact (props_like hv v _ ha hb he.2.1).map fun o o' ho => (size_u32 ..).app ho
termination_by structural a => a
theorem map_like {cv cv' : List (Guid × UInt32)} (hv : SameVersions cv cv') :
    ∀ a b : MapProperty, MapMaps a → MapMaps b → a.tree.eqv b.tree = true →
      Alike (a.writeBody cv) (b.writeBody cv')
  | .enumBool v, b, ha, hb, he => by
    cases b <;> try (exfalso; revert he; simp [MapProperty.tree, eqv_node_iff, eqvList_cons_iff, eqv_leaf_iff, eqvList_nil]; done)
    simp only [MapProperty.tree, eqv_node_iff, eqvList_cons_iff] at he
    rw [MapProperty.writeBody, MapProperty.writeBody]
    exact Alike.ok (leafMap_alike (fun v : Bool => [Tok.n v.toNat]) (fun b => ⟨boolB b, 1⟩) (fun a b _ => by simp [SameSize]) ha hb he.2.1)
  | .nameBool v, b, ha, hb, he => by
    cases b <;> try (exfalso; revert he; simp [MapProperty.tree, eqv_node_iff, eqvList_cons_iff, eqv_leaf_iff, eqvList_nil]; done)
    simp only [MapProperty.tree, eqv_node_iff, eqvList_cons_iff] at he
    rw [MapProperty.writeBody, MapProperty.writeBody]
    exact Alike.ok (leafMap_alike (fun v : Bool => [Tok.n v.toNat]) (fun b => ⟨boolB b, 1⟩) (fun a b _ => by simp [SameSize]) ha hb he.2.1)
  | .strBool v, b, ha, hb, he => by
    cases b <;> try (exfalso; revert he; simp [MapProperty.tree, eqv_node_iff, eqvList_cons_iff, eqv_leaf_iff, eqvList_nil]; done)
    simp only [MapProperty.tree, eqv_node_iff, eqvList_cons_iff] at he
    rw [MapProperty.writeBody, MapProperty.writeBody]
    exact Alike.ok (leafMap_alike (fun v : Bool => [Tok.n v.toNat]) (fun b => ⟨boolB b, 1⟩) (fun a b _ => by simp [SameSize]) ha hb he.2.1)
  | .enumInt v, b, ha, hb, he => by
    cases b <;> try (exfalso; revert he; simp [MapProperty.tree, eqv_node_iff, eqvList_cons_iff, eqv_leaf_iff, eqvList_nil]; done)
    simp only [MapProperty.tree, eqv_node_iff, eqvList_cons_iff] at he
    rw [MapProperty.writeBody, MapProperty.writeBody]
    exact Alike.ok (leafMap_alike (fun v : Int32 => [Tok.n v.toUInt32.toNat]) (fun b => ⟨i32B b, 4⟩) (fun a b _ => by simp [SameSize]) ha hb he.2.1)
  | .nameInt v, b, ha, hb, he => by
    cases b <;> try (exfalso; revert he; simp [MapProperty.tree, eqv_node_iff, eqvList_cons_iff, eqv_leaf_iff, eqvList_nil]; done)
    simp only [MapProperty.tree, eqv_node_iff, eqvList_cons_iff] at he
    rw [MapProperty.writeBody, MapProperty.writeBody]
    exact Alike.ok (leafMap_alike (fun v : Int32 => [Tok.n v.toUInt32.toNat]) (fun b => ⟨i32B b, 4⟩) (fun a b _ => by simp [SameSize]) ha hb he.2.1)
  | .strInt v, b, ha, hb, he => by
    cases b <;> try (exfalso; revert he; simp [MapProperty.tree, eqv_node_iff, eqvList_cons_iff, eqv_leaf_iff, eqvList_nil]; done)
    simp only [MapProperty.tree, eqv_node_iff, eqvList_cons_iff] at he
    rw [MapProperty.writeBody, MapProperty.writeBody]
    exact Alike.ok (leafMap_alike (fun v : Int32 => [Tok.n v.toUInt32.toNat]) (fun b => ⟨i32B b, 4⟩) (fun a b _ => by simp [SameSize]) ha hb he.2.1)
  | .strStr v, b, ha, hb, he => by
    cases b <;> try (exfalso; revert he; simp [MapProperty.tree, eqv_node_iff, eqvList_cons_iff, eqv_leaf_iff, eqvList_nil]; done)
    simp only [MapProperty.tree, eqv_node_iff, eqvList_cons_iff] at he
    rw [MapProperty.writeBody, MapProperty.writeBody]
    exact Alike.ok (leafMap_alike feedOpt writeFString size_feedOpt ha hb he.2.1)
  | .enumProperty _ v, b, ha, hb, he => by
    cases b <;> try (exfalso; revert he; simp [MapProperty.tree, eqv_node_iff, eqvList_cons_iff, eqv_leaf_iff, eqvList_nil]; done)
    simp only [MapProperty.tree, eqv_node_iff, eqvList_cons_iff] at he
    obtain ⟨p, hp, hq⟩ := (strProps_iff ha.1 hb.1).mp he.2.1
    rw [MapProperty.writeBody, MapProperty.writeBody]
    exact ((strs_like hv v p ha.2 (valuesMaps_perm hp.symm hb.2) hq).trans (strs_perm cv' hp)).map
      fun o o' ho => (size_mapHead ..).app ho
  | .nameProperty _ v, b, ha, hb, he => by
    cases b <;> try (exfalso; revert he; simp [MapProperty.tree, eqv_node_iff, eqvList_cons_iff, eqv_leaf_iff, eqvList_nil]; done)
    simp only [MapProperty.tree, eqv_node_iff, eqvList_cons_iff] at he
    obtain ⟨p, hp, hq⟩ := (strProps_iff ha.1 hb.1).mp he.2.1
    rw [MapProperty.writeBody, MapProperty.writeBody]
    exact ((strs_like hv v p ha.2 (valuesMaps_perm hp.symm hb.2) hq).trans (strs_perm cv' hp)).map
      fun o o' ho => (size_mapHead ..).app ho
  | .strProperty _ v, b, ha, hb, he => by
    cases b <;> try (exfalso; revert he; simp [MapProperty.tree, eqv_node_iff, eqvList_cons_iff, eqv_leaf_iff, eqvList_nil]; done)
    simp only [MapProperty.tree, eqv_node_iff, eqvList_cons_iff] at he
    obtain ⟨p, hp, hq⟩ := (strProps_iff ha.1 hb.1).mp he.2.1
    rw [MapProperty.writeBody, MapProperty.writeBody]
    exact ((strs_like hv v p ha.2 (valuesMaps_perm hp.symm hb.2) hq).trans (strs_perm cv' hp)).map
      fun o o' ho => (size_mapHead ..).app ho
  | .properties _ _ _ v, b, ha, hb, he => by
    cases b <;> try (exfalso; revert he; simp [MapProperty.tree, eqv_node_iff, eqvList_cons_iff, eqv_leaf_iff, eqvList_nil]; done)
    simp only [MapProperty.tree, eqv_node_iff, eqvList_cons_iff] at he
    obtain ⟨p, hp, hd, hq⟩ := pairs_eqv ha.1 hb.1 hb.2 he.2.1
    rw [MapProperty.writeBody, MapProperty.writeBody]
    exact ((pairs_like hv v p ha.2 hd hq).trans
      (pairs_perm cv' hp)).map fun o o' ho => (size_mapHead ..).app ho
termination_by structural a => a
theorem struct_like {cv cv' : List (Guid × UInt32)} (hv : SameVersions cv cv') :
    ∀ a b : StructPropertyValue, StructMaps a → StructMaps b → a.tree.eqv b.tree = true →
      Alike (a.writeBody cv) (b.writeBody cv')
  | .vector2F .., b, _, _, e => struct_tree_like hv (eqv_leaf e).symm
  | .vector2D .., b, _, _, e => struct_tree_like hv (eqv_leaf e).symm
  | .vectorF .., b, _, _, e => struct_tree_like hv (eqv_leaf e).symm
  | .vectorD .., b, _, _, e => struct_tree_like hv (eqv_leaf e).symm
  | .rotatorF .., b, _, _, e => struct_tree_like hv (eqv_leaf e).symm
  | .rotatorD .., b, _, _, e => struct_tree_like hv (eqv_leaf e).symm
  | .quatF .., b, _, _, e => struct_tree_like hv (eqv_leaf e).symm
  | .quatD .., b, _, _, e => struct_tree_like hv (eqv_leaf e).symm
  | .dateTime _, b, _, _, e => struct_tree_like hv (eqv_leaf e).symm
  | .timespan _, b, _, _, e => struct_tree_like hv (eqv_leaf e).symm
  | .guid _, b, _, _, e => struct_tree_like hv (eqv_leaf e).symm
  | .linearColor .., b, _, _, e => struct_tree_like hv (eqv_leaf e).symm
  | .intPoint .., b, _, _, e => struct_tree_like hv (eqv_leaf e).symm
  | .gameplayTagContainer _, b, _, _, e => struct_tree_like hv (eqv_leaf e).symm
  | .customStruct fs, b, ha, hb, he => by
    cases b <;> try (exfalso; revert he; simp [StructPropertyValue.tree, Tree.eqv, eqvList]; done)
    simp only [StructPropertyValue.tree, eqv_node_iff, eqvList_cons_iff] at he
    obtain ⟨p, hp, hq⟩ := (fields_iff ha.1 hb.1).mp he.2.1
    rw [StructPropertyValue.writeBody, StructPropertyValue.writeBody]
    exact ((fields_like hv fs p ha.2 (fieldsMaps_perm hp.symm hb.2) hq).trans
      (fields_perm cv' hp)).map fun o o' ho => ho.app (.refl _)
termination_by structural a => a
theorem props_like {cv cv' : List (Guid × UInt32)} (hv : SameVersions cv cv') :
    ∀ a b : List Property, PropsMaps a → PropsMaps b →
      eqvList (treeProps a) (treeProps b) = true → Alike (writeList cv a) (writeList cv' b)
  | [], b, _, _, he => by cases b <;> simp [treeProps, eqvList] at he; exact .refl _
  | v :: l, b, ha, hb, he => by
    cases b <;> simp [treeProps, eqvList] at he
    exact alike_list (prop_like hv false v _ ha.1 hb.1 he.1) (props_like hv l _ ha.2 hb.2 he.2)
termination_by structural a => a
theorem structs_like {cv cv' : List (Guid × UInt32)} (hv : SameVersions cv cv') :
    ∀ a b : List StructPropertyValue, StructsMaps a → StructsMaps b →
      eqvList (treeStructs a) (treeStructs b) = true → Alike (writeStructs cv a) (writeStructs cv' b)
  | [], b, _, _, he => by cases b <;> simp [treeStructs, eqvList] at he; exact .refl _
  | v :: l, b, ha, hb, he => by
    cases b <;> simp [treeStructs, eqvList] at he
    exact alike_structs (struct_like hv v _ ha.1 hb.1 he.1) (structs_like hv l _ ha.2 hb.2 he.2)
termination_by structural a => a
theorem strs_like {cv cv' : List (Guid × UInt32)} (hv : SameVersions cv cv') :
    ∀ a b : List (String × Property), ValuesMaps a → ValuesMaps b →
      Pairs (fun a b => a.1 = b.1 ∧ a.2.eqv b.2 = true) a b →
      Alike (writeStrProps cv a) (writeStrProps cv' b)
  | [], b, _, _, he => by cases he; exact .refl _
  | (k, v) :: l, b, ha, hb, he => by
    cases he with
    | @cons _ b _ bs h1 h2 =>
      obtain ⟨k', v'⟩ := b
      obtain ⟨rfl, h1⟩ := h1
      exact alike_strs (prop_like hv false v _ ha.1 hb.1 h1) (strs_like hv l _ ha.2 hb.2 h2)
termination_by structural a => a
theorem pairs_like {cv cv' : List (Guid × UInt32)} (hv : SameVersions cv cv') :
    ∀ a b : List (Property × Property), EntriesMaps a → EntriesMaps b →
      Pairs (fun a b => a.1.tree.eqv b.1.tree = true ∧ a.2.tree.eqv b.2.tree = true) a b →
      Alike (writePairs cv a) (writePairs cv' b)
  | [], b, _, _, he => by cases he; exact .refl _
  | (k, v) :: l, b, ha, hb, he => by
    cases he with
    | @cons _ b _ bs h1 h2 =>
      obtain ⟨k', v'⟩ := b
      exact alike_pairs (prop_like hv false k _ ha.1 hb.1 h1.1) (prop_like hv false v _ ha.2.1 hb.2.1 h1.2)
        (pairs_like hv l _ ha.2.2 hb.2.2 h2)
termination_by structural a => a
theorem fields_like {cv cv' : List (Guid × UInt32)} (hv : SameVersions cv cv') :
    ∀ a b : List (String × List Property), FieldsMaps a → FieldsMaps b →
      Pairs (fun a b => a.1 = b.1 ∧ eqvList (treeProps a.2) (treeProps b.2) = true) a b →
      Alike (writeFields cv a) (writeFields cv' b)
  | [], b, _, _, he => by cases he; exact .refl _
  | (k, v) :: l, b, ha, hb, he => by
    cases he with
    | @cons _ b _ bs h1 h2 =>
      obtain ⟨k', v'⟩ := b
      obtain ⟨rfl, h1⟩ := h1
      exact alike_fields (vals_like hv k v _ ha.1 hb.1 h1) (fields_like hv l _ ha.2 hb.2 h2)
termination_by structural a => a
theorem vals_like {cv cv' : List (Guid × UInt32)} (hv : SameVersions cv cv') (k : String) :
    ∀ a b : List Property, PropsMaps a → PropsMaps b →
      eqvList (treeProps a) (treeProps b) = true →
      Alike (writeFieldVals cv k a) (writeFieldVals cv' k b)
  | [], b, _, _, he => by cases b <;> simp [treeProps, eqvList] at he; exact .refl _
  | v :: l, b, ha, hb, he => by
    cases b <;> simp [treeProps, eqvList] at he
    exact alike_vals (prop_like hv true v _ ha.1 hb.1 he.1) (vals_like hv k l _ ha.2 hb.2 he.2)
termination_by structural a => a
end

end Gvas
