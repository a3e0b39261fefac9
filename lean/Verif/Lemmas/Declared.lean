import Verif.Spec.Declared
import Verif.Props.DebugTree
import Verif.Props.Message

/-!
# The texts of values fit the declarations of their types
-/

namespace Gvas

open Spec Dt

/-- The text of the tree is one for the type, at any depth. -/
def Declares (t : Fmt) (pretty : Bool) (a : Ty) (d : Dbg) : Prop :=
  ∀ n, Derived t pretty n a (d.show t pretty n)

private theorem commas_cons (x : List Char) (l : List (List Char)) :
    commas (x :: l) = x ++ l.flatMap (", ".toList ++ ·) := by
  induction l generalizing x with
  | nil => simp [commas]
  | cons y l ih =>
    have h : commas (x :: y :: l) = x ++ ", ".toList ++ commas (y :: l) := by
      simp [commas, List.intercalate, List.intersperse]
    rw [h, ih, List.flatMap_cons]
    simp

/-- Parts without their brackets. -/
private def inner (pretty : Bool) (n : Nat) (l : List (List Char)) : List Char :=
  if pretty then l.flatMap (fun x => line n ++ x ++ ",".toList) else commas l

private theorem seq_inner {α : Type} (f : α → List Char) (pretty : Bool) (n : Nat) (l : List α) :
    seq f pretty n true l = inner pretty n (l.map f) := by
  have tail : ∀ (l : List α) (b : Bool), seq f true n b l =
      (l.map f).flatMap (fun x => line n ++ x ++ ",".toList) := by
    intro l
    induction l with
    | nil => intro b; rfl
    | cons x l ih => intro b; simp [seq, leadIn, leadOut, ih, line, newLine]
  cases pretty with
  | true => exact tail l true
  | false =>
    have tail : ∀ l : List α, seq f false n false l = (l.map f).flatMap (", ".toList ++ ·) := by
      intro l
      induction l with
      | nil => rfl
      | cons x l ih => simp [seq, leadIn, leadOut, ih]
    cases l with
    | nil => rfl
    | cons x l => simp [seq, leadIn, leadOut, tail, inner, commas_cons]

private theorem block_eq (pretty : Bool) (n : Nat) (left blank right : String) (l : List (List Char)) :
    block pretty n left blank right l = left.toList ++ (if pretty then [] else blank.toList) ++
      inner pretty (n + 1) l ++ (if pretty then (if l = [] then [] else line n) else blank.toList) ++
      right.toList := by
  cases pretty <;> simp [block, inner]
  cases l <;> simp

private theorem block_one (pretty : Bool) (n : Nat) (left right : String) (x : List Char) :
    block pretty n left "" right [x] = left.toList ++ leadIn pretty (n + 1) true ++ x ++ leadOut pretty ++
      lastLine pretty n [] ++ right.toList := by
  cases pretty <;> simp [block, leadIn, leadOut, lastLine, commas, line, newLine, List.intercalate]

namespace Declares

variable {t : Fmt} {pretty : Bool}

theorem list {a : Ty} {l : List Dbg} (h : ∀ d ∈ l, Declares t pretty a d) :
    Declares t pretty (.vec a) (.list l) := by
  intro n
  have := Derived.vec (t := t) (pretty := pretty) (i := n) (a := a)
    (l := l.map (Dbg.show t pretty (n + 1)))
    (by intro x hx; obtain ⟨d, hd, rfl⟩ := List.mem_map.mp hx; exact h d hd _)
  rw [block_eq] at this
  cases pretty <;> cases l <;>
    simpa [Dbg.show, items_seq, seq_inner, lastLine, line, newLine] using this

theorem map {k v : Ty} {l : List (Dbg × Dbg)}
    (h : ∀ e ∈ l, Declares t pretty k e.1 ∧ Declares t pretty v e.2) :
    Declares t pretty (.map k v) (mapD l) := by
  intro n
  have := Derived.map (t := t) (pretty := pretty) (i := n) (k := k) (v := v)
    (l := l.map fun e => (e.1.show t pretty (n + 1 + 1), e.2.show t pretty (n + 1 + 1)))
    (by intro x hx; obtain ⟨d, hd, rfl⟩ := List.mem_map.mp hx; exact (h d hd).1 _)
    (by intro x hx; obtain ⟨d, hd, rfl⟩ := List.mem_map.mp hx; exact (h d hd).2 _)
  rw [block_one, block_eq] at this
  have e : (l.map fun e => (e.1.show t pretty (n + 1 + 1), e.2.show t pretty (n + 1 + 1))).map
      (fun e => e.1 ++ ": ".toList ++ e.2) = l.map (entry t pretty (n + 1 + 1)) := by
    simp [entry, Function.comp_def]
  rw [e] at this
  cases pretty <;> cases l <;>
    simpa [mapD, Dbg.show, entries_seq, seq_inner, lastLine, line, newLine] using this

theorem unit {name v : String} (h : (v, .unit) ∈ declared name) :
    Declares t pretty (.named name) (unitD v) :=
  fun _ => .unit h

theorem tuple {name v : String} {a : Ty} {d : Dbg} (h : (v, .tuple a) ∈ declared name)
    (hd : Declares t pretty a d) : Declares t pretty (.named name) (.tuple v d) := by
  intro n
  have := Derived.tuple h (hd (n + 1))
  rw [block_one] at this
  simpa [Dbg.show] using this

theorem struct {name v : String} {l : List ((String × Ty) × Dbg)}
    (h : (v, .fields (l.map Prod.fst)) ∈ declared name) (hne : l ≠ [])
    (hl : ∀ e ∈ l, Declares t pretty e.1.2 e.2) :
    Declares t pretty (.named name) (.struct v (l.map fun e => (e.1.1, e.2))) := by
  intro n
  have := Derived.fields (t := t) (pretty := pretty) (i := n)
    (l := l.map fun e => (e.1, e.2.show t pretty (n + 1)))
    (by rw [List.map_map]; exact h) (by simpa using hne)
    (by intro x hx; obtain ⟨d, hd, rfl⟩ := List.mem_map.mp hx; exact hl d hd _)
  rw [block_eq] at this
  have e : (l.map fun e => (e.1, e.2.show t pretty (n + 1))).map
      (fun e => e.1.1.toList ++ ": ".toList ++ e.2) =
      (l.map fun e => (e.1.1, e.2)).map (fieldText t pretty (n + 1)) := by
    simp [fieldText, Function.comp_def]
  rw [e] at this
  cases pretty <;> cases l <;>
    simp_all [Dbg.show, fields_seq, seq_inner, lastLine, line, newLine]

/-- The fields of a struct and those of a tree. -/
inductive All (t : Fmt) (pretty : Bool) : List (String × Ty) → List (String × Dbg) → Prop
  | nil : All t pretty [] []
  | cons {k : String} {a : Ty} {d : Dbg} {fs : List (String × Ty)} {l : List (String × Dbg)} :
      Declares t pretty a d → All t pretty fs l → All t pretty ((k, a) :: fs) ((k, d) :: l)

theorem of {name v : String} {fs : List (String × Ty)} {l : List (String × Dbg)} (h : All t pretty fs l)
    (hv : (v, .fields fs) ∈ declared name) (hne : l ≠ [] := by exact List.cons_ne_nil _ _) :
    Declares t pretty (.named name) (.struct v l) := by
  have : ∃ m : List ((String × Ty) × Dbg), m.map Prod.fst = fs ∧ m.map (fun e => (e.1.1, e.2)) = l ∧
      ∀ e ∈ m, Declares t pretty e.1.2 e.2 := by
    clear hv hne
    induction h with
    | nil => exact ⟨[], rfl, rfl, by simp⟩
    | @cons k a d fs l h _ ih =>
      obtain ⟨m, rfl, rfl, hm⟩ := ih
      exact ⟨((k, a), d) :: m, rfl, rfl, List.forall_mem_cons.mpr ⟨h, hm⟩⟩
  obtain ⟨m, rfl, rfl, hm⟩ := this
  exact struct hv (by simpa using hne) hm

theorem bool (b : Bool) : Declares t pretty .bool (boolD b) := fun _ => by
  cases b
  · exact .no
  · exact .yes

theorem int {a b v : Int} (h : a ≤ v) (h' : v < b) : Declares t pretty (.int a b) (intD v) := fun _ => by
  obtain ⟨x, hx, e⟩ := decInt_numeral v
  rw [intD, e, String.toList_ofList]
  exact .int hx h h'

theorem u8 (v : UInt8) : Declares t pretty .u8 (intD v.toNat) := int (by omega) (by have := v.toNat_lt; omega)
theorem u16 (v : UInt16) : Declares t pretty .u16 (intD v.toNat) := int (by omega) (by have := v.toNat_lt; omega)
theorem u32 (v : UInt32) : Declares t pretty .u32 (intD v.toNat) := int (by omega) (by have := v.toNat_lt; omega)
theorem u64 (v : UInt64) : Declares t pretty .u64 (intD v.toNat) := int (by omega) (by have := v.toNat_lt; omega)
theorem i32 (v : Int32) : Declares t pretty .i32 (intD v.toInt) := int v.le_toInt v.toInt_lt
theorem i64 (v : Int64) : Declares t pretty .i64 (intD v.toInt) := int v.le_toInt v.toInt_lt

theorem suffixed {a b v : Int} {s : String} (h : a ≤ v) (h' : v < b) :
    Declares t pretty (.suffixed a b s) (typedD (decInt v).toList s) := fun _ => by
  obtain ⟨x, hx, e⟩ := decInt_numeral v
  rw [typedD, e, String.toList_ofList]
  exact .suffixed hx h h'

theorem f32 (v : F32) : Declares t pretty .f32 (t.f32 v) := fun n => by
  rw [Fmt.f32, Fmt.ordered]
  split
  · next h =>
    have := Derived.wrapped32 (pretty := pretty) (i := n) h (v := v)
    rw [block_one] at this
    simpa [Dbg.show] using this
  · next h => exact .f32 (by simpa using h)

theorem f64 (v : F64) : Declares t pretty .f64 (t.f64 v) := fun n => by
  rw [Fmt.f64, Fmt.ordered]
  split
  · next h =>
    have := Derived.wrapped64 (pretty := pretty) (i := n) h (v := v)
    rw [block_one] at this
    simpa [Dbg.show] using this
  · next h => exact .f64 (by simpa using h)

theorem guid (g : Guid) : Declares t pretty .guid g.dbg := fun _ => .guid (C10_guid_display_roundtrip g)

theorem opt {a : Ty} {o : Option Dbg} (h : ∀ d ∈ o, Declares t pretty a d) : Declares t pretty (.option a) (optD o) := by
  intro n
  cases o with
  | none => exact .none
  | some d =>
    have := Derived.some (h d rfl (n + 1))
    rw [block_one] at this
    simpa [optD, Dbg.show] using this

private theorem letters (s : List Char) : Letters (s.flatMap t.escape) := by
  induction s with
  | nil => exact .nil
  | cons c s ih =>
    rw [List.flatMap_cons, Fmt.escape]
    repeat' split
    all_goals first
      | exact .escaped (by decide) ih
      | (have := Letters.number (hexadecimal c.toNat) ih; simpa using this)
      | exact .plain (by assumption) (by assumption) ih

theorem string (s : String) : Declares t pretty .string (.str s) := fun _ => .string (letters s.toList)

theorem optStr (s : Option String) : Declares t pretty (.option .string) (optStrD s) := by
  refine opt fun d hd => ?_
  cases s with
  | none => cases hd
  | some s => cases hd; exact string s

theorem listOf {α : Type} {a : Ty} {f : α → Dbg} (h : ∀ v, Declares t pretty a (f v)) (l : List α) :
    Declares t pretty (.vec a) (.list (l.map f)) :=
  list fun _ hd => by obtain ⟨v, -, rfl⟩ := List.mem_map.mp hd; exact h v

theorem mapOf {α : Type} {a : Ty} {f : α → Dbg} (h : ∀ v, Declares t pretty a (f v)) (l : List (String × α)) :
    Declares t pretty (.map .string a) (strMapD f l) :=
  map fun _ hd => by obtain ⟨v, -, rfl⟩ := List.mem_map.mp hd; exact ⟨string _, h _⟩

theorem optOf {α : Type} {a : Ty} {f : α → Dbg} (h : ∀ v, Declares t pretty a (f v)) (o : Option α) :
    Declares t pretty (.option a) (optD (o.map f)) :=
  opt fun d hd => by
    cases o with
    | none => cases hd
    | some s => cases hd; exact h s

/-! ## Texts -/

theorem roundingMode (m : RoundingMode) : Declares t pretty (.named "RoundingMode") (unitD m.json) :=
  unit (by cases m <;> decide)

theorem dateTimeStyle (m : DateTimeStyle) : Declares t pretty (.named "DateTimeStyle") (unitD m.json) :=
  unit (by cases m <;> decide)

theorem transformType (m : TransformType) : Declares t pretty (.named "TransformType") (unitD m.json) :=
  unit (by cases m <;> decide)

theorem dateTime (v : UInt64) : Declares t pretty (.named "DateTime") (ticksD "DateTime" v) :=
  of (.cons (u64 _) .nil) (by decide)

theorem timespan (v : UInt64) : Declares t pretty (.named "Timespan") (ticksD "Timespan" v) :=
  of (.cons (u64 _) .nil) (by decide)

theorem options (o : NumberFormattingOptions) : Declares t pretty (.named "NumberFormattingOptions") o.dbg :=
  of (.cons (bool _) (.cons (bool _) (.cons (roundingMode _) (.cons (i32 _) (.cons (i32 _)
    (.cons (i32 _) (.cons (i32 _) .nil))))))) (by decide)

mutual
theorem text : ∀ v : FText, Declares t pretty (.named "FText") (v.dbg t)
  | .mk _ h => by
    rw [FText.dbg]
    exact of (.cons (u32 _) (.cons (history h) .nil)) (by decide)
theorem history : ∀ v : FTextHistory, Declares t pretty (.named "FTextHistory") (v.dbg t)
  | .empty => by
    rw [FTextHistory.dbg]
    exact unit (by decide)
  | .none _ => by
    rw [FTextHistory.dbg]
    exact of (.cons (optStr _) .nil) (by decide)
  | .base _ _ _ => by
    rw [FTextHistory.dbg]
    exact of (.cons (optStr _) (.cons (optStr _) (.cons (optStr _) .nil))) (by decide)
  | .namedFormat s l => by
    rw [FTextHistory.dbg]
    exact of (.cons (text s) (.cons (map (namedArgs l)) .nil)) (by decide)
  | .orderedFormat s l => by
    rw [FTextHistory.dbg]
    exact of (.cons (text s) (.cons (list (args l)) .nil)) (by decide)
  | .argumentFormat s l => by
    rw [FTextHistory.dbg]
    exact of (.cons (text s) (.cons (map (namedArgs l)) .nil)) (by decide)
  | .asNumber v _ _ => by
    rw [FTextHistory.dbg]
    exact of (.cons (argument v) (.cons (optOf options _) (.cons (optStr _) .nil))) (by decide)
  | .asPercent v _ _ => by
    rw [FTextHistory.dbg]
    exact of (.cons (argument v) (.cons (optOf options _) (.cons (optStr _) .nil))) (by decide)
  | .asCurrency _ v _ _ => by
    rw [FTextHistory.dbg]
    exact of (.cons (optStr _) (.cons (argument v) (.cons (optOf options _) (.cons (optStr _) .nil))))
      (by decide)
  | .asDate _ _ _ => by
    rw [FTextHistory.dbg]
    exact of (.cons (dateTime _) (.cons (dateTimeStyle _) (.cons (string _) .nil))) (by decide)
  | .asTime _ _ _ _ => by
    rw [FTextHistory.dbg]
    exact of (.cons (dateTime _) (.cons (dateTimeStyle _) (.cons (string _) (.cons (string _) .nil))))
      (by decide)
  | .asDateTime _ _ _ _ _ => by
    rw [FTextHistory.dbg]
    exact of (.cons (dateTime _) (.cons (dateTimeStyle _) (.cons (dateTimeStyle _) (.cons (string _)
      (.cons (string _) .nil))))) (by decide)
  | .transform s _ => by
    rw [FTextHistory.dbg]
    exact of (.cons (text s) (.cons (transformType _) .nil)) (by decide)
  | .stringTableEntry _ _ => by
    rw [FTextHistory.dbg]
    exact of (.cons (string _) (.cons (string _) .nil)) (by decide)
theorem argument : ∀ v : FormatArgumentValue, Declares t pretty (.named "FormatArgumentValue") (v.dbg t)
  | .int _ => by rw [FormatArgumentValue.dbg]; exact tuple (by decide) (i32 _)
  | .uint _ => by rw [FormatArgumentValue.dbg]; exact tuple (by decide) (u32 _)
  | .float _ => by rw [FormatArgumentValue.dbg]; exact tuple (by decide) (f32 _)
  | .double _ => by rw [FormatArgumentValue.dbg]; exact tuple (by decide) (f64 _)
  | .text v => by rw [FormatArgumentValue.dbg]; exact tuple (by decide) (text v)
  | .int64 _ => by rw [FormatArgumentValue.dbg]; exact tuple (by decide) (i64 _)
  | .uint64 _ => by rw [FormatArgumentValue.dbg]; exact tuple (by decide) (u64 _)
theorem args : ∀ (l : List FormatArgumentValue), ∀ d ∈ dbgArgs t l,
    Declares t pretty (.named "FormatArgumentValue") d
  | [], d, h => by simp [dbgArgs] at h
  | v :: l, d, h => by
    rw [dbgArgs, List.mem_cons] at h
    obtain rfl | h := h
    · exact argument v
    · exact args l d h
theorem namedArgs : ∀ (l : List (String × FormatArgumentValue)), ∀ e ∈ dbgNamedArgs t l,
    Declares t pretty .string e.1 ∧ Declares t pretty (.named "FormatArgumentValue") e.2
  | [], d, h => by simp [dbgNamedArgs] at h
  | (k, v) :: l, d, h => by
    rw [dbgNamedArgs, List.mem_cons] at h
    obtain rfl | h := h
    · exact ⟨string k, argument v⟩
    · exact namedArgs l d h
end

/-! ## Properties -/

theorem byteValue (v : BytePropertyValue) : Declares t pretty (.named "BytePropertyValue") v.dbg := by
  cases v
  · exact tuple (by decide) (u8 _)
  · exact tuple (by decide) (string _)

theorem delegate (v : Delegate) : Declares t pretty (.named "Delegate") v.dbg :=
  of (.cons (string _) (.cons (string _) .nil)) (by decide)

theorem multicast (v : List Delegate) : Declares t pretty (.named "MulticastScriptDelegate") (multicastD v) :=
  of (.cons (listOf delegate _) .nil) (by decide)

theorem fieldPath (v : FieldPath) : Declares t pretty (.named "FieldPath") v.dbg :=
  of (.cons (listOf string _) (.cons (string _) .nil)) (by decide)

mutual
theorem property : ∀ p : Property, Declares t pretty (.named "Property") (p.dbg t)
  | .array v => by rw [Property.dbg]; exact tuple (by decide) (array v)
  | .bool _ => by rw [Property.dbg]; exact tuple (by decide) (bool _)
  | .byte _ _ => by
    rw [Property.dbg]
    exact tuple (by decide) (of (name := "ByteProperty") (.cons (optStr _) (.cons (byteValue _) .nil))
      (by decide))
  | .double _ => by rw [Property.dbg]; exact tuple (by decide) fun _ => .suffixed64
  | .enum _ _ => by
    rw [Property.dbg]
    exact tuple (by decide) (of (name := "EnumProperty") (.cons (optStr _) (.cons (string _) .nil))
      (by decide))
  | .float _ => by rw [Property.dbg]; exact tuple (by decide) fun _ => .suffixed32
  | .int16 v => by rw [Property.dbg]; exact tuple (by decide) (suffixed v.le_toInt v.toInt_lt)
  | .int64 v => by rw [Property.dbg]; exact tuple (by decide) (suffixed v.le_toInt v.toInt_lt)
  | .int8 v => by rw [Property.dbg]; exact tuple (by decide) (suffixed v.le_toInt v.toInt_lt)
  | .int v => by rw [Property.dbg]; exact tuple (by decide) (suffixed v.le_toInt v.toInt_lt)
  | .map v => by rw [Property.dbg]; exact tuple (by decide) (mapProperty v)
  | .name _ _ => by
    rw [Property.dbg]
    exact tuple (by decide) (of (name := "NameProperty") (.cons (u32 _) (.cons (optStr _) .nil))
      (by decide))
  | .object _ => by
    rw [Property.dbg]
    exact tuple (by decide) (of (name := "ObjectProperty") (.cons (string _) .nil) (by decide))
  | .delegate _ => by
    rw [Property.dbg]
    exact tuple (by decide) (of (name := "DelegateProperty") (.cons (delegate _) .nil) (by decide))
  | .multicastInlineDelegate _ => by
    rw [Property.dbg]
    exact tuple (by decide) (of (name := "MulticastInlineDelegateProperty") (.cons (multicast _) .nil)
      (by decide))
  | .multicastSparseDelegate _ => by
    rw [Property.dbg]
    exact tuple (by decide) (of (name := "MulticastSparseDelegateProperty") (.cons (multicast _) .nil)
      (by decide))
  | .fieldPath _ => by
    rw [Property.dbg]
    exact tuple (by decide) (of (name := "FieldPathProperty") (.cons (fieldPath _) .nil) (by decide))
  | .set _ _ ps => by
    rw [Property.dbg]
    exact tuple (by decide) (of (name := "SetProperty") (.cons (string _) (.cons (u32 _)
      (.cons (list (properties ps)) .nil))) (by decide))
  | .str _ => by
    rw [Property.dbg]
    exact tuple (by decide) (of (name := "StrProperty") (.cons (optStr _) .nil) (by decide))
  | .struct _ _ v => by
    rw [Property.dbg]
    exact tuple (by decide) (of (name := "StructProperty") (.cons (guid _) (.cons (string _)
      (.cons (structValue v) .nil))) (by decide))
  | .structValue v => by rw [Property.dbg]; exact tuple (by decide) (structValue v)
  | .text v => by
    rw [Property.dbg]
    exact tuple (by decide) (of (name := "TextProperty") (.cons (text v) .nil) (by decide))
  | .uint16 v => by
    rw [Property.dbg]
    exact tuple (by decide) (suffixed (a := 0) (b := 2 ^ 16) (by omega) (by have := v.toNat_lt; omega))
  | .uint32 v => by
    rw [Property.dbg]
    exact tuple (by decide) (suffixed (a := 0) (b := 2 ^ 32) (by omega) (by have := v.toNat_lt; omega))
  | .uint64 v => by
    rw [Property.dbg]
    exact tuple (by decide) (suffixed (a := 0) (b := 2 ^ 64) (by omega) (by have := v.toNat_lt; omega))
  | .unknown _ _ => by
    rw [Property.dbg]
    exact tuple (by decide) (of (name := "UnknownProperty") (.cons (string _)
      (.cons (listOf u8 _) .nil)) (by decide))
theorem array : ∀ v : ArrayProperty, Declares t pretty (.named "ArrayProperty") (v.dbg t)
  | .bools _ => by rw [ArrayProperty.dbg]; exact of (.cons (listOf bool _) .nil) (by decide)
  | .bytes _ => by rw [ArrayProperty.dbg]; exact of (.cons (listOf u8 _) .nil) (by decide)
  | .enums _ => by rw [ArrayProperty.dbg]; exact of (.cons (listOf string _) .nil) (by decide)
  | .floats _ => by rw [ArrayProperty.dbg]; exact of (.cons (listOf f32 _) .nil) (by decide)
  | .ints _ => by rw [ArrayProperty.dbg]; exact of (.cons (listOf i32 _) .nil) (by decide)
  | .names _ => by rw [ArrayProperty.dbg]; exact of (.cons (listOf optStr _) .nil) (by decide)
  | .strings _ => by rw [ArrayProperty.dbg]; exact of (.cons (listOf optStr _) .nil) (by decide)
  | .structs _ _ _ v => by
    rw [ArrayProperty.dbg]
    exact of (.cons (string _) (.cons (string _) (.cons (guid _) (.cons (list (structValues v)) .nil))))
      (by decide)
  | .properties _ v => by
    rw [ArrayProperty.dbg]
    exact of (.cons (string _) (.cons (list (properties v)) .nil)) (by decide)
theorem mapProperty : ∀ v : MapProperty, Declares t pretty (.named "MapProperty") (v.dbg t)
  | .enumBool _ => by rw [MapProperty.dbg]; exact of (.cons (mapOf bool _) .nil) (by decide)
  | .enumInt _ => by rw [MapProperty.dbg]; exact of (.cons (mapOf i32 _) .nil) (by decide)
  | .enumProperty _ v => by
    rw [MapProperty.dbg]
    exact of (.cons (string _) (.cons (map (strProperties v)) .nil)) (by decide)
  | .nameBool _ => by rw [MapProperty.dbg]; exact of (.cons (mapOf bool _) .nil) (by decide)
  | .nameInt _ => by rw [MapProperty.dbg]; exact of (.cons (mapOf i32 _) .nil) (by decide)
  | .nameProperty _ v => by
    rw [MapProperty.dbg]
    exact of (.cons (string _) (.cons (map (strProperties v)) .nil)) (by decide)
  | .properties _ _ _ v => by
    rw [MapProperty.dbg]
    exact of (.cons (string _) (.cons (string _) (.cons (u32 _) (.cons (map (pairs v)) .nil))))
      (by decide)
  | .strBool _ => by rw [MapProperty.dbg]; exact of (.cons (mapOf bool _) .nil) (by decide)
  | .strInt _ => by rw [MapProperty.dbg]; exact of (.cons (mapOf i32 _) .nil) (by decide)
  | .strProperty _ v => by
    rw [MapProperty.dbg]
    exact of (.cons (string _) (.cons (map (strProperties v)) .nil)) (by decide)
  | .strStr _ => by rw [MapProperty.dbg]; exact of (.cons (mapOf optStr _) .nil) (by decide)
theorem structValue : ∀ v : StructPropertyValue, Declares t pretty (.named "StructPropertyValue") (v.dbg t)
  | .vector2F _ _ => by
    rw [StructPropertyValue.dbg]
    exact tuple (by decide) (of (name := "Vector2F") (.cons (f32 _) (.cons (f32 _) .nil)) (by decide))
  | .vector2D _ _ => by
    rw [StructPropertyValue.dbg]
    exact tuple (by decide) (of (name := "Vector2D") (.cons (f64 _) (.cons (f64 _) .nil)) (by decide))
  | .vectorF _ _ _ => by
    rw [StructPropertyValue.dbg]
    exact tuple (by decide) (of (name := "VectorF") (.cons (f32 _) (.cons (f32 _) (.cons (f32 _) .nil)))
      (by decide))
  | .vectorD _ _ _ => by
    rw [StructPropertyValue.dbg]
    exact tuple (by decide) (of (name := "VectorD") (.cons (f64 _) (.cons (f64 _) (.cons (f64 _) .nil)))
      (by decide))
  | .rotatorF _ _ _ => by
    rw [StructPropertyValue.dbg]
    exact tuple (by decide) (of (name := "RotatorF") (.cons (f32 _) (.cons (f32 _) (.cons (f32 _) .nil)))
      (by decide))
  | .rotatorD _ _ _ => by
    rw [StructPropertyValue.dbg]
    exact tuple (by decide) (of (name := "RotatorD") (.cons (f64 _) (.cons (f64 _) (.cons (f64 _) .nil)))
      (by decide))
  | .quatF _ _ _ _ => by
    rw [StructPropertyValue.dbg]
    exact tuple (by decide) (of (name := "QuatF") (.cons (f32 _) (.cons (f32 _) (.cons (f32 _)
      (.cons (f32 _) .nil)))) (by decide))
  | .quatD _ _ _ _ => by
    rw [StructPropertyValue.dbg]
    exact tuple (by decide) (of (name := "QuatD") (.cons (f64 _) (.cons (f64 _) (.cons (f64 _)
      (.cons (f64 _) .nil)))) (by decide))
  | .dateTime _ => by rw [StructPropertyValue.dbg]; exact tuple (by decide) (dateTime _)
  | .timespan _ => by rw [StructPropertyValue.dbg]; exact tuple (by decide) (timespan _)
  | .guid _ => by rw [StructPropertyValue.dbg]; exact tuple (by decide) (guid _)
  | .linearColor _ _ _ _ => by
    rw [StructPropertyValue.dbg]
    exact tuple (by decide) (of (name := "LinearColor") (.cons (f32 _) (.cons (f32 _) (.cons (f32 _)
      (.cons (f32 _) .nil)))) (by decide))
  | .intPoint _ _ => by
    rw [StructPropertyValue.dbg]
    exact tuple (by decide) (of (name := "IntPoint") (.cons (i32 _) (.cons (i32 _) .nil)) (by decide))
  | .gameplayTagContainer _ => by
    rw [StructPropertyValue.dbg]
    exact tuple (by decide) (listOf string _)
  | .customStruct v => by rw [StructPropertyValue.dbg]; exact tuple (by decide) (map (fieldLists v))
theorem properties : ∀ (l : List Property), ∀ d ∈ dbgProps t l, Declares t pretty (.named "Property") d
  | [], d, h => by simp [dbgProps] at h
  | v :: l, d, h => by
    rw [dbgProps, List.mem_cons] at h
    obtain rfl | h := h
    · exact property v
    · exact properties l d h
theorem structValues : ∀ (l : List StructPropertyValue), ∀ d ∈ dbgStructs t l,
    Declares t pretty (.named "StructPropertyValue") d
  | [], d, h => by simp [dbgStructs] at h
  | v :: l, d, h => by
    rw [dbgStructs, List.mem_cons] at h
    obtain rfl | h := h
    · exact structValue v
    · exact structValues l d h
theorem strProperties : ∀ (l : List (String × Property)), ∀ e ∈ dbgStrProps t l,
    Declares t pretty .string e.1 ∧ Declares t pretty (.named "Property") e.2
  | [], d, h => by simp [dbgStrProps] at h
  | (k, v) :: l, d, h => by
    rw [dbgStrProps, List.mem_cons] at h
    obtain rfl | h := h
    · exact ⟨string k, property v⟩
    · exact strProperties l d h
theorem pairs : ∀ (l : List (Property × Property)), ∀ e ∈ dbgPairs t l,
    Declares t pretty (.named "Property") e.1 ∧ Declares t pretty (.named "Property") e.2
  | [], d, h => by simp [dbgPairs] at h
  | (k, v) :: l, d, h => by
    rw [dbgPairs, List.mem_cons] at h
    obtain rfl | h := h
    · exact ⟨property k, property v⟩
    · exact pairs l d h
theorem fieldLists : ∀ (l : List (String × List Property)), ∀ e ∈ dbgFieldLists t l,
    Declares t pretty .string e.1 ∧ Declares t pretty (.vec (.named "Property")) e.2
  | [], d, h => by simp [dbgFieldLists] at h
  | (k, v) :: l, d, h => by
    rw [dbgFieldLists, List.mem_cons] at h
    obtain rfl | h := h
    · exact ⟨string k, list (properties v)⟩
    · exact fieldLists l d h
end

/-! ## Files -/

theorem engineVersion (v : FEngineVersion) : Declares t pretty (.named "FEngineVersion") v.dbg :=
  of (.cons (u16 _) (.cons (u16 _) (.cons (u16 _) (.cons (u32 _) (.cons (string _) .nil))))) (by decide)

theorem versions (vs : List (Guid × UInt32)) : Declares t pretty (.map .guid .u32) (versionsD vs) :=
  map fun _ hd => by obtain ⟨v, -, rfl⟩ := List.mem_map.mp hd; exact ⟨guid _, u32 _⟩

theorem header (h : GvasHeader) : Declares t pretty (.named "GvasHeader") h.dbg := by
  cases h
  · exact of (.cons (u32 _) (.cons (engineVersion _) (.cons (u32 _) (.cons (versions _)
      (.cons (string _) .nil))))) (by decide)
  · exact of (.cons (u32 _) (.cons (u32 _) (.cons (engineVersion _) (.cons (u32 _) (.cons (versions _)
      (.cons (string _) .nil)))))) (by decide)

theorem gameVersion (v : DeserializedGameVersion) : Declares t pretty (.named "DeserializedGameVersion") v.dbg := by
  cases v with
  | default => exact unit (by decide)
  | palworld c =>
    exact tuple (a := .named "PalworldCompressionType") (by decide) (unit (by cases c <;> decide))

theorem file (f : GvasFile) : Declares t pretty (.named "GvasFile") (f.dbg t) :=
  of (.cons (gameVersion _) (.cons (header _) (.cons (map (strProperties _)) .nil))) (by decide)

end Declares

end Gvas
