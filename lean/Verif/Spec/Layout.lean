import Verif.Model.Json
import Verif.Spec.LastWins
import Verif.Props.GuidExact
import Verif.Props.JsonScalars

/-!
# Specification vocabulary: the layout of the JSON

Which JSON stands for which value, as relations, with the names of all fields and variants.  A
field is found by its name, whatever other fields there are, or, where an array may stand for the
object, by its place.  Floats become the nearest ones (see
C70); GUIDs are text as in C11, bytes are hexadecimal as in C71.

`PropertyJ n j p`: the JSON `j` stands for the property `p`; it is nested at most `n` deep.
`PropJ n j p` is the same for a property inside another one.
-/

namespace Gvas.Layout

open Spec

/-- The fields of an object. -/
abbrev Fields := List (String × J)

/-! ## Building blocks -/

/-- The field `k` is there and stands for `a`. -/
def Has {α : Type} (es : Fields) (k : String) (R : J → α → Prop) (a : α) : Prop :=
  ∃ j, es.lookup k = some j ∧ R j a

/-- The field `k` may be left out, or be `null`. -/
inductive Maybe {α : Type} (es : Fields) (k : String) (R : J → α → Prop) : Option α → Prop
  | missing : es.lookup k = none → Maybe es k R none
  | null : es.lookup k = some .null → Maybe es k R none
  | there {j : J} {a : α} : es.lookup k = some j → j ≠ .null → R j a → Maybe es k R (some a)

/-- The field `k` may be left out, then it is `a₀`. -/
inductive OrElse {α : Type} (es : Fields) (k : String) (a₀ : α) (R : J → α → Prop) : α → Prop
  | missing : es.lookup k = none → OrElse es k a₀ R a₀
  | there {j : J} {a : α} : es.lookup k = some j → R j a → OrElse es k a₀ R a

/-- Item by item. -/
inductive Each {α β : Type} (R : α → β → Prop) : List α → List β → Prop
  | nil : Each R [] []
  | cons {a : α} {b : β} {as : List α} {bs : List β} : R a b → Each R as bs →
      Each R (a :: as) (b :: bs)

/-- An object. -/
def Obj {α : Type} (R : Fields → α → Prop) (j : J) (a : α) : Prop := ∃ es, j = .obj es ∧ R es a

/-- The fields of a record with these names: those of an object, or an array with as many values. -/
def FieldsOf (names : List String) (j : J) (es : Fields) : Prop :=
  j = .obj es ∨ ∃ l, j = .arr l ∧ l.length = names.length ∧ es = names.zip l

/-- A record with these names. -/
def Rec {α : Type} (names : List String) (R : Fields → α → Prop) (j : J) (a : α) : Prop :=
  ∃ es, FieldsOf names j es ∧ R es a

/-- The name of a kind, or its place in the list of all kinds. -/
def IsTag (kinds : List String) (j : J) (tag : String) : Prop :=
  j = .str tag ∨ ∃ n : Nat, j = .int n ∧ kinds[n]? = some tag

/-- A record of one of several kinds: an object that has the kind in the field `key`, or an array
with the kind at its head and then a value for each name of a kind in `forms`. -/
def Tagged {α : Type} (key : String) (T : J → String → Prop) (forms : List (String × List String))
    (R : String → Fields → α → Prop) (j : J) (a : α) : Prop :=
  (∃ es tag, j = .obj es ∧ Has es key T tag ∧ R tag es a) ∨
  (∃ t l tag names, j = .arr (t :: l) ∧ T t tag ∧ (tag, names) ∈ forms ∧
    l.length = names.length ∧ R tag (names.zip l) a)

/-- An array. -/
def Arr {α : Type} (R : J → α → Prop) (j : J) (l : List α) : Prop := ∃ js, j = .arr js ∧ Each R js l

/-- An object as a map; of keys that stand for the same one, the last value counts. -/
def MapOf {κ α : Type} [BEq κ] (K : String → κ → Prop) (R : J → α → Prop) (j : J)
    (m : List (κ × α)) : Prop :=
  ∃ js es, j = .obj js ∧ Each (fun x e => K x.1 e.1 ∧ R x.2 e.2) js es ∧ LastWins (· == ·) es m

/-- An object as a map with text as keys. -/
def StrMap {α : Type} (R : J → α → Prop) (j : J) (m : List (String × α)) : Prop :=
  MapOf (fun s k => s = k) R j m

/-- An array of two. -/
def Two {α : Type} (R : J → α → Prop) (j : J) (e : α × α) : Prop :=
  ∃ a b, j = .arr [a, b] ∧ R a e.1 ∧ R b e.2

/-- `null` or something. -/
inductive Nullable {α : Type} (R : J → α → Prop) : J → Option α → Prop
  | null : Nullable R .null none
  | some {j : J} {a : α} : j ≠ .null → R j a → Nullable R j (some a)

/-- The first of several readings that applies at all. -/
def First {α : Type} : List (α → Prop) → α → Prop
  | [], _ => False
  | R :: l, a => R a ∨ ((∀ b, ¬ R b) ∧ First l a)

/-- A value by its name, or by an object with this name and nothing in it: `null`, or one of
`nothing`. -/
def Named {α : Type} (nothing : List J) (l : List (String × α)) (j : J) (a : α) : Prop :=
  ∃ s, (s, a) ∈ l ∧ (j = .str s ∨ j = .obj [(s, .null)] ∨ ∃ e ∈ nothing, j = .obj [(s, e)])

/-- A value by its name or by its place in the list of all of them. -/
def Listed {α : Type} (l : List (String × α)) (j : J) (a : α) : Prop :=
  ∃ s, IsTag (l.map Prod.fst) j s ∧ (s, a) ∈ l

/-! ## Scalars -/

/-- A boolean. -/
def IsBool (j : J) (b : Bool) : Prop := j = .bool b
/-- Text. -/
def IsStr (j : J) (s : String) : Prop := j = .str s
/-- A number of 8 bits. -/
def IsU8 (j : J) (v : UInt8) : Prop := j = .int v.toNat
/-- A number of 16 bits. -/
def IsU16 (j : J) (v : UInt16) : Prop := j = .int v.toNat
/-- A number of 32 bits. -/
def IsU32 (j : J) (v : UInt32) : Prop := j = .int v.toNat
/-- A number of 64 bits. -/
def IsU64 (j : J) (v : UInt64) : Prop := j = .int v.toNat
/-- A signed number of 8 bits. -/
def IsI8 (j : J) (v : Int8) : Prop := j = .int v.toInt
/-- A signed number of 16 bits. -/
def IsI16 (j : J) (v : Int16) : Prop := j = .int v.toInt
/-- A signed number of 32 bits. -/
def IsI32 (j : J) (v : Int32) : Prop := j = .int v.toInt
/-- A signed number of 64 bits. -/
def IsI64 (j : J) (v : Int64) : Prop := j = .int v.toInt
/-- A 32 bit float from any number (C70 says which). -/
inductive IsF32 : J → F32 → Prop
  | float (d : F64) : IsF32 (.float d) d.toF32
  | int (n : Int) : IsF32 (.int n) (F32.ofInt n)
/-- A 64 bit float from any number (C70 says which). -/
inductive IsF64 : J → F64 → Prop
  | float (d : F64) : IsF64 (.float d) d
  | int (n : Int) : IsF64 (.int n) (F64.ofInt n)

/-- Text that stands for a GUID. -/
def GuidText (s : String) (g : Guid) : Prop :=
  ∃ core, CoreOf s.toList core ∧
    ((core = ['0'] ∧ g.bytes = List.replicate 16 0) ∨ LooseOf g.bytes core)
/-- A GUID. -/
def IsGuid (j : J) (g : Guid) : Prop := ∃ s, j = .str s ∧ GuidText s g
/-- Bytes as hexadecimal text. -/
def IsHex (j : J) (bs : Bytes) : Prop := ∃ s, j = .str s ∧ HexPairs s.toList bs
/-- Ticks of a date or a time span. -/
def IsTicks : J → UInt64 → Prop := Rec ["ticks"] fun es t => Has es "ticks" IsU64 t

/-! ## Texts -/

/-- The names of the rounding modes. -/
def roundings : List (String × RoundingMode) :=
  [("HalfToEven", .halfToEven), ("HalfFromZero", .halfFromZero), ("HalfToZero", .halfToZero),
   ("FromZero", .fromZero), ("ToZero", .toZero), ("ToNegativeInfinity", .toNegativeInfinity),
   ("ToPositiveInfinity", .toPositiveInfinity)]

/-- The names of the date and time styles. -/
def styles : List (String × DateTimeStyle) :=
  [("Default", .default), ("Short", .short), ("Medium", .medium), ("Long", .long), ("Full", .full)]

/-- The names of the transformations. -/
def transforms : List (String × TransformType) := [("ToLower", .toLower), ("ToUpper", .toUpper)]

/-- Number formatting options. -/
def IsOptions : J → NumberFormattingOptions → Prop := Obj fun es o =>
  Has es "always_include_sign" IsBool o.alwaysIncludeSign ∧
  Has es "use_grouping" IsBool o.useGrouping ∧
  Has es "rounding" (Listed roundings) o.roundingMode ∧
  Has es "minimum_integral_digits" IsI32 o.minimumIntegralDigits ∧
  Has es "maximum_integral_digits" IsI32 o.maximumIntegralDigits ∧
  Has es "minimum_fractional_digits" IsI32 o.minimumFractionalDigits ∧
  Has es "maximum_fractional_digits" IsI32 o.maximumFractionalDigits

/-- A format argument: an object with one field, named after the kind of argument.  `T` says what
stands for a text. -/
inductive ArgJ (T : J → FText → Prop) : J → FormatArgumentValue → Prop
  | int {j : J} {v : Int32} : IsI32 j v → ArgJ T (.obj [("Int", j)]) (.int v)
  | uint {j : J} {v : UInt32} : IsU32 j v → ArgJ T (.obj [("UInt", j)]) (.uint v)
  | float {j : J} {v : F32} : IsF32 j v → ArgJ T (.obj [("Float", j)]) (.float v)
  | double {j : J} {v : F64} : IsF64 j v → ArgJ T (.obj [("Double", j)]) (.double v)
  | text {j : J} {v : FText} : T j v → ArgJ T (.obj [("Text", j)]) (.text v)
  | int64 {j : J} {v : Int64} : IsI64 j v → ArgJ T (.obj [("Int64", j)]) (.int64 v)
  | uint64 {j : J} {v : UInt64} : IsU64 j v → ArgJ T (.obj [("UInt64", j)]) (.uint64 v)

/-- The kinds of histories. -/
def histories : List String :=
  ["Empty", "None", "Base", "NamedFormat", "OrderedFormat", "ArgumentFormat", "AsNumber",
   "AsPercent", "AsCurrency", "AsDate", "AsTime", "AsDateTime", "Transform", "StringTableEntry"]

/-- What the field `history` says. -/
abbrev Kind (es : Fields) (kind : String) : Prop := Has es "history" (IsTag histories) kind

/-- The fields of a history; `history` names its kind. -/
inductive HistoryJ (T : J → FText → Prop) (es : Fields) : FTextHistory → Prop
  | empty : Kind es "Empty" → HistoryJ T es .empty
  | none {s : Option String} : Kind es "None" →
      Maybe es "culture_invariant_string" IsStr s → HistoryJ T es (.none s)
  | base {a b c : Option String} : Kind es "Base" →
      Maybe es "namespace" IsStr a → Maybe es "key" IsStr b → Maybe es "source_string" IsStr c →
      HistoryJ T es (.base a b c)
  | namedFormat {t : FText} {args : List (String × FormatArgumentValue)} :
      Kind es "NamedFormat" → Has es "source_format" T t →
      Has es "arguments" (StrMap (ArgJ T)) args → HistoryJ T es (.namedFormat t args)
  | orderedFormat {t : FText} {args : List FormatArgumentValue} :
      Kind es "OrderedFormat" → Has es "source_format" T t →
      Has es "arguments" (Arr (ArgJ T)) args → HistoryJ T es (.orderedFormat t args)
  | argumentFormat {t : FText} {args : List (String × FormatArgumentValue)} :
      Kind es "ArgumentFormat" → Has es "source_format" T t →
      Has es "arguments" (StrMap (ArgJ T)) args → HistoryJ T es (.argumentFormat t args)
  | asNumber {v : FormatArgumentValue} {o : Option NumberFormattingOptions} {c : Option String} :
      Kind es "AsNumber" → Has es "source_value" (ArgJ T) v →
      Maybe es "format_options" IsOptions o → Maybe es "target_culture" IsStr c →
      HistoryJ T es (.asNumber v o c)
  | asPercent {v : FormatArgumentValue} {o : Option NumberFormattingOptions} {c : Option String} :
      Kind es "AsPercent" → Has es "source_value" (ArgJ T) v →
      Maybe es "format_options" IsOptions o → Maybe es "target_culture" IsStr c →
      HistoryJ T es (.asPercent v o c)
  | asCurrency {a : Option String} {v : FormatArgumentValue} {o : Option NumberFormattingOptions}
      {c : Option String} : Kind es "AsCurrency" →
      Maybe es "currency_code" IsStr a → Has es "source_value" (ArgJ T) v →
      Maybe es "format_options" IsOptions o → Maybe es "target_culture" IsStr c →
      HistoryJ T es (.asCurrency a v o c)
  | asDate {t : UInt64} {st : DateTimeStyle} {c : String} : Kind es "AsDate" →
      Has es "date_time" IsTicks t → Has es "date_style" (Named [.obj []] styles) st →
      Has es "target_culture" IsStr c → HistoryJ T es (.asDate t st c)
  | asTime {t : UInt64} {st : DateTimeStyle} {z c : String} : Kind es "AsTime" →
      Has es "source_date_time" IsTicks t → Has es "time_style" (Named [.obj []] styles) st →
      Has es "time_zone" IsStr z → Has es "target_culture" IsStr c → HistoryJ T es (.asTime t st z c)
  | asDateTime {t : UInt64} {ds ts : DateTimeStyle} {z c : String} :
      Kind es "AsDateTime" → Has es "source_date_time" IsTicks t →
      Has es "date_style" (Named [.obj []] styles) ds → Has es "time_style" (Named [.obj []] styles) ts →
      Has es "time_zone" IsStr z → Has es "target_culture" IsStr c →
      HistoryJ T es (.asDateTime t ds ts z c)
  | transform {t : FText} {tt : TransformType} : Kind es "Transform" →
      Has es "source_text" T t → Has es "transform" (Listed transforms) tt →
      HistoryJ T es (.transform t tt)
  | stringTableEntry {a b : String} : Kind es "StringTableEntry" →
      Has es "table_id" IsStr a → Has es "key" IsStr b → HistoryJ T es (.stringTableEntry a b)

/-- The fields of a text: flags, and those of its history. -/
inductive TextFields (T : J → FText → Prop) (es : Fields) : FText → Prop
  | mk {flags : UInt32} {h : FTextHistory} : OrElse es "flags" 0 IsU32 flags → HistoryJ T es h →
      TextFields T es (.mk flags h)

/-- The fields of a text in which texts are nested less than `n` deep. -/
def TextJ : Nat → Fields → FText → Prop
  | 0 => fun _ _ => False
  | n + 1 => TextFields (Obj (TextJ n))

/-! ## Properties -/

/-- A delegate. -/
def IsDelegate : J → Delegate → Prop := Rec ["object", "function_name"] fun es d =>
  Has es "object" IsStr d.object ∧ Has es "function_name" IsStr d.functionName
/-- Delegates. -/
def IsDelegates : J → List Delegate → Prop := Rec ["delegates"] fun es ds =>
  Has es "delegates" (Arr IsDelegate) ds
/-- A path to a field. -/
def IsFieldPath : J → FieldPath → Prop := Rec ["path", "resolved_owner"] fun es p =>
  Has es "path" (Arr IsStr) p.path ∧ Has es "resolved_owner" IsStr p.resolvedOwner

/-- The content of a struct, by its variant.  `P` says what stands for a property. -/
inductive Variant (P : J → Property → Prop) : String → J → StructPropertyValue → Prop
  | vector2F {j : J} {es : Fields} {x y : F32} : FieldsOf ["x", "y"] j es →
      Has es "x" IsF32 x → Has es "y" IsF32 y →
      Variant P "Vector2F" j (.vector2F x y)
  | vector2D {j : J} {es : Fields} {x y : F64} : FieldsOf ["x", "y"] j es →
      Has es "x" IsF64 x → Has es "y" IsF64 y →
      Variant P "Vector2D" j (.vector2D x y)
  | vectorF {j : J} {es : Fields} {x y z : F32} : FieldsOf ["x", "y", "z"] j es →
      Has es "x" IsF32 x → Has es "y" IsF32 y →
      Has es "z" IsF32 z → Variant P "VectorF" j (.vectorF x y z)
  | vectorD {j : J} {es : Fields} {x y z : F64} : FieldsOf ["x", "y", "z"] j es →
      Has es "x" IsF64 x → Has es "y" IsF64 y →
      Has es "z" IsF64 z → Variant P "VectorD" j (.vectorD x y z)
  | rotatorF {j : J} {es : Fields} {x y z : F32} : FieldsOf ["pitch", "yaw", "roll"] j es →
      Has es "pitch" IsF32 x → Has es "yaw" IsF32 y →
      Has es "roll" IsF32 z → Variant P "RotatorF" j (.rotatorF x y z)
  | rotatorD {j : J} {es : Fields} {x y z : F64} : FieldsOf ["pitch", "yaw", "roll"] j es →
      Has es "pitch" IsF64 x → Has es "yaw" IsF64 y →
      Has es "roll" IsF64 z → Variant P "RotatorD" j (.rotatorD x y z)
  | quatF {j : J} {es : Fields} {x y z w : F32} : FieldsOf ["x", "y", "z", "w"] j es →
      Has es "x" IsF32 x → Has es "y" IsF32 y →
      Has es "z" IsF32 z → Has es "w" IsF32 w → Variant P "QuatF" j (.quatF x y z w)
  | quatD {j : J} {es : Fields} {x y z w : F64} : FieldsOf ["x", "y", "z", "w"] j es →
      Has es "x" IsF64 x → Has es "y" IsF64 y →
      Has es "z" IsF64 z → Has es "w" IsF64 w → Variant P "QuatD" j (.quatD x y z w)
  | dateTime {j : J} {t : UInt64} : IsTicks j t → Variant P "DateTime" j (.dateTime t)
  | timespan {j : J} {t : UInt64} : IsTicks j t → Variant P "Timespan" j (.timespan t)
  | guid {j : J} {g : Guid} : IsGuid j g → Variant P "Guid" j (.guid g)
  | linearColor {j : J} {es : Fields} {r g b a : F32} : FieldsOf ["r", "g", "b", "a"] j es →
      Has es "r" IsF32 r → Has es "g" IsF32 g →
      Has es "b" IsF32 b → Has es "a" IsF32 a →
      Variant P "LinearColor" j (.linearColor r g b a)
  | intPoint {j : J} {es : Fields} {x y : Int32} : FieldsOf ["x", "y"] j es →
      Has es "x" IsI32 x → Has es "y" IsI32 y →
      Variant P "IntPoint" j (.intPoint x y)
  | gameplayTagContainer {j : J} {l : List String} : Arr IsStr j l →
      Variant P "GameplayTagContainer" j (.gameplayTagContainer l)
  | customStruct {j : J} {fs : List (String × List Property)} : StrMap (Arr P) j fs →
      Variant P "CustomStruct" j (.customStruct fs)

/-- The names of the variants. -/
def variants : List String :=
  ["Vector2F", "Vector2D", "VectorF", "VectorD", "RotatorF", "RotatorD", "QuatF", "QuatD",
   "DateTime", "Timespan", "Guid", "LinearColor", "IntPoint", "GameplayTagContainer",
   "CustomStruct"]

/-- A struct by itself: an object with one field, named after its variant. -/
inductive StructJ (P : J → Property → Prop) : J → StructPropertyValue → Prop
  | mk {k : String} {j : J} {v : StructPropertyValue} : Variant P k j v →
      StructJ P (.obj [(k, j)]) v

/-- A struct among other fields: the first one named after a variant. -/
def StructAmong (P : J → Property → Prop) (es : Fields) (v : StructPropertyValue) : Prop :=
  ∃ pre k j post, es = pre ++ (k, j) :: post ∧ (∀ e ∈ pre, e.1 ∉ variants) ∧ Variant P k j v

/-- The value of a byte property among other fields: the first one named `Byte` or `Namespaced`. -/
inductive ByteAmong (es : Fields) : BytePropertyValue → Prop
  | byte {pre post : Fields} {j : J} {v : UInt8} : es = pre ++ ("Byte", j) :: post →
      (∀ e ∈ pre, e.1 ≠ "Byte" ∧ e.1 ≠ "Namespaced") → IsU8 j v → ByteAmong es (.byte v)
  | namespaced {pre post : Fields} {j : J} {s : String} : es = pre ++ ("Namespaced", j) :: post →
      (∀ e ∈ pre, e.1 ≠ "Byte" ∧ e.1 ≠ "Namespaced") → IsStr j s → ByteAmong es (.namespaced s)

/-- The fields of an array property. -/
def ArrayJ (P : J → Property → Prop) (es : Fields) : ArrayProperty → Prop := First [
  fun v => ∃ l, v = .bools l ∧ Has es "bools" (Arr IsBool) l,
  fun v => ∃ l, v = .bytes l ∧ Has es "bytes" IsHex l,
  fun v => ∃ l, v = .enums l ∧ Has es "enums" (Arr IsStr) l,
  fun v => ∃ l, v = .floats l ∧ Has es "floats" (Arr IsF32) l,
  fun v => ∃ l, v = .ints l ∧ Has es "ints" (Arr IsI32) l,
  fun v => ∃ l, v = .names l ∧ Has es "names" (Arr (Nullable IsStr)) l,
  fun v => ∃ l, v = .strings l ∧ Has es "strings" (Arr (Nullable IsStr)) l,
  fun v => ∃ f t g l, v = .structs f t g l ∧ Has es "field_name" IsStr f ∧
    Has es "type_name" IsStr t ∧ OrElse es "guid" (Guid.fromU128 0) IsGuid g ∧
    Has es "structs" (Arr (StructJ P)) l,
  fun v => ∃ t l, v = .properties t l ∧ Has es "property_type" IsStr t ∧
    Has es "properties" (Arr P) l]

/-- The fields of a map property.  Pairs whose keys are the same are one entry, the last one
counts. -/
def MapJ (P : J → Property → Prop) (es : Fields) : MapProperty → Prop := First [
  fun v => ∃ m, v = .enumBool m ∧ Has es "enum_bools" (StrMap IsBool) m,
  fun v => ∃ m, v = .enumInt m ∧ Has es "enum_ints" (StrMap IsI32) m,
  fun v => ∃ t m, v = .enumProperty t m ∧ Has es "value_type" IsStr t ∧
    Has es "enum_props" (StrMap P) m,
  fun v => ∃ m, v = .nameBool m ∧ Has es "name_bools" (StrMap IsBool) m,
  fun v => ∃ m, v = .nameInt m ∧ Has es "name_ints" (StrMap IsI32) m,
  fun v => ∃ t m, v = .nameProperty t m ∧ Has es "value_type" IsStr t ∧
    Has es "name_props" (StrMap P) m,
  fun v => ∃ kt vt fl ps m, v = .properties kt vt fl m ∧ Has es "key_type" IsStr kt ∧
    Has es "value_type" IsStr vt ∧ Has es "allocation_flags" IsU32 fl ∧
    Has es "value" (Arr (Two P)) ps ∧ LastWins sameKey ps m,
  fun v => ∃ m, v = .strBool m ∧ Has es "str_bools" (StrMap IsBool) m,
  fun v => ∃ m, v = .strInt m ∧ Has es "str_ints" (StrMap IsI32) m,
  fun v => ∃ t m, v = .strProperty t m ∧ Has es "value_type" IsStr t ∧
    Has es "str_props" (StrMap P) m,
  fun v => ∃ m, v = .strStr m ∧ Has es "str_strs" (StrMap (Nullable IsStr)) m]

/-- The fields of a property of a type.  `T` says what stands for a text and `P` what stands for a
property inside. -/
inductive Fits (T : Fields → FText → Prop) (P : J → Property → Prop) (es : Fields) :
    String → Property → Prop
  | array {v : ArrayProperty} : ArrayJ P es v →
      Fits T P es "ArrayProperty" (.array v)
  | bool {v : Bool} : Has es "value" IsBool v →
      Fits T P es "BoolProperty" (.bool v)
  | byte {name : Option String} {v : BytePropertyValue} :
      Maybe es "name" IsStr name → ByteAmong es v → Fits T P es "ByteProperty" (.byte name v)
  | double {v : F64} : Has es "value" IsF64 v →
      Fits T P es "DoubleProperty" (.double v)
  | enum {t : Option String} {v : String} :
      Maybe es "enum_type" IsStr t → Has es "value" IsStr v → Fits T P es "EnumProperty" (.enum t v)
  | float {v : F32} : Has es "value" IsF32 v →
      Fits T P es "FloatProperty" (.float v)
  | int16 {v : Int16} : Has es "value" IsI16 v →
      Fits T P es "Int16Property" (.int16 v)
  | int64 {v : Int64} : Has es "value" IsI64 v →
      Fits T P es "Int64Property" (.int64 v)
  | int8 {v : Int8} : Has es "value" IsI8 v →
      Fits T P es "Int8Property" (.int8 v)
  | int {v : Int32} : Has es "value" IsI32 v →
      Fits T P es "IntProperty" (.int v)
  | map {v : MapProperty} : MapJ P es v → Fits T P es "MapProperty" (.map v)
  | name {i : UInt32} {v : Option String} :
      OrElse es "array_index" 0 IsU32 i → Maybe es "value" IsStr v → Fits T P es "NameProperty" (.name i v)
  | object {v : String} : Has es "value" IsStr v →
      Fits T P es "ObjectProperty" (.object v)
  | delegate {v : Delegate} : Has es "value" IsDelegate v →
      Fits T P es "DelegateProperty" (.delegate v)
  | multicastInlineDelegate {v : List Delegate} : Has es "value" IsDelegates v →
      Fits T P es "MulticastInlineDelegateProperty" (.multicastInlineDelegate v)
  | multicastSparseDelegate {v : List Delegate} : Has es "value" IsDelegates v →
      Fits T P es "MulticastSparseDelegateProperty" (.multicastSparseDelegate v)
  | fieldPath {v : FieldPath} :
      Has es "value" IsFieldPath v → Fits T P es "FieldPathProperty" (.fieldPath v)
  | set {t : String} {fl : UInt32} {ps : List Property} :
      Has es "property_type" IsStr t → Has es "allocation_flags" IsU32 fl →
      Has es "properties" (Arr P) ps → Fits T P es "SetProperty" (.set t fl ps)
  | str {v : Option String} : Maybe es "value" IsStr v →
      Fits T P es "StrProperty" (.str v)
  | struct {g : Guid} {t : String} {v : StructPropertyValue} : OrElse es "guid" (Guid.fromU128 0) IsGuid g →
      Has es "type_name" IsStr t → StructAmong P es v → Fits T P es "StructProperty" (.struct g t v)
  | structValue {k : String} {j : J} {v : StructPropertyValue} : es.filter (fun e => e.1 != "type") = [(k, j)] →
      Variant P k j v → Fits T P es "StructPropertyValue" (.structValue v)
  | text {v : FText} : T es v → Fits T P es "TextProperty" (.text v)
  | uint16 {v : UInt16} : Has es "value" IsU16 v →
      Fits T P es "UInt16Property" (.uint16 v)
  | uint32 {v : UInt32} : Has es "value" IsU32 v →
      Fits T P es "UInt32Property" (.uint32 v)
  | uint64 {v : UInt64} : Has es "value" IsU64 v →
      Fits T P es "UInt64Property" (.uint64 v)
  | unknown {name : String} {raw : Bytes} :
      Has es "property_name" IsStr name → Has es "raw" (Arr IsU8) raw →
      Fits T P es "UnknownProperty" (.unknown name raw)

/-- The types of properties. -/
def types : List String :=
  ["ArrayProperty", "BoolProperty", "ByteProperty", "DoubleProperty", "EnumProperty",
   "FloatProperty", "Int16Property", "Int64Property", "Int8Property", "IntProperty", "MapProperty",
   "NameProperty", "ObjectProperty", "DelegateProperty", "MulticastInlineDelegateProperty",
   "MulticastSparseDelegateProperty", "FieldPathProperty", "SetProperty", "StrProperty",
   "StructProperty", "StructPropertyValue", "TextProperty", "UInt16Property", "UInt32Property",
   "UInt64Property", "UnknownProperty"]

/-- The types of properties that may be arrays, and what is in them. -/
def typeForms : List (String × List String) :=
  [("BoolProperty", ["value"]), ("DoubleProperty", ["value"]),
   ("EnumProperty", ["enum_type", "value"]), ("FloatProperty", ["value"]),
   ("Int16Property", ["value"]), ("Int64Property", ["value"]), ("Int8Property", ["value"]),
   ("IntProperty", ["value"]), ("NameProperty", ["array_index", "value"]),
   ("ObjectProperty", ["value"]), ("DelegateProperty", ["value"]),
   ("MulticastInlineDelegateProperty", ["value"]),
   ("MulticastSparseDelegateProperty", ["value"]), ("FieldPathProperty", ["value"]),
   ("SetProperty", ["property_type", "allocation_flags", "properties"]),
   ("StrProperty", ["value"]), ("UInt16Property", ["value"]), ("UInt32Property", ["value"]),
   ("UInt64Property", ["value"]), ("UnknownProperty", ["property_name", "raw"])]

/-- The JSON of a property inside another one, in which properties and texts are nested at most `n`
deep. -/
def PropJ : Nat → J → Property → Prop
  | 0 => fun _ _ => False
  | n + 1 => Tagged "type" (IsTag types) typeForms fun tag es =>
      Fits (TextJ (n + 1)) (PropJ n) es tag

/-- The JSON of a property: its type is named. -/
def PropertyJ : Nat → J → Property → Prop
  | 0 => fun _ _ => False
  | n + 1 => Tagged "type" IsStr typeForms fun tag es => Fits (TextJ (n + 1)) (PropJ n) es tag

/-! ## Files -/

/-- An engine version. -/
def IsEngineVersion : J → FEngineVersion → Prop :=
  Rec ["major", "minor", "patch", "change_list", "branch"] fun es v =>
  Has es "major" IsU16 v.major ∧ Has es "minor" IsU16 v.minor ∧ Has es "patch" IsU16 v.patch ∧
  Has es "change_list" IsU32 v.changeList ∧ Has es "branch" IsStr v.branch

/-- The fields of a header of a version. -/
inductive HeaderFields (es : Fields) : String → GvasHeader → Prop
  | version2 {pkg fmt : UInt32} {ev : FEngineVersion} {cv : List (Guid × UInt32)} {cls : String} :
      Has es "package_file_version" IsU32 pkg →
      Has es "engine_version" IsEngineVersion ev → Has es "custom_version_format" IsU32 fmt →
      Has es "custom_versions" (MapOf GuidText IsU32) cv →
      Has es "save_game_class_name" IsStr cls → HeaderFields es "Version2" (.version2 pkg ev fmt cv cls)
  | version3 {pkg ue5 fmt : UInt32} {ev : FEngineVersion} {cv : List (Guid × UInt32)}
      {cls : String} :
      Has es "package_file_version" IsU32 pkg →
      Has es "package_file_version_ue5" IsU32 ue5 → Has es "engine_version" IsEngineVersion ev →
      Has es "custom_version_format" IsU32 fmt →
      Has es "custom_versions" (MapOf GuidText IsU32) cv →
      Has es "save_game_class_name" IsStr cls → HeaderFields es "Version3" (.version3 pkg ue5 ev fmt cv cls)

/-- The versions of headers, and what is in them as arrays. -/
def headerForms : List (String × List String) :=
  [("Version2", ["package_file_version", "engine_version", "custom_version_format",
     "custom_versions", "save_game_class_name"]),
   ("Version3", ["package_file_version", "package_file_version_ue5", "engine_version",
     "custom_version_format", "custom_versions", "save_game_class_name"])]

/-- A header. -/
def HeaderJ : J → GvasHeader → Prop :=
  Tagged "type" IsStr headerForms fun tag es => HeaderFields es tag

/-- The names of the compression types. -/
def compressions : List (String × PalworldCompressionType) :=
  [("None", .none), ("Zlib", .zlib), ("ZlibTwice", .zlibTwice)]

/-- The game a file is from. -/
inductive GameJ : J → DeserializedGameVersion → Prop
  | default : GameJ (.str "Default") .default
  | nothing : GameJ (.obj [("Default", .null)]) .default
  | palworld {j : J} {c : PalworldCompressionType} : Named [] compressions j c →
      GameJ (.obj [("Palworld", j)]) (.palworld c)

/-- The fields of a file whose JSON is nested `n` deep. -/
def FileFields (n : Nat) (es : Fields) (f : GvasFile) : Prop :=
  OrElse es "deserialized_game_version" .default GameJ f.gameVersion ∧
  Has es "header" HeaderJ f.header ∧
  Has es "properties" (StrMap (PropertyJ n)) f.properties

/-- The JSON of a file. -/
def FileJ (j : J) (f : GvasFile) : Prop :=
  Rec ["deserialized_game_version", "header", "properties"] (FileFields j.depth) j f

end Gvas.Layout
