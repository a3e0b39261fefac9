import Verif.Spec.Wf
import Verif.Spec.Streams

/-!
# Specification vocabulary: the file format as a grammar

Which bytes stand for which value, as inductive relations.  There is no reader, no position, no
fuel and no error here: `Full env st ty b p` says that the bytes `b` are a property of type `ty`
with the value `p`, below the path `st`.  Where the format depends on something other than the
bytes - the custom versions of the header, the type hints, the debug assertions, the element size
an array suggests - that is an argument of the relation.
-/

namespace Gvas.Format

open Spec

/-! ## Strings and sequences -/

/-- A string: absent (length 0), UTF-8 with a positive length, or UTF-16 with a negative length;
the length counts the zero at the end and is at most 131072. -/
inductive Str : Bytes → Option String → Prop
  | null : Str (i32B 0) none
  | narrow (t : String) (n : Nat) : (utf8Encode t.toList).length = n → n < 131072 →
      Str (i32B (Int32.ofNat (n + 1)) ++ utf8Encode t.toList ++ [0]) (some t)
  | wide (t : String) (n : Nat) : (utf16Encode t.toList).length = n → n < 131072 →
      Str (i32B (-(Int32.ofNat (n + 1))) ++ u16sToBytes (utf16Encode t.toList) ++ [0, 0]) (some t)

/-- Items one after the other. -/
inductive Seq {α : Type} (L : Bytes → α → Prop) : Bytes → List α → Prop
  | nil : Seq L [] []
  | cons {b bs : Bytes} {a : α} {as : List α} : L b a → Seq L bs as → Seq L (b ++ bs) (a :: as)

/-- A 32 bit count and as many items. -/
inductive Counted {α : Type} (L : Bytes → α → Prop) : Bytes → List α → Prop
  | mk {b : Bytes} {as : List α} : Seq L b as → as.length < 2 ^ 32 →
      Counted L (u32B (UInt32.ofNat as.length) ++ b) as

/-- One byte that counts into a list of choices. -/
def Choice {α : Type} (l : List α) (b : Bytes) (a : α) : Prop :=
  ∃ n, n < 256 ∧ l[n]? = some a ∧ b = [UInt8.ofNat n]

/-! ## What the custom versions switch on -/

/-- The header lists the custom version `g` with at least version `n`. -/
def Since (cv : List (Guid × UInt32)) (g : Guid) (n : Nat) : Prop :=
  ∃ v, cv.lookup g = some v ∧ n ≤ v.toNat

/-- Texts without history may carry a string (editor version 32). -/
def InvariantText (cv : List (Guid × UInt32)) : Prop :=
  Since cv (Guid.fromU32 0xE4B068ED 0xF49442E9 0xA231DA0B 0x2E46BB41) 32
/-- Integers among text arguments have 64 bits (UE5 release version 12). -/
def WideArguments (cv : List (Guid × UInt32)) : Prop :=
  Since cv (Guid.fromU32 0xD89B5E42 0x24BD4D46 0x8412ACA8 0xDF641779) 12
/-- Coordinates are 64 bit floats (UE5 release version 28). -/
def LargeWorld (cv : List (Guid × UInt32)) : Prop :=
  Since cv (Guid.fromU32 0xD89B5E42 0x24BD4D46 0x8412ACA8 0xDF641779) 28

/-! ## Texts -/

/-- Date and time styles by number. -/
def styles : List DateTimeStyle := [.default, .short, .medium, .long, .full]
/-- Text transformations by number. -/
def transforms : List TransformType := [.toLower, .toUpper]
/-- Rounding modes by number. -/
def roundings : List RoundingMode :=
  [.halfToEven, .halfFromZero, .halfToZero, .fromZero, .toZero, .toNegativeInfinity,
   .toPositiveInfinity]

/-- Optional number formatting options. -/
inductive Options : Bytes → Option NumberFormattingOptions → Prop
  | none : Options (u32B 0) .none
  | some {rb : Bytes} (sign grouping : Bool) {r : RoundingMode} (a b c d : Int32) :
      Choice roundings rb r →
      Options (u32B 1 ++ u32B (if sign then 1 else 0) ++ u32B (if grouping then 1 else 0) ++ rb ++
        i32B a ++ i32B b ++ i32B c ++ i32B d) (.some ⟨sign, grouping, r, a, b, c, d⟩)

mutual
/-- A text: flags and history. -/
inductive Text (cv : List (Guid × UInt32)) : Bytes → FText → Prop
  | mk (flags : UInt32) {b : Bytes} {h : FTextHistory} : History cv b h →
      Text cv (u32B flags ++ b) (.mk flags h)
/-- A history: a number for its kind, then its parts. -/
inductive History (cv : List (Guid × UInt32)) : Bytes → FTextHistory → Prop
  | old : ¬ InvariantText cv → History cv [0xFF] .empty
  | empty : InvariantText cv → History cv ([0xFF] ++ u32B 0) .empty
  | invariant {b : Bytes} {s : Option String} : InvariantText cv → Str b s →
      History cv ([0xFF] ++ u32B 1 ++ b) (.none s)
  | base {b1 b2 b3 : Bytes} {ns key src : Option String} : Str b1 ns → Str b2 key → Str b3 src →
      History cv ([0] ++ b1 ++ b2 ++ b3) (.base ns key src)
  | namedFormat {b bs : Bytes} {t : FText} {es args : List (String × FormatArgumentValue)} :
      Text cv b t → NamedArgs cv bs es → es.length < 2 ^ 31 → LastWins (· == ·) es args →
      History cv ([1] ++ b ++ i32B (Int32.ofNat es.length) ++ bs) (.namedFormat t args)
  | orderedFormat {b bs : Bytes} {t : FText} {vs : List FormatArgumentValue} :
      Text cv b t → Args cv bs vs → vs.length < 2 ^ 31 →
      History cv ([2] ++ b ++ i32B (Int32.ofNat vs.length) ++ bs) (.orderedFormat t vs)
  | argumentFormat {b bs : Bytes} {t : FText} {es args : List (String × FormatArgumentValue)} :
      Text cv b t → NamedArgs cv bs es → es.length < 2 ^ 31 → LastWins (· == ·) es args →
      History cv ([3] ++ b ++ i32B (Int32.ofNat es.length) ++ bs) (.argumentFormat t args)
  | asNumber {b1 b2 b3 : Bytes} {v : FormatArgumentValue} {o : Option NumberFormattingOptions}
      {c : Option String} : Arg cv b1 v → Options b2 o → Str b3 c →
      History cv ([4] ++ b1 ++ b2 ++ b3) (.asNumber v o c)
  | asPercent {b1 b2 b3 : Bytes} {v : FormatArgumentValue} {o : Option NumberFormattingOptions}
      {c : Option String} : Arg cv b1 v → Options b2 o → Str b3 c →
      History cv ([5] ++ b1 ++ b2 ++ b3) (.asPercent v o c)
  | asCurrency {b0 b1 b2 b3 : Bytes} {code : Option String} {v : FormatArgumentValue}
      {o : Option NumberFormattingOptions} {c : Option String} :
      Str b0 code → Arg cv b1 v → Options b2 o → Str b3 c →
      History cv ([6] ++ b0 ++ b1 ++ b2 ++ b3) (.asCurrency code v o c)
  | asDate (t : UInt64) {b1 b2 : Bytes} {st : DateTimeStyle} {c : String} :
      Choice styles b1 st → Str b2 (some c) →
      History cv ([7] ++ u64B t ++ b1 ++ b2) (.asDate t st c)
  | asTime (t : UInt64) {b1 b2 b3 : Bytes} {st : DateTimeStyle} {z c : String} :
      Choice styles b1 st → Str b2 (some z) → Str b3 (some c) →
      History cv ([8] ++ u64B t ++ b1 ++ b2 ++ b3) (.asTime t st z c)
  | asDateTime (t : UInt64) {b0 b1 b2 b3 : Bytes} {ds ts : DateTimeStyle} {z c : String} :
      Choice styles b0 ds → Choice styles b1 ts → Str b2 (some z) → Str b3 (some c) →
      History cv ([9] ++ u64B t ++ b0 ++ b1 ++ b2 ++ b3) (.asDateTime t ds ts z c)
  | transform {b1 b2 : Bytes} {t : FText} {tt : TransformType} :
      Text cv b1 t → Choice transforms b2 tt →
      History cv ([10] ++ b1 ++ b2) (.transform t tt)
  | stringTableEntry {b1 b2 : Bytes} {table key : String} : Str b1 (some table) →
      Str b2 (some key) → History cv ([11] ++ b1 ++ b2) (.stringTableEntry table key)
/-- A format argument. -/
inductive Arg (cv : List (Guid × UInt32)) : Bytes → FormatArgumentValue → Prop
  | int (v : Int32) : ¬ WideArguments cv → Arg cv ([0] ++ i32B v) (.int v)
  | int64 (v : Int64) : WideArguments cv → Arg cv ([0] ++ i64B v) (.int64 v)
  | uint (v : UInt32) : ¬ WideArguments cv → Arg cv ([1] ++ u32B v) (.uint v)
  | uint64 (v : UInt64) : WideArguments cv → Arg cv ([1] ++ u64B v) (.uint64 v)
  | float (v : F32) : Arg cv ([2] ++ f32B v) (.float v)
  | double (v : F64) : Arg cv ([3] ++ f64B v) (.double v)
  | text {b : Bytes} {t : FText} : Text cv b t → Arg cv ([4] ++ b) (.text t)
/-- Format arguments one after the other. -/
inductive Args (cv : List (Guid × UInt32)) : Bytes → List FormatArgumentValue → Prop
  | nil : Args cv [] []
  | cons {b bs : Bytes} {v : FormatArgumentValue} {vs : List FormatArgumentValue} :
      Arg cv b v → Args cv bs vs → Args cv (b ++ bs) (v :: vs)
/-- Format arguments, each behind its name. -/
inductive NamedArgs (cv : List (Guid × UInt32)) :
    Bytes → List (String × FormatArgumentValue) → Prop
  | nil : NamedArgs cv [] []
  | cons {k b bs : Bytes} {name : String} {v : FormatArgumentValue}
      {es : List (String × FormatArgumentValue)} :
      Str k (some name) → Arg cv b v → NamedArgs cv bs es →
      NamedArgs cv (k ++ b ++ bs) ((name, v) :: es)
end

/-! ## Values that contain no other properties -/

/-- Numbers of a fixed width. -/
inductive Number : String → Bytes → Property → Prop
  | int8 (v : Int8) : Number "Int8Property" (i8B v) (.int8 v)
  | int16 (v : Int16) : Number "Int16Property" (i16B v) (.int16 v)
  | uint16 (v : UInt16) : Number "UInt16Property" (u16B v) (.uint16 v)
  | int (v : Int32) : Number "IntProperty" (i32B v) (.int v)
  | uint32 (v : UInt32) : Number "UInt32Property" (u32B v) (.uint32 v)
  | int64 (v : Int64) : Number "Int64Property" (i64B v) (.int64 v)
  | uint64 (v : UInt64) : Number "UInt64Property" (u64B v) (.uint64 v)
  | float (v : F32) : Number "FloatProperty" (f32B v) (.float v)
  | double (v : F64) : Number "DoubleProperty" (f64B v) (.double v)

/-- The value of a byte property with the size `n`: one byte for the sizes 1 and 2, else a name. -/
inductive ByteValue (n : UInt32) : Bytes → BytePropertyValue → Prop
  | byte (x : UInt8) : n = 1 ∨ n = 2 → ByteValue n [x] (.byte x)
  | name {b : Bytes} {s : String} : n ≠ 1 → n ≠ 2 → Str b (some s) →
      ByteValue n b (.namespaced s)

/-- An object and a function name. -/
inductive DelegateAt : Bytes → Delegate → Prop
  | mk {b1 b2 : Bytes} {o f : String} : Str b1 (some o) → Str b2 (some f) →
      DelegateAt (b1 ++ b2) ⟨o, f⟩

/-- Values that are stored in the same way with and without a header. -/
inductive Plain (cv : List (Guid × UInt32)) : String → Bytes → Property → Prop
  | str {b : Bytes} {s : Option String} : Str b s → Plain cv "StrProperty" b (.str s)
  | text {b : Bytes} {t : FText} : Text cv b t → Plain cv "TextProperty" b (.text t)
  | object {b : Bytes} {s : String} : Str b (some s) → Plain cv "ObjectProperty" b (.object s)
  | delegate {b : Bytes} {d : Delegate} : DelegateAt b d →
      Plain cv "DelegateProperty" b (.delegate d)
  | inlined {b : Bytes} {ds : List Delegate} : Counted DelegateAt b ds →
      Plain cv "MulticastInlineDelegateProperty" b (.multicastInlineDelegate ds)
  | sparse {b : Bytes} {ds : List Delegate} : Counted DelegateAt b ds →
      Plain cv "MulticastSparseDelegateProperty" b (.multicastSparseDelegate ds)
  | fieldPath {b1 b2 : Bytes} {path : List String} {o : String} :
      Counted (fun b s => Str b (some s)) b1 path → Str b2 (some o) →
      Plain cv "FieldPathProperty" (b1 ++ b2) (.fieldPath ⟨path, o⟩)

/-- The structs with a layout of their own. -/
inductive Builtin (cv : List (Guid × UInt32)) : String → Bytes → StructPropertyValue → Prop
  | vectorF (x y z : F32) : ¬ LargeWorld cv →
      Builtin cv "Vector" (f32B x ++ f32B y ++ f32B z) (.vectorF x y z)
  | vectorD (x y z : F64) : LargeWorld cv →
      Builtin cv "Vector" (f64B x ++ f64B y ++ f64B z) (.vectorD x y z)
  | vector2F (x y : F32) : ¬ LargeWorld cv →
      Builtin cv "Vector2D" (f32B x ++ f32B y) (.vector2F x y)
  | vector2D (x y : F64) : LargeWorld cv →
      Builtin cv "Vector2D" (f64B x ++ f64B y) (.vector2D x y)
  | rotatorF (x y z : F32) : ¬ LargeWorld cv →
      Builtin cv "Rotator" (f32B x ++ f32B y ++ f32B z) (.rotatorF x y z)
  | rotatorD (x y z : F64) : LargeWorld cv →
      Builtin cv "Rotator" (f64B x ++ f64B y ++ f64B z) (.rotatorD x y z)
  | quatF (x y z w : F32) : ¬ LargeWorld cv →
      Builtin cv "Quat" (f32B x ++ f32B y ++ f32B z ++ f32B w) (.quatF x y z w)
  | quatD (x y z w : F64) : LargeWorld cv →
      Builtin cv "Quat" (f64B x ++ f64B y ++ f64B z ++ f64B w) (.quatD x y z w)
  | dateTime (t : UInt64) : Builtin cv "DateTime" (u64B t) (.dateTime t)
  | timespan (t : UInt64) : Builtin cv "Timespan" (u64B t) (.timespan t)
  | linearColor (r g b a : F32) :
      Builtin cv "LinearColor" (f32B r ++ f32B g ++ f32B b ++ f32B a) (.linearColor r g b a)
  | intPoint (x y : Int32) : Builtin cv "IntPoint" (i32B x ++ i32B y) (.intPoint x y)
  | guid (g : Guid) : Builtin cv "Guid" (guidB g) (.guid g)
  | tags {b : Bytes} {ts : List String} : Seq (fun b s => Str b (some s)) b ts →
      ts.length < 2 ^ 31 →
      Builtin cv "GameplayTagContainer" (i32B (Int32.ofNat ts.length) ++ b)
        (.gameplayTagContainer ts)

/-! ## Collections have a compact form -/

/-- Arrays of these types, if all elements fit, are kept in a form of their own. -/
inductive CompactArray : String → List Property → ArrayProperty → Prop
  | bools (vs : List Bool) : CompactArray "BoolProperty" (vs.map .bool) (.bools vs)
  | bytes (vs : Bytes) :
      CompactArray "ByteProperty" (vs.map fun v => .byte none (.byte v)) (.bytes vs)
  | enums (vs : List String) : CompactArray "EnumProperty" (vs.map (.enum none)) (.enums vs)
  | ints (vs : List Int32) : CompactArray "IntProperty" (vs.map .int) (.ints vs)
  | floats (vs : List F32) : CompactArray "FloatProperty" (vs.map .float) (.floats vs)
  | names (vs : List (Option String)) :
      CompactArray "NameProperty" (vs.map (.name 0)) (.names vs)
  | strings (vs : List (Option String)) :
      CompactArray "StrProperty" (vs.map .str) (.strings vs)

/-- The array with the elements `ps` of type `ty`: compact if possible. -/
def ArrayOf (ty : String) (ps : List Property) (a : ArrayProperty) : Prop :=
  CompactArray ty ps a ∨ (∀ a', ¬ CompactArray ty ps a') ∧ a = .properties ty ps

/-- Entries with a key and a value of a known form. -/
def pairs {κ ν : Type} (k : κ → Property) (v : ν → Property) (es : List (κ × ν)) :
    List (Property × Property) := es.map fun e => (k e.1, v e.2)

/-- The map with the entries `m` of the types `kt` and `vt`, if it has a form of its own. -/
inductive CompactMap : String → String → List (Property × Property) → MapProperty → Prop
  | enumBool (es) : CompactMap "EnumProperty" "BoolProperty" (pairs (.enum none) .bool es)
      (.enumBool es)
  | enumInt (es) : CompactMap "EnumProperty" "IntProperty" (pairs (.enum none) .int es)
      (.enumInt es)
  | enumProperty (vt es) : vt ≠ "BoolProperty" → vt ≠ "IntProperty" →
      CompactMap "EnumProperty" vt (pairs (.enum none) id es) (.enumProperty vt es)
  | nameBool (es) : CompactMap "NameProperty" "BoolProperty"
      (pairs (fun s => .name 0 (some s)) .bool es) (.nameBool es)
  | nameInt (es) : CompactMap "NameProperty" "IntProperty"
      (pairs (fun s => .name 0 (some s)) .int es) (.nameInt es)
  | nameProperty (vt es) : vt ≠ "BoolProperty" → vt ≠ "IntProperty" →
      CompactMap "NameProperty" vt (pairs (fun s => .name 0 (some s)) id es) (.nameProperty vt es)
  | strBool (es) : CompactMap "StrProperty" "BoolProperty"
      (pairs (fun s => .str (some s)) .bool es) (.strBool es)
  | strInt (es) : CompactMap "StrProperty" "IntProperty"
      (pairs (fun s => .str (some s)) .int es) (.strInt es)
  | strStr (es) : CompactMap "StrProperty" "StrProperty"
      (pairs (fun s => .str (some s)) .str es) (.strStr es)
  | strProperty (vt es) : vt ≠ "BoolProperty" → vt ≠ "IntProperty" → vt ≠ "StrProperty" →
      CompactMap "StrProperty" vt (pairs (fun s => .str (some s)) id es) (.strProperty vt es)

/-- The map with the entries `m`, types `kt` and `vt` and allocation flags `fl`: compact if possible
and the flags are zero. -/
def MapOf (kt vt : String) (fl : UInt32) (m : List (Property × Property)) (mp : MapProperty) :
    Prop :=
  (fl = 0 ∧ CompactMap kt vt m mp) ∨
    ¬ (fl = 0 ∧ ∃ mp', CompactMap kt vt m mp') ∧ mp = .properties kt vt fl m

/-! ## Properties -/

/-- A header and a body: the size of the body, the array index 0, what the header says of the type,
a zero byte, the body. -/
def sized (parts body : Bytes) : Bytes :=
  u32B (UInt32.ofNat body.length) ++ u32B 0 ++ parts ++ [0] ++ body

/-- The size of the elements an array or set suggests. -/
def suggestion (bytes count : Nat) : Option UInt32 := some (UInt32.ofNat (bytes / count))

mutual
/-- A property of type `ty` with its header. -/
inductive Full (env : Env) : List String → String → Bytes → Property → Prop
  | number {st : List String} {ty : String} {b : Bytes} {p : Property} : Number ty b p →
      Full env st ty (u64B (UInt64.ofNat b.length) ++ [0] ++ b) p
  | bool {st : List String} (v : Bool) :
      Full env st "BoolProperty" (u64B 0 ++ [if v then 1 else 0] ++ [0]) (.bool v)
  | byte {st : List String} (n : UInt32) {t b : Bytes} {name : String} {v : BytePropertyValue} :
      Str t (some name) → (env.debug = true → n ≠ 0) → ByteValue n b v →
      Full env st "ByteProperty" (u32B n ++ u32B 0 ++ t ++ [0] ++ b) (.byte (some name) v)
  | plain {st : List String} {ty : String} {b : Bytes} {p : Property} : Plain env.cv ty b p →
      b.length < 2 ^ 32 → Full env st ty (sized [] b) p
  | enum {st : List String} {t b : Bytes} {ty v : String} : Str t (some ty) → Str b (some v) →
      Full env st "EnumProperty" (sized t b) (.enum (some ty) v)
  | name {st : List String} (idx : UInt32) {b : Bytes} {s : Option String} : Str b s →
      Full env st "NameProperty" (u32B (UInt32.ofNat b.length) ++ u32B idx ++ [0] ++ b)
        (.name idx s)
  | struct {st : List String} {t b : Bytes} {ty : String} (g : Guid) {v : StructPropertyValue} :
      Str t (some ty) → StructBody env (st ++ ["StructProperty"]) ty b v → b.length < 2 ^ 32 →
      Full env st "StructProperty" (sized (t ++ guidB g) b) (.struct g ty v)
  | array {st : List String} {t b : Bytes} {ty : String} {ps : List Property} {a : ArrayProperty} :
      Str t (some ty) → ty ≠ "StructProperty" → ps.length < 2 ^ 32 →
      Bares env (st ++ ["ArrayProperty"]) ty (suggestion b.length ps.length) b ps →
      ArrayOf ty ps a → 4 + b.length < 2 ^ 32 →
      Full env st "ArrayProperty" (sized t (u32B (UInt32.ofNat ps.length) ++ b)) (.array a)
  | structs {st : List String} {t f t' s b : Bytes} {field ty : String} (g : Guid)
      {vs : List StructPropertyValue} :
      Str t (some "StructProperty") → vs.length < 2 ^ 32 → Str f (some field) →
      Str t' (some "StructProperty") → Str s (some ty) →
      StructBodies env (st ++ ["ArrayProperty"]) ty b vs →
      (f ++ t' ++ s ++ b).length + 29 < 2 ^ 32 →
      Full env st "ArrayProperty"
        (sized t (u32B (UInt32.ofNat vs.length) ++ f ++ t' ++ u64B (UInt64.ofNat b.length) ++ s ++
          guidB g ++ [0] ++ b)) (.array (.structs field ty g vs))
  | set {st : List String} {t b : Bytes} {ty : String} (fl : UInt32) {ps : List Property} :
      Str t (some ty) → ps.length < 2 ^ 32 →
      Bares env (st ++ ["SetProperty"]) ty (suggestion b.length ps.length) b ps →
      8 + b.length < 2 ^ 32 →
      Full env st "SetProperty" (sized t (u32B fl ++ u32B (UInt32.ofNat ps.length) ++ b))
        (.set ty fl ps)
  | map {st : List String} {k v b : Bytes} {kt vt : String} (fl : UInt32)
      {es m : List (Property × Property)} {mp : MapProperty} :
      Str k (some kt) → Str v (some vt) → es.length < 2 ^ 32 →
      Entries env (st ++ ["MapProperty"]) kt vt b es → LastWins sameKey es m →
      MapOf kt vt fl m mp → 8 + b.length < 2 ^ 32 →
      Full env st "MapProperty"
        (sized (k ++ v) (u32B fl ++ u32B (UInt32.ofNat es.length) ++ b)) (.map mp)
  | unknown {st : List String} {ty : String} (b : Bytes) : ty ∉ knownTypes → b.length < 2 ^ 32 →
      Full env st ty (sized [] b) (.unknown ty b)
/-- A property of type `ty` without header, as in arrays, sets and maps. -/
inductive Bare (env : Env) : List String → String → Option UInt32 → Bytes → Property → Prop
  | number {st : List String} {ty : String} {sug : Option UInt32} {b : Bytes} {p : Property} :
      Number ty b p → Bare env st ty sug b p
  | bool {st : List String} {sug : Option UInt32} (v : Bool) :
      Bare env st "BoolProperty" sug [if v then 1 else 0] (.bool v)
  | byte {st : List String} {sug : Option UInt32} {b : Bytes} {v : BytePropertyValue} :
      (env.debug = true → sug ≠ some 0) → ByteValue (sug.getD 2) b v →
      Bare env st "ByteProperty" sug b (.byte none v)
  | plain {st : List String} {ty : String} {sug : Option UInt32} {b : Bytes} {p : Property} :
      Plain env.cv ty b p → Bare env st ty sug b p
  | enum {st : List String} {sug : Option UInt32} {b : Bytes} {v : String} : Str b (some v) →
      Bare env st "EnumProperty" sug b (.enum none v)
  | name {st : List String} {sug : Option UInt32} {b : Bytes} {s : Option String} : Str b s →
      Bare env st "NameProperty" sug b (.name 0 s)
  | struct {st : List String} {sug : Option UInt32} {b : Bytes} {ty : String}
      {v : StructPropertyValue} :
      env.hints (joinDots (st ++ ["StructProperty"])) = some ty →
      StructBody env (st ++ ["StructProperty"]) ty b v →
      Bare env st "StructProperty" sug b (.structValue v)
  | unknown {st : List String} {ty : String} (n : UInt32) (b : Bytes) : ty ∉ knownTypes →
      b.length = n.toNat → Bare env st ty (some n) b (.unknown ty b)
/-- Properties without header one after the other. -/
inductive Bares (env : Env) : List String → String → Option UInt32 → Bytes → List Property → Prop
  | nil {st : List String} {ty : String} {sug : Option UInt32} : Bares env st ty sug [] []
  | cons {st : List String} {ty : String} {sug : Option UInt32} {b bs : Bytes} {p : Property}
      {ps : List Property} : Bare env st ty sug b p → Bares env st ty sug bs ps →
      Bares env st ty sug (b ++ bs) (p :: ps)
/-- Keys and values in turn. -/
inductive Entries (env : Env) :
    List String → String → String → Bytes → List (Property × Property) → Prop
  | nil {st : List String} {kt vt : String} : Entries env st kt vt [] []
  | cons {st : List String} {kt vt : String} {b1 b2 bs : Bytes} {k v : Property}
      {es : List (Property × Property)} : Bare env (st ++ ["Key"]) kt none b1 k →
      Bare env (st ++ ["Value"]) vt none b2 v → Entries env st kt vt bs es →
      Entries env st kt vt (b1 ++ b2 ++ bs) ((k, v) :: es)
/-- The contents of a struct of type `ty`. -/
inductive StructBody (env : Env) : List String → String → Bytes → StructPropertyValue → Prop
  | builtin {st : List String} {ty : String} {b : Bytes} {v : StructPropertyValue} :
      Builtin env.cv ty b v → StructBody env st ty b v
  | custom {st : List String} {ty : String} {b : Bytes} {es : List (String × Property)}
      {fs : List (String × List Property)} : ty ∉ builtinStructs → Fields env st b es →
      Grouped es fs → (env.debug = true → IndicesMatch es) →
      StructBody env st ty b (.customStruct fs)
/-- Struct contents one after the other. -/
inductive StructBodies (env : Env) :
    List String → String → Bytes → List StructPropertyValue → Prop
  | nil {st : List String} {ty : String} : StructBodies env st ty [] []
  | cons {st : List String} {ty : String} {b bs : Bytes} {v : StructPropertyValue}
      {vs : List StructPropertyValue} : StructBody env st ty b v → StructBodies env st ty bs vs →
      StructBodies env st ty (b ++ bs) (v :: vs)
/-- Named properties up to the name `None`: a name, a type name, the property. -/
inductive Fields (env : Env) : List String → Bytes → List (String × Property) → Prop
  | done {st : List String} {b : Bytes} : Str b (some "None") → Fields env st b []
  | entry {st : List String} {n t b bs : Bytes} {name ty : String} {p : Property}
      {es : List (String × Property)} : Str n (some name) → name ≠ "None" → Str t (some ty) →
      Full env (st ++ [name]) ty b p → Fields env st bs es →
      Fields env st (n ++ t ++ b ++ bs) ((name, p) :: es)
end

end Gvas.Format
