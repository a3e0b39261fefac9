import Verif.Spec.Grammar

/-!
# Specification vocabulary: the bytes a value is stored as

`Gvas.Format` says which bytes stand for which value; some values have many forms there, and some
have none.  Here every value that can be written has exactly one form: `Full cv ty b p` says that
`b` is what is stored of the property `p` behind its type name `ty`.  There is no limit and no
condition on the values: counts and sizes are stored modulo what their width holds.
-/

namespace Gvas.Own

open Spec Format

/-- A string: nothing, characters below 128 as bytes, or UTF-16 if there is any other character. -/
inductive Str : Bytes → Option String → Prop
  | null : Str (i32B 0) none
  | bytes (t : String) : (∀ c ∈ t.toList, c.toNat < 128) →
      Str (i32B (Int32.ofNat (t.toList.length + 1)) ++ t.toList.map (fun c => UInt8.ofNat c.toNat) ++
        [0]) (some t)
  | words (t : String) (c : Char) : c ∈ t.toList → 128 ≤ c.toNat →
      Str (i32B (-(Int32.ofNat ((utf16Encode t.toList).length + 1))) ++
        u16sToBytes (utf16Encode t.toList) ++ [0, 0]) (some t)

/-- A 32 bit count and as many items. -/
inductive Counted {α : Type} (L : Bytes → α → Prop) : Bytes → List α → Prop
  | mk {b : Bytes} {as : List α} : Seq L b as → Counted L (u32B (UInt32.ofNat as.length) ++ b) as

/-! ## Texts -/

mutual
/-- A text: flags and history. -/
inductive Text (cv : List (Guid × UInt32)) : Bytes → FText → Prop
  | mk (flags : UInt32) {b : Bytes} {h : FTextHistory} : History cv b h →
      Text cv (u32B flags ++ b) (.mk flags h)
/-- A history: a number for its kind, then its parts.  Old saves have no place for a string without
history. -/
inductive History (cv : List (Guid × UInt32)) : Bytes → FTextHistory → Prop
  | old : ¬ InvariantText cv → History cv [0xFF] .empty
  | lost (s : Option String) : ¬ InvariantText cv → History cv [0xFF] (.none s)
  | empty : InvariantText cv → History cv ([0xFF] ++ u32B 0) .empty
  | invariant {b : Bytes} {s : Option String} : InvariantText cv → Str b s →
      History cv ([0xFF] ++ u32B 1 ++ b) (.none s)
  | base {b1 b2 b3 : Bytes} {ns key src : Option String} : Str b1 ns → Str b2 key → Str b3 src →
      History cv ([0] ++ b1 ++ b2 ++ b3) (.base ns key src)
  | namedFormat {b bs : Bytes} {t : FText} {es : List (String × FormatArgumentValue)} :
      Text cv b t → NamedArgs cv bs es →
      History cv ([1] ++ b ++ i32B (Int32.ofNat es.length) ++ bs) (.namedFormat t es)
  | orderedFormat {b bs : Bytes} {t : FText} {vs : List FormatArgumentValue} :
      Text cv b t → Args cv bs vs →
      History cv ([2] ++ b ++ i32B (Int32.ofNat vs.length) ++ bs) (.orderedFormat t vs)
  | argumentFormat {b bs : Bytes} {t : FText} {es : List (String × FormatArgumentValue)} :
      Text cv b t → NamedArgs cv bs es →
      History cv ([3] ++ b ++ i32B (Int32.ofNat es.length) ++ bs) (.argumentFormat t es)
  | asNumber {b1 b2 b3 : Bytes} {v : FormatArgumentValue} {o : Option NumberFormattingOptions}
      {c : Option String} : Arg cv b1 v → Options b2 o → Str b3 c →
      History cv ([4] ++ b1 ++ b2 ++ b3) (.asNumber v o c)
  | asPercent {b1 b2 b3 : Bytes} {v : FormatArgumentValue} {o : Option NumberFormattingOptions}
      {c : Option String} : Arg cv b1 v → Options b2 o → Str b3 c →
      History cv ([5] ++ b1 ++ b2 ++ b3) (.asPercent v o c)
  | asCurrency {b0 b1 b2 b3 : Bytes} {code : Option String} {v : FormatArgumentValue}
      {o : Option NumberFormattingOptions} {c : Option String} :
      Str b0 code → Arg cv b1 v → Options b2 o → Str b3 c →
      History cv ([6] ++ b0 ++ b1 ++ b2 ++ b3) (.asCurrency code v o c)
  | asDate (t : UInt64) {b1 b2 : Bytes} {st : DateTimeStyle} {c : String} :
      Choice styles b1 st → Str b2 (some c) →
      History cv ([7] ++ u64B t ++ b1 ++ b2) (.asDate t st c)
  | asTime (t : UInt64) {b1 b2 b3 : Bytes} {st : DateTimeStyle} {z c : String} :
      Choice styles b1 st → Str b2 (some z) → Str b3 (some c) →
      History cv ([8] ++ u64B t ++ b1 ++ b2 ++ b3) (.asTime t st z c)
  | asDateTime (t : UInt64) {b0 b1 b2 b3 : Bytes} {ds ts : DateTimeStyle} {z c : String} :
      Choice styles b0 ds → Choice styles b1 ts → Str b2 (some z) → Str b3 (some c) →
      History cv ([9] ++ u64B t ++ b0 ++ b1 ++ b2 ++ b3) (.asDateTime t ds ts z c)
  | transform {b1 b2 : Bytes} {t : FText} {tt : TransformType} :
      Text cv b1 t → Choice transforms b2 tt →
      History cv ([10] ++ b1 ++ b2) (.transform t tt)
  | stringTableEntry {b1 b2 : Bytes} {table key : String} : Str b1 (some table) →
      Str b2 (some key) → History cv ([11] ++ b1 ++ b2) (.stringTableEntry table key)
/-- A format argument. -/
inductive Arg (cv : List (Guid × UInt32)) : Bytes → FormatArgumentValue → Prop
  | int (v : Int32) : ¬ WideArguments cv → Arg cv ([0] ++ i32B v) (.int v)
  | int64 (v : Int64) : WideArguments cv → Arg cv ([0] ++ i64B v) (.int64 v)
  | uint (v : UInt32) : ¬ WideArguments cv → Arg cv ([1] ++ u32B v) (.uint v)
  | uint64 (v : UInt64) : WideArguments cv → Arg cv ([1] ++ u64B v) (.uint64 v)
  | float (v : F32) : Arg cv ([2] ++ f32B v) (.float v)
  | double (v : F64) : Arg cv ([3] ++ f64B v) (.double v)
  | text {b : Bytes} {t : FText} : Text cv b t → Arg cv ([4] ++ b) (.text t)
/-- Format arguments one after the other. -/
inductive Args (cv : List (Guid × UInt32)) : Bytes → List FormatArgumentValue → Prop
  | nil : Args cv [] []
  | cons {b bs : Bytes} {v : FormatArgumentValue} {vs : List FormatArgumentValue} :
      Arg cv b v → Args cv bs vs → Args cv (b ++ bs) (v :: vs)
/-- Format arguments, each behind its name. -/
inductive NamedArgs (cv : List (Guid × UInt32)) :
    Bytes → List (String × FormatArgumentValue) → Prop
  | nil : NamedArgs cv [] []
  | cons {k b bs : Bytes} {name : String} {v : FormatArgumentValue}
      {es : List (String × FormatArgumentValue)} :
      Str k (some name) → Arg cv b v → NamedArgs cv bs es →
      NamedArgs cv (k ++ b ++ bs) ((name, v) :: es)
end

/-! ## Values that contain no other properties -/

/-- A byte, or the name of one. -/
inductive ByteValue : Bytes → BytePropertyValue → Prop
  | byte (x : UInt8) : ByteValue [x] (.byte x)
  | name {b : Bytes} {s : String} : Str b (some s) → ByteValue b (.namespaced s)

/-- An object and a function name. -/
inductive DelegateAt : Bytes → Delegate → Prop
  | mk {b1 b2 : Bytes} {o f : String} : Str b1 (some o) → Str b2 (some f) →
      DelegateAt (b1 ++ b2) ⟨o, f⟩

/-- Values whose type is given by its name alone. -/
inductive Plain (cv : List (Guid × UInt32)) : String → Bytes → Property → Prop
  | number {ty : String} {b : Bytes} {p : Property} : Number ty b p → Plain cv ty b p
  | str {b : Bytes} {s : Option String} : Str b s → Plain cv "StrProperty" b (.str s)
  | text {b : Bytes} {t : FText} : Text cv b t → Plain cv "TextProperty" b (.text t)
  | object {b : Bytes} {s : String} : Str b (some s) → Plain cv "ObjectProperty" b (.object s)
  | delegate {b : Bytes} {d : Delegate} : DelegateAt b d →
      Plain cv "DelegateProperty" b (.delegate d)
  | inlined {b : Bytes} {ds : List Delegate} : Counted DelegateAt b ds →
      Plain cv "MulticastInlineDelegateProperty" b (.multicastInlineDelegate ds)
  | sparse {b : Bytes} {ds : List Delegate} : Counted DelegateAt b ds →
      Plain cv "MulticastSparseDelegateProperty" b (.multicastSparseDelegate ds)
  | fieldPath {b1 b2 : Bytes} {path : List String} {o : String} :
      Counted (fun b s => Str b (some s)) b1 path → Str b2 (some o) →
      Plain cv "FieldPathProperty" (b1 ++ b2) (.fieldPath ⟨path, o⟩)
  | unknown (ty : String) (b : Bytes) : Plain cv ty b (.unknown ty b)

/-- The structs with a layout of their own. -/
inductive Builtin (cv : List (Guid × UInt32)) : Bytes → StructPropertyValue → Prop
  | vectorF (x y z : F32) : ¬ LargeWorld cv →
      Builtin cv (f32B x ++ f32B y ++ f32B z) (.vectorF x y z)
  | vectorD (x y z : F64) : LargeWorld cv →
      Builtin cv (f64B x ++ f64B y ++ f64B z) (.vectorD x y z)
  | vector2F (x y : F32) : ¬ LargeWorld cv → Builtin cv (f32B x ++ f32B y) (.vector2F x y)
  | vector2D (x y : F64) : LargeWorld cv → Builtin cv (f64B x ++ f64B y) (.vector2D x y)
  | rotatorF (x y z : F32) : ¬ LargeWorld cv →
      Builtin cv (f32B x ++ f32B y ++ f32B z) (.rotatorF x y z)
  | rotatorD (x y z : F64) : LargeWorld cv →
      Builtin cv (f64B x ++ f64B y ++ f64B z) (.rotatorD x y z)
  | quatF (x y z w : F32) : ¬ LargeWorld cv →
      Builtin cv (f32B x ++ f32B y ++ f32B z ++ f32B w) (.quatF x y z w)
  | quatD (x y z w : F64) : LargeWorld cv →
      Builtin cv (f64B x ++ f64B y ++ f64B z ++ f64B w) (.quatD x y z w)
  | dateTime (t : UInt64) : Builtin cv (u64B t) (.dateTime t)
  | timespan (t : UInt64) : Builtin cv (u64B t) (.timespan t)
  | linearColor (r g b a : F32) :
      Builtin cv (f32B r ++ f32B g ++ f32B b ++ f32B a) (.linearColor r g b a)
  | intPoint (x y : Int32) : Builtin cv (i32B x ++ i32B y) (.intPoint x y)
  | guid (g : Guid) : Builtin cv (guidB g) (.guid g)
  | tags {b : Bytes} {ts : List String} : Seq (fun b s => Str b (some s)) b ts →
      Builtin cv (i32B (Int32.ofNat ts.length) ++ b) (.gameplayTagContainer ts)

/-! ## What collections consist of -/

/-- The type and the elements of an array, but for arrays of structs. -/
def ElementsOf (a : ArrayProperty) (ty : String) (ps : List Property) : Prop :=
  CompactArray ty ps a ∨ a = .properties ty ps

/-- The types, allocation flags and entries of a map. -/
inductive EntriesOf : MapProperty → String → String → UInt32 → List (Property × Property) → Prop
  | enumBool (es) : EntriesOf (.enumBool es) "EnumProperty" "BoolProperty" 0
      (pairs (.enum none) .bool es)
  | enumInt (es) : EntriesOf (.enumInt es) "EnumProperty" "IntProperty" 0
      (pairs (.enum none) .int es)
  | enumProperty (vt es) : EntriesOf (.enumProperty vt es) "EnumProperty" vt 0
      (pairs (.enum none) id es)
  | nameBool (es) : EntriesOf (.nameBool es) "NameProperty" "BoolProperty" 0
      (pairs (fun s => .name 0 (some s)) .bool es)
  | nameInt (es) : EntriesOf (.nameInt es) "NameProperty" "IntProperty" 0
      (pairs (fun s => .name 0 (some s)) .int es)
  | nameProperty (vt es) : EntriesOf (.nameProperty vt es) "NameProperty" vt 0
      (pairs (fun s => .name 0 (some s)) id es)
  | strBool (es) : EntriesOf (.strBool es) "StrProperty" "BoolProperty" 0
      (pairs (fun s => .str (some s)) .bool es)
  | strInt (es) : EntriesOf (.strInt es) "StrProperty" "IntProperty" 0
      (pairs (fun s => .str (some s)) .int es)
  | strStr (es) : EntriesOf (.strStr es) "StrProperty" "StrProperty" 0
      (pairs (fun s => .str (some s)) .str es)
  | strProperty (vt es) : EntriesOf (.strProperty vt es) "StrProperty" vt 0
      (pairs (fun s => .str (some s)) id es)
  | properties (kt vt fl es) : EntriesOf (.properties kt vt fl es) kt vt fl es

/-- The values of the fields of a struct, each with the name of its field. -/
def named (fs : List (String × List Property)) : List (String × Property) :=
  fs.flatMap fun f => f.2.map fun p => (f.1, p)

/-! ## Properties -/

/-- What the header of a property says of its type behind the type name, for the properties whose
header has a size and the index 0 in front of it. -/
inductive Parts (cv : List (Guid × UInt32)) : String → Bytes → Property → Prop
  | plain {ty : String} {b : Bytes} {p : Property} : Plain cv ty b p → Parts cv ty [] p
  | enum {t : Bytes} {ty : Option String} (v : String) : Str t ty →
      Parts cv "EnumProperty" t (.enum ty v)
  | struct {t : Bytes} {ty : String} (g : Guid) (v : StructPropertyValue) : Str t (some ty) →
      Parts cv "StructProperty" (t ++ guidB g) (.struct g ty v)
  | array {t : Bytes} {ty : String} {a : ArrayProperty} {ps : List Property} : ElementsOf a ty ps →
      Str t (some ty) → Parts cv "ArrayProperty" t (.array a)
  | structs {t : Bytes} (field ty : String) (g : Guid) (vs : List StructPropertyValue) :
      Str t (some "StructProperty") →
      Parts cv "ArrayProperty" t (.array (.structs field ty g vs))
  | set {t : Bytes} {ty : String} (fl : UInt32) (ps : List Property) : Str t (some ty) →
      Parts cv "SetProperty" t (.set ty fl ps)
  | map {k v : Bytes} {kt vt : String} {fl : UInt32} {es : List (Property × Property)}
      {m : MapProperty} : EntriesOf m kt vt fl es → Str k (some kt) → Str v (some vt) →
      Parts cv "MapProperty" (k ++ v) (.map m)

mutual
/-- A property behind its type name `ty`. -/
inductive Full (cv : List (Guid × UInt32)) : String → Bytes → Property → Prop
  | bool (v : Bool) : Full cv "BoolProperty" (u64B 0 ++ [if v then 1 else 0] ++ [0]) (.bool v)
  | byte {t b : Bytes} {name : Option String} {v : BytePropertyValue} : Str t name →
      ByteValue b v →
      Full cv "ByteProperty" (u64B (UInt64.ofNat b.length) ++ t ++ [0] ++ b) (.byte name v)
  | name (idx : UInt32) {b : Bytes} {s : Option String} : Str b s →
      Full cv "NameProperty" (u32B (UInt32.ofNat b.length) ++ u32B idx ++ [0] ++ b) (.name idx s)
  | sized {ty : String} {t b : Bytes} {p : Property} : Parts cv ty t p → Bare cv b p →
      Full cv ty (sized t b) p
/-- A property without type name and header. -/
inductive Bare (cv : List (Guid × UInt32)) : Bytes → Property → Prop
  | bool (v : Bool) : Bare cv [if v then 1 else 0] (.bool v)
  | byte {b : Bytes} (name : Option String) {v : BytePropertyValue} : ByteValue b v →
      Bare cv b (.byte name v)
  | name (idx : UInt32) {b : Bytes} {s : Option String} : Str b s → Bare cv b (.name idx s)
  | plain {ty : String} {b : Bytes} {p : Property} : Plain cv ty b p → Bare cv b p
  | enum {b : Bytes} (ty : Option String) {v : String} : Str b (some v) → Bare cv b (.enum ty v)
  | struct {b : Bytes} (g : Guid) (ty : String) {v : StructPropertyValue} : StructBody cv b v →
      Bare cv b (.struct g ty v)
  | structValue {b : Bytes} {v : StructPropertyValue} : StructBody cv b v →
      Bare cv b (.structValue v)
  | array {ty : String} {b : Bytes} {a : ArrayProperty} {ps : List Property} :
      ElementsOf a ty ps → Bares cv b ps →
      Bare cv (u32B (UInt32.ofNat ps.length) ++ b) (.array a)
  | structs {f t s b : Bytes} {field ty : String} (g : Guid) {vs : List StructPropertyValue} :
      Str f (some field) → Str t (some "StructProperty") → Str s (some ty) →
      StructBodies cv b vs →
      Bare cv (u32B (UInt32.ofNat vs.length) ++ f ++ t ++ u64B (UInt64.ofNat b.length) ++ s ++
        guidB g ++ [0] ++ b) (.array (.structs field ty g vs))
  | set {b : Bytes} (ty : String) (fl : UInt32) {ps : List Property} : Bares cv b ps →
      Bare cv (u32B fl ++ u32B (UInt32.ofNat ps.length) ++ b) (.set ty fl ps)
  | map {b : Bytes} {kt vt : String} {fl : UInt32} {es : List (Property × Property)}
      {m : MapProperty} : EntriesOf m kt vt fl es → Entries cv b es →
      Bare cv (u32B fl ++ u32B (UInt32.ofNat es.length) ++ b) (.map m)
/-- Properties without header one after the other. -/
inductive Bares (cv : List (Guid × UInt32)) : Bytes → List Property → Prop
  | nil : Bares cv [] []
  | cons {b bs : Bytes} {p : Property} {ps : List Property} : Bare cv b p → Bares cv bs ps →
      Bares cv (b ++ bs) (p :: ps)
/-- Keys and values in turn. -/
inductive Entries (cv : List (Guid × UInt32)) : Bytes → List (Property × Property) → Prop
  | nil : Entries cv [] []
  | cons {b1 b2 bs : Bytes} {k v : Property} {es : List (Property × Property)} :
      Bare cv b1 k → Bare cv b2 v → Entries cv bs es →
      Entries cv (b1 ++ b2 ++ bs) ((k, v) :: es)
/-- The contents of a struct. -/
inductive StructBody (cv : List (Guid × UInt32)) : Bytes → StructPropertyValue → Prop
  | builtin {b : Bytes} {v : StructPropertyValue} : Builtin cv b v → StructBody cv b v
  | custom {b e : Bytes} {fs : List (String × List Property)} : Fields cv b (named fs) →
      Str e (some "None") → StructBody cv (b ++ e) (.customStruct fs)
/-- Struct contents one after the other. -/
inductive StructBodies (cv : List (Guid × UInt32)) : Bytes → List StructPropertyValue → Prop
  | nil : StructBodies cv [] []
  | cons {b bs : Bytes} {v : StructPropertyValue} {vs : List StructPropertyValue} :
      StructBody cv b v → StructBodies cv bs vs → StructBodies cv (b ++ bs) (v :: vs)
/-- Named properties: a name, a type name, the property. -/
inductive Fields (cv : List (Guid × UInt32)) : Bytes → List (String × Property) → Prop
  | nil : Fields cv [] []
  | cons {n t b bs : Bytes} {name ty : String} {p : Property} {es : List (String × Property)} :
      Str n (some name) → Str t (some ty) → Full cv ty b p → Fields cv bs es →
      Fields cv (n ++ t ++ b ++ bs) ((name, p) :: es)
end

/-! ## Files -/

/-- A custom version: a GUID and a number. -/
inductive VersionAt : Bytes → Guid × UInt32 → Prop
  | mk (g : Guid) (n : UInt32) : VersionAt (guidB g ++ u32B n) (g, n)

/-- The part of a header behind the package versions. -/
inductive HeaderTail : Bytes → FEngineVersion → UInt32 → List (Guid × UInt32) → String → Prop
  | mk (ma mi pa : UInt16) (cl format : UInt32) {b c n : Bytes} {branch name : String}
      {cvs : List (Guid × UInt32)} : Str b (some branch) → Counted VersionAt c cvs →
      Str n (some name) →
      HeaderTail (u16B ma ++ u16B mi ++ u16B pa ++ u32B cl ++ b ++ u32B format ++ c ++ n)
        ⟨ma, mi, pa, cl, branch⟩ format cvs name

/-- A header. -/
inductive Header : Bytes → GvasHeader → Prop
  | two (pkg : UInt32) {b : Bytes} {ev : FEngineVersion} {format : UInt32}
      {cvs : List (Guid × UInt32)} {name : String} : HeaderTail b ev format cvs name →
      Header ([0x47, 0x56, 0x41, 0x53] ++ u32B 2 ++ u32B pkg ++ b)
        (.version2 pkg ev format cvs name)
  | three (pkg ue5 : UInt32) {b : Bytes} {ev : FEngineVersion} {format : UInt32}
      {cvs : List (Guid × UInt32)} {name : String} : HeaderTail b ev format cvs name →
      Header ([0x47, 0x56, 0x41, 0x53] ++ u32B 3 ++ u32B pkg ++ u32B ue5 ++ b)
        (.version3 pkg ue5 ev format cvs name)

/-- The contents of a file: the header, the properties, the name `None`, four zero bytes. -/
inductive Contents : Bytes → GvasHeader → List (String × Property) → Prop
  | mk {h b e : Bytes} {header : GvasHeader} {ps : List (String × Property)} :
      Header h header → Fields header.customVersions b ps → Str e (some "None") →
      Contents (h ++ b ++ e ++ [0, 0, 0, 0]) header ps

end Gvas.Own
