import Verif.Spec.Pointer

/-!
# Specification vocabulary: places in the JSON of values that are not properties

`PartAt p q w u v`: the properties are the same except for one value that is not a property.  In the
JSON of `p` the pointer `w` leads to it, it is `u` in the JSON of `p` and `v` in the JSON of `q`.
-/

namespace Gvas.Spec

/-- The JSON of a single precision number. -/
def singleJ (f : F32) : J := if finite32 f then .float f.toF64 else .null

/-- The JSON of a double precision number. -/
def doubleJ (f : F64) : J := if finite64 f then .float f else .null

/-- The JSON of an optional string in a list or a map. -/
def orNull : Option String → J
  | none => .null
  | some s => .str s

/-- Structs of a fixed layout. -/
inductive StructPartAt : StructPropertyValue → StructPropertyValue → List Step → J → J → Prop
  | vector2FX (a0 a1 b : F32) : StructPartAt (.vector2F a0 a1) (.vector2F b a1)
      [.field "Vector2F", .field "x"] (singleJ a0) (singleJ b)
  | vector2FY (a0 a1 b : F32) : StructPartAt (.vector2F a0 a1) (.vector2F a0 b)
      [.field "Vector2F", .field "y"] (singleJ a1) (singleJ b)
  | vector2DX (a0 a1 b : F64) : StructPartAt (.vector2D a0 a1) (.vector2D b a1)
      [.field "Vector2D", .field "x"] (doubleJ a0) (doubleJ b)
  | vector2DY (a0 a1 b : F64) : StructPartAt (.vector2D a0 a1) (.vector2D a0 b)
      [.field "Vector2D", .field "y"] (doubleJ a1) (doubleJ b)
  | vectorFX (a0 a1 a2 b : F32) : StructPartAt (.vectorF a0 a1 a2) (.vectorF b a1 a2)
      [.field "VectorF", .field "x"] (singleJ a0) (singleJ b)
  | vectorFY (a0 a1 a2 b : F32) : StructPartAt (.vectorF a0 a1 a2) (.vectorF a0 b a2)
      [.field "VectorF", .field "y"] (singleJ a1) (singleJ b)
  | vectorFZ (a0 a1 a2 b : F32) : StructPartAt (.vectorF a0 a1 a2) (.vectorF a0 a1 b)
      [.field "VectorF", .field "z"] (singleJ a2) (singleJ b)
  | vectorDX (a0 a1 a2 b : F64) : StructPartAt (.vectorD a0 a1 a2) (.vectorD b a1 a2)
      [.field "VectorD", .field "x"] (doubleJ a0) (doubleJ b)
  | vectorDY (a0 a1 a2 b : F64) : StructPartAt (.vectorD a0 a1 a2) (.vectorD a0 b a2)
      [.field "VectorD", .field "y"] (doubleJ a1) (doubleJ b)
  | vectorDZ (a0 a1 a2 b : F64) : StructPartAt (.vectorD a0 a1 a2) (.vectorD a0 a1 b)
      [.field "VectorD", .field "z"] (doubleJ a2) (doubleJ b)
  | rotatorFPitch (a0 a1 a2 b : F32) : StructPartAt (.rotatorF a0 a1 a2) (.rotatorF b a1 a2)
      [.field "RotatorF", .field "pitch"] (singleJ a0) (singleJ b)
  | rotatorFYaw (a0 a1 a2 b : F32) : StructPartAt (.rotatorF a0 a1 a2) (.rotatorF a0 b a2)
      [.field "RotatorF", .field "yaw"] (singleJ a1) (singleJ b)
  | rotatorFRoll (a0 a1 a2 b : F32) : StructPartAt (.rotatorF a0 a1 a2) (.rotatorF a0 a1 b)
      [.field "RotatorF", .field "roll"] (singleJ a2) (singleJ b)
  | rotatorDPitch (a0 a1 a2 b : F64) : StructPartAt (.rotatorD a0 a1 a2) (.rotatorD b a1 a2)
      [.field "RotatorD", .field "pitch"] (doubleJ a0) (doubleJ b)
  | rotatorDYaw (a0 a1 a2 b : F64) : StructPartAt (.rotatorD a0 a1 a2) (.rotatorD a0 b a2)
      [.field "RotatorD", .field "yaw"] (doubleJ a1) (doubleJ b)
  | rotatorDRoll (a0 a1 a2 b : F64) : StructPartAt (.rotatorD a0 a1 a2) (.rotatorD a0 a1 b)
      [.field "RotatorD", .field "roll"] (doubleJ a2) (doubleJ b)
  | quatFX (a0 a1 a2 a3 b : F32) : StructPartAt (.quatF a0 a1 a2 a3) (.quatF b a1 a2 a3)
      [.field "QuatF", .field "x"] (singleJ a0) (singleJ b)
  | quatFY (a0 a1 a2 a3 b : F32) : StructPartAt (.quatF a0 a1 a2 a3) (.quatF a0 b a2 a3)
      [.field "QuatF", .field "y"] (singleJ a1) (singleJ b)
  | quatFZ (a0 a1 a2 a3 b : F32) : StructPartAt (.quatF a0 a1 a2 a3) (.quatF a0 a1 b a3)
      [.field "QuatF", .field "z"] (singleJ a2) (singleJ b)
  | quatFW (a0 a1 a2 a3 b : F32) : StructPartAt (.quatF a0 a1 a2 a3) (.quatF a0 a1 a2 b)
      [.field "QuatF", .field "w"] (singleJ a3) (singleJ b)
  | quatDX (a0 a1 a2 a3 b : F64) : StructPartAt (.quatD a0 a1 a2 a3) (.quatD b a1 a2 a3)
      [.field "QuatD", .field "x"] (doubleJ a0) (doubleJ b)
  | quatDY (a0 a1 a2 a3 b : F64) : StructPartAt (.quatD a0 a1 a2 a3) (.quatD a0 b a2 a3)
      [.field "QuatD", .field "y"] (doubleJ a1) (doubleJ b)
  | quatDZ (a0 a1 a2 a3 b : F64) : StructPartAt (.quatD a0 a1 a2 a3) (.quatD a0 a1 b a3)
      [.field "QuatD", .field "z"] (doubleJ a2) (doubleJ b)
  | quatDW (a0 a1 a2 a3 b : F64) : StructPartAt (.quatD a0 a1 a2 a3) (.quatD a0 a1 a2 b)
      [.field "QuatD", .field "w"] (doubleJ a3) (doubleJ b)
  | linearColorR (a0 a1 a2 a3 b : F32) :
      StructPartAt (.linearColor a0 a1 a2 a3) (.linearColor b a1 a2 a3)
      [.field "LinearColor", .field "r"] (singleJ a0) (singleJ b)
  | linearColorG (a0 a1 a2 a3 b : F32) :
      StructPartAt (.linearColor a0 a1 a2 a3) (.linearColor a0 b a2 a3)
      [.field "LinearColor", .field "g"] (singleJ a1) (singleJ b)
  | linearColorB (a0 a1 a2 a3 b : F32) :
      StructPartAt (.linearColor a0 a1 a2 a3) (.linearColor a0 a1 b a3)
      [.field "LinearColor", .field "b"] (singleJ a2) (singleJ b)
  | linearColorA (a0 a1 a2 a3 b : F32) :
      StructPartAt (.linearColor a0 a1 a2 a3) (.linearColor a0 a1 a2 b)
      [.field "LinearColor", .field "a"] (singleJ a3) (singleJ b)
  | intPointX (a0 a1 b : Int32) : StructPartAt (.intPoint a0 a1) (.intPoint b a1)
      [.field "IntPoint", .field "x"] (.int a0.toInt) (.int b.toInt)
  | intPointY (a0 a1 b : Int32) : StructPartAt (.intPoint a0 a1) (.intPoint a0 b)
      [.field "IntPoint", .field "y"] (.int a1.toInt) (.int b.toInt)
  | dateTimeTicks (a0 b : UInt64) : StructPartAt (.dateTime a0) (.dateTime b)
      [.field "DateTime", .field "ticks"] (.int a0.toNat) (.int b.toNat)
  | timespanTicks (a0 b : UInt64) : StructPartAt (.timespan a0) (.timespan b)
      [.field "Timespan", .field "ticks"] (.int a0.toNat) (.int b.toNat)
  | guid (g g' : Guid) : StructPartAt (.guid g) (.guid g') [.field "Guid"]
      (.str (String.ofList g.display)) (.str (String.ofList g'.display))
  | tag (l r : List String) (a b : String) :
      StructPartAt (.gameplayTagContainer (l ++ a :: r)) (.gameplayTagContainer (l ++ b :: r))
        [.field "GameplayTagContainer", .index l.length] (.str a) (.str b)

mutual
/-- Texts.  The flags are in the JSON where they are not zero, strings where there are any. -/
inductive TextPartAt : FText → FText → List Step → J → J → Prop
  | flags (a b : UInt32) (h : FTextHistory) : a ≠ 0 → b ≠ 0 →
      TextPartAt (.mk a h) (.mk b h) [.field "flags"] (.int a.toNat) (.int b.toNat)
  | history (fl : UInt32) {h h' : FTextHistory} {w : List Step} {u v : J} :
      HistoryPartAt h h' w u v →
      TextPartAt (.mk fl h) (.mk fl h') w u v
/-- Histories of texts. -/
inductive HistoryPartAt : FTextHistory → FTextHistory → List Step → J → J → Prop
  | none (a b : String) : HistoryPartAt (.none (some a)) (.none (some b))
      [.field "culture_invariant_string"] (.str a) (.str b)
  | baseNamespace (a b : String) (k s : Option String) :
      HistoryPartAt (.base (some a) k s) (.base (some b) k s)
      [.field "namespace"] (.str a) (.str b)
  | baseKey (a b : String) (n s : Option String) :
      HistoryPartAt (.base n (some a) s) (.base n (some b) s)
      [.field "key"] (.str a) (.str b)
  | baseSource (a b : String) (n k : Option String) :
      HistoryPartAt (.base n k (some a)) (.base n k (some b))
      [.field "source_string"] (.str a) (.str b)
  | namedSource (args : List (String × FormatArgumentValue))
      {t t' : FText} {w : List Step} {u v : J} :
      TextPartAt t t' w u v →
      HistoryPartAt (.namedFormat t args) (.namedFormat t' args) (.field "source_format" :: w) u v
  | namedArgument (t : FText) (l r : List (String × FormatArgumentValue)) (k : String)
      {a b : FormatArgumentValue} {w : List Step} {u v : J} : ArgumentPartAt a b w u v →
      HistoryPartAt (.namedFormat t (l ++ (k, a) :: r)) (.namedFormat t (l ++ (k, b) :: r))
        (.field "arguments" :: .field k :: w) u v
  | orderedSource (args : List (FormatArgumentValue)) {t t' : FText} {w : List Step} {u v : J} :
      TextPartAt t t' w u v →
      HistoryPartAt (.orderedFormat t args) (.orderedFormat t' args)
        (.field "source_format" :: w) u v
  | orderedArgument (t : FText) (l r : List FormatArgumentValue) {a b : FormatArgumentValue}
      {w : List Step} {u v : J} : ArgumentPartAt a b w u v →
      HistoryPartAt (.orderedFormat t (l ++ a :: r)) (.orderedFormat t (l ++ b :: r))
        (.field "arguments" :: .index l.length :: w) u v
  | argumentSource (args : List (String × FormatArgumentValue))
      {t t' : FText} {w : List Step} {u v : J} :
      TextPartAt t t' w u v →
      HistoryPartAt (.argumentFormat t args) (.argumentFormat t' args)
        (.field "source_format" :: w) u v
  | argumentArgument (t : FText) (l r : List (String × FormatArgumentValue)) (k : String)
      {a b : FormatArgumentValue} {w : List Step} {u v : J} : ArgumentPartAt a b w u v →
      HistoryPartAt (.argumentFormat t (l ++ (k, a) :: r)) (.argumentFormat t (l ++ (k, b) :: r))
        (.field "arguments" :: .field k :: w) u v
  | numberValue (o : Option NumberFormattingOptions) (c : Option String)
      {a b : FormatArgumentValue} {w : List Step} {u v : J} : ArgumentPartAt a b w u v →
      HistoryPartAt (.asNumber a o c) (.asNumber b o c) (.field "source_value" :: w) u v
  | numberOptions (s : FormatArgumentValue) (a b : NumberFormattingOptions)
      (c : Option String) : HistoryPartAt (.asNumber s (some a) c) (.asNumber s (some b) c)
      [.field "format_options"] a.toJ b.toJ
  | numberCulture (s : FormatArgumentValue) (o : Option NumberFormattingOptions)
      (a b : String) : HistoryPartAt (.asNumber s o (some a)) (.asNumber s o (some b))
      [.field "target_culture"] (.str a) (.str b)
  | percentValue (o : Option NumberFormattingOptions) (c : Option String)
      {a b : FormatArgumentValue} {w : List Step} {u v : J} : ArgumentPartAt a b w u v →
      HistoryPartAt (.asPercent a o c) (.asPercent b o c) (.field "source_value" :: w) u v
  | percentOptions (s : FormatArgumentValue) (a b : NumberFormattingOptions)
      (c : Option String) : HistoryPartAt (.asPercent s (some a) c) (.asPercent s (some b) c)
      [.field "format_options"] a.toJ b.toJ
  | percentCulture (s : FormatArgumentValue) (o : Option NumberFormattingOptions)
      (a b : String) : HistoryPartAt (.asPercent s o (some a)) (.asPercent s o (some b))
      [.field "target_culture"] (.str a) (.str b)
  | currencyValue (d : Option String) (o : Option NumberFormattingOptions) (c : Option String)
      {a b : FormatArgumentValue} {w : List Step} {u v : J} : ArgumentPartAt a b w u v →
      HistoryPartAt (.asCurrency d a o c) (.asCurrency d b o c) (.field "source_value" :: w) u v
  | currencyOptions (d : Option String) (s : FormatArgumentValue) (a b : NumberFormattingOptions)
      (c : Option String) : HistoryPartAt (.asCurrency d s (some a) c) (.asCurrency d s (some b) c)
      [.field "format_options"] a.toJ b.toJ
  | currencyCulture (d : Option String) (s : FormatArgumentValue)
        (o : Option NumberFormattingOptions)
      (a b : String) : HistoryPartAt (.asCurrency d s o (some a)) (.asCurrency d s o (some b))
      [.field "target_culture"] (.str a) (.str b)
  | currencyCode (a b : String) (s : FormatArgumentValue) (o : Option NumberFormattingOptions)
      (c : Option String) : HistoryPartAt (.asCurrency (some a) s o c) (.asCurrency (some b) s o c)
      [.field "currency_code"] (.str a) (.str b)
  | dateTicks (a b : UInt64) (st : DateTimeStyle) (c : String) :
      HistoryPartAt (.asDate a st c) (.asDate b st c)
      [.field "date_time", .field "ticks"] (.int a.toNat) (.int b.toNat)
  | dateStyle (t : UInt64) (a b : DateTimeStyle) (c : String) :
      HistoryPartAt (.asDate t a c) (.asDate t b c)
      [.field "date_style"] (.str a.json) (.str b.json)
  | dateCulture (t : UInt64) (st : DateTimeStyle) (a b : String) :
      HistoryPartAt (.asDate t st a) (.asDate t st b)
      [.field "target_culture"] (.str a) (.str b)
  | timeTicks (a b : UInt64) (st : DateTimeStyle) (z c : String) :
      HistoryPartAt (.asTime a st z c) (.asTime b st z c)
      [.field "source_date_time", .field "ticks"] (.int a.toNat) (.int b.toNat)
  | timeStyle (t : UInt64) (a b : DateTimeStyle) (z c : String) :
      HistoryPartAt (.asTime t a z c) (.asTime t b z c)
      [.field "time_style"] (.str a.json) (.str b.json)
  | timeZone (t : UInt64) (st : DateTimeStyle) (a b c : String) :
      HistoryPartAt (.asTime t st a c) (.asTime t st b c)
      [.field "time_zone"] (.str a) (.str b)
  | timeCulture (t : UInt64) (st : DateTimeStyle) (z a b : String) :
      HistoryPartAt (.asTime t st z a) (.asTime t st z b)
      [.field "target_culture"] (.str a) (.str b)
  | dateTimeTicks (a b : UInt64) (ds ts : DateTimeStyle) (z c : String) :
      HistoryPartAt (.asDateTime a ds ts z c) (.asDateTime b ds ts z c)
      [.field "source_date_time", .field "ticks"] (.int a.toNat) (.int b.toNat)
  | dateTimeDate (t : UInt64) (a b ts : DateTimeStyle) (z c : String) :
      HistoryPartAt (.asDateTime t a ts z c) (.asDateTime t b ts z c)
      [.field "date_style"] (.str a.json) (.str b.json)
  | dateTimeTime (t : UInt64) (ds a b : DateTimeStyle) (z c : String) :
      HistoryPartAt (.asDateTime t ds a z c) (.asDateTime t ds b z c)
      [.field "time_style"] (.str a.json) (.str b.json)
  | dateTimeZone (t : UInt64) (ds ts : DateTimeStyle) (a b c : String) :
      HistoryPartAt (.asDateTime t ds ts a c) (.asDateTime t ds ts b c)
      [.field "time_zone"] (.str a) (.str b)
  | dateTimeCulture (t : UInt64) (ds ts : DateTimeStyle) (z a b : String) :
      HistoryPartAt (.asDateTime t ds ts z a) (.asDateTime t ds ts z b)
      [.field "target_culture"] (.str a) (.str b)
  | transformSource (tt : TransformType) {t t' : FText} {w : List Step} {u v : J} :
      TextPartAt t t' w u v →
      HistoryPartAt (.transform t tt) (.transform t' tt) (.field "source_text" :: w) u v
  | transformType (t : FText) (a b : TransformType) :
      HistoryPartAt (.transform t a) (.transform t b)
      [.field "transform"] (.str a.json) (.str b.json)
  | tableId (a b k : String) : HistoryPartAt (.stringTableEntry a k) (.stringTableEntry b k)
      [.field "table_id"] (.str a) (.str b)
  | tableKey (i a b : String) : HistoryPartAt (.stringTableEntry i a) (.stringTableEntry i b)
      [.field "key"] (.str a) (.str b)
/-- Arguments of texts. -/
inductive ArgumentPartAt : FormatArgumentValue → FormatArgumentValue → List Step → J → J → Prop
  | int (a b : Int32) :
      ArgumentPartAt (.int a) (.int b) [.field "Int"] (.int a.toInt) (.int b.toInt)
  | uint (a b : UInt32) :
      ArgumentPartAt (.uint a) (.uint b) [.field "UInt"] (.int a.toNat) (.int b.toNat)
  | float (a b : F32) :
      ArgumentPartAt (.float a) (.float b) [.field "Float"] (singleJ a) (singleJ b)
  | double (a b : F64) :
      ArgumentPartAt (.double a) (.double b) [.field "Double"] (doubleJ a) (doubleJ b)
  | int64 (a b : Int64) :
      ArgumentPartAt (.int64 a) (.int64 b) [.field "Int64"] (.int a.toInt) (.int b.toInt)
  | uint64 (a b : UInt64) :
      ArgumentPartAt (.uint64 a) (.uint64 b) [.field "UInt64"] (.int a.toNat) (.int b.toNat)
  | text {t t' : FText} {w : List Step} {u v : J} : TextPartAt t t' w u v →
      ArgumentPartAt (.text t) (.text t') (.field "Text" :: w) u v
end

/-- Delegates. -/
inductive DelegatePartAt : Delegate → Delegate → List Step → J → J → Prop
  | object (a b f : String) : DelegatePartAt ⟨a, f⟩ ⟨b, f⟩ [.field "object"] (.str a) (.str b)
  | functionName (o a b : String) :
      DelegatePartAt ⟨o, a⟩ ⟨o, b⟩ [.field "function_name"] (.str a) (.str b)

/-- Properties.  The bytes of byte arrays are one string in the JSON, two digits for each byte. -/
inductive PartAt : Property → Property → List Step → J → J → Prop
  | bools (l r : List Bool) (a b : Bool) : PartAt (.array (.bools (l ++ a :: r)))
      (.array (.bools (l ++ b :: r))) [.field "bools", .index l.length] (.bool a) (.bool b)
  | enums (l r : List String) (a b : String) : PartAt (.array (.enums (l ++ a :: r)))
      (.array (.enums (l ++ b :: r))) [.field "enums", .index l.length] (.str a) (.str b)
  | floats (l r : List F32) (a b : F32) : PartAt (.array (.floats (l ++ a :: r)))
      (.array (.floats (l ++ b :: r))) [.field "floats", .index l.length] (singleJ a) (singleJ b)
  | ints (l r : List Int32) (a b : Int32) : PartAt (.array (.ints (l ++ a :: r)))
      (.array (.ints (l ++ b :: r))) [.field "ints", .index l.length] (.int a.toInt) (.int b.toInt)
  | names (l r : List (Option String)) (a b : Option String) :
      PartAt (.array (.names (l ++ a :: r)))
      (.array (.names (l ++ b :: r))) [.field "names", .index l.length] (orNull a) (orNull b)
  | strings (l r : List (Option String)) (a b : Option String) :
      PartAt (.array (.strings (l ++ a :: r)))
      (.array (.strings (l ++ b :: r))) [.field "strings", .index l.length] (orNull a) (orNull b)
  | enumBool (l r : List (String × Bool)) (k : String) (a b : Bool) :
      PartAt (.map (.enumBool (l ++ (k, a) :: r))) (.map (.enumBool (l ++ (k, b) :: r)))
        [.field "enum_bools", .field k] (.bool a) (.bool b)
  | nameBool (l r : List (String × Bool)) (k : String) (a b : Bool) :
      PartAt (.map (.nameBool (l ++ (k, a) :: r))) (.map (.nameBool (l ++ (k, b) :: r)))
        [.field "name_bools", .field k] (.bool a) (.bool b)
  | strBool (l r : List (String × Bool)) (k : String) (a b : Bool) :
      PartAt (.map (.strBool (l ++ (k, a) :: r))) (.map (.strBool (l ++ (k, b) :: r)))
        [.field "str_bools", .field k] (.bool a) (.bool b)
  | enumInt (l r : List (String × Int32)) (k : String) (a b : Int32) :
      PartAt (.map (.enumInt (l ++ (k, a) :: r))) (.map (.enumInt (l ++ (k, b) :: r)))
        [.field "enum_ints", .field k] (.int a.toInt) (.int b.toInt)
  | nameInt (l r : List (String × Int32)) (k : String) (a b : Int32) :
      PartAt (.map (.nameInt (l ++ (k, a) :: r))) (.map (.nameInt (l ++ (k, b) :: r)))
        [.field "name_ints", .field k] (.int a.toInt) (.int b.toInt)
  | strInt (l r : List (String × Int32)) (k : String) (a b : Int32) :
      PartAt (.map (.strInt (l ++ (k, a) :: r))) (.map (.strInt (l ++ (k, b) :: r)))
        [.field "str_ints", .field k] (.int a.toInt) (.int b.toInt)
  | strStr (l r : List (String × Option String)) (k : String) (a b : Option String) :
      PartAt (.map (.strStr (l ++ (k, a) :: r))) (.map (.strStr (l ++ (k, b) :: r)))
        [.field "str_strs", .field k] (orNull a) (orNull b)
  | struct (g : Guid) (ty : String) {s t : StructPropertyValue} {w : List Step} {u v : J} :
      StructPartAt s t w u v → PartAt (.struct g ty s) (.struct g ty t) w u v
  | structValue {s t : StructPropertyValue} {w : List Step} {u v : J} :
      StructPartAt s t w u v → PartAt (.structValue s) (.structValue t) w u v
  | structs (f ty : String) (g : Guid) (l r : List StructPropertyValue)
      {s t : StructPropertyValue} {w : List Step} {u v : J} : StructPartAt s t w u v →
      PartAt (.array (.structs f ty g (l ++ s :: r))) (.array (.structs f ty g (l ++ t :: r)))
        (.field "structs" :: .index l.length :: w) u v
  | text {t t' : FText} {w : List Step} {u v : J} : TextPartAt t t' w u v →
      PartAt (.text t) (.text t') w u v
  | delegate {a b : Delegate} {w : List Step} {u v : J} : DelegatePartAt a b w u v →
      PartAt (.delegate a) (.delegate b) (.field "value" :: w) u v
  | inlineDelegate (l r : List Delegate) {a b : Delegate} {w : List Step} {u v : J} :
      DelegatePartAt a b w u v →
      PartAt (.multicastInlineDelegate (l ++ a :: r)) (.multicastInlineDelegate (l ++ b :: r))
        (.field "value" :: .field "delegates" :: .index l.length :: w) u v
  | sparseDelegate (l r : List Delegate) {a b : Delegate} {w : List Step} {u v : J} :
      DelegatePartAt a b w u v →
      PartAt (.multicastSparseDelegate (l ++ a :: r)) (.multicastSparseDelegate (l ++ b :: r))
        (.field "value" :: .field "delegates" :: .index l.length :: w) u v
  | fieldPathStep (l r : List String) (a b owner : String) :
      PartAt (.fieldPath ⟨l ++ a :: r, owner⟩) (.fieldPath ⟨l ++ b :: r, owner⟩)
        [.field "value", .field "path", .index l.length] (.str a) (.str b)
  | fieldPathOwner (path : List String) (a b : String) :
      PartAt (.fieldPath ⟨path, a⟩) (.fieldPath ⟨path, b⟩)
        [.field "value", .field "resolved_owner"] (.str a) (.str b)

end Gvas.Spec
