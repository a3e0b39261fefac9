import Verif.Spec.Place

/-!
# Specification vocabulary: values that are not properties

The elements of arrays and maps of numbers, switches and strings, the values of structs with a fixed
layout, and the parts of texts, delegates and field paths are not properties of their own.
-/

namespace Gvas.Spec

/-- `Layouts v w x y`: structs of the same fixed layout, and the bytes of their values. -/
inductive Layouts : StructPropertyValue → StructPropertyValue → Bytes → Bytes → Prop
  | vector2F (x y x' y' : F32) : Layouts (.vector2F x y) (.vector2F x' y')
      (f32B x ++ f32B y) (f32B x' ++ f32B y')
  | vector2D (x y x' y' : F64) : Layouts (.vector2D x y) (.vector2D x' y')
      (f64B x ++ f64B y) (f64B x' ++ f64B y')
  | vectorF (x y z x' y' z' : F32) : Layouts (.vectorF x y z) (.vectorF x' y' z')
      (f32B x ++ f32B y ++ f32B z) (f32B x' ++ f32B y' ++ f32B z')
  | vectorD (x y z x' y' z' : F64) : Layouts (.vectorD x y z) (.vectorD x' y' z')
      (f64B x ++ f64B y ++ f64B z) (f64B x' ++ f64B y' ++ f64B z')
  | rotatorF (x y z x' y' z' : F32) : Layouts (.rotatorF x y z) (.rotatorF x' y' z')
      (f32B x ++ f32B y ++ f32B z) (f32B x' ++ f32B y' ++ f32B z')
  | rotatorD (x y z x' y' z' : F64) : Layouts (.rotatorD x y z) (.rotatorD x' y' z')
      (f64B x ++ f64B y ++ f64B z) (f64B x' ++ f64B y' ++ f64B z')
  | quatF (x y z w x' y' z' w' : F32) : Layouts (.quatF x y z w) (.quatF x' y' z' w')
      (f32B x ++ f32B y ++ f32B z ++ f32B w) (f32B x' ++ f32B y' ++ f32B z' ++ f32B w')
  | quatD (x y z w x' y' z' w' : F64) : Layouts (.quatD x y z w) (.quatD x' y' z' w')
      (f64B x ++ f64B y ++ f64B z ++ f64B w) (f64B x' ++ f64B y' ++ f64B z' ++ f64B w')
  | dateTime (t t' : UInt64) : Layouts (.dateTime t) (.dateTime t') (u64B t) (u64B t')
  | timespan (t t' : UInt64) : Layouts (.timespan t) (.timespan t') (u64B t) (u64B t')
  | linearColor (r g b a r' g' b' a' : F32) : Layouts (.linearColor r g b a) (.linearColor r' g' b' a')
      (f32B r ++ f32B g ++ f32B b ++ f32B a) (f32B r' ++ f32B g' ++ f32B b' ++ f32B a')
  | intPoint (x y x' y' : Int32) : Layouts (.intPoint x y) (.intPoint x' y')
      (i32B x ++ i32B y) (i32B x' ++ i32B y')
  | guid (g g' : Guid) : Layouts (.guid g) (.guid g') (guidB g) (guidB g')
  | tag (l r : List String) (a b : String) : StrOK b →
      Layouts (.gameplayTagContainer (l ++ a :: r)) (.gameplayTagContainer (l ++ b :: r))
        (writeString a).bytes (writeString b).bytes

mutual
/-- `TextPart cv t u x y`: the texts are the same except for one part that has the bytes `x` in `t` and
`y` in `u`. -/
inductive TextPart (cv : List (Guid × UInt32)) : FText → FText → Bytes → Bytes → Prop
  | flags (a b : UInt32) (h : FTextHistory) : TextPart cv (.mk a h) (.mk b h) (u32B a) (u32B b)
  | history (fl : UInt32) {h h' : FTextHistory} {x y : Bytes} : HistoryPart cv h h' x y →
      TextPart cv (.mk fl h) (.mk fl h') x y
/-- The same for histories.  A culture invariant string is stored only where the versions know it. -/
inductive HistoryPart (cv : List (Guid × UInt32)) : FTextHistory → FTextHistory → Bytes → Bytes → Prop
  | none (a b : Option String) : cultureInvariant cv = true → FStrOK b →
      HistoryPart cv (.none a) (.none b) (writeFString a).bytes (writeFString b).bytes
  | baseNamespace (a b k s : Option String) : FStrOK b →
      HistoryPart cv (.base a k s) (.base b k s) (writeFString a).bytes (writeFString b).bytes
  | baseKey (n a b s : Option String) : FStrOK b →
      HistoryPart cv (.base n a s) (.base n b s) (writeFString a).bytes (writeFString b).bytes
  | baseSource (n k a b : Option String) : FStrOK b →
      HistoryPart cv (.base n k a) (.base n k b) (writeFString a).bytes (writeFString b).bytes
  | namedSource (args : List (String × FormatArgumentValue)) {t u : FText} {x y : Bytes} :
      TextPart cv t u x y → HistoryPart cv (.namedFormat t args) (.namedFormat u args) x y
  | namedArgument (t : FText) (l r : List (String × FormatArgumentValue)) (k : String)
      {v w : FormatArgumentValue} {x y : Bytes} : ArgumentPart cv v w x y →
      HistoryPart cv (.namedFormat t (l ++ (k, v) :: r)) (.namedFormat t (l ++ (k, w) :: r)) x y
  | orderedSource (args : List FormatArgumentValue) {t u : FText} {x y : Bytes} :
      TextPart cv t u x y → HistoryPart cv (.orderedFormat t args) (.orderedFormat u args) x y
  | orderedArgument (t : FText) (l r : List FormatArgumentValue) {v w : FormatArgumentValue}
      {x y : Bytes} : ArgumentPart cv v w x y →
      HistoryPart cv (.orderedFormat t (l ++ v :: r)) (.orderedFormat t (l ++ w :: r)) x y
  | argumentSource (args : List (String × FormatArgumentValue)) {t u : FText} {x y : Bytes} :
      TextPart cv t u x y → HistoryPart cv (.argumentFormat t args) (.argumentFormat u args) x y
  | argumentArgument (t : FText) (l r : List (String × FormatArgumentValue)) (k : String)
      {v w : FormatArgumentValue} {x y : Bytes} : ArgumentPart cv v w x y →
      HistoryPart cv (.argumentFormat t (l ++ (k, v) :: r)) (.argumentFormat t (l ++ (k, w) :: r)) x y
  | numberValue (o : Option NumberFormattingOptions) (c : Option String) {v w : FormatArgumentValue}
      {x y : Bytes} : ArgumentPart cv v w x y → HistoryPart cv (.asNumber v o c) (.asNumber w o c) x y
  | numberOptions (v : FormatArgumentValue) (a b : NumberFormattingOptions) (c : Option String) :
      HistoryPart cv (.asNumber v (some a) c) (.asNumber v (some b) c) a.write.bytes b.write.bytes
  | numberCulture (v : FormatArgumentValue) (o : Option NumberFormattingOptions)
      (a b : Option String) : FStrOK b → HistoryPart cv (.asNumber v o a) (.asNumber v o b)
        (writeFString a).bytes (writeFString b).bytes
  | percentValue (o : Option NumberFormattingOptions) (c : Option String) {v w : FormatArgumentValue}
      {x y : Bytes} : ArgumentPart cv v w x y → HistoryPart cv (.asPercent v o c) (.asPercent w o c) x y
  | percentOptions (v : FormatArgumentValue) (a b : NumberFormattingOptions) (c : Option String) :
      HistoryPart cv (.asPercent v (some a) c) (.asPercent v (some b) c) a.write.bytes b.write.bytes
  | percentCulture (v : FormatArgumentValue) (o : Option NumberFormattingOptions)
      (a b : Option String) : FStrOK b → HistoryPart cv (.asPercent v o a) (.asPercent v o b)
        (writeFString a).bytes (writeFString b).bytes
  | currencyCode (a b : Option String) (v : FormatArgumentValue) (o : Option NumberFormattingOptions)
      (c : Option String) : FStrOK b → HistoryPart cv (.asCurrency a v o c) (.asCurrency b v o c)
        (writeFString a).bytes (writeFString b).bytes
  | currencyValue (d : Option String) (o : Option NumberFormattingOptions) (c : Option String)
      {v w : FormatArgumentValue} {x y : Bytes} : ArgumentPart cv v w x y →
      HistoryPart cv (.asCurrency d v o c) (.asCurrency d w o c) x y
  | currencyOptions (d : Option String) (v : FormatArgumentValue) (a b : NumberFormattingOptions)
      (c : Option String) : HistoryPart cv (.asCurrency d v (some a) c) (.asCurrency d v (some b) c)
        a.write.bytes b.write.bytes
  | currencyCulture (d : Option String) (v : FormatArgumentValue) (o : Option NumberFormattingOptions)
      (a b : Option String) : FStrOK b → HistoryPart cv (.asCurrency d v o a) (.asCurrency d v o b)
        (writeFString a).bytes (writeFString b).bytes
  | dateTicks (a b : UInt64) (st : DateTimeStyle) (c : String) :
      HistoryPart cv (.asDate a st c) (.asDate b st c) (u64B a) (u64B b)
  | dateStyle (t : UInt64) (a b : DateTimeStyle) (c : String) :
      HistoryPart cv (.asDate t a c) (.asDate t b c) (i8B a.toI8) (i8B b.toI8)
  | dateCulture (t : UInt64) (st : DateTimeStyle) (a b : String) : StrOK b →
      HistoryPart cv (.asDate t st a) (.asDate t st b) (writeString a).bytes (writeString b).bytes
  | timeTicks (a b : UInt64) (st : DateTimeStyle) (z c : String) :
      HistoryPart cv (.asTime a st z c) (.asTime b st z c) (u64B a) (u64B b)
  | timeStyle (t : UInt64) (a b : DateTimeStyle) (z c : String) :
      HistoryPart cv (.asTime t a z c) (.asTime t b z c) (i8B a.toI8) (i8B b.toI8)
  | timeZone (t : UInt64) (st : DateTimeStyle) (a b c : String) : StrOK b →
      HistoryPart cv (.asTime t st a c) (.asTime t st b c) (writeString a).bytes (writeString b).bytes
  | timeCulture (t : UInt64) (st : DateTimeStyle) (z a b : String) : StrOK b →
      HistoryPart cv (.asTime t st z a) (.asTime t st z b) (writeString a).bytes (writeString b).bytes
  | dateTimeTicks (a b : UInt64) (ds ts : DateTimeStyle) (z c : String) :
      HistoryPart cv (.asDateTime a ds ts z c) (.asDateTime b ds ts z c) (u64B a) (u64B b)
  | dateTimeDate (t : UInt64) (a b ts : DateTimeStyle) (z c : String) :
      HistoryPart cv (.asDateTime t a ts z c) (.asDateTime t b ts z c) (i8B a.toI8) (i8B b.toI8)
  | dateTimeTime (t : UInt64) (ds a b : DateTimeStyle) (z c : String) :
      HistoryPart cv (.asDateTime t ds a z c) (.asDateTime t ds b z c) (i8B a.toI8) (i8B b.toI8)
  | dateTimeZone (t : UInt64) (ds ts : DateTimeStyle) (a b c : String) : StrOK b →
      HistoryPart cv (.asDateTime t ds ts a c) (.asDateTime t ds ts b c)
        (writeString a).bytes (writeString b).bytes
  | dateTimeCulture (t : UInt64) (ds ts : DateTimeStyle) (z a b : String) : StrOK b →
      HistoryPart cv (.asDateTime t ds ts z a) (.asDateTime t ds ts z b)
        (writeString a).bytes (writeString b).bytes
  | transformSource (tt : TransformType) {t u : FText} {x y : Bytes} : TextPart cv t u x y →
      HistoryPart cv (.transform t tt) (.transform u tt) x y
  | transformType (t : FText) (a b : TransformType) :
      HistoryPart cv (.transform t a) (.transform t b) (i8B a.toI8) (i8B b.toI8)
  | tableId (a b k : String) : StrOK b → HistoryPart cv (.stringTableEntry a k)
      (.stringTableEntry b k) (writeString a).bytes (writeString b).bytes
  | tableKey (i a b : String) : StrOK b → HistoryPart cv (.stringTableEntry i a)
      (.stringTableEntry i b) (writeString a).bytes (writeString b).bytes
/-- The same for arguments. -/
inductive ArgumentPart (cv : List (Guid × UInt32)) :
    FormatArgumentValue → FormatArgumentValue → Bytes → Bytes → Prop
  | int (a b : Int32) : ArgumentPart cv (.int a) (.int b) (i32B a) (i32B b)
  | uint (a b : UInt32) : ArgumentPart cv (.uint a) (.uint b) (u32B a) (u32B b)
  | float (a b : F32) : ArgumentPart cv (.float a) (.float b) (f32B a) (f32B b)
  | double (a b : F64) : ArgumentPart cv (.double a) (.double b) (f64B a) (f64B b)
  | int64 (a b : Int64) : ArgumentPart cv (.int64 a) (.int64 b) (i64B a) (i64B b)
  | uint64 (a b : UInt64) : ArgumentPart cv (.uint64 a) (.uint64 b) (u64B a) (u64B b)
  | text {t u : FText} {x y : Bytes} : TextPart cv t u x y → ArgumentPart cv (.text t) (.text u) x y
end

/-- The same for delegates. -/
inductive DelegatePart : Delegate → Delegate → Bytes → Bytes → Prop
  | object (a b f : String) : StrOK b →
      DelegatePart ⟨a, f⟩ ⟨b, f⟩ (writeString a).bytes (writeString b).bytes
  | functionName (o a b : String) : StrOK b →
      DelegatePart ⟨o, a⟩ ⟨o, b⟩ (writeString a).bytes (writeString b).bytes

/-- `Element s t x y`: the properties are the same except for one value that is not a property, and
has the bytes `x` in `s` and `y` in `t`. -/
inductive Element (cv : List (Guid × UInt32)) : Property → Property → Bytes → Bytes → Prop
  | bools (l r : List Bool) (a b : Bool) :
      Element cv (.array (.bools (l ++ a :: r))) (.array (.bools (l ++ b :: r))) (boolB a) (boolB b)
  | bytes (l r : Bytes) (a b : UInt8) :
      Element cv (.array (.bytes (l ++ a :: r))) (.array (.bytes (l ++ b :: r))) (u8B a) (u8B b)
  | enums (l r : List String) (a b : String) : StrOK b →
      Element cv (.array (.enums (l ++ a :: r))) (.array (.enums (l ++ b :: r)))
        (writeString a).bytes (writeString b).bytes
  | floats (l r : List F32) (a b : F32) :
      Element cv (.array (.floats (l ++ a :: r))) (.array (.floats (l ++ b :: r))) (f32B a) (f32B b)
  | ints (l r : List Int32) (a b : Int32) :
      Element cv (.array (.ints (l ++ a :: r))) (.array (.ints (l ++ b :: r))) (i32B a) (i32B b)
  | names (l r : List (Option String)) (a b : Option String) : FStrOK b →
      Element cv (.array (.names (l ++ a :: r))) (.array (.names (l ++ b :: r)))
        (writeFString a).bytes (writeFString b).bytes
  | strings (l r : List (Option String)) (a b : Option String) : FStrOK b →
      Element cv (.array (.strings (l ++ a :: r))) (.array (.strings (l ++ b :: r)))
        (writeFString a).bytes (writeFString b).bytes
  | struct (g : Guid) (ty : String) {v w : StructPropertyValue} {x y : Bytes} : Layouts v w x y →
      Element cv (.struct g ty v) (.struct g ty w) x y
  | structValue {v w : StructPropertyValue} {x y : Bytes} : Layouts v w x y →
      Element cv (.structValue v) (.structValue w) x y
  | structs (f ty : String) (g : Guid) (l r : List StructPropertyValue)
      {v w : StructPropertyValue} {x y : Bytes} : Layouts v w x y →
      Element cv (.array (.structs f ty g (l ++ v :: r))) (.array (.structs f ty g (l ++ w :: r))) x y
  | enumBool (l r : List (String × Bool)) (k : String) (a b : Bool) :
      Element cv (.map (.enumBool (l ++ (k, a) :: r))) (.map (.enumBool (l ++ (k, b) :: r)))
        (boolB a) (boolB b)
  | nameBool (l r : List (String × Bool)) (k : String) (a b : Bool) :
      Element cv (.map (.nameBool (l ++ (k, a) :: r))) (.map (.nameBool (l ++ (k, b) :: r)))
        (boolB a) (boolB b)
  | strBool (l r : List (String × Bool)) (k : String) (a b : Bool) :
      Element cv (.map (.strBool (l ++ (k, a) :: r))) (.map (.strBool (l ++ (k, b) :: r)))
        (boolB a) (boolB b)
  | enumInt (l r : List (String × Int32)) (k : String) (a b : Int32) :
      Element cv (.map (.enumInt (l ++ (k, a) :: r))) (.map (.enumInt (l ++ (k, b) :: r)))
        (i32B a) (i32B b)
  | nameInt (l r : List (String × Int32)) (k : String) (a b : Int32) :
      Element cv (.map (.nameInt (l ++ (k, a) :: r))) (.map (.nameInt (l ++ (k, b) :: r)))
        (i32B a) (i32B b)
  | strInt (l r : List (String × Int32)) (k : String) (a b : Int32) :
      Element cv (.map (.strInt (l ++ (k, a) :: r))) (.map (.strInt (l ++ (k, b) :: r)))
        (i32B a) (i32B b)
  | strStr (l r : List (String × Option String)) (k : String) (a b : Option String) : FStrOK b →
      Element cv (.map (.strStr (l ++ (k, a) :: r))) (.map (.strStr (l ++ (k, b) :: r)))
        (writeFString a).bytes (writeFString b).bytes
  | text {t u : FText} {x y : Bytes} : TextPart cv t u x y → Element cv (.text t) (.text u) x y
  | delegate {a b : Delegate} {x y : Bytes} : DelegatePart a b x y →
      Element cv (.delegate a) (.delegate b) x y
  | inlineDelegate (l r : List Delegate) {a b : Delegate} {x y : Bytes} : DelegatePart a b x y →
      Element cv (.multicastInlineDelegate (l ++ a :: r)) (.multicastInlineDelegate (l ++ b :: r)) x y
  | sparseDelegate (l r : List Delegate) {a b : Delegate} {x y : Bytes} : DelegatePart a b x y →
      Element cv (.multicastSparseDelegate (l ++ a :: r)) (.multicastSparseDelegate (l ++ b :: r)) x y
  | fieldPathStep (l r : List String) (a b owner : String) : StrOK b →
      Element cv (.fieldPath ⟨l ++ a :: r, owner⟩) (.fieldPath ⟨l ++ b :: r, owner⟩)
        (writeString a).bytes (writeString b).bytes
  | fieldPathOwner (path : List String) (a b : String) : StrOK b →
      Element cv (.fieldPath ⟨path, a⟩) (.fieldPath ⟨path, b⟩)
        (writeString a).bytes (writeString b).bytes

end Gvas.Spec
