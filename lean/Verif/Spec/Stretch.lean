import Verif.Spec.Place
import Verif.Spec.Pairs

/-!
# Specification vocabulary: values that differ in a stretch of their elements

A stretch of neighbouring elements of an array, a set, a map, a struct, a list of delegates or tags,
a field path or the arguments of a text is replaced by another one, that may have more or fewer elements, or none.
-/

namespace Gvas.Spec

/-- The bytes of an element of an array or set. -/
def BareBytes (cv : List (Guid × UInt32)) (p : Property) (x : Bytes) : Prop :=
  ∃ o, Property.write cv false p = .ok o ∧ x = o.bytes

/-- The bytes of a struct in an array of structs. -/
def BodyBytes (cv : List (Guid × UInt32)) (v : StructPropertyValue) (x : Bytes) : Prop :=
  ∃ o, StructPropertyValue.writeBody cv v = .ok o ∧ x = o.bytes

/-- The bytes of an entry of a map with strings for keys. -/
def NamedEntry (cv : List (Guid × UInt32)) (e : String × Property) (x : Bytes) : Prop :=
  ∃ v, BareBytes cv e.2 v ∧ x = (writeString e.1).bytes ++ v

/-- The bytes of an entry of a map. -/
def KeyedEntry (cv : List (Guid × UInt32)) (e : Property × Property) (x : Bytes) : Prop :=
  ∃ k v, BareBytes cv e.1 k ∧ BareBytes cv e.2 v ∧ x = k ++ v

/-- The bytes of a value of a field of a struct: the name of the field and the value with a header. -/
def FieldValue (cv : List (Guid × UInt32)) (name : String) (p : Property) (x : Bytes) : Prop :=
  ∃ o, Property.write cv true p = .ok o ∧ x = (writeString name).bytes ++ o.bytes

/-- The bytes of a field of a struct: those of its values, each with the name. -/
def FieldValues (cv : List (Guid × UInt32)) (e : String × List Property) (x : Bytes) : Prop :=
  ∃ vs, Pairs (FieldValue cv e.1) e.2 vs ∧ x = vs.flatten

/-- The bytes of an argument of a text. -/
def ArgumentBytes (cv : List (Guid × UInt32)) (v : FormatArgumentValue) (x : Bytes) : Prop :=
  ∃ o, FormatArgumentValue.write cv v = .ok o ∧ x = o.bytes

/-- The bytes of a named argument of a text. -/
def NamedArgument (cv : List (Guid × UInt32)) (e : String × FormatArgumentValue) (x : Bytes) : Prop :=
  ∃ v, ArgumentBytes cv e.2 v ∧ x = (writeString e.1).bytes ++ v

mutual
/-- `TextStretch cv t u k xs ys`: the texts are the same except for a stretch of arguments of one
text in them, that have the bytes `xs` in `t` and `ys` in `u`; that text has `k` arguments besides. -/
inductive TextStretch (cv : List (Guid × UInt32)) :
    FText → FText → Nat → List Bytes → List Bytes → Prop
  | history (fl : UInt32) {h h' : FTextHistory} {k : Nat} {xs ys : List Bytes} :
      HistoryStretch cv h h' k xs ys → TextStretch cv (.mk fl h) (.mk fl h') k xs ys
/-- The same for histories. -/
inductive HistoryStretch (cv : List (Guid × UInt32)) :
    FTextHistory → FTextHistory → Nat → List Bytes → List Bytes → Prop
  | named (t : FText) (l r : List (String × FormatArgumentValue))
      {old new : List (String × FormatArgumentValue)} {xs ys : List Bytes} :
      Pairs (NamedArgument cv) old xs → Pairs (NamedArgument cv) new ys →
      HistoryStretch cv (.namedFormat t (l ++ old ++ r)) (.namedFormat t (l ++ new ++ r))
        (l.length + r.length) xs ys
  | ordered (t : FText) (l r : List FormatArgumentValue)
      {old new : List FormatArgumentValue} {xs ys : List Bytes} :
      Pairs (ArgumentBytes cv) old xs → Pairs (ArgumentBytes cv) new ys →
      HistoryStretch cv (.orderedFormat t (l ++ old ++ r)) (.orderedFormat t (l ++ new ++ r))
        (l.length + r.length) xs ys
  | argument (t : FText) (l r : List (String × FormatArgumentValue))
      {old new : List (String × FormatArgumentValue)} {xs ys : List Bytes} :
      Pairs (NamedArgument cv) old xs → Pairs (NamedArgument cv) new ys →
      HistoryStretch cv (.argumentFormat t (l ++ old ++ r)) (.argumentFormat t (l ++ new ++ r))
        (l.length + r.length) xs ys
  | namedSource (args : List (String × FormatArgumentValue)) {t u : FText} {k : Nat}
      {xs ys : List Bytes} : TextStretch cv t u k xs ys →
      HistoryStretch cv (.namedFormat t args) (.namedFormat u args) k xs ys
  | namedArgument (t : FText) (l r : List (String × FormatArgumentValue)) (name : String)
      {v w : FormatArgumentValue} {k : Nat} {xs ys : List Bytes} : ArgumentStretch cv v w k xs ys →
      HistoryStretch cv (.namedFormat t (l ++ (name, v) :: r)) (.namedFormat t (l ++ (name, w) :: r))
        k xs ys
  | orderedSource (args : List FormatArgumentValue) {t u : FText} {k : Nat} {xs ys : List Bytes} :
      TextStretch cv t u k xs ys →
      HistoryStretch cv (.orderedFormat t args) (.orderedFormat u args) k xs ys
  | orderedArgument (t : FText) (l r : List FormatArgumentValue) {v w : FormatArgumentValue}
      {k : Nat} {xs ys : List Bytes} : ArgumentStretch cv v w k xs ys →
      HistoryStretch cv (.orderedFormat t (l ++ v :: r)) (.orderedFormat t (l ++ w :: r)) k xs ys
  | argumentSource (args : List (String × FormatArgumentValue)) {t u : FText} {k : Nat}
      {xs ys : List Bytes} : TextStretch cv t u k xs ys →
      HistoryStretch cv (.argumentFormat t args) (.argumentFormat u args) k xs ys
  | argumentArgument (t : FText) (l r : List (String × FormatArgumentValue)) (name : String)
      {v w : FormatArgumentValue} {k : Nat} {xs ys : List Bytes} : ArgumentStretch cv v w k xs ys →
      HistoryStretch cv (.argumentFormat t (l ++ (name, v) :: r))
        (.argumentFormat t (l ++ (name, w) :: r)) k xs ys
  | numberValue (o : Option NumberFormattingOptions) (c : Option String) {v w : FormatArgumentValue}
      {k : Nat} {xs ys : List Bytes} : ArgumentStretch cv v w k xs ys →
      HistoryStretch cv (.asNumber v o c) (.asNumber w o c) k xs ys
  | percentValue (o : Option NumberFormattingOptions) (c : Option String) {v w : FormatArgumentValue}
      {k : Nat} {xs ys : List Bytes} : ArgumentStretch cv v w k xs ys →
      HistoryStretch cv (.asPercent v o c) (.asPercent w o c) k xs ys
  | currencyValue (d : Option String) (o : Option NumberFormattingOptions) (c : Option String)
      {v w : FormatArgumentValue} {k : Nat} {xs ys : List Bytes} : ArgumentStretch cv v w k xs ys →
      HistoryStretch cv (.asCurrency d v o c) (.asCurrency d w o c) k xs ys
  | transformSource (tt : TransformType) {t u : FText} {k : Nat} {xs ys : List Bytes} :
      TextStretch cv t u k xs ys → HistoryStretch cv (.transform t tt) (.transform u tt) k xs ys
/-- The same for arguments. -/
inductive ArgumentStretch (cv : List (Guid × UInt32)) :
    FormatArgumentValue → FormatArgumentValue → Nat → List Bytes → List Bytes → Prop
  | text {t u : FText} {k : Nat} {xs ys : List Bytes} : TextStretch cv t u k xs ys →
      ArgumentStretch cv (.text t) (.text u) k xs ys
end

/-- `Stretch cv s t k xs ys`: the properties are the same except for a stretch of elements, that have
the bytes `xs` in `s` and `ys` in `t`.  There are `k` elements besides. -/
inductive Stretch (cv : List (Guid × UInt32)) :
    Property → Property → Nat → List Bytes → List Bytes → Prop
  | array (ty : String) (l r : List Property) {old new : List Property} {xs ys : List Bytes} :
      Pairs (BareBytes cv) old xs → Pairs (BareBytes cv) new ys →
      Stretch cv (.array (.properties ty (l ++ old ++ r))) (.array (.properties ty (l ++ new ++ r)))
        (l.length + r.length) xs ys
  | set (ty : String) (fl : UInt32) (l r : List Property) {old new : List Property}
      {xs ys : List Bytes} : Pairs (BareBytes cv) old xs → Pairs (BareBytes cv) new ys →
      Stretch cv (.set ty fl (l ++ old ++ r)) (.set ty fl (l ++ new ++ r)) (l.length + r.length) xs ys
  | structs (f ty : String) (g : Guid) (l r : List StructPropertyValue)
      {old new : List StructPropertyValue} {xs ys : List Bytes} :
      Pairs (BodyBytes cv) old xs → Pairs (BodyBytes cv) new ys →
      Stretch cv (.array (.structs f ty g (l ++ old ++ r))) (.array (.structs f ty g (l ++ new ++ r)))
        (l.length + r.length) xs ys
  | enumMap (ty : String) (l r : List (String × Property)) {old new : List (String × Property)}
      {xs ys : List Bytes} : Pairs (NamedEntry cv) old xs → Pairs (NamedEntry cv) new ys →
      Stretch cv (.map (.enumProperty ty (l ++ old ++ r))) (.map (.enumProperty ty (l ++ new ++ r)))
        (l.length + r.length) xs ys
  | nameMap (ty : String) (l r : List (String × Property)) {old new : List (String × Property)}
      {xs ys : List Bytes} : Pairs (NamedEntry cv) old xs → Pairs (NamedEntry cv) new ys →
      Stretch cv (.map (.nameProperty ty (l ++ old ++ r))) (.map (.nameProperty ty (l ++ new ++ r)))
        (l.length + r.length) xs ys
  | strMap (ty : String) (l r : List (String × Property)) {old new : List (String × Property)}
      {xs ys : List Bytes} : Pairs (NamedEntry cv) old xs → Pairs (NamedEntry cv) new ys →
      Stretch cv (.map (.strProperty ty (l ++ old ++ r))) (.map (.strProperty ty (l ++ new ++ r)))
        (l.length + r.length) xs ys
  | map (kt vt : String) (fl : UInt32) (l r : List (Property × Property))
      {old new : List (Property × Property)} {xs ys : List Bytes} :
      Pairs (KeyedEntry cv) old xs → Pairs (KeyedEntry cv) new ys →
      Stretch cv (.map (.properties kt vt fl (l ++ old ++ r)))
        (.map (.properties kt vt fl (l ++ new ++ r))) (l.length + r.length) xs ys
  | bools (l old new r : List Bool) : Stretch cv (.array (.bools (l ++ old ++ r)))
      (.array (.bools (l ++ new ++ r))) (l.length + r.length) (old.map boolB) (new.map boolB)
  | bytes (l old new r : Bytes) : Stretch cv (.array (.bytes (l ++ old ++ r)))
      (.array (.bytes (l ++ new ++ r))) (l.length + r.length) (old.map u8B) (new.map u8B)
  | enums (l old new r : List String) : Stretch cv (.array (.enums (l ++ old ++ r)))
      (.array (.enums (l ++ new ++ r))) (l.length + r.length)
      (old.map fun s => (writeString s).bytes) (new.map fun s => (writeString s).bytes)
  | floats (l old new r : List F32) : Stretch cv (.array (.floats (l ++ old ++ r)))
      (.array (.floats (l ++ new ++ r))) (l.length + r.length) (old.map f32B) (new.map f32B)
  | ints (l old new r : List Int32) : Stretch cv (.array (.ints (l ++ old ++ r)))
      (.array (.ints (l ++ new ++ r))) (l.length + r.length) (old.map i32B) (new.map i32B)
  | names (l old new r : List (Option String)) : Stretch cv (.array (.names (l ++ old ++ r)))
      (.array (.names (l ++ new ++ r))) (l.length + r.length)
      (old.map fun s => (writeFString s).bytes) (new.map fun s => (writeFString s).bytes)
  | strings (l old new r : List (Option String)) : Stretch cv (.array (.strings (l ++ old ++ r)))
      (.array (.strings (l ++ new ++ r))) (l.length + r.length)
      (old.map fun s => (writeFString s).bytes) (new.map fun s => (writeFString s).bytes)
  | enumBool (l old new r : List (String × Bool)) : Stretch cv (.map (.enumBool (l ++ old ++ r)))
      (.map (.enumBool (l ++ new ++ r))) (l.length + r.length)
      (old.map fun e => (writeString e.1).bytes ++ boolB e.2)
      (new.map fun e => (writeString e.1).bytes ++ boolB e.2)
  | nameBool (l old new r : List (String × Bool)) : Stretch cv (.map (.nameBool (l ++ old ++ r)))
      (.map (.nameBool (l ++ new ++ r))) (l.length + r.length)
      (old.map fun e => (writeString e.1).bytes ++ boolB e.2)
      (new.map fun e => (writeString e.1).bytes ++ boolB e.2)
  | strBool (l old new r : List (String × Bool)) : Stretch cv (.map (.strBool (l ++ old ++ r)))
      (.map (.strBool (l ++ new ++ r))) (l.length + r.length)
      (old.map fun e => (writeString e.1).bytes ++ boolB e.2)
      (new.map fun e => (writeString e.1).bytes ++ boolB e.2)
  | enumInt (l old new r : List (String × Int32)) : Stretch cv (.map (.enumInt (l ++ old ++ r)))
      (.map (.enumInt (l ++ new ++ r))) (l.length + r.length)
      (old.map fun e => (writeString e.1).bytes ++ i32B e.2)
      (new.map fun e => (writeString e.1).bytes ++ i32B e.2)
  | nameInt (l old new r : List (String × Int32)) : Stretch cv (.map (.nameInt (l ++ old ++ r)))
      (.map (.nameInt (l ++ new ++ r))) (l.length + r.length)
      (old.map fun e => (writeString e.1).bytes ++ i32B e.2)
      (new.map fun e => (writeString e.1).bytes ++ i32B e.2)
  | strInt (l old new r : List (String × Int32)) : Stretch cv (.map (.strInt (l ++ old ++ r)))
      (.map (.strInt (l ++ new ++ r))) (l.length + r.length)
      (old.map fun e => (writeString e.1).bytes ++ i32B e.2)
      (new.map fun e => (writeString e.1).bytes ++ i32B e.2)
  | strStr (l old new r : List (String × Option String)) :
      Stretch cv (.map (.strStr (l ++ old ++ r)))
      (.map (.strStr (l ++ new ++ r))) (l.length + r.length)
      (old.map fun e => (writeString e.1).bytes ++ (writeFString e.2).bytes)
      (new.map fun e => (writeString e.1).bytes ++ (writeFString e.2).bytes)
  | tags (g : Guid) (ty : String) (l old new r : List String) :
      Stretch cv (.struct g ty (.gameplayTagContainer (l ++ old ++ r)))
      (.struct g ty (.gameplayTagContainer (l ++ new ++ r))) (l.length + r.length)
      (old.map fun s => (writeString s).bytes) (new.map fun s => (writeString s).bytes)
  | bareTags (l old new r : List String) :
      Stretch cv (.structValue (.gameplayTagContainer (l ++ old ++ r)))
      (.structValue (.gameplayTagContainer (l ++ new ++ r))) (l.length + r.length)
      (old.map fun s => (writeString s).bytes) (new.map fun s => (writeString s).bytes)
  | structTags (f ty : String) (g : Guid) (before after : List StructPropertyValue)
      (l old new r : List String) :
      Stretch cv (.array (.structs f ty g (before ++ .gameplayTagContainer (l ++ old ++ r) :: after)))
      (.array (.structs f ty g (before ++ .gameplayTagContainer (l ++ new ++ r) :: after)))
      (l.length + r.length)
      (old.map fun s => (writeString s).bytes) (new.map fun s => (writeString s).bytes)
  | text {t u : FText} {k : Nat} {xs ys : List Bytes} : TextStretch cv t u k xs ys →
      Stretch cv (.text t) (.text u) k xs ys
  | inlineDelegates (l old new r : List Delegate) :
      Stretch cv (.multicastInlineDelegate (l ++ old ++ r)) (.multicastInlineDelegate (l ++ new ++ r))
      (l.length + r.length) (old.map fun d => (writeString d.object).bytes ++ (writeString d.functionName).bytes)
      (new.map fun d => (writeString d.object).bytes ++ (writeString d.functionName).bytes)
  | sparseDelegates (l old new r : List Delegate) :
      Stretch cv (.multicastSparseDelegate (l ++ old ++ r)) (.multicastSparseDelegate (l ++ new ++ r))
      (l.length + r.length) (old.map fun d => (writeString d.object).bytes ++ (writeString d.functionName).bytes)
      (new.map fun d => (writeString d.object).bytes ++ (writeString d.functionName).bytes)
  | fieldPath (l old new r : List String) (owner : String) :
      Stretch cv (.fieldPath ⟨l ++ old ++ r, owner⟩) (.fieldPath ⟨l ++ new ++ r, owner⟩)
      (l.length + r.length) (old.map fun s => (writeString s).bytes)
      (new.map fun s => (writeString s).bytes)

/-- The same for the fields of a struct, and the values of one field.  They are not counted. -/
inductive FieldStretch (cv : List (Guid × UInt32)) :
    StructPropertyValue → StructPropertyValue → List Bytes → List Bytes → Prop
  | fields (l r : List (String × List Property)) {old new : List (String × List Property)}
      {xs ys : List Bytes} : Pairs (FieldValues cv) old xs → Pairs (FieldValues cv) new ys →
      FieldStretch cv (.customStruct (l ++ old ++ r)) (.customStruct (l ++ new ++ r)) xs ys
  | values (fs gs : List (String × List Property)) (name : String) (l r : List Property)
      {old new : List Property} {xs ys : List Bytes} :
      Pairs (FieldValue cv name) old xs → Pairs (FieldValue cv name) new ys →
      FieldStretch cv (.customStruct (fs ++ (name, l ++ old ++ r) :: gs))
        (.customStruct (fs ++ (name, l ++ new ++ r) :: gs)) xs ys

/-- The same for properties with such a struct in them. -/
inductive StructStretch (cv : List (Guid × UInt32)) :
    Property → Property → List Bytes → List Bytes → Prop
  | struct (g : Guid) (ty : String) {v w : StructPropertyValue} {xs ys : List Bytes} :
      FieldStretch cv v w xs ys → StructStretch cv (.struct g ty v) (.struct g ty w) xs ys
  | structValue {v w : StructPropertyValue} {xs ys : List Bytes} :
      FieldStretch cv v w xs ys → StructStretch cv (.structValue v) (.structValue w) xs ys
  | structs (f ty : String) (g : Guid) (l r : List StructPropertyValue)
      {v w : StructPropertyValue} {xs ys : List Bytes} : FieldStretch cv v w xs ys →
      StructStretch cv (.array (.structs f ty g (l ++ v :: r))) (.array (.structs f ty g (l ++ w :: r)))
        xs ys

/-- The names of arguments can be stored: different ones within the length limit, not too many. -/
def NamesOK (args : List (String × FormatArgumentValue)) : Prop :=
  args.length < 2 ^ 31 ∧ (args.map Prod.fst).Nodup ∧ ∀ e ∈ args, StrOK e.1

mutual
/-- `RelistedText t u`: `u` is `t` with other arguments in one text in it: some of those that text has,
in any order and any number, and with any names, different ones. -/
inductive RelistedText : FText → FText → Prop
  | history (fl : UInt32) {h h' : FTextHistory} : RelistedHistory h h' →
      RelistedText (.mk fl h) (.mk fl h')
/-- The same for histories. -/
inductive RelistedHistory : FTextHistory → FTextHistory → Prop
  | named (t : FText) {vs ws : List (String × FormatArgumentValue)} : NamesOK ws →
      (∀ w ∈ ws, ∃ k, (k, w.2) ∈ vs) → RelistedHistory (.namedFormat t vs) (.namedFormat t ws)
  | ordered (t : FText) {vs ws : List FormatArgumentValue} : ws.length < 2 ^ 31 →
      (∀ w ∈ ws, w ∈ vs) → RelistedHistory (.orderedFormat t vs) (.orderedFormat t ws)
  | argument (t : FText) {vs ws : List (String × FormatArgumentValue)} : NamesOK ws →
      (∀ w ∈ ws, ∃ k, (k, w.2) ∈ vs) → RelistedHistory (.argumentFormat t vs) (.argumentFormat t ws)
  | namedSource (args : List (String × FormatArgumentValue)) {t u : FText} : RelistedText t u →
      RelistedHistory (.namedFormat t args) (.namedFormat u args)
  | namedArgument (t : FText) (l r : List (String × FormatArgumentValue)) (name : String)
      {v w : FText} : RelistedText v w →
      RelistedHistory (.namedFormat t (l ++ (name, .text v) :: r))
        (.namedFormat t (l ++ (name, .text w) :: r))
  | orderedSource (args : List FormatArgumentValue) {t u : FText} : RelistedText t u →
      RelistedHistory (.orderedFormat t args) (.orderedFormat u args)
  | orderedArgument (t : FText) (l r : List FormatArgumentValue) {v w : FText} : RelistedText v w →
      RelistedHistory (.orderedFormat t (l ++ .text v :: r)) (.orderedFormat t (l ++ .text w :: r))
  | argumentSource (args : List (String × FormatArgumentValue)) {t u : FText} : RelistedText t u →
      RelistedHistory (.argumentFormat t args) (.argumentFormat u args)
  | argumentArgument (t : FText) (l r : List (String × FormatArgumentValue)) (name : String)
      {v w : FText} : RelistedText v w →
      RelistedHistory (.argumentFormat t (l ++ (name, .text v) :: r))
        (.argumentFormat t (l ++ (name, .text w) :: r))
  | numberValue (o : Option NumberFormattingOptions) (c : Option String) {v w : FText} :
      RelistedText v w → RelistedHistory (.asNumber (.text v) o c) (.asNumber (.text w) o c)
  | percentValue (o : Option NumberFormattingOptions) (c : Option String) {v w : FText} :
      RelistedText v w → RelistedHistory (.asPercent (.text v) o c) (.asPercent (.text w) o c)
  | currencyValue (d : Option String) (o : Option NumberFormattingOptions) (c : Option String)
      {v w : FText} : RelistedText v w →
      RelistedHistory (.asCurrency d (.text v) o c) (.asCurrency d (.text w) o c)
  | transformSource (tt : TransformType) {t u : FText} : RelistedText t u →
      RelistedHistory (.transform t tt) (.transform u tt)
end

/-- `Relisted p q`: `q` is `p` with another list of elements, that fits in its place.  The elements of
arrays and sets are some of those of `p`, in any order and any number; those of maps with strings for
keys are values of `p` under any names, different ones; entries of other maps and fields of structs
are some of those of `p` in order, and arguments of texts are as in `RelistedText`.  Numbers,
switches and strings may be any. -/
inductive Relisted : Property → Property → Prop
  | array (ty : String) {ps qs : List Property} : (∀ q ∈ qs, q ∈ ps) → qs.length < 2 ^ 32 →
      (ty = "ByteProperty" → ∃ q ∈ qs, isNamespaced q) →
      Relisted (.array (.properties ty ps)) (.array (.properties ty qs))
  | set (ty : String) (fl : UInt32) {ps qs : List Property} : (∀ q ∈ qs, q ∈ ps) →
      qs.length < 2 ^ 32 → Relisted (.set ty fl ps) (.set ty fl qs)
  | structs (f ty : String) (g : Guid) {vs ws : List StructPropertyValue} : (∀ w ∈ ws, w ∈ vs) →
      ws.length < 2 ^ 32 → Relisted (.array (.structs f ty g vs)) (.array (.structs f ty g ws))
  | enumMap (ty : String) {vs ws : List (String × Property)} : KeysOK ws →
      (∀ w ∈ ws, ∃ k, (k, w.2) ∈ vs) →
      Relisted (.map (.enumProperty ty vs)) (.map (.enumProperty ty ws))
  | nameMap (ty : String) {vs ws : List (String × Property)} : KeysOK ws →
      (∀ w ∈ ws, ∃ k, (k, w.2) ∈ vs) →
      Relisted (.map (.nameProperty ty vs)) (.map (.nameProperty ty ws))
  | strMap (ty : String) {vs ws : List (String × Property)} : KeysOK ws →
      (∀ w ∈ ws, ∃ k, (k, w.2) ∈ vs) →
      Relisted (.map (.strProperty ty vs)) (.map (.strProperty ty ws))
  | map (kt vt : String) (fl : UInt32) {vs ws : List (Property × Property)} : ws.Sublist vs →
      (fl = 0 → kt ∈ ["NameProperty", "StrProperty"] → ∃ e ∈ ws, isNullKey e.1) →
      Relisted (.map (.properties kt vt fl vs)) (.map (.properties kt vt fl ws))
  | bools (v w : List Bool) : w.length < 2 ^ 32 → Relisted (.array (.bools v)) (.array (.bools w))
  | bytes (v w : Bytes) : w.length < 2 ^ 32 → Relisted (.array (.bytes v)) (.array (.bytes w))
  | floats (v w : List F32) : w.length < 2 ^ 32 →
      Relisted (.array (.floats v)) (.array (.floats w))
  | ints (v w : List Int32) : w.length < 2 ^ 32 → Relisted (.array (.ints v)) (.array (.ints w))
  | enums (v w : List String) : w.length < 2 ^ 32 → (∀ s ∈ w, StrOK s) →
      Relisted (.array (.enums v)) (.array (.enums w))
  | names (v w : List (Option String)) : w.length < 2 ^ 32 → (∀ s ∈ w, FStrOK s) →
      Relisted (.array (.names v)) (.array (.names w))
  | strings (v w : List (Option String)) : w.length < 2 ^ 32 → (∀ s ∈ w, FStrOK s) →
      Relisted (.array (.strings v)) (.array (.strings w))
  | enumBool (v w : List (String × Bool)) : KeysOK w →
      Relisted (.map (.enumBool v)) (.map (.enumBool w))
  | nameBool (v w : List (String × Bool)) : KeysOK w →
      Relisted (.map (.nameBool v)) (.map (.nameBool w))
  | strBool (v w : List (String × Bool)) : KeysOK w →
      Relisted (.map (.strBool v)) (.map (.strBool w))
  | enumInt (v w : List (String × Int32)) : KeysOK w →
      Relisted (.map (.enumInt v)) (.map (.enumInt w))
  | nameInt (v w : List (String × Int32)) : KeysOK w →
      Relisted (.map (.nameInt v)) (.map (.nameInt w))
  | strInt (v w : List (String × Int32)) : KeysOK w →
      Relisted (.map (.strInt v)) (.map (.strInt w))
  | strStr (v w : List (String × Option String)) : KeysOK w → (∀ e ∈ w, FStrOK e.2) →
      Relisted (.map (.strStr v)) (.map (.strStr w))
  | inlineDelegates (v w : List Delegate) : w.length < 2 ^ 32 →
      (∀ d ∈ w, StrOK d.object ∧ StrOK d.functionName) →
      Relisted (.multicastInlineDelegate v) (.multicastInlineDelegate w)
  | sparseDelegates (v w : List Delegate) : w.length < 2 ^ 32 →
      (∀ d ∈ w, StrOK d.object ∧ StrOK d.functionName) →
      Relisted (.multicastSparseDelegate v) (.multicastSparseDelegate w)
  | fieldPath (v w : List String) (owner : String) : w.length < 2 ^ 32 → (∀ s ∈ w, StrOK s) →
      Relisted (.fieldPath ⟨v, owner⟩) (.fieldPath ⟨w, owner⟩)
  | tags (g : Guid) (ty : String) (v w : List String) : w.length < 2 ^ 31 → (∀ s ∈ w, StrOK s) →
      Relisted (.struct g ty (.gameplayTagContainer v)) (.struct g ty (.gameplayTagContainer w))
  | bareTags (v w : List String) : w.length < 2 ^ 31 → (∀ s ∈ w, StrOK s) →
      Relisted (.structValue (.gameplayTagContainer v)) (.structValue (.gameplayTagContainer w))
  | structTags (f ty : String) (g : Guid) (l r : List StructPropertyValue) (v w : List String) :
      w.length < 2 ^ 31 → (∀ s ∈ w, StrOK s) →
      Relisted (.array (.structs f ty g (l ++ .gameplayTagContainer v :: r)))
        (.array (.structs f ty g (l ++ .gameplayTagContainer w :: r)))
  | structFields (f ty : String) (g : Guid) (l r : List StructPropertyValue)
      {fs gs : List (String × List Property)} : gs.Sublist fs →
      Relisted (.array (.structs f ty g (l ++ .customStruct fs :: r)))
        (.array (.structs f ty g (l ++ .customStruct gs :: r)))
  | fields (g : Guid) (ty : String) {fs gs : List (String × List Property)} : gs.Sublist fs →
      Relisted (.struct g ty (.customStruct fs)) (.struct g ty (.customStruct gs))
  | bareFields {fs gs : List (String × List Property)} : gs.Sublist fs →
      Relisted (.structValue (.customStruct fs)) (.structValue (.customStruct gs))
  | text {t u : FText} : RelistedText t u → Relisted (.text t) (.text u)

end Gvas.Spec
