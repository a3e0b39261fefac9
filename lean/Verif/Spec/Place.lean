import Verif.Spec.Wf

/-!
# Specification vocabulary: values that differ in one place
-/

namespace Gvas.Spec

/-- A custom struct with the property `p` somewhere among its fields. -/
def structWith (fs : List (String × List Property)) (k : String) (before : List Property)
    (p : Property) (after : List Property) (gs : List (String × List Property)) :
    StructPropertyValue :=
  .customStruct (fs ++ (k, before ++ p :: after) :: gs)

/-- `Differ keys b p q h s t`: the properties `s` and `t` are the same except in one place, at any
depth, where `s` has `p` and `t` has `q`.  `h` tells whether `s` and `t` are stored with a header,
`b` whether that place is: the fields of structs are, the elements of arrays, sets and maps
are not.  Without `keys`, the place is not inside a map key. -/
inductive Differ (keys b : Bool) (p q : Property) : Bool → Property → Property → Prop
  | here : Differ keys b p q b p q
  | array {h : Bool} {s t : Property} (ty : String) (l r : List Property) :
      Differ keys b p q false s t →
      Differ keys b p q h (.array (.properties ty (l ++ s :: r))) (.array (.properties ty (l ++ t :: r)))
  | set {h : Bool} {s t : Property} (ty : String) (fl : UInt32) (l r : List Property) :
      Differ keys b p q false s t → Differ keys b p q h (.set ty fl (l ++ s :: r)) (.set ty fl (l ++ t :: r))
  | struct {h : Bool} {s t : Property} (g : Guid) (ty : String)
      (fs gs : List (String × List Property)) (k : String) (l r : List Property) :
      Differ keys b p q true s t →
      Differ keys b p q h (.struct g ty (structWith fs k l s r gs)) (.struct g ty (structWith fs k l t r gs))
  | structValue {s t : Property} (fs gs : List (String × List Property)) (k : String)
      (l r : List Property) : Differ keys b p q true s t →
      Differ keys b p q false (.structValue (structWith fs k l s r gs))
        (.structValue (structWith fs k l t r gs))
  | structs {h : Bool} {s t : Property} (f ty : String) (g : Guid)
      (vs ws : List StructPropertyValue) (fs gs : List (String × List Property)) (k : String)
      (l r : List Property) : Differ keys b p q true s t →
      Differ keys b p q h (.array (.structs f ty g (vs ++ structWith fs k l s r gs :: ws)))
        (.array (.structs f ty g (vs ++ structWith fs k l t r gs :: ws)))
  | enumMap {h : Bool} {s t : Property} (ty k : String) (l r : List (String × Property)) :
      Differ keys b p q false s t →
      Differ keys b p q h (.map (.enumProperty ty (l ++ (k, s) :: r)))
        (.map (.enumProperty ty (l ++ (k, t) :: r)))
  | nameMap {h : Bool} {s t : Property} (ty k : String) (l r : List (String × Property)) :
      Differ keys b p q false s t →
      Differ keys b p q h (.map (.nameProperty ty (l ++ (k, s) :: r)))
        (.map (.nameProperty ty (l ++ (k, t) :: r)))
  | strMap {h : Bool} {s t : Property} (ty k : String) (l r : List (String × Property)) :
      Differ keys b p q false s t →
      Differ keys b p q h (.map (.strProperty ty (l ++ (k, s) :: r)))
        (.map (.strProperty ty (l ++ (k, t) :: r)))
  | mapKey {h : Bool} {s t : Property} (kt vt : String) (fl : UInt32) (v : Property)
      (l r : List (Property × Property)) : keys = true → Differ keys b p q false s t →
      Differ keys b p q h (.map (.properties kt vt fl (l ++ (s, v) :: r)))
        (.map (.properties kt vt fl (l ++ (t, v) :: r)))
  | mapValue {h : Bool} {s t : Property} (kt vt : String) (fl : UInt32) (k : Property)
      (l r : List (Property × Property)) : Differ keys b p q false s t →
      Differ keys b p q h (.map (.properties kt vt fl (l ++ (k, s) :: r)))
        (.map (.properties kt vt fl (l ++ (k, t) :: r)))

/-- Values of the same type one of which can take the place of the other: numbers, switches,
and strings that fit. -/
inductive Alike : Property → Property → Prop
  | bool (a b : Bool) : Alike (.bool a) (.bool b)
  | byte (n : Option String) (a b : UInt8) : Alike (.byte n (.byte a)) (.byte n (.byte b))
  | int8 (a b : Int8) : Alike (.int8 a) (.int8 b)
  | int16 (a b : Int16) : Alike (.int16 a) (.int16 b)
  | int (a b : Int32) : Alike (.int a) (.int b)
  | int64 (a b : Int64) : Alike (.int64 a) (.int64 b)
  | uint16 (a b : UInt16) : Alike (.uint16 a) (.uint16 b)
  | uint32 (a b : UInt32) : Alike (.uint32 a) (.uint32 b)
  | uint64 (a b : UInt64) : Alike (.uint64 a) (.uint64 b)
  | float (a b : F32) : Alike (.float a) (.float b)
  | double (a b : F64) : Alike (.double a) (.double b)
  | byteName (n : Option String) (a b : String) : StrOK b →
      Alike (.byte n (.namespaced a)) (.byte n (.namespaced b))
  | enum (t : Option String) (a b : String) : StrOK b → Alike (.enum t a) (.enum t b)
  | name (i : UInt32) (a b : String) : StrOK b → Alike (.name i (some a)) (.name i (some b))
  | str (a b : String) : StrOK b → Alike (.str (some a)) (.str (some b))
  | object (a b : String) : StrOK b → Alike (.object a) (.object b)

/-- `Grown m n a b`: the bytes `a` and `b` are the same, except that where a length is stored (in 32 or
in 64 bits) that counts `m` bytes and `k` others in `a`, it counts `n` bytes and the same `k` others in
`b`. -/
inductive Grown (m n : Nat) : Bytes → Bytes → Prop
  | nil : Grown m n [] []
  | same {a b : Bytes} (x : UInt8) : Grown m n a b → Grown m n (x :: a) (x :: b)
  | length {a b : Bytes} (k : Nat) : Grown m n a b →
      Grown m n (u32B (UInt32.ofNat (k + m)) ++ a) (u32B (UInt32.ofNat (k + n)) ++ b)
  | longLength {a b : Bytes} (k : Nat) : Grown m n a b →
      Grown m n (u64B (UInt64.ofNat (k + m)) ++ a) (u64B (UInt64.ofNat (k + n)) ++ b)

end Gvas.Spec
