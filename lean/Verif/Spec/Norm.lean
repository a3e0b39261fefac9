import Verif.Model.Types

/-!
# Specification vocabulary: values up to the sign of zero and the payload of NaNs
-/

namespace Gvas.Spec

/-- A 32 bit NaN: exponent bits all ones, fraction not zero. -/
def IsNaN32 (f : F32) : Prop :=
  f.bits.toNat / 2 ^ 23 % 2 ^ 8 = 255 ∧ f.bits.toNat % 2 ^ 23 ≠ 0

/-- A 64 bit NaN: exponent bits all ones, fraction not zero. -/
def IsNaN64 (f : F64) : Prop :=
  f.bits.toNat / 2 ^ 52 % 2 ^ 11 = 2047 ∧ f.bits.toNat % 2 ^ 52 ≠ 0

instance (f : F32) : Decidable (IsNaN32 f) := by unfold IsNaN32; infer_instance
instance (f : F64) : Decidable (IsNaN64 f) := by unfold IsNaN64; infer_instance

/-- One NaN for all, and positive zero for both zeros. -/
def norm32 (f : F32) : F32 :=
  if IsNaN32 f then ⟨0x7FC00000⟩ else if f.bits = 0x80000000 then ⟨0⟩ else f

/-- One NaN for all, and positive zero for both zeros. -/
def norm64 (f : F64) : F64 :=
  if IsNaN64 f then ⟨0x7FF8000000000000⟩ else if f.bits = 0x8000000000000000 then ⟨0⟩ else f

mutual
/-- The text with all floats normalised. -/
def normText : FText → FText
  | .mk flags h => .mk flags (normHistory h)
/-- The history with all floats normalised. -/
def normHistory : FTextHistory → FTextHistory
  | .namedFormat src args => .namedFormat (normText src) (normNamedArgs args)
  | .orderedFormat src args => .orderedFormat (normText src) (normArgs args)
  | .argumentFormat src args => .argumentFormat (normText src) (normNamedArgs args)
  | .asNumber v o c => .asNumber (normArg v) o c
  | .asPercent v o c => .asPercent (normArg v) o c
  | .asCurrency a v o c => .asCurrency a (normArg v) o c
  | .transform src tt => .transform (normText src) tt
  | h => h
/-- The argument with all floats normalised. -/
def normArg : FormatArgumentValue → FormatArgumentValue
  | .float v => .float (norm32 v)
  | .double v => .double (norm64 v)
  | .text t => .text (normText t)
  | v => v
/-- Each argument normalised. -/
def normArgs : List FormatArgumentValue → List FormatArgumentValue
  | [] => []
  | v :: l => normArg v :: normArgs l
/-- Each argument normalised. -/
def normNamedArgs : List (String × FormatArgumentValue) → List (String × FormatArgumentValue)
  | [] => []
  | (k, v) :: l => (k, normArg v) :: normNamedArgs l
end

mutual
/-- The property with all floats in it normalised, at any depth. -/
def norm : Property → Property
  | .array v => .array (normArray v)
  | .double v => .double (norm64 v)
  | .float v => .float (norm32 v)
  | .map v => .map (normMap v)
  | .set t fl ps => .set t fl (normProps ps)
  | .struct g t v => .struct g t (normStruct v)
  | .structValue v => .structValue (normStruct v)
  | .text v => .text (normText v)
  | p => p
/-- The array with all floats normalised. -/
def normArray : ArrayProperty → ArrayProperty
  | .floats v => .floats (v.map norm32)
  | .structs f t g v => .structs f t g (normStructs v)
  | .properties t v => .properties t (normProps v)
  | a => a
/-- The map with all floats normalised. -/
def normMap : MapProperty → MapProperty
  | .enumProperty t v => .enumProperty t (normStrProps v)
  | .nameProperty t v => .nameProperty t (normStrProps v)
  | .properties kt vt fl v => .properties kt vt fl (normPairs v)
  | .strProperty t v => .strProperty t (normStrProps v)
  | m => m
/-- The struct value with all floats normalised. -/
def normStruct : StructPropertyValue → StructPropertyValue
  | .vector2F x y => .vector2F (norm32 x) (norm32 y)
  | .vector2D x y => .vector2D (norm64 x) (norm64 y)
  | .vectorF x y z => .vectorF (norm32 x) (norm32 y) (norm32 z)
  | .vectorD x y z => .vectorD (norm64 x) (norm64 y) (norm64 z)
  | .rotatorF x y z => .rotatorF (norm32 x) (norm32 y) (norm32 z)
  | .rotatorD x y z => .rotatorD (norm64 x) (norm64 y) (norm64 z)
  | .quatF x y z w => .quatF (norm32 x) (norm32 y) (norm32 z) (norm32 w)
  | .quatD x y z w => .quatD (norm64 x) (norm64 y) (norm64 z) (norm64 w)
  | .linearColor r g b a => .linearColor (norm32 r) (norm32 g) (norm32 b) (norm32 a)
  | .customStruct fs => .customStruct (normFields fs)
  | v => v
/-- Each property normalised. -/
def normProps : List Property → List Property
  | [] => []
  | p :: l => norm p :: normProps l
/-- Each struct value normalised. -/
def normStructs : List StructPropertyValue → List StructPropertyValue
  | [] => []
  | p :: l => normStruct p :: normStructs l
/-- Each value normalised. -/
def normStrProps : List (String × Property) → List (String × Property)
  | [] => []
  | (k, p) :: l => (k, norm p) :: normStrProps l
/-- Each key and value normalised. -/
def normPairs : List (Property × Property) → List (Property × Property)
  | [] => []
  | (k, p) :: l => (norm k, norm p) :: normPairs l
/-- Each field value normalised. -/
def normFields : List (String × List Property) → List (String × List Property)
  | [] => []
  | (k, ps) :: l => (k, normProps ps) :: normFields l
end

end Gvas.Spec
