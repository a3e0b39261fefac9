import Verif.Spec.Norm
import Verif.Model.DebugTree

/-!
# Specification vocabulary: values up to the payload of NaNs, and texts that tell floats
-/

namespace Gvas.Spec

/-- One NaN for all. -/
def calm32 (f : F32) : F32 := if IsNaN32 f then ⟨0x7FC00000⟩ else f

/-- One NaN for all. -/
def calm64 (f : F64) : F64 := if IsNaN64 f then ⟨0x7FF8000000000000⟩ else f

mutual
/-- The text with one NaN for all. -/
def calmText : FText → FText
  | .mk flags h => .mk flags (calmHistory h)
/-- The history with one NaN for all. -/
def calmHistory : FTextHistory → FTextHistory
  | .namedFormat src args => .namedFormat (calmText src) (calmNamedArgs args)
  | .orderedFormat src args => .orderedFormat (calmText src) (calmArgs args)
  | .argumentFormat src args => .argumentFormat (calmText src) (calmNamedArgs args)
  | .asNumber v o c => .asNumber (calmArg v) o c
  | .asPercent v o c => .asPercent (calmArg v) o c
  | .asCurrency a v o c => .asCurrency a (calmArg v) o c
  | .transform src tt => .transform (calmText src) tt
  | h => h
/-- The argument with one NaN for all. -/
def calmArg : FormatArgumentValue → FormatArgumentValue
  | .float v => .float (calm32 v)
  | .double v => .double (calm64 v)
  | .text t => .text (calmText t)
  | v => v
/-- Each argument with one NaN for all. -/
def calmArgs : List FormatArgumentValue → List FormatArgumentValue
  | [] => []
  | v :: l => calmArg v :: calmArgs l
/-- Each argument with one NaN for all. -/
def calmNamedArgs : List (String × FormatArgumentValue) → List (String × FormatArgumentValue)
  | [] => []
  | (k, v) :: l => (k, calmArg v) :: calmNamedArgs l
end

mutual
/-- The property with one NaN for all, at any depth. -/
def calm : Property → Property
  | .array v => .array (calmArray v)
  | .double v => .double (calm64 v)
  | .float v => .float (calm32 v)
  | .map v => .map (calmMap v)
  | .set t fl ps => .set t fl (calmProps ps)
  | .struct g t v => .struct g t (calmStruct v)
  | .structValue v => .structValue (calmStruct v)
  | .text v => .text (calmText v)
  | p => p
/-- The array with one NaN for all. -/
def calmArray : ArrayProperty → ArrayProperty
  | .floats v => .floats (v.map calm32)
  | .structs f t g v => .structs f t g (calmStructs v)
  | .properties t v => .properties t (calmProps v)
  | a => a
/-- The map with one NaN for all. -/
def calmMap : MapProperty → MapProperty
  | .enumProperty t v => .enumProperty t (calmStrProps v)
  | .nameProperty t v => .nameProperty t (calmStrProps v)
  | .properties kt vt fl v => .properties kt vt fl (calmPairs v)
  | .strProperty t v => .strProperty t (calmStrProps v)
  | m => m
/-- The struct value with one NaN for all. -/
def calmStruct : StructPropertyValue → StructPropertyValue
  | .vector2F x y => .vector2F (calm32 x) (calm32 y)
  | .vector2D x y => .vector2D (calm64 x) (calm64 y)
  | .vectorF x y z => .vectorF (calm32 x) (calm32 y) (calm32 z)
  | .vectorD x y z => .vectorD (calm64 x) (calm64 y) (calm64 z)
  | .rotatorF x y z => .rotatorF (calm32 x) (calm32 y) (calm32 z)
  | .rotatorD x y z => .rotatorD (calm64 x) (calm64 y) (calm64 z)
  | .quatF x y z w => .quatF (calm32 x) (calm32 y) (calm32 z) (calm32 w)
  | .quatD x y z w => .quatD (calm64 x) (calm64 y) (calm64 z) (calm64 w)
  | .linearColor r g b a => .linearColor (calm32 r) (calm32 g) (calm32 b) (calm32 a)
  | .customStruct fs => .customStruct (calmFields fs)
  | v => v
/-- Each property with one NaN for all. -/
def calmProps : List Property → List Property
  | [] => []
  | p :: l => calm p :: calmProps l
/-- Each struct value with one NaN for all. -/
def calmStructs : List StructPropertyValue → List StructPropertyValue
  | [] => []
  | p :: l => calmStruct p :: calmStructs l
/-- Each value with one NaN for all. -/
def calmStrProps : List (String × Property) → List (String × Property)
  | [] => []
  | (k, p) :: l => (k, calm p) :: calmStrProps l
/-- Each key and value with one NaN for all. -/
def calmPairs : List (Property × Property) → List (Property × Property)
  | [] => []
  | (k, p) :: l => (calm k, calm p) :: calmPairs l
/-- Each field value with one NaN for all. -/
def calmFields : List (String × List Property) → List (String × List Property)
  | [] => []
  | (k, ps) :: l => (k, calmProps ps) :: calmFields l
end

/-- The file with one NaN for all. -/
def calmFile (f : GvasFile) : GvasFile := { f with properties := calmStrProps f.properties }

/-- Characters that have a meaning between values. -/
def isMark (c : Char) : Bool := [' ', ',', ':', '(', ')', '[', ']', '{', '}', '"', '\n'].contains c

/-- Text without such characters. -/
def Plain (s : List Char) : Prop := s ≠ [] ∧ ∀ c ∈ s, isMark c = false

/-- What is taken for granted about the texts of floats: they have no such characters in them (core
prints digits, signs, points, `e`, `inf` and `NaN`) and are the same for NaNs only (core prints as
many digits as it takes to tell a float from others). -/
structure TellFloats (t : Fmt) : Prop where
  plain_debug32 : ∀ f, Plain (t.debug32 f)
  plain_debug64 : ∀ f, Plain (t.debug64 f)
  plain_display32 : ∀ f, Plain (t.display32 f)
  plain_display64 : ∀ f, Plain (t.display64 f)
  debug32 : ∀ f g, t.debug32 f = t.debug32 g ↔ calm32 f = calm32 g
  debug64 : ∀ f g, t.debug64 f = t.debug64 g ↔ calm64 f = calm64 g
  display32 : ∀ f g, t.display32 f = t.display32 g ↔ calm32 f = calm32 g
  display64 : ∀ f g, t.display64 f = t.display64 g ↔ calm64 f = calm64 g

end Gvas.Spec
