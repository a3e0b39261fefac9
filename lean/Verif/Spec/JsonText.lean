import Verif.Model.JsonText
import Verif.Spec.Nearest

/-!
# Specification vocabulary: JSON text (RFC 8259)

Which text stands for which value, rule by rule as in the RFC, and independent of how it is read.
-/

namespace Gvas.Spec.Rfc8259

/-- `ws` (section 2). -/
def Space (l : List Char) : Prop := ∀ c ∈ l, c = ' ' ∨ c = '\t' ∨ c = '\n' ∨ c = '\r'

/-! ## Numbers (section 6) -/

/-- A digit and what it stands for. -/
def Digit (c : Char) (x : Nat) : Prop := "0123456789".toList[x]? = some c

/-- Digits and the number they stand for. -/
inductive Digits : List Char → Nat → Prop
  | one {c x} : Digit c x → Digits [c] x
  | more {l n c x} : Digits l n → Digit c x → Digits (l ++ [c]) (10 * n + x)

/-- `int`: zero, or digits that do not start with a zero. -/
def Int (l : List Char) (n : Nat) : Prop := Digits l n ∧ (l = ['0'] ∨ l.head? ≠ some '0')

/-- `frac`, if there is one: how many digits it has, and what they stand for. -/
inductive Frac : List Char → Nat → Nat → Prop
  | absent : Frac [] 0 0
  | given {l n} : Digits l n → Frac ('.' :: l) l.length n

/-- `exp`, if there is one. -/
inductive Exp : List Char → Option _root_.Int → Prop
  | absent : Exp [] none
  | given {e l n} : e = 'e' ∨ e = 'E' → Digits l n → Exp (e :: l) (some n)
  | plus {e l n} : e = 'e' ∨ e = 'E' → Digits l n → Exp (e :: '+' :: l) (some n)
  | minus {e l n} : e = 'e' ∨ e = 'E' → Digits l n → Exp (e :: '-' :: l) (some (-(n : _root_.Int)))

/-- A number without its sign: with `k` digits behind the point it is
`(10 ^ k * whole + fraction) * 10 ^ (exponent - k)`. -/
inductive Magnitude : List Char → Nat → _root_.Int → Bool → Prop
  | mk {w n f k m x e} : Int w n → Frac f k m → Exp x e →
      Magnitude (w ++ f ++ x) (10 ^ k * n + m) (e.getD 0 - k) (f.isEmpty && x.isEmpty)

/-- `number`. -/
inductive Number : List Char → Decimal → Prop
  | plus {l n e w} : Magnitude l n e w → Number l ⟨false, n, e, w⟩
  | minus {l n e w} : Magnitude l n e w → Number ('-' :: l) ⟨true, n, e, w⟩

/-- A whole number that fits in 64 bits and is written as such; there is no negative zero. -/
def Fits (d : Decimal) (n : _root_.Int) : Prop :=
  d.whole = true ∧ n = (if d.neg then -(d.mantissa : _root_.Int) else d.mantissa) ∧
    ¬ (d.neg = true ∧ d.mantissa = 0) ∧ -2 ^ 63 ≤ n ∧ n < 2 ^ 64

/-- The 64 bit float nearest to a decimal number, of two the even one. -/
def Near64 (d : Decimal) (f : F64) : Prop :=
  sign64 f = (if d.neg then 1 else 0) ∧
    Nearest 52 inf64 (10 ^ (-d.exponent).toNat) (d.mantissa * 10 ^ d.exponent.toNat * 2 ^ 1074)
      (abs64 f)

/-- The 32 bit float nearest to a decimal number, of two the even one. -/
def Near32 (d : Decimal) (f : F32) : Prop :=
  sign32 f = (if d.neg then 1 else 0) ∧
    Nearest 23 inf32 (10 ^ (-d.exponent).toNat) (d.mantissa * 10 ^ d.exponent.toNat * 2 ^ 149)
      (abs32 f)

/-- The value of a number: itself if it is whole and fits, else the nearest float, unless that is
infinity. -/
inductive NumberIs : Decimal → J → Prop
  | int {d n} : Fits d n → NumberIs d (.int n)
  | float {d f} : (¬ ∃ n, Fits d n) → Near64 d f → abs64 f < inf64 → NumberIs d (.float f)

/-! ## Strings (section 7) -/

/-- A hexadecimal digit of either case. -/
def HexDigit (c : Char) (x : Nat) : Prop :=
  "0123456789abcdef".toList[x]? = some c ∨ "0123456789ABCDEF".toList[x]? = some c

/-- Four hexadecimal digits. -/
inductive Hex4 : List Char → Nat → Prop
  | mk {a b c d x y z w} : HexDigit a x → HexDigit b y → HexDigit c z → HexDigit d w →
      Hex4 [a, b, c, d] (x * 16 ^ 3 + y * 16 ^ 2 + z * 16 + w)

/-- The escapes of one letter. -/
def escapes : List (Char × Char) :=
  [('"', '"'), ('\\', '\\'), ('/', '/'), ('b', Char.ofNat 8), ('f', Char.ofNat 12), ('n', '\n'),
    ('r', '\r'), ('t', '\t')]

/-- `char`, and the character it stands for. -/
inductive Character : List Char → Char → Prop
  | plain {c} : c ≠ '"' → c ≠ '\\' → 32 ≤ c.toNat → Character [c] c
  | escape {e c} : (e, c) ∈ escapes → Character ['\\', e] c
  | unicode {l c} : Hex4 l c.toNat → Character ('\\' :: 'u' :: l) c
  | pair {l m hi lo c} : Hex4 l hi → Hex4 m lo → 0xD800 ≤ hi → hi < 0xDC00 → 0xDC00 ≤ lo →
      lo < 0xE000 → c.toNat = 0x10000 + (hi - 0xD800) * 0x400 + (lo - 0xDC00) →
      Character ('\\' :: 'u' :: l ++ '\\' :: 'u' :: m) c

/-- Any number of characters. -/
inductive Characters : List Char → List Char → Prop
  | nil : Characters [] []
  | cons {t c u l} : Character t c → Characters u l → Characters (t ++ u) (c :: l)

/-- `string`. -/
def Str (t : List Char) (s : String) : Prop := ∃ l, t = '"' :: l ++ ['"'] ∧ Characters l s.toList

/-! ## Values (sections 3 to 5) -/

mutual
/-- `value`, with repeated names still in place. -/
inductive Value : List Char → J → Prop
  | null : Value "null".toList .null
  | true : Value "true".toList (.bool true)
  | false : Value "false".toList (.bool false)
  | number {t d j} : Number t d → NumberIs d j → Value t j
  | str {t s} : Str t s → Value t (.str s)
  | emptyArray {w} : Space w → Value ('[' :: w ++ [']']) (.arr [])
  | array {t l} : Items t l → Value ('[' :: t ++ [']']) (.arr l)
  | emptyObject {w} : Space w → Value ('{' :: w ++ ['}']) (.obj [])
  | object {t l} : Members t l → Value ('{' :: t ++ ['}']) (.obj l)
/-- The elements of an array, with commas between them. -/
inductive Items : List Char → List J → Prop
  | one {w t j v} : Space w → Value t j → Space v → Items (w ++ t ++ v) [j]
  | cons {w t j v u l} : Space w → Value t j → Space v → Items u l →
      Items (w ++ t ++ v ++ ',' :: u) (j :: l)
/-- The members of an object, with commas between them. -/
inductive Members : List Char → List (String × J) → Prop
  | one {w k s v x t j y} : Space w → Str k s → Space v → Space x → Value t j → Space y →
      Members (w ++ k ++ v ++ ':' :: (x ++ t ++ y)) [(s, j)]
  | cons {w k s v x t j y u l} : Space w → Str k s → Space v → Space x → Value t j → Space y →
      Members u l → Members (w ++ k ++ v ++ ':' :: (x ++ t ++ y ++ ',' :: u)) ((s, j) :: l)
end

/-- `JSON-text`. -/
def Document (t : List Char) (j : J) : Prop :=
  ∃ w v u, t = w ++ v ++ u ∧ Space w ∧ Value v j ∧ Space u

/-! ## Floats as text -/

/-- Texts of finite floats that are numbers nearest to which the float stands, and that have a
fraction or an exponent. -/
structure FloatsOf (t : FloatText) : Prop where
  f32 : ∀ f : F32, f.isFinite = true → ∃ d, Number (t.f32 f) d ∧ d.whole = false ∧ Near32 d f
  f64 : ∀ f : F64, f.isFinite = true → ∃ d, Number (t.f64 f) d ∧ d.whole = false ∧ Near64 d f

/-- The text of a finite `f32`, read as `f64` and then rounded, is this `f32` again. -/
def Kept (t : FloatText) (f : F32) : Prop :=
  f.isFinite = true → ∀ d e, Number (t.f32 f) d → Near64 d e → e.toF32 = f

mutual
/-- What holds of every `f32` handed to a serializer. -/
def EveryF32 (P : F32 → Prop) : Ser → Prop
  | .f32 f => P f
  | .arr l => EveryF32Items P l
  | .obj l => EveryF32Members P l
  | _ => True
/-- In all elements. -/
def EveryF32Items (P : F32 → Prop) : List Ser → Prop
  | [] => True
  | a :: l => EveryF32 P a ∧ EveryF32Items P l
/-- In all entries. -/
def EveryF32Members (P : F32 → Prop) : List (String × Ser) → Prop
  | [] => True
  | (_, a) :: l => EveryF32 P a ∧ EveryF32Members P l
end

end Gvas.Spec.Rfc8259
