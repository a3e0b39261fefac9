import Verif.Spec.Nested

/-! # Specification vocabulary: which sizes are checked, and what is reported -/

namespace Gvas.Spec

/-- A type of elements that are read without regard to the size of the collection: every known one
but the byte property. -/
def PlainElements (ty : String) : Prop := ty ∈ knownTypes ∧ ty ≠ "ByteProperty"

/-- The size in the header of the property is compared with something.  This excludes byte
properties and properties of unknown types, whose size is believed, and collections of them, whose
size says how large the elements are. -/
def Gauged : Property → Prop
  | .byte .. => False
  | .unknown .. => False
  | .structValue _ => False
  | .array (.bytes _) => False
  | .array (.properties ty _) => PlainElements ty
  | .set ty _ _ => PlainElements ty
  | _ => True

/-- Numbers and bools: their size is compared with their width right away. -/
def Fixed : Property → Prop
  | .int8 _ | .int16 _ | .uint16 _ | .int _ | .uint32 _ | .int64 _ | .uint64 _ | .float _
  | .double _ | .bool _ => True
  | _ => False

/-- What is reported when the header of `q` has the size `len'` and not `len`: the two sizes and
where the size was read to (`sizeEnd`) or where the contents begin (`start`).  Built with overflow
checks, the library fails otherwise for sets with elements and a size below 8. -/
inductive WrongSize (debug : Bool) (q : Property) (len len' : UInt32) (sizeEnd start : Nat) :
    Fail → Prop
  | fixed : Fixed q →
      WrongSize debug q len len' sizeEnd start (.err (.invalidValueSize len.toNat len'.toNat sizeEnd))
  | trap {ty : String} {fl : UInt32} {p : Property} {ps : List Property} : q = .set ty fl (p :: ps) →
      debug = true → len'.toNat < 8 →
      WrongSize debug q len len' sizeEnd start (.panic "attempt to subtract with overflow")
  | sized : ¬ Fixed q →
      (∀ ty fl p ps, q = .set ty fl (p :: ps) → debug = true → 8 ≤ len'.toNat) →
      WrongSize debug q len len' sizeEnd start (.err (.invalidValueSize len'.toNat len.toNat start))

/-- The types whose header has an array index that must be zero, and an error for it. -/
def indexedTypes : List String :=
  ["EnumProperty", "StrProperty", "TextProperty", "ObjectProperty", "DelegateProperty",
   "MulticastInlineDelegateProperty", "MulticastSparseDelegateProperty", "FieldPathProperty",
   "StructProperty", "ArrayProperty", "SetProperty", "MapProperty"]

/-- The width of numbers and bools as their header has it. -/
def fixedWidths : List (String × Nat) :=
  [("Int8Property", 1), ("Int16Property", 2), ("UInt16Property", 2), ("IntProperty", 4),
   ("UInt32Property", 4), ("Int64Property", 8), ("UInt64Property", 8), ("FloatProperty", 4),
   ("DoubleProperty", 8), ("BoolProperty", 0)]

end Gvas.Spec
