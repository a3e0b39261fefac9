import Verif.Spec.Damage
import Verif.Spec.Grammar

/-! # Specification vocabulary: what a header says before the zero that ends it -/

namespace Gvas.Spec

open Format

/-- The types whose header names nothing. -/
def plainTypes : List String :=
  ["StrProperty", "TextProperty", "ObjectProperty", "DelegateProperty",
   "MulticastInlineDelegateProperty", "MulticastSparseDelegateProperty", "FieldPathProperty"]

/-- The header of a property without the byte at its end, for the types that report it when that
byte is wrong. -/
inductive Heading : String → Bytes → Prop
  | plain {ty : String} (len : UInt32) : ty ∈ plainTypes → Heading ty (u32B len ++ u32B 0)
  | name (len idx : UInt32) : Heading "NameProperty" (u32B len ++ u32B idx)
  | one {ty t : String} {b : Bytes} (len : UInt32) :
      ty ∈ ["EnumProperty", "ArrayProperty", "SetProperty"] → Str b (some t) →
      Heading ty (u32B len ++ (u32B 0 ++ b))
  | two {t u : String} {b c : Bytes} (len : UInt32) : Str b (some t) → Str c (some u) →
      Heading "MapProperty" (u32B len ++ (u32B 0 ++ (b ++ c)))
  | struct {t : String} {b : Bytes} (len : UInt32) (g : Guid) : Str b (some t) →
      Heading "StructProperty" (u32B len ++ (u32B 0 ++ (b ++ g.bytes)))

/-- The same for the types that stop with a panic. -/
inductive Asserted : String → Bytes → Prop
  | byte {t : String} {b : Bytes} (len : UInt32) : Str b (some t) →
      Asserted "ByteProperty" (u32B len ++ (u32B 0 ++ b))
  | unknown {ty : String} (len : UInt32) : ty ∉ knownTypes → Asserted ty (u32B len ++ u32B 0)
  | number {ty : String} {w : Nat} : (ty, w) ∈ fixedWidths → ty ≠ "BoolProperty" →
      Asserted ty (u64B (UInt64.ofNat w))
  | bool (v : Bool) : Asserted "BoolProperty" (u64B 0 ++ [if v then 1 else 0])

end Gvas.Spec
