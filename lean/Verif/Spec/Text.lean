import Verif.Model.Text
import Verif.Spec.Str

/-!
# Specification vocabulary: texts that can be stored under given custom versions
-/

namespace Gvas.Spec

mutual
/-- All integer arguments in a text have the width the file's versions ask for. -/
def WidthsOK (cv : List (Guid × UInt32)) : FText → Prop
  | .mk _ h => HistoryWidthsOK cv h
/-- The same for histories. -/
def HistoryWidthsOK (cv : List (Guid × UInt32)) : FTextHistory → Prop
  | .namedFormat t args => WidthsOK cv t ∧ NamedWidthsOK cv args
  | .orderedFormat t args => WidthsOK cv t ∧ ArgsWidthsOK cv args
  | .argumentFormat t args => WidthsOK cv t ∧ NamedWidthsOK cv args
  | .asNumber v _ _ => ArgWidthsOK cv v
  | .asPercent v _ _ => ArgWidthsOK cv v
  | .asCurrency _ v _ _ => ArgWidthsOK cv v
  | .transform t _ => WidthsOK cv t
  | .empty => True
  | .none _ => True
  | .base _ _ _ => True
  | .asDate _ _ _ => True
  | .asTime _ _ _ _ => True
  | .asDateTime _ _ _ _ _ => True
  | .stringTableEntry _ _ => True
/-- The same for arguments: 64 bit integers exactly when the versions support them. -/
def ArgWidthsOK (cv : List (Guid × UInt32)) : FormatArgumentValue → Prop
  | .int _ => text64 cv = false
  | .uint _ => text64 cv = false
  | .int64 _ => text64 cv = true
  | .uint64 _ => text64 cv = true
  | .text t => WidthsOK cv t
  | .float _ => True
  | .double _ => True
/-- The same for argument lists. -/
def ArgsWidthsOK (cv : List (Guid × UInt32)) : List FormatArgumentValue → Prop
  | [] => True
  | v :: l => ArgWidthsOK cv v ∧ ArgsWidthsOK cv l
/-- The same for named arguments. -/
def NamedWidthsOK (cv : List (Guid × UInt32)) : List (String × FormatArgumentValue) → Prop
  | [] => True
  | (_, v) :: l => ArgWidthsOK cv v ∧ NamedWidthsOK cv l
end

mutual
/-- A text that the format can represent (integer widths aside): strings within the length
limit, fewer than 2^31 arguments, argument names distinct, and a culture invariant string only
where the versions know about it. -/
def TextShapeOK (cv : List (Guid × UInt32)) : FText → Prop
  | .mk _ h => HistoryShapeOK cv h
/-- The same for histories. -/
def HistoryShapeOK (cv : List (Guid × UInt32)) : FTextHistory → Prop
  | .empty => True
  | .none s => cultureInvariant cv = true ∧ FStrOK s
  | .base a b c => FStrOK a ∧ FStrOK b ∧ FStrOK c
  | .namedFormat t args => TextShapeOK cv t ∧ NamedShapeOK cv args ∧
      (args.map Prod.fst).Nodup ∧ args.length < 2 ^ 31
  | .orderedFormat t args => TextShapeOK cv t ∧ ArgsShapeOK cv args ∧ args.length < 2 ^ 31
  | .argumentFormat t args => TextShapeOK cv t ∧ NamedShapeOK cv args ∧
      (args.map Prod.fst).Nodup ∧ args.length < 2 ^ 31
  | .asNumber v _ c => ArgShapeOK cv v ∧ FStrOK c
  | .asPercent v _ c => ArgShapeOK cv v ∧ FStrOK c
  | .asCurrency code v _ c => FStrOK code ∧ ArgShapeOK cv v ∧ FStrOK c
  | .asDate _ _ c => StrOK c
  | .asTime _ _ z c => StrOK z ∧ StrOK c
  | .asDateTime _ _ _ z c => StrOK z ∧ StrOK c
  | .transform t _ => TextShapeOK cv t
  | .stringTableEntry a b => StrOK a ∧ StrOK b
/-- The same for arguments. -/
def ArgShapeOK (cv : List (Guid × UInt32)) : FormatArgumentValue → Prop
  | .text t => TextShapeOK cv t
  | .int _ => True
  | .uint _ => True
  | .float _ => True
  | .double _ => True
  | .int64 _ => True
  | .uint64 _ => True
/-- The same for argument lists. -/
def ArgsShapeOK (cv : List (Guid × UInt32)) : List FormatArgumentValue → Prop
  | [] => True
  | v :: l => ArgShapeOK cv v ∧ ArgsShapeOK cv l
/-- The same for named arguments. -/
def NamedShapeOK (cv : List (Guid × UInt32)) : List (String × FormatArgumentValue) → Prop
  | [] => True
  | (k, v) :: l => StrOK k ∧ ArgShapeOK cv v ∧ NamedShapeOK cv l
end

/-- A text that can be stored and read back under the custom versions `cv`. -/
def TextOK (cv : List (Guid × UInt32)) (t : FText) : Prop := WidthsOK cv t ∧ TextShapeOK cv t

end Gvas.Spec
