import Verif.Spec.Wf

/-!
# Specification vocabulary: what stands in the way of writing a property

`WidthsFit` is about structs: their components must have the width the versions ask for, and a
bare struct value cannot be written where a header is needed.  `TextsFit` is about the integer
arguments of texts.
-/

namespace Gvas.Spec

mutual
/-- Vectors, rotators and quaternions in a property (written with a header if `h`) have the width
the versions ask for, and there is no bare struct value where a header is needed. -/
def WidthsFit (cv : List (Guid × UInt32)) (h : Bool) : Property → Prop
  | .array v => ArrayWidths cv v
  | .map v => MapWidths cv v
  | .set _ _ ps => ListWidths cv ps
  | .struct _ _ v => StructWidths cv v
  | .structValue v => h = false ∧ StructWidths cv v
  | .bool _ => True
  | .byte _ _ => True
  | .double _ => True
  | .enum _ _ => True
  | .float _ => True
  | .int16 _ => True
  | .int64 _ => True
  | .int8 _ => True
  | .int _ => True
  | .name _ _ => True
  | .object _ => True
  | .delegate _ => True
  | .multicastInlineDelegate _ => True
  | .multicastSparseDelegate _ => True
  | .fieldPath _ => True
  | .str _ => True
  | .text _ => True
  | .uint16 _ => True
  | .uint32 _ => True
  | .uint64 _ => True
  | .unknown _ _ => True
/-- The same for arrays. -/
def ArrayWidths (cv : List (Guid × UInt32)) : ArrayProperty → Prop
  | .structs _ _ _ v => StructsWidths cv v
  | .properties _ ps => ListWidths cv ps
  | .bools _ => True
  | .bytes _ => True
  | .enums _ => True
  | .floats _ => True
  | .ints _ => True
  | .names _ => True
  | .strings _ => True
/-- The same for maps. -/
def MapWidths (cv : List (Guid × UInt32)) : MapProperty → Prop
  | .enumProperty _ v => ValuesWidths cv v
  | .nameProperty _ v => ValuesWidths cv v
  | .strProperty _ v => ValuesWidths cv v
  | .properties _ _ _ m => EntriesWidths cv m
  | .enumBool _ => True
  | .enumInt _ => True
  | .nameBool _ => True
  | .nameInt _ => True
  | .strBool _ => True
  | .strInt _ => True
  | .strStr _ => True
/-- The same for structs. -/
def StructWidths (cv : List (Guid × UInt32)) : StructPropertyValue → Prop
  | .vector2F _ _ => lwc cv = false
  | .vector2D _ _ => lwc cv = true
  | .vectorF _ _ _ => lwc cv = false
  | .vectorD _ _ _ => lwc cv = true
  | .rotatorF _ _ _ => lwc cv = false
  | .rotatorD _ _ _ => lwc cv = true
  | .quatF _ _ _ _ => lwc cv = false
  | .quatD _ _ _ _ => lwc cv = true
  | .dateTime _ => True
  | .timespan _ => True
  | .guid _ => True
  | .linearColor _ _ _ _ => True
  | .intPoint _ _ => True
  | .gameplayTagContainer _ => True
  | .customStruct fs => FieldsWidths cv fs
/-- The same for elements without headers. -/
def ListWidths (cv : List (Guid × UInt32)) : List Property → Prop
  | [] => True
  | p :: l => WidthsFit cv false p ∧ ListWidths cv l
/-- The same for lists of structs. -/
def StructsWidths (cv : List (Guid × UInt32)) : List StructPropertyValue → Prop
  | [] => True
  | v :: l => StructWidths cv v ∧ StructsWidths cv l
/-- The same for the values of string keyed maps. -/
def ValuesWidths (cv : List (Guid × UInt32)) : List (String × Property) → Prop
  | [] => True
  | (_, p) :: l => WidthsFit cv false p ∧ ValuesWidths cv l
/-- The same for map entries. -/
def EntriesWidths (cv : List (Guid × UInt32)) : List (Property × Property) → Prop
  | [] => True
  | (k, p) :: l => WidthsFit cv false k ∧ WidthsFit cv false p ∧ EntriesWidths cv l
/-- The same for the fields of custom structs. -/
def FieldsWidths (cv : List (Guid × UInt32)) : List (String × List Property) → Prop
  | [] => True
  | (_, ps) :: l => HeadedWidths cv ps ∧ FieldsWidths cv l
/-- The same for the values of one field. -/
def HeadedWidths (cv : List (Guid × UInt32)) : List Property → Prop
  | [] => True
  | p :: l => WidthsFit cv true p ∧ HeadedWidths cv l
end

mutual
/-- The integer arguments of all texts in a property have the width the versions ask for. -/
def TextsFit (cv : List (Guid × UInt32)) : Property → Prop
  | .array v => ArrayTexts cv v
  | .map v => MapTexts cv v
  | .set _ _ ps => ListTexts cv ps
  | .struct _ _ v => StructTexts cv v
  | .structValue v => StructTexts cv v
  | .text t => WidthsOK cv t
  | .bool _ => True
  | .byte _ _ => True
  | .double _ => True
  | .enum _ _ => True
  | .float _ => True
  | .int16 _ => True
  | .int64 _ => True
  | .int8 _ => True
  | .int _ => True
  | .name _ _ => True
  | .object _ => True
  | .delegate _ => True
  | .multicastInlineDelegate _ => True
  | .multicastSparseDelegate _ => True
  | .fieldPath _ => True
  | .str _ => True
  | .uint16 _ => True
  | .uint32 _ => True
  | .uint64 _ => True
  | .unknown _ _ => True
/-- The same for arrays. -/
def ArrayTexts (cv : List (Guid × UInt32)) : ArrayProperty → Prop
  | .structs _ _ _ v => StructsTexts cv v
  | .properties _ ps => ListTexts cv ps
  | .bools _ => True
  | .bytes _ => True
  | .enums _ => True
  | .floats _ => True
  | .ints _ => True
  | .names _ => True
  | .strings _ => True
/-- The same for maps. -/
def MapTexts (cv : List (Guid × UInt32)) : MapProperty → Prop
  | .enumProperty _ v => ValuesTexts cv v
  | .nameProperty _ v => ValuesTexts cv v
  | .strProperty _ v => ValuesTexts cv v
  | .properties _ _ _ m => EntriesTexts cv m
  | .enumBool _ => True
  | .enumInt _ => True
  | .nameBool _ => True
  | .nameInt _ => True
  | .strBool _ => True
  | .strInt _ => True
  | .strStr _ => True
/-- The same for structs. -/
def StructTexts (cv : List (Guid × UInt32)) : StructPropertyValue → Prop
  | .customStruct fs => FieldsTexts cv fs
  | .vector2F _ _ => True
  | .vector2D _ _ => True
  | .vectorF _ _ _ => True
  | .vectorD _ _ _ => True
  | .rotatorF _ _ _ => True
  | .rotatorD _ _ _ => True
  | .quatF _ _ _ _ => True
  | .quatD _ _ _ _ => True
  | .dateTime _ => True
  | .timespan _ => True
  | .guid _ => True
  | .linearColor _ _ _ _ => True
  | .intPoint _ _ => True
  | .gameplayTagContainer _ => True
/-- The same for lists. -/
def ListTexts (cv : List (Guid × UInt32)) : List Property → Prop
  | [] => True
  | p :: l => TextsFit cv p ∧ ListTexts cv l
/-- The same for lists of structs. -/
def StructsTexts (cv : List (Guid × UInt32)) : List StructPropertyValue → Prop
  | [] => True
  | v :: l => StructTexts cv v ∧ StructsTexts cv l
/-- The same for the values of string keyed maps. -/
def ValuesTexts (cv : List (Guid × UInt32)) : List (String × Property) → Prop
  | [] => True
  | (_, p) :: l => TextsFit cv p ∧ ValuesTexts cv l
/-- The same for map entries. -/
def EntriesTexts (cv : List (Guid × UInt32)) : List (Property × Property) → Prop
  | [] => True
  | (k, p) :: l => TextsFit cv k ∧ TextsFit cv p ∧ EntriesTexts cv l
/-- The same for the fields of custom structs. -/
def FieldsTexts (cv : List (Guid × UInt32)) : List (String × List Property) → Prop
  | [] => True
  | (_, ps) :: l => ListTexts cv ps ∧ FieldsTexts cv l
end

end Gvas.Spec
