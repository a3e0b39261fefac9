import Verif.Spec.JsonText
import Verif.Model.JsonDirect

/-! # Specification vocabulary: JSON text that a file is loaded from directly -/

namespace Gvas.Spec

mutual
/-- In no object, at any depth, a name is repeated. -/
def NamesOnce : J → Prop
  | .arr l => ItemsOnce l
  | .obj l => (l.map Prod.fst).Nodup ∧ EntriesOnce l
  | _ => True
/-- In all elements. -/
def ItemsOnce : List J → Prop
  | [] => True
  | j :: l => NamesOnce j ∧ ItemsOnce l
/-- In the values of all entries. -/
def EntriesOnce : List (String × J) → Prop
  | [] => True
  | (_, j) :: l => NamesOnce j ∧ EntriesOnce l
end

/-- A file without the entries that are no fields of it. -/
def fieldsOnly : J → J
  | .obj l => .obj (l.filter fun e =>
      e.1 = "deserialized_game_version" ∨ e.1 = "header" ∨ e.1 = "properties")
  | j => j

namespace Rfc8259

/-! ## Text that has the form of JSON, whatever its numbers and escapes stand for -/

/-- `char`. -/
inductive CharForm : List Char → Prop
  | plain {c} : c ≠ '"' → c ≠ '\\' → 32 ≤ c.toNat → CharForm [c]
  | escape {e c} : (e, c) ∈ escapes → CharForm ['\\', e]
  | unicode {l n} : Hex4 l n → CharForm ('\\' :: 'u' :: l)

/-- Any number of characters. -/
inductive CharsForm : List Char → Prop
  | nil : CharsForm []
  | cons {t u} : CharForm t → CharsForm u → CharsForm (t ++ u)

/-- `string`. -/
def StrForm (t : List Char) : Prop := ∃ l, t = '"' :: l ++ ['"'] ∧ CharsForm l

mutual
/-- `value`. -/
inductive Form : List Char → Prop
  | null : Form "null".toList
  | true : Form "true".toList
  | false : Form "false".toList
  | number {t d} : Number t d → Form t
  | str {t} : StrForm t → Form t
  | emptyArray {w} : Space w → Form ('[' :: w ++ [']'])
  | array {t} : ItemsForm t → Form ('[' :: t ++ [']'])
  | emptyObject {w} : Space w → Form ('{' :: w ++ ['}'])
  | object {t} : MembersForm t → Form ('{' :: t ++ ['}'])
/-- The elements of an array. -/
inductive ItemsForm : List Char → Prop
  | one {w t v} : Space w → Form t → Space v → ItemsForm (w ++ t ++ v)
  | cons {w t v u} : Space w → Form t → Space v → ItemsForm u → ItemsForm (w ++ t ++ v ++ ',' :: u)
/-- The members of an object. -/
inductive MembersForm : List Char → Prop
  | one {w k v x t y} : Space w → StrForm k → Space v → Space x → Form t → Space y →
      MembersForm (w ++ k ++ v ++ ':' :: (x ++ t ++ y))
  | cons {w k v x t y u} : Space w → StrForm k → Space v → Space x → Form t → Space y →
      MembersForm u → MembersForm (w ++ k ++ v ++ ':' :: (x ++ t ++ y ++ ',' :: u))
end

/-! ## Files -/

/-- The value of a member of the outermost object: that of a field is nested at most `d` deep; any
other has the form of JSON. -/
inductive FileEntry (d : Nat) : String → List Char → List (String × J) → Prop
  | field {k t j} : k = "deserialized_game_version" ∨ k = "header" ∨ k = "properties" →
      Value t j → j.depth ≤ d → FileEntry d k t [(k, j)]
  | other {k t} : k ≠ "deserialized_game_version" → k ≠ "header" → k ≠ "properties" → Form t →
      FileEntry d k t []

/-- The members of the outermost object, of which the fields are of interest. -/
inductive FileMembers (d : Nat) : List Char → List (String × J) → Prop
  | one {w k s v x t e y} : Space w → Str k s → Space v → Space x → FileEntry d s t e → Space y →
      FileMembers d (w ++ k ++ v ++ ':' :: (x ++ t ++ y)) e
  | cons {w k s v x t e y u l} : Space w → Str k s → Space v → Space x → FileEntry d s t e →
      Space y → FileMembers d u l →
      FileMembers d (w ++ k ++ v ++ ':' :: (x ++ t ++ y ++ ',' :: u)) (e ++ l)

/-- The outermost value: an array, or an object. -/
inductive FileValue (d : Nat) : List Char → J → Prop
  | emptyArray {w} : Space w → FileValue d ('[' :: w ++ [']']) (.arr [])
  | array {t l} : Items t l → depthList l ≤ d → FileValue d ('[' :: t ++ [']']) (.arr l)
  | emptyObject {w} : Space w → FileValue d ('{' :: w ++ ['}']) (.obj [])
  | object {t l} : FileMembers d t l → FileValue d ('{' :: t ++ ['}']) (.obj l)

/-- The text of a file, in which the fields are nested at most 126 deep. -/
def FileDocument (t : List Char) (j : J) : Prop :=
  ∃ w v u, t = w ++ v ++ u ∧ Space w ∧ FileValue 126 v j ∧ Space u

end Rfc8259

end Gvas.Spec
