import Verif.Model.Utf

/-!
# Specification vocabulary: string lengths

These definitions say what an "encoded length" is without reference to the
readers and writers: an ASCII string needs one unit per character, any other
string one UTF-16 unit per character of the Basic Multilingual Plane and two
for every other character.
-/

namespace Gvas.Spec

/-- UTF-16 units of one character. -/
def charUnits (c : Char) : Nat := if c.toNat < 0x10000 then 1 else 2

/-- Units of a string in the file format, without the terminator. -/
def strUnits (s : String) : Nat :=
  if s.toList.all (fun c => c.toNat < 128) then s.toList.length
  else (s.toList.map charUnits).sum

/-- The string is within the format's length limit (131072 units with the
terminator). -/
def StrOK (s : String) : Prop := strUnits s + 1 ≤ 131072

instance (s : String) : Decidable (StrOK s) := inferInstanceAs (Decidable (_ ≤ _))

/-- An optional string is within the limit. -/
def FStrOK (s : Option String) : Prop := ∀ t, s = some t → StrOK t

instance (s : Option String) : Decidable (FStrOK s) :=
  match s with
  | none => isTrue (by simp [FStrOK])
  | some t => decidable_of_iff (StrOK t) (by simp [FStrOK])

/-- Number of bytes a string occupies in a file. -/
def strBytes (s : String) : Nat :=
  if s.toList.all (fun c => c.toNat < 128) then strUnits s + 5 else 2 * strUnits s + 6

end Gvas.Spec
