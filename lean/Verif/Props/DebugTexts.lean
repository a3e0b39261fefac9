import Verif.Lemmas.JsonWrite
import Verif.Props.Debug

/-!
# C82: the texts of values, letter by letter
-/

namespace Gvas

namespace Spec

/-- The text is the number in decimal, without leading zeros. -/
def Numeral (t : List Char) (v : Int) : Prop :=
  if v < 0 then ∃ d, t = '-' :: d ∧ Rfc8259.Int d v.natAbs else Rfc8259.Int t v.natAbs

end Spec

open Spec

theorem decInt_numeral (v : Int) : ∃ t, Numeral t v ∧ decInt v = String.ofList t := by
  refine ⟨(decInt v).toList, ?_, String.ofList_toList.symm⟩
  rw [decInt_toList]
  unfold Numeral
  split
  · exact ⟨_, rfl, Text.toDigits_digits _⟩
  · exact Text.toDigits_digits _

/-- **C82**: the text of an integer property is the number in decimal and the name of its Rust type,
that of a boolean one is the word. -/
theorem C82_number_texts :
    (∀ v : Int8, ∃ t, Numeral t v.toInt ∧
      (Property.int8 v).debugNumber = some (String.ofList t ++ "i8")) ∧
    (∀ v : Int16, ∃ t, Numeral t v.toInt ∧
      (Property.int16 v).debugNumber = some (String.ofList t ++ "i16")) ∧
    (∀ v : Int32, ∃ t, Numeral t v.toInt ∧
      (Property.int v).debugNumber = some (String.ofList t ++ "i32")) ∧
    (∀ v : Int64, ∃ t, Numeral t v.toInt ∧
      (Property.int64 v).debugNumber = some (String.ofList t ++ "i64")) ∧
    (∀ v : UInt16, ∃ t, Numeral t v.toNat ∧
      (Property.uint16 v).debugNumber = some (String.ofList t ++ "u16")) ∧
    (∀ v : UInt32, ∃ t, Numeral t v.toNat ∧
      (Property.uint32 v).debugNumber = some (String.ofList t ++ "u32")) ∧
    (∀ v : UInt64, ∃ t, Numeral t v.toNat ∧
      (Property.uint64 v).debugNumber = some (String.ofList t ++ "u64")) ∧
    (Property.bool true).debugNumber = some "true" ∧
    (Property.bool false).debugNumber = some "false" := by
  refine ⟨fun v => ?_, fun v => ?_, fun v => ?_, fun v => ?_, fun v => ?_, fun v => ?_, fun v => ?_,
    rfl, rfl⟩
  · obtain ⟨t, h, e⟩ := decInt_numeral v.toInt
    exact ⟨t, h, by rw [Property.debugNumber, e]⟩
  · obtain ⟨t, h, e⟩ := decInt_numeral v.toInt
    exact ⟨t, h, by rw [Property.debugNumber, e]⟩
  · obtain ⟨t, h, e⟩ := decInt_numeral v.toInt
    exact ⟨t, h, by rw [Property.debugNumber, e]⟩
  · obtain ⟨t, h, e⟩ := decInt_numeral v.toInt
    exact ⟨t, h, by rw [Property.debugNumber, e]⟩
  · obtain ⟨t, h, e⟩ := decInt_numeral v.toNat
    exact ⟨t, h, by rw [Property.debugNumber, e]⟩
  · obtain ⟨t, h, e⟩ := decInt_numeral v.toNat
    exact ⟨t, h, by rw [Property.debugNumber, e]⟩
  · obtain ⟨t, h, e⟩ := decInt_numeral v.toNat
    exact ⟨t, h, by rw [Property.debugNumber, e]⟩

/-- **C82**: the debug text of a GUID is a text that parses to it, between `Guid(` and `)`. -/
theorem C82_guid_text (g : Guid) : ∃ t, g.debug = "Guid(" ++ String.ofList t ++ ")" ∧
    Guid.parse t = .ok (some g) :=
  ⟨g.display, rfl, C10_guid_display_roundtrip g⟩

/-- **C82**: structs are shown with the names of their components in order, each with its text and
a space after it. -/
theorem C82_struct_texts (f32 : F32 → String) (f64 : F64 → String) :
    (∀ x y, (StructPropertyValue.vector2F x y).display f32 f64 =
      some ("x: " ++ f32 x ++ " y: " ++ f32 y ++ " ")) ∧
    (∀ x y, (StructPropertyValue.vector2D x y).display f32 f64 =
      some ("x: " ++ f64 x ++ " y: " ++ f64 y ++ " ")) ∧
    (∀ x y z, (StructPropertyValue.vectorF x y z).display f32 f64 =
      some ("x: " ++ f32 x ++ " y: " ++ f32 y ++ " z: " ++ f32 z ++ " ")) ∧
    (∀ x y z, (StructPropertyValue.vectorD x y z).display f32 f64 =
      some ("x: " ++ f64 x ++ " y: " ++ f64 y ++ " z: " ++ f64 z ++ " ")) ∧
    (∀ p y r, (StructPropertyValue.rotatorF p y r).display f32 f64 =
      some ("pitch: " ++ f32 p ++ " yaw: " ++ f32 y ++ " roll: " ++ f32 r ++ " ")) ∧
    (∀ p y r, (StructPropertyValue.rotatorD p y r).display f32 f64 =
      some ("pitch: " ++ f64 p ++ " yaw: " ++ f64 y ++ " roll: " ++ f64 r ++ " ")) ∧
    (∀ x y z w, (StructPropertyValue.quatF x y z w).display f32 f64 =
      some ("x: " ++ f32 x ++ " y: " ++ f32 y ++ " z: " ++ f32 z ++ " w: " ++ f32 w ++ " ")) ∧
    (∀ x y z w, (StructPropertyValue.quatD x y z w).display f32 f64 =
      some ("x: " ++ f64 x ++ " y: " ++ f64 y ++ " z: " ++ f64 z ++ " w: " ++ f64 w ++ " ")) ∧
    (∀ r g b a, (StructPropertyValue.linearColor r g b a).display f32 f64 =
      some ("r: " ++ f32 r ++ " g: " ++ f32 g ++ " b: " ++ f32 b ++ " a: " ++ f32 a ++ " ")) ∧
    (∀ x y, ∃ s t, Numeral s x.toInt ∧ Numeral t y.toInt ∧
      (StructPropertyValue.intPoint x y).display f32 f64 =
        some ("x: " ++ String.ofList s ++ " y: " ++ String.ofList t ++ " ")) ∧
    (∀ v, ∃ t, Numeral t v.toNat ∧ (StructPropertyValue.dateTime v).display f32 f64 =
      some ("ticks: " ++ String.ofList t ++ " ")) ∧
    (∀ v, ∃ t, Numeral t v.toNat ∧ (StructPropertyValue.timespan v).display f32 f64 =
      some ("ticks: " ++ String.ofList t ++ " ")) := by
  have text : ∀ {s t : String}, s.toList = t.toList → some s = some t := fun h =>
    congrArg some (String.toList_inj.mp h)
  refine ⟨fun _ _ => text ?_, fun _ _ => text ?_, fun _ _ _ => text ?_, fun _ _ _ => text ?_,
    fun _ _ _ => text ?_, fun _ _ _ => text ?_, fun _ _ _ _ => text ?_, fun _ _ _ _ => text ?_,
    fun _ _ _ _ => text ?_, fun x y => ?_, fun v => ?_, fun v => ?_⟩
  rotate_right 3
  · obtain ⟨s, h, e⟩ := decInt_numeral x.toInt
    obtain ⟨t, h', e'⟩ := decInt_numeral y.toInt
    refine ⟨s, t, h, h', text ?_⟩
    rw [e, e']
    simp [displayFields]
  · obtain ⟨t, h, e⟩ := decInt_numeral v.toNat
    refine ⟨t, h, text ?_⟩
    rw [e]
    simp [displayFields]
  · obtain ⟨t, h, e⟩ := decInt_numeral v.toNat
    refine ⟨t, h, text ?_⟩
    rw [e]
    simp [displayFields]
  all_goals simp [displayFields]

/-- Such texts. -/
example : (Property.int64 (-120)).debugNumber = some "-120i64" ∧ Numeral "-120".toList (-120) := by
  refine ⟨by decide +kernel, ?_⟩
  obtain ⟨t, h, e⟩ := decInt_numeral (-120)
  rw [show "-120".toList = t by
    rw [← String.toList_ofList (l := t), ← e]
    decide +kernel]
  exact h

end Gvas
