import Verif.Model.Access
import Verif.Lemmas.AcceptRec
import Verif.Spec.Sample

/-!
# C73: the accessors fit what is read
-/

namespace Gvas

namespace Spec

/-- The accessors of a property and the type each is named for. -/
def accessors : List (String × (Property → Bool)) :=
  [("ArrayProperty", fun p => p.getArray.isSome),
   ("EnumProperty", fun p => p.getEnum.isSome),
   ("BoolProperty", fun p => p.getBool.isSome),
   ("ByteProperty", fun p => p.getByte.isSome),
   ("DoubleProperty", fun p => p.getF64.isSome),
   ("FloatProperty", fun p => p.getF32.isSome),
   ("Int16Property", fun p => p.getI16.isSome),
   ("Int64Property", fun p => p.getI64.isSome),
   ("Int8Property", fun p => p.getI8.isSome),
   ("IntProperty", fun p => p.getInt.isSome),
   ("UInt16Property", fun p => p.getU16.isSome),
   ("UInt32Property", fun p => p.getU32.isSome),
   ("UInt64Property", fun p => p.getU64.isSome),
   ("MapProperty", fun p => p.getMap.isSome),
   ("NameProperty", fun p => p.getName.isSome),
   ("ObjectProperty", fun p => p.getObjectRef.isSome),
   ("DelegateProperty", fun p => p.getDelegate.isSome),
   ("MulticastInlineDelegateProperty", fun p => p.getMulticastInlineDelegate.isSome),
   ("MulticastSparseDelegateProperty", fun p => p.getMulticastSparseDelegate.isSome),
   ("FieldPathProperty", fun p => p.getFieldPath.isSome),
   ("SetProperty", fun p => p.getSet.isSome),
   ("StrProperty", fun p => p.getStr.isSome),
   ("StructProperty", fun p => p.getStruct.isSome),
   ("TextProperty", fun p => p.getText.isSome),
   ("UnknownProperty", fun p => p.getUnknown.isSome)]

/-- The accessors of a struct value and the variant each is named for. -/
def structAccessors : List (String × (StructPropertyValue → Bool)) :=
  [("VectorF", fun v => v.getVectorF.isSome),
   ("VectorD", fun v => v.getVectorD.isSome),
   ("RotatorF", fun v => v.getRotatorF.isSome),
   ("RotatorD", fun v => v.getRotatorD.isSome),
   ("QuatF", fun v => v.getQuatF.isSome),
   ("QuatD", fun v => v.getQuatD.isSome),
   ("DateTime", fun v => v.getDateTime.isSome),
   ("IntPoint", fun v => v.getIntPoint.isSome),
   ("Guid", fun v => v.getGuid.isSome),
   ("CustomStruct", fun v => v.getCustomStruct.isSome)]

/-- The types of the accessors that get something from this property. -/
def gotFrom (p : Property) : List String := (accessors.filter fun a => a.2 p).map Prod.fst

/-- The variants of the accessors that get something from this struct value. -/
def gotFromStruct (v : StructPropertyValue) : List String :=
  (structAccessors.filter fun a => a.2 v).map Prod.fst

/-- `getMut` gives a reference to exactly what `get` shows: there when `get` has something, seeing
the same value, storing it back changes nothing, and what is stored is what `get` shows next, in
place of whatever was stored before. -/
def Lens {α β : Type} (get : α → Option β) (getMut : α → Option (β × (β → α))) : Prop :=
  (∀ a, (getMut a).map Prod.fst = get a) ∧
  (∀ a b put, getMut a = some (b, put) → put b = a) ∧
  (∀ a b put, getMut a = some (b, put) → ∀ c, get (put c) = some c ∧ getMut (put c) = some (c, put))

end Spec

open Spec

/-- **C73**: what is read with a header under a type name is got by the accessor named for that
type and by no other; what is read under a name that is no type is got by `get_unknown`. -/
theorem C73_read_with_header (env : Env) (n : Nat) (ty : String) (hty : StrOK ty) (s s' : RS)
    (p : Property) (h : Property.read env n ty true none s = (.ok p, s')) :
    gotFrom p = [if ty ∈ knownTypes then ty else "UnknownProperty"] := by
  obtain ⟨rest, pos, st⟩ := s
  obtain ⟨_, k, _, hk, rfl, _⟩ := (accept_property (env := env) n).head st ty hty _ _ _ _ h
  cases p with
  | structValue v => simp only [HeadOK] at hk
  | unknown name raw =>
    simp only [HeadOK] at hk
    show _ = [if name ∈ knownTypes then name else "UnknownProperty"]
    rw [if_neg hk.2]
    rfl
  | _ => rfl

/-- **C73**: the same without header, except that a struct read this way is got by no accessor. -/
theorem C73_read_bare (env : Env) (n : Nat) (ty : String) (sug : Option UInt32) (s s' : RS)
    (p : Property) (h : Property.read env n ty false sug s = (.ok p, s')) :
    gotFrom p = if ty = "StructProperty" then [] else
      [if ty ∈ knownTypes then ty else "UnknownProperty"] := by
  obtain ⟨rest, pos, st⟩ := s
  obtain ⟨_, k, _, hk, _⟩ := (accept_property (env := env) n).bare st ty sug _ _ _ _ h
  cases p with
  | structValue v =>
    simp only [BareOK] at hk
    rw [if_pos hk.1]
    rfl
  | unknown name raw =>
    simp only [BareOK] at hk
    obtain ⟨rfl, hk⟩ := hk
    have : ty ≠ "StructProperty" := by rintro rfl; exact hk (by decide)
    rw [if_neg this, if_neg hk]
    rfl
  | array _ | map _ | set _ _ _ | struct _ _ _ => simp only [BareOK] at hk
  | _ =>
    simp only [BareOK] at hk
    first
      | (subst hk; rfl)
      | (obtain ⟨rfl, _⟩ := hk; rfl)

-- an integer with header, an unknown one, and a vector in a set
example : (Property.read ⟨true, noHints, []⟩ 5 "IntProperty" true none
    ⟨[4, 0, 0, 0, 0, 0, 0, 0, 0, 7, 0, 0, 0], 0, []⟩).1 = .ok (.int 7) ∧
    gotFrom (.int 7) = ["IntProperty"] :=
  ⟨by rfl, by rfl⟩

example : (Property.read ⟨true, noHints, []⟩ 5 "OddProperty" true none
    ⟨[1, 0, 0, 0, 0, 0, 0, 0, 0, 7], 0, []⟩).1 = .ok (.unknown "OddProperty" [7]) ∧
    gotFrom (.unknown "OddProperty" [7]) = ["UnknownProperty"] :=
  ⟨by rfl, by rfl⟩

example : (Property.read ⟨true, (fun _ => some "Guid"), []⟩ 5 "StructProperty" false none
    ⟨List.replicate 16 0, 0, []⟩).1 = .ok (.structValue (.guid ⟨List.replicate 16 0, rfl⟩)) ∧
    gotFrom (.structValue (.guid ⟨List.replicate 16 0, rfl⟩)) = [] :=
  ⟨by rfl, by rfl⟩

/-- **C73**: whatever the property, exactly one accessor gets something, unless it is a struct
value without header, from which none does. -/
theorem C73_exactly_one (p : Property) :
    ((∃ v, p = .structValue v) ∧ gotFrom p = []) ∨
    ((∀ v, p ≠ .structValue v) ∧ ∃ t, gotFrom p = [t]) := by
  cases p <;> first
    | exact .inl ⟨⟨_, rfl⟩, rfl⟩
    | exact .inr ⟨(fun _ h => by cases h), _, rfl⟩

/-- **C73**: five kinds of struct values have no accessor, each of the others exactly one. -/
theorem C73_struct_values (v : StructPropertyValue) :
    (gotFromStruct v = [] ∧ ((∃ x y, v = .vector2F x y) ∨ (∃ x y, v = .vector2D x y) ∨
      (∃ t, v = .timespan t) ∨ (∃ r g b a, v = .linearColor r g b a) ∨
      (∃ tags, v = .gameplayTagContainer tags))) ∨
    ((∃ t, gotFromStruct v = [t]) ∧ ¬ ((∃ x y, v = .vector2F x y) ∨ (∃ x y, v = .vector2D x y) ∨
      (∃ t, v = .timespan t) ∨ (∃ r g b a, v = .linearColor r g b a) ∨
      (∃ tags, v = .gameplayTagContainer tags))) := by
  cases v <;> first
    | exact .inl ⟨rfl, by simp⟩
    | exact .inr ⟨⟨_, rfl⟩, by simp⟩

/-- **C73**: every mutable accessor of properties refers to exactly what the accessor shows. -/
theorem C73_lenses :
    Lens Property.getArray Property.getArrayMut ∧
    Lens Property.getEnum Property.getEnumMut ∧
    Lens Property.getBool Property.getBoolMut ∧
    Lens Property.getByte Property.getByteMut ∧
    Lens Property.getF64 Property.getF64Mut ∧
    Lens Property.getF32 Property.getF32Mut ∧
    Lens Property.getI16 Property.getI16Mut ∧
    Lens Property.getI64 Property.getI64Mut ∧
    Lens Property.getI8 Property.getI8Mut ∧
    Lens Property.getInt Property.getIntMut ∧
    Lens Property.getU16 Property.getU16Mut ∧
    Lens Property.getU32 Property.getU32Mut ∧
    Lens Property.getU64 Property.getU64Mut ∧
    Lens Property.getMap Property.getMapMut ∧
    Lens Property.getName Property.getNameMut ∧
    Lens Property.getObjectRef Property.getObjectRefMut ∧
    Lens Property.getDelegate Property.getDelegateMut ∧
    Lens Property.getMulticastInlineDelegate Property.getMulticastInlineDelegateMut ∧
    Lens Property.getMulticastSparseDelegate Property.getMulticastSparseDelegateMut ∧
    Lens Property.getFieldPath Property.getFieldPathMut ∧
    Lens Property.getSet Property.getSetMut ∧
    Lens Property.getStr Property.getStrMut ∧
    Lens Property.getStruct Property.getStructMut ∧
    Lens Property.getText Property.getTextMut ∧
    Lens Property.getUnknown Property.getUnknownMut := by
  refine ⟨?_, ?_, ?_, ?_, ?_, ?_, ?_, ?_, ?_, ?_, ?_, ?_, ?_, ?_, ?_, ?_, ?_, ?_, ?_, ?_, ?_, ?_, ?_,
    ?_, ?_⟩ <;>
  refine ⟨fun a => by cases a <;> rfl, fun a b put h => ?_, fun a b put h => ?_⟩ <;> cases a <;>
  first
    | (cases h; rfl)
    | (cases h; exact fun c => ⟨rfl, rfl⟩)
    | cases h

/-- **C73**: the same for struct values. -/
theorem C73_struct_lenses :
    Lens StructPropertyValue.getVectorF StructPropertyValue.getVectorFMut ∧
    Lens StructPropertyValue.getVectorD StructPropertyValue.getVectorDMut ∧
    Lens StructPropertyValue.getRotatorF StructPropertyValue.getRotatorFMut ∧
    Lens StructPropertyValue.getRotatorD StructPropertyValue.getRotatorDMut ∧
    Lens StructPropertyValue.getQuatF StructPropertyValue.getQuatFMut ∧
    Lens StructPropertyValue.getQuatD StructPropertyValue.getQuatDMut ∧
    Lens StructPropertyValue.getDateTime StructPropertyValue.getDateTimeMut ∧
    Lens StructPropertyValue.getIntPoint StructPropertyValue.getIntPointMut ∧
    Lens StructPropertyValue.getGuid StructPropertyValue.getGuidMut ∧
    Lens StructPropertyValue.getCustomStruct StructPropertyValue.getCustomStructMut := by
  refine ⟨?_, ?_, ?_, ?_, ?_, ?_, ?_, ?_, ?_, ?_⟩ <;>
  refine ⟨fun a => by cases a <;> rfl, fun a b put h => ?_, fun a b put h => ?_⟩ <;> cases a <;>
  first
    | (cases h; rfl)
    | (cases h; exact fun c => ⟨rfl, rfl⟩)
    | cases h

end Gvas
