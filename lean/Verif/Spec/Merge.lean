import Verif.Spec.Place
import Verif.Spec.File
import Verif.Spec.Answers

/-!
# Specification vocabulary: lists with elements from elsewhere
-/

namespace Gvas.Spec

/-- `x` stands somewhere, at any depth, in a save that is read (`b`: with a header), and the custom
versions `cv` keep it. -/
def Found (z : Codec) (debug : Bool) (cv : List (Guid × UInt32)) (b : Bool) (x : Property) : Prop :=
  ∃ gv hints start input f e, GvasFile.read z debug gv hints start input = .ok f ∧
    e ∈ f.properties ∧ Differ true b x x true e.2 e.2 ∧ Keeps cv b x

/-- Every field of `gs` is a field of `fs`, or has a name that can be stored, and values with headers
that are found, each with its position as array index. -/
def FieldsFrom (found : Bool → Property → Prop) (fs gs : List (String × List Property)) : Prop :=
  (gs.map Prod.fst).Nodup ∧ ∀ e ∈ gs, e ∈ fs ∨ (StrOK e.1 ∧ e.1 ≠ "None" ∧ e.2 ≠ [] ∧
    ∀ i x, e.2[i]? = some x → found true x ∧ storedIndex x = UInt32.ofNat i)

/-- `Merged found p q`: `q` is `p` with another list of elements, entries or fields, each of which is
one of those of `p` or is found elsewhere and is of the type that the list is of. -/
inductive Merged (found : Bool → Property → Prop) : Property → Property → Prop
  | array (ty : String) {ps qs : List Property} : (∀ x ∈ qs, x ∈ ps ∨ found false x ∧ typeName x = ty) →
      Uniform qs → (ty = "ByteProperty" → ∃ x ∈ qs, isNamespaced x) → qs.length < 2 ^ 32 →
      Merged found (.array (.properties ty ps)) (.array (.properties ty qs))
  | set (ty : String) (fl : UInt32) {ps qs : List Property} :
      (∀ x ∈ qs, x ∈ ps ∨ found false x ∧ typeName x = ty) → Uniform qs → qs.length < 2 ^ 32 →
      Merged found (.set ty fl ps) (.set ty fl qs)
  | enumMap (ty : String) {vs ws : List (String × Property)} : KeysOK ws →
      (∀ w ∈ ws, (∃ k, (k, w.2) ∈ vs) ∨ SizeFree w.2 ∧ found false w.2 ∧ typeName w.2 = ty) →
      Merged found (.map (.enumProperty ty vs)) (.map (.enumProperty ty ws))
  | nameMap (ty : String) {vs ws : List (String × Property)} : KeysOK ws →
      (∀ w ∈ ws, (∃ k, (k, w.2) ∈ vs) ∨ SizeFree w.2 ∧ found false w.2 ∧ typeName w.2 = ty) →
      Merged found (.map (.nameProperty ty vs)) (.map (.nameProperty ty ws))
  | strMap (ty : String) {vs ws : List (String × Property)} : KeysOK ws →
      (∀ w ∈ ws, (∃ k, (k, w.2) ∈ vs) ∨ SizeFree w.2 ∧ found false w.2 ∧ typeName w.2 = ty) →
      Merged found (.map (.strProperty ty vs)) (.map (.strProperty ty ws))
  | map (kt vt : String) (fl : UInt32) {vs ws : List (Property × Property)} :
      (∀ w ∈ ws, w ∈ vs ∨ (SizeFree w.1 ∧ found false w.1 ∧ typeName w.1 = kt) ∧
        SizeFree w.2 ∧ found false w.2 ∧ typeName w.2 = vt) →
      (ws.map Prod.fst).Pairwise (fun a b => sameKey a b = false) → ws.length < 2 ^ 32 →
      (fl = 0 → kt ∈ ["NameProperty", "StrProperty"] → ∃ e ∈ ws, isNullKey e.1) →
      Merged found (.map (.properties kt vt fl vs)) (.map (.properties kt vt fl ws))
  | fields (g : Guid) (ty : String) {fs gs : List (String × List Property)} : FieldsFrom found fs gs →
      Merged found (.struct g ty (.customStruct fs)) (.struct g ty (.customStruct gs))
  | bareFields {fs gs : List (String × List Property)} : FieldsFrom found fs gs →
      Merged found (.structValue (.customStruct fs)) (.structValue (.customStruct gs))
  | structFields (f ty : String) (g : Guid) (l r : List StructPropertyValue)
      {fs gs : List (String × List Property)} : FieldsFrom found fs gs →
      Merged found (.array (.structs f ty g (l ++ .customStruct fs :: r)))
        (.array (.structs f ty g (l ++ .customStruct gs :: r)))

end Gvas.Spec
