import Verif.Lemmas.Build
import Verif.Props.Duplicates
import Verif.Props.RoundTrip
import Verif.Props.Guid
import Verif.Spec.Sample

/-!
# C81: what the constructors build is saved and loaded
-/

namespace Gvas

namespace Spec

/-- `p` is saved, and the accessor `get` gets `a` from what is then loaded, whatever follows it in
the file. -/
def Kept {α : Type} (env : Env) (st : List String) (p : Property) (get : Property → Option α)
    (a : α) : Prop :=
  ∃ out, Property.write env.cv true p = .ok out ∧
    (out.bytes.length < 2 ^ 32 → ∀ n, out.bytes.length < n →
      ∃ q, ReadsBackAt st (readTyped env n) out.bytes q ∧ get q = some a)

end Spec

open Spec

private theorem kept {α : Type} {env : Env} {st : List String} {p : Property}
    {get : Property → Option α} {a : α} (h : HeadOK env st p) (hg : get p = some a) :
    Kept env st p get a := by
  obtain ⟨out, ho, hr⟩ := C15_properties_roundtrip env st p h
  exact ⟨out, ho, fun h32 n hn => ⟨p, hr h32 n hn, hg⟩⟩

/-- **C81**: numbers and flags made by their constructors come back as given. -/
theorem C81_scalars (env : Env) (st : List String) :
    (∀ v, Kept env st (.newInt8 v) Property.getI8 v) ∧
    (∀ v, Kept env st (.newInt16 v) Property.getI16 v) ∧
    (∀ v, Kept env st (.newUInt16 v) Property.getU16 v) ∧
    (∀ v, Kept env st (.newInt v) Property.getInt v) ∧
    (∀ v, Kept env st (.newUInt32 v) Property.getU32 v) ∧
    (∀ v, Kept env st (.newInt64 v) Property.getI64 v) ∧
    (∀ v, Kept env st (.newUInt64 v) Property.getU64 v) ∧
    (∀ v, Kept env st (.newFloat v) Property.getF32 v) ∧
    (∀ v, Kept env st (.newDouble v) Property.getF64 v) ∧
    (∀ v, Kept env st (.newBool v) Property.getBool v) ∧
    (∀ name v, StrOK name → Kept env st (.newByte (some name) v) Property.getByte
      (some name, .byte v)) ∧
    (∀ name v, StrOK name → StrOK v → Kept env st (.newNamespaced (some name) v) Property.getByte
      (some name, .namespaced v)) ∧
    (∀ name v, StrOK name → ByteOK v → Kept env st (.newByteValue (some name) v) Property.getByte
      (some name, v)) :=
  ⟨fun _ => kept trivial rfl, fun _ => kept trivial rfl, fun _ => kept trivial rfl,
    fun _ => kept trivial rfl, fun _ => kept trivial rfl, fun _ => kept trivial rfl,
    fun _ => kept trivial rfl, fun _ => kept trivial rfl, fun _ => kept trivial rfl,
    fun _ => kept trivial rfl,
    fun name _ h => kept ⟨⟨name, rfl, h⟩, trivial⟩ rfl,
    fun name _ h h' => kept ⟨⟨name, rfl, h⟩, h'⟩ rfl,
    fun name _ h h' => kept ⟨⟨name, rfl, h⟩, h'⟩ rfl⟩

/-- **C81**: strings, names, references, delegates, paths, texts and unknown properties made by
their constructors and conversions come back as given, a name with array index 0. -/
theorem C81_strings (env : Env) (st : List String) :
    (∀ ty v, StrOK ty → StrOK v → Kept env st (.newEnum (some ty) v) Property.getEnum
      (some ty, v)) ∧
    (∀ v, FStrOK v → Kept env st (.newStr v) Property.getStr v) ∧
    (∀ v, StrOK v → Kept env st (.strFrom v) Property.getStr (some v)) ∧
    (∀ v, FStrOK v → Kept env st (.nameFromOpt v) Property.getName (0, v)) ∧
    (∀ v, StrOK v → Kept env st (.nameFrom v) Property.getName (0, some v)) ∧
    (∀ v, StrOK v → Kept env st (.newObject v) Property.getObjectRef v) ∧
    (∀ o f, StrOK o → StrOK f → Kept env st (.newDelegate (.new o f)) Property.getDelegate ⟨o, f⟩) ∧
    (∀ ds, MulticastOK ds → Kept env st (.newMulticastInline ds)
      Property.getMulticastInlineDelegate ds) ∧
    (∀ ds, MulticastOK ds → Kept env st (.newMulticastSparse ds)
      Property.getMulticastSparseDelegate ds) ∧
    (∀ path owner, path.length < 2 ^ 32 → (∀ s ∈ path, StrOK s) → StrOK owner →
      Kept env st (.newFieldPath (.new path owner)) Property.getFieldPath ⟨path, owner⟩) ∧
    (∀ t, TextOK env.cv t → Kept env st (.newText t) Property.getText t) ∧
    (∀ name raw, StrOK name → name ∉ knownTypes →
      Kept env st (.newUnknown name raw) Property.getUnknown (name, raw)) :=
  ⟨fun ty _ h h' => kept ⟨⟨ty, rfl, h⟩, h'⟩ rfl, fun _ h => kept h rfl,
    fun v h => kept (p := .strFrom v) (by simpa [Property.strFrom, Property.newStr, HeadOK, FStrOK]) rfl,
    fun _ h => kept h rfl,
    fun v h => kept (p := .nameFrom v)
      (by simpa [Property.nameFrom, Property.nameFromOpt, HeadOK, FStrOK]) rfl,
    fun _ h => kept h rfl, fun _ _ h h' => kept ⟨h, h'⟩ rfl, fun _ h => kept h rfl,
    fun _ h => kept h rfl, fun _ _ h h' h'' => kept ⟨h, h', h''⟩ rfl, fun _ h => kept h rfl,
    fun _ _ h h' => kept ⟨h, h'⟩ rfl⟩

/-- **C81**: struct values made by their constructors and conversions come back with every
component in its place, under the type name and the coordinate width they belong to. -/
theorem C81_structs (env : Env) (st : List String) (guid : Guid) :
    (∀ x y, lwc env.cv = false → Kept env st (.newStruct guid "Vector2D" (.fromVector2F x y))
      Property.getStruct (guid, "Vector2D", .vector2F x y)) ∧
    (∀ x y, lwc env.cv = true → Kept env st (.newStruct guid "Vector2D" (.fromVector2D x y))
      Property.getStruct (guid, "Vector2D", .vector2D x y)) ∧
    (∀ x y z, lwc env.cv = false → Kept env st (.newStruct guid "Vector" (.fromVectorF x y z))
      (fun p => p.getStruct.bind fun s => s.2.2.getVectorF) (x, y, z)) ∧
    (∀ x y z, lwc env.cv = true → Kept env st (.newStruct guid "Vector" (.fromVectorD x y z))
      (fun p => p.getStruct.bind fun s => s.2.2.getVectorD) (x, y, z)) ∧
    (∀ p y r, lwc env.cv = false → Kept env st (.newStruct guid "Rotator" (.fromRotatorF p y r))
      (fun p => p.getStruct.bind fun s => s.2.2.getRotatorF) (p, y, r)) ∧
    (∀ p y r, lwc env.cv = true → Kept env st (.newStruct guid "Rotator" (.fromRotatorD p y r))
      (fun p => p.getStruct.bind fun s => s.2.2.getRotatorD) (p, y, r)) ∧
    (∀ x y z w, lwc env.cv = false → Kept env st (.newStruct guid "Quat" (.fromQuatF x y z w))
      (fun p => p.getStruct.bind fun s => s.2.2.getQuatF) (x, y, z, w)) ∧
    (∀ x y z w, lwc env.cv = true → Kept env st (.newStruct guid "Quat" (.fromQuatD x y z w))
      (fun p => p.getStruct.bind fun s => s.2.2.getQuatD) (x, y, z, w)) ∧
    (∀ t, Kept env st (.newStruct guid "DateTime" (.fromDateTime t))
      (fun p => p.getStruct.bind fun s => s.2.2.getDateTime) t) ∧
    (∀ t, Kept env st (.newStruct guid "Timespan" (.fromTimespan t))
      Property.getStruct (guid, "Timespan", .timespan t)) ∧
    (∀ g, Kept env st (.newStruct guid "Guid" (.fromGuid g))
      (fun p => p.getStruct.bind fun s => s.2.2.getGuid) g) ∧
    (∀ r g b a, Kept env st (.newStruct guid "LinearColor" (.fromLinearColor r g b a))
      Property.getStruct (guid, "LinearColor", .linearColor r g b a)) ∧
    (∀ x y, Kept env st (.newStruct guid "IntPoint" (.fromIntPoint x y))
      (fun p => p.getStruct.bind fun s => s.2.2.getIntPoint) (x, y)) := by
  have name : ∀ s ∈ ["Vector2D", "Vector", "Rotator", "Quat", "DateTime", "Timespan", "Guid",
      "LinearColor", "IntPoint"], StrOK s := by simp only [StrOK]; decide +kernel
  refine ⟨fun _ _ h => kept ⟨name _ (by simp), rfl, h⟩ rfl,
    fun _ _ h => kept ⟨name _ (by simp), rfl, h⟩ rfl,
    fun _ _ _ h => kept ⟨name _ (by simp), rfl, h⟩ rfl,
    fun _ _ _ h => kept ⟨name _ (by simp), rfl, h⟩ rfl,
    fun _ _ _ h => kept ⟨name _ (by simp), rfl, h⟩ rfl,
    fun _ _ _ h => kept ⟨name _ (by simp), rfl, h⟩ rfl,
    fun _ _ _ _ h => kept ⟨name _ (by simp), rfl, h⟩ rfl,
    fun _ _ _ _ h => kept ⟨name _ (by simp), rfl, h⟩ rfl,
    fun _ => kept ⟨name _ (by simp), rfl⟩ rfl,
    fun _ => kept ⟨name _ (by simp), rfl⟩ rfl,
    fun _ => kept ⟨name _ (by simp), rfl⟩ rfl,
    fun _ _ _ _ => kept ⟨name _ (by simp), rfl⟩ rfl,
    fun _ _ => kept ⟨name _ (by simp), rfl⟩ rfl⟩

/-- **C81**: an array made by `ArrayProperty::new` of elements that can be stored without header is
saved, and the loaded array has the same elements. -/
theorem C81_array (env : Env) (st : List String) (ty : String) (ps : List Property)
    (hty : StrOK ty) (hs : ty ≠ "StructProperty") (hn : ps.length < 2 ^ 32) (hu : Uniform ps)
    (h : ∀ p ∈ ps, BareOK env (st ++ ["ArrayProperty"]) ty p) :
    ∃ a, ArrayProperty.new ty none ps = .ok a ∧
      Kept env st (.array a) (fun p => p.getArray.map elements) ps ∧
      Kept env st (.array a) (fun p => p.getArray.map ArrayProperty.propertyType) ty := by
  obtain ⟨a, ha, hok⟩ := arrayNew_ok (env := env) (st := st ++ ["ArrayProperty"]) hty hs hn hu
    (baresOK_of_mem h)
  obtain ⟨h1, h2, _⟩ := C35_array_new_keeps ty none ps a ha
  exact ⟨a, ha, kept hok (by simp [Property.getArray, h2]), kept hok (by simp [Property.getArray, h1])⟩

/-- **C81**: the same for an array of structs. -/
theorem C81_struct_array (env : Env) (st : List String) (field ty : String) (guid : Guid)
    (vs : List StructPropertyValue) (hf : StrOK field) (hty : StrOK ty) (hn : vs.length < 2 ^ 32)
    (h : ∀ v ∈ vs, StructOK env (st ++ ["ArrayProperty"]) ty v) :
    ∃ a, ArrayProperty.new "StructProperty" (some (field, ty, guid)) (vs.map .structValue) = .ok a ∧
      Kept env st (.array a) (fun p => p.getArray.map elements) (vs.map .structValue) ∧
      Kept env st (.array a) (fun p => p.getArray.map structInfo) (some (field, ty, guid)) := by
  obtain ⟨a, ha, hok⟩ := arrayNew_structs_ok (env := env) (st := st ++ ["ArrayProperty"])
    (guid := guid) hf hty hn h
  obtain ⟨_, h2, h3⟩ := C35_array_new_keeps _ _ _ a ha
  exact ⟨a, ha, kept hok (by simp [Property.getArray, h2]), kept hok (by simp [Property.getArray, h3])⟩

/-- **C81**: a set made by `SetProperty::new`. -/
theorem C81_set (env : Env) (st : List String) (ty : String) (flags : UInt32) (ps : List Property)
    (hty : StrOK ty) (hn : ps.length < 2 ^ 32) (hu : Uniform ps)
    (h : ∀ p ∈ ps, BareOK env (st ++ ["SetProperty"]) ty p) :
    Kept env st (.newSet ty flags ps) Property.getSet (ty, flags, ps) :=
  kept ⟨hty, hn, hu, baresOK_of_mem h⟩ rfl

/-- **C81**: a map made by `MapProperty::new` of `HashableIndexMap::from` any entries that can be
stored without header, keys repeated or not: the loaded map has every key once, where it came
first, with the value given last. -/
theorem C81_map (env : Env) (st : List String) (kt vt : String) (fl : UInt32)
    (es : List (Property × Property)) (hkt : StrOK kt) (hvt : StrOK vt) (hn : es.length < 2 ^ 32)
    (h : ∀ e ∈ es, SizeFree e.1 ∧ BareOK env (st ++ ["MapProperty"] ++ ["Key"]) kt e.1 ∧
      SizeFree e.2 ∧ BareOK env (st ++ ["MapProperty"] ++ ["Value"]) vt e.2) :
    ∃ m, LastWins sameKey es m ∧
      Kept env st (.map (.new kt vt fl (imOfList sameKey es)))
        (fun p => p.getMap.map entries) m ∧
      Kept env st (.map (.new kt vt fl (imOfList sameKey es)))
        (fun p => p.getMap.map fun m => (m.keyType, m.valueType, mapFlags m)) (kt, vt, fl) := by
  have hl : LastWins sameKey es (imOfList sameKey es) := lastWins_imExtend sameKey_equiv es
  have hd : ((imOfList sameKey es).map Prod.fst).Pairwise fun a b => sameKey a b = false :=
    (C37_count hl).2
  obtain ⟨h1, h2, h3, h4⟩ := C36_map_new_keeps kt vt fl _ hd
  have hok : HeadOK env st (.map (.new kt vt fl (imOfList sameKey es))) := by
    simp only [HeadOK]
    refine mapNew_ok hkt hvt ?_ hd (entriesOK_of_mem fun e he => ?_)
    · rw [(C37_count hl).1]
      exact Nat.lt_of_le_of_lt (firsts_length _ _) (by simpa using hn)
    · obtain ⟨k, v⟩ := e
      obtain ⟨pre, k', post, e, _⟩ := hl.last k v he
      have hk : k ∈ firsts sameKey (es.map Prod.fst) := by
        rw [← hl.keys]; exact List.mem_map_of_mem (f := Prod.fst) he
      obtain ⟨x, hx, rfl⟩ := List.mem_map.mp (firsts_subset hk)
      have hv := h (k', v) (by rw [e]; simp)
      exact ⟨(h x hx).1, (h x hx).2.1, hv.2.2.1, hv.2.2.2⟩
  exact ⟨_, hl, kept hok (by simp [Property.getMap, h4]),
    kept hok (by simp [Property.getMap, h1, h2, h3])⟩

/-- **C81**: the conversions of GUIDs are inverse to one another and go through the same sixteen
bytes. -/
theorem C81_guids :
    (∀ w, (Guid.ofWords w).words = w) ∧ (∀ g : Guid, Guid.ofWords g.words = g) ∧
    (∀ n, n < 2 ^ 128 → (Guid.ofNumber n).number = n) ∧
    (∀ g : Guid, Guid.ofNumber g.number = g) ∧
    (∀ a b c d : UInt32, (Guid.ofWords (a, b, c, d)).number =
      a.toNat + 2 ^ 32 * b.toNat + 2 ^ 64 * c.toNat + 2 ^ 96 * d.toNat) := by
  obtain ⟨h1, h2, h3, h4, _⟩ := C09_guid_conversions
  refine ⟨fun w => h1 _ _ _ _, h2, h3, h4, fun a b c d => ?_⟩
  have := C09_guid_representations_agree.1 a b c d
  simpa only [Guid.ofWords, Guid.number] using this

/-! ## Cases -/

private def plain : Env := { debug := true, hints := fun _ => none, cv := [] }

/-- An array of two names, and one of a byte enum name. -/
example : StrOK "NameProperty" ∧ Uniform [.nameFrom "a", .nameFromOpt none] ∧
    (∀ p ∈ [Property.nameFrom "a", .nameFromOpt none], BareOK plain ["ArrayProperty"] "NameProperty" p) ∧
    (∀ p ∈ [Property.newNamespaced none "E::A"], BareOK plain ["ArrayProperty"] "ByteProperty" p) := by
  have h : StrOK "NameProperty" ∧ StrOK "a" ∧ StrOK "E::A" := by simp only [StrOK]; decide +kernel
  refine ⟨h.1, ?_, ?_, ?_⟩ <;>
    simp [Uniform, sizeClass, Property.nameFrom, Property.nameFromOpt, Property.newNamespaced, BareOK,
      FStrOK, ByteOK, h]

/-- A map given with a key twice: it is built with the later value. -/
example : imOfList sameKey [(Property.strFrom "k", Property.newInt 1), (.strFrom "l", .newInt 2),
      (.strFrom "k", .newInt 3)] = [(.strFrom "k", .newInt 3), (.strFrom "l", .newInt 2)] ∧
    (∀ e ∈ [(Property.strFrom "k", Property.newInt 1), (.strFrom "l", .newInt 2),
      (.strFrom "k", .newInt 3)], SizeFree e.1 ∧ BareOK plain ["MapProperty", "Key"] "StrProperty" e.1 ∧
      SizeFree e.2 ∧ BareOK plain ["MapProperty", "Value"] "IntProperty" e.2) := by
  have h : StrOK "k" ∧ StrOK "l" := by simp only [StrOK]; decide +kernel
  constructor
  · simp [imOfList, imExtend, imInsert, sameKey, Property.strFrom, Property.newStr, Property.feed,
      feedOpt]
  · simp [Property.strFrom, Property.newStr, Property.newInt, SizeFree, BareOK, FStrOK, h]

/-- A struct array, a set and a multicast delegate. -/
example : StructOK plain ["ArrayProperty"] "IntPoint" (.fromIntPoint 1 (-1)) ∧
    BareOK plain ["SetProperty"] "IntProperty" (.newInt 5) ∧
    MulticastOK [.new "/Game/A" "f"] ∧ TextOK [] (FText.newBase 0 none none (some "x")) ∧
    StrOK "GameProperty" ∧ "GameProperty" ∉ knownTypes := by
  have h : StrOK "/Game/A" ∧ StrOK "f" ∧ StrOK "x" ∧ StrOK "GameProperty" := by
    simp only [StrOK]; decide +kernel
  refine ⟨rfl, rfl, ?_, ?_, h.2.2.2, by decide⟩
  · simp [MulticastOK, DelegateOK, Delegate.new, h]
  · simp [FText.newBase, TextOK, WidthsOK, HistoryWidthsOK, TextShapeOK, HistoryShapeOK, FStrOK, h]

example : (Guid.ofNumber 0x00112233445566778899AABBCCDDEEFF).words =
    (0xCCDDEEFF, 0x8899AABB, 0x44556677, 0x00112233) := by decide +kernel

end Gvas
