import Verif.Lemmas.RoundTrip
import Verif.Lemmas.Writable
import Verif.Spec.Codec
import Verif.Props.Text

/-!
# C15, C16: properties are read back from what was written

`HeadOK` and `BareOK` (`Verif.Spec.Wf`) say which property trees the format can represent.
-/

namespace Gvas

open Spec

/-- The type name, then `Property::new`, as `GvasFile::read` and custom structs do; `n` is the
recursion depth allowed. -/
def readTyped (env : Env) (n : Nat) : R Property := do
  let ty ← readString
  Property.read env n ty true none

/-- **C15**: every representable property is written, and reading the bytes back returns it
bit for bit, whatever follows them and wherever they stand, and restores the path. -/
theorem C15_properties_roundtrip (env : Env) (st : List String) (p : Property)
    (h : HeadOK env st p) :
    ∃ out, Property.write env.cv true p = .ok out ∧
      (out.bytes.length < 2 ^ 32 → ∀ n, out.bytes.length < n →
        ReadsBackAt st (readTyped env n) out.bytes p) := by
  obtain ⟨out, ho⟩ := headOK_writes h
  refine ⟨out, ho, fun h32 n hn => ?_⟩
  obtain ⟨bs, hbs, hr⟩ := (reads_property n).1 st p out h ho hn h32
  rw [hbs]
  exact (reads_string (headOK_typeName h)).bind hr

/-- **C16**: a single element without header, of a type that does not need a size. -/
theorem C16_element (env : Env) (st : List String) (ty : String) (p : Property)
    (h : BareOK env st ty p) (hs : SizeFree p) :
    ∃ out, Property.write env.cv false p = .ok out ∧
      (out.bytes.length < 2 ^ 32 → ∀ n, out.bytes.length < n →
        ReadsBackAt st (Property.read env n ty false none) out.bytes p) := by
  obtain ⟨out, ho⟩ := bareOK_writes h
  exact ⟨out, ho, fun h32 n hn =>
    (reads_property n).2 st ty none p out h (sugOK_of_sizeFree hs) ho hn h32⟩

/-- **C16**: the elements of an array come back from its element type and its length. -/
theorem C16_array (env : Env) (st : List String) (a : ArrayProperty) (h : ArrayOK env st a) :
    ∃ out, ArrayProperty.writeBody env.cv a = .ok out ∧
      (out.bytes.length < 2 ^ 32 → ∀ n, out.bytes.length < n →
        ReadsBackAt st (readArrayBody env n (Property.read env n) (UInt32.ofNat out.bytes.length)
          a.propertyType) out.bytes a) := by
  obtain ⟨out, ho⟩ := (write_array env.cv a).get (arrayOK_fits st a h)
  exact ⟨out, ho, fun h32 n hn =>
    reads_arrayBody (reads_property n).2 (reads_property n).1 ho h hn (by omega) h32⟩

/-- **C16**: the elements of a set come back from its element type and its length. -/
theorem C16_set (env : Env) (st : List String) (ty : String) (flags : UInt32)
    (ps : List Property) (h : BaresOK env st ty ps) (hu : Uniform ps) (hc : ps.length < 2 ^ 32) :
    ∃ out, Property.write env.cv false (.set ty flags ps) = .ok out ∧
      (out.bytes.length < 2 ^ 32 → ∀ n, out.bytes.length < n →
        ReadsBackAt st (readSetBody env.debug (Property.read env n)
          (UInt32.ofNat out.bytes.length) ty) out.bytes (.set ty flags ps)) := by
  obtain ⟨es, he⟩ := (write_list env.cv ps).get (baresOK_fits st ty ps h)
  refine ⟨u32O flags ++ u32O (UInt32.ofNat ps.length) ++ es, ?_, fun h32 n hn => ?_⟩
  · simp only [Property.write, headed, he]; rfl
  · simp only [Out.app_bytes, u32O_bytes, List.length_append, u32B_length] at hn h32 ⊢
    have := reads_setBody (st := st) (flags := flags) (reads_property (env := env) n).2 h hu hc he
      (by omega) (by omega)
    exact this

/-- **C16**: the entries of a map come back from its key and value types. -/
theorem C16_map (env : Env) (st : List String) (m : MapProperty) (h : MapOK env st m) :
    ∃ out, MapProperty.writeBody env.cv m = .ok out ∧
      (out.bytes.length < 2 ^ 32 → ∀ n, out.bytes.length < n →
        ReadsBackAt st (readMapBody (Property.read env n) m.keyType m.valueType) out.bytes
          (.map m)) := by
  obtain ⟨out, ho⟩ := (write_map env.cv m).get (mapOK_fits st m h)
  exact ⟨out, ho, fun h32 n hn => reads_map (reads_property n).2 ho h hn h32⟩

/-! ## A property tree with nested containers of every kind -/

/-- Hints for the bare structs in the sample. -/
def sampleHints : String → Option String
  | "Inventory.StructProperty.Slots.MapProperty.Value.StructProperty" => some "Slot"
  | "Inventory.StructProperty.Spots.SetProperty.StructProperty" => some "Vector"
  | _ => none

/-- A debug build with these hints and new versions. -/
def sampleEnv : Env := { debug := true, hints := sampleHints, cv := newVersions }

/-- A custom struct with a text, repeated names, a map with struct values, arrays of structs and
of enum names, a set of vectors and a property of unknown type. -/
def sampleTree : Property :=
  .struct editorGuid "Inventory" (.customStruct
    [("Title", [.text (nestedText (.int64 (-5)))]),
     ("Tag", [.name 0 (some "x"), .name 1 none, .name 2 (some "naïve")]),
     ("Slots", [.map (.nameProperty "StructProperty"
        [("a", .structValue (.customStruct [("Count", [.int 3])])),
         ("b", .structValue (.customStruct []))])]),
     ("Odd", [.map (.properties "FloatProperty" "ByteProperty" 0
        [(.float ⟨0⟩, .byte none (.byte 1)), (.float ⟨0x7FC00000⟩, .byte none (.byte 2))])]),
     ("Places", [.array (.structs "Places" "Quat" ue5ReleaseGuid
        [.quatD ⟨1⟩ ⟨2⟩ ⟨3⟩ ⟨4⟩, .quatD ⟨0⟩ ⟨0⟩ ⟨0⟩ ⟨0x7FF8000000000001⟩])]),
     ("Modes", [.array (.properties "ByteProperty"
        [.byte none (.namespaced "E::A"), .byte none (.namespaced "E::Long")])]),
     ("Spots", [.set "StructProperty" 0 [.structValue (.vectorD ⟨1⟩ ⟨2⟩ ⟨3⟩)]]),
     ("Raw", [.unknown "Int128Property" [1, 2, 3]])])

/-- Unfold representability of a concrete property, and check the parts. -/
macro "representable" : tactic => `(tactic|
  (simp only [HeadOK, StructOK, FieldsOK, ValsOK, MapOK, ArrayOK, ValuesOK, EntriesOK,
    BareOK, BaresOK, StructsOK, SizeFree, ByteOK, KeysOK, Uniform, TextOK, WidthsOK,
    HistoryWidthsOK, ArgWidthsOK, NamedWidthsOK, ArgsWidthsOK, TextShapeOK, isNamespaced, isNullKey,
    HistoryShapeOK, ArgShapeOK, NamedShapeOK, ArgsShapeOK, nestedText, FStrOK, StrOK, storedIndex,
    sizeClass, and_true, true_and]
   repeat' (first
    | exact trivial
    | apply And.intro
    | (refine Exists.intro _ ⟨rfl, ?_⟩)
    | decide +kernel
    | (intro h; exact absurd h (by decide +kernel))
    | (intro _ h; exact absurd h (by decide +kernel))
    | (intro _; exact ⟨_, List.mem_cons_self, trivial⟩))))

theorem sampleTree_ok : HeadOK sampleEnv ["Inventory"] sampleTree := by
  unfold sampleTree
  representable

/-- The sample takes 1042 bytes. -/
example : (match Property.write newVersions true sampleTree with
    | .ok out => out.bytes.length
    | .bad _ => 0) = 1042 := by decide +kernel

/-- Elements whose decoding depends on the size: unknown elements of three bytes each. -/
example : ArrayOK sampleEnv [] (.properties "Odd" [.unknown "Odd" [1, 2, 3], .unknown "Odd" [4, 5, 6]]) := by
  representable

example : BaresOK sampleEnv [] "ByteProperty" [.byte none (.byte 5), .byte none (.byte 6)] ∧
    Uniform [.byte none (.byte 5), .byte none (.byte 6)] := by
  representable

example : BareOK sampleEnv [] "StrProperty" (.str none) ∧ SizeFree (.str none) := by
  representable

end Gvas
