import Verif.Lemmas.ReorderedProperty
import Verif.Props.EqualSaves
import Verif.Props.JsonText
import Verif.Props.JsonDirect

/-!
# C102: the order of the entries of JSON objects does not matter to equality
-/

namespace Gvas

open Spec Spec.Rfc8259 Text Sd

/-! ## What is loaded -/

/-- **C102**: a file is loaded from its JSON value with the entries of all objects in any order,
and it is equal to the file that was saved. -/
theorem C102_value (f : GvasFile) (hm : FileMaps f) (hf : fileFinite f = true)
    (hk : ∀ e ∈ f.properties, PlainKeys e.2) (j : J) (hj : Reordered f.toJson j) :
    ∃ g, GvasFile.ofJson j = some g ∧ f.eqv g = true ∧ FileMaps g :=
  Reord.file_read hm hk hf hj

/-- **C102**: the same where it is read without a `Value` in between. -/
theorem C102_direct (f : GvasFile) (hm : FileMaps f) (hf : fileFinite f = true)
    (hk : ∀ e ∈ f.properties, PlainKeys e.2) (j : J) (hj : Reordered f.toJson j) :
    ∃ g, GvasFile.ofRaw j = some g ∧ f.eqv g = true ∧ FileMaps g := by
  rw [C89_no_repeats j (Reord.once _ _ hj (by
    rw [← C88_same_value]
    exact Text.toJ_once _ _ (Sd.file_fine f hm)))]
  exact C102_value f hm hf hk j hj

/-- **C102**: a property by itself, and it is the very same if there is no map in it. -/
theorem C102_property (p : Property) (hm : MapsDistinct p) (hk : PlainKeys p)
    (hf : allFinite p = true) (j : J) (hj : Reordered p.toJ j) :
    ∃ q, Property.ofJson j.depth j = some q ∧ p.eqv q = true ∧ MapsDistinct q ∧
      (Mapless p → q = p) :=
  Reord.property_read_json _ p (Nat.le_of_eq (Reord.depth_eq _ _ hj).symm) hm hk hf j hj

/-- **C102**: text in which the entries come in another order. -/
theorem C102_text (f : GvasFile) (hm : FileMaps f) (hf : fileFinite f = true)
    (hk : ∀ e ∈ f.properties, PlainKeys e.2) (hd : f.toJson.depth ≤ 127) (s : String) (j : J)
    (hs : Document s.toList j) (hj : Reordered f.toJson j) :
    ∃ g, GvasFile.ofText s = some g ∧ GvasFile.ofStr s = some g ∧ f.eqv g = true := by
  obtain ⟨g, h1, h2, -⟩ := C102_value f hm hf hk j hj
  have ho := Reord.once _ _ hj (by
    rw [← C88_same_value]
    exact Text.toJ_once _ _ (Sd.file_fine f hm))
  have hdj : j.depth ≤ 127 := by rw [Reord.depth_eq _ _ hj]; exact hd
  have ht : GvasFile.ofText s = some g := by
    rw [ofText_document hs, if_pos hdj, Once.merge_once j ho, h1]
  exact ⟨g, ht, C89_as_by_value s j hs ho g ht, h2⟩

/-! ## Sorted by name -/

theorem Reord.insert_perm (e : String × J) (l : List (String × J)) :
    (e :: l).Perm (insertEntry e l) := by
  induction l with
  | nil => exact .refl _
  | cons a l ih =>
    simp only [insertEntry]
    split
    · exact .refl _
    · exact (List.Perm.swap a e l).trans (ih.cons a)

mutual
theorem Reord.sorted_is : ∀ j, Reordered j (sorted j)
  | .null => .null
  | .bool b => .bool b
  | .int n => .int n
  | .float f => .float f
  | .str s => .str s
  | .arr l => .arr (Reord.sortedItems_is l)
  | .obj l => by
    obtain ⟨m, h1, h2⟩ := Reord.sortedEntries_is l
    exact .obj h1 h2
theorem Reord.sortedItems_is : ∀ l, ReorderedItems l (sortedItems l)
  | [] => .nil
  | j :: l => .cons (Reord.sorted_is j) (Reord.sortedItems_is l)
theorem Reord.sortedEntries_is : ∀ l, ∃ m, ReorderedValues l m ∧ m.Perm (sortedEntries l)
  | [] => ⟨[], .nil, .refl _⟩
  | (k, j) :: l => by
    obtain ⟨m, h1, h2⟩ := Reord.sortedEntries_is l
    exact ⟨(k, sorted j) :: m, .cons (Reord.sorted_is j) h1,
      (h2.cons _).trans (Reord.insert_perm _ _)⟩
end

theorem Reord.insert_sorted (e : String × J) (l : List (String × J))
    (h : l.Pairwise fun a b => a.1 ≤ b.1) : (insertEntry e l).Pairwise fun a b => a.1 ≤ b.1 := by
  induction l with
  | nil => simp [insertEntry]
  | cons a l ih =>
    rw [List.pairwise_cons] at h
    simp only [insertEntry]
    split
    · rename_i hle
      refine List.pairwise_cons.mpr ⟨fun b hb => ?_, List.pairwise_cons.mpr h⟩
      rcases List.mem_cons.mp hb with rfl | hb
      · exact hle
      · exact String.le_trans hle (h.1 b hb)
    · rename_i hle
      refine List.pairwise_cons.mpr ⟨fun b hb => ?_, ih h.2⟩
      rcases List.mem_cons.mp ((Reord.insert_perm e l).mem_iff.mpr hb) with rfl | hb
      · exact (String.le_total a.1 b.1).resolve_right hle
      · exact h.1 b hb

/-- Sorting does sort, and it changes nothing but the order. -/
theorem C102_sorting (l : List (String × J)) : ∃ l', sorted (.obj l) = .obj l' ∧
    l'.Pairwise (fun a b => a.1 ≤ b.1) ∧ Reordered (.obj l) (sorted (.obj l)) := by
  refine ⟨_, by rw [sorted], ?_, Reord.sorted_is _⟩
  induction l with
  | nil => simp [sortedEntries]
  | cons e l ih => obtain ⟨k, j⟩ := e; exact Reord.insert_sorted _ _ ih

/-- **C102**: a `Value` that keeps the entries of objects sorted by name (serde_json without its
feature `preserve_order`) still gives an equal file, which is saved in as many bytes. -/
theorem C102_sorted (f : GvasFile) (hm : FileMaps f) (hf : fileFinite f = true)
    (hk : ∀ e ∈ f.properties, PlainKeys e.2) : ∃ g, GvasFile.ofJson (sorted f.toJson) = some g ∧
      f.eqv g = true ∧ ∀ d, f.encode = .ok d → ∃ d', g.encode = .ok d' ∧ d'.length = d.length := by
  obtain ⟨g, h1, h2, h3⟩ := C102_value f hm hf hk _ (Reord.sorted_is _)
  exact ⟨g, h1, h2, fun d hd => C80_files f g hm h3 h2 d hd⟩

/-- **C102**: the contents of a save that are edited by a tool that changes the order of the
entries, loaded, and saved again: the save is accepted and the file in it is equal. -/
theorem C102_saves (z : Codec) (debug : Bool) (hints : String → Option String)
    (f : GvasFile) (ho : FileOK debug hints f) (hf : fileFinite f = true)
    (hk : ∀ e ∈ f.properties, PlainKeys e.2) (hv : f.gameVersion = .default) (h32 : EachFits f)
    (j : J) (hj : Reordered f.toJson j) :
    ∃ g d g', GvasFile.ofJson j = some g ∧ g.encode = .ok d ∧
      GvasFile.read z debug .default hints 0 d = .ok g' ∧ f.eqv g' = true := by
  obtain ⟨g, h1, h2, h3⟩ := C102_value f (Js.fileOK_maps ho) hf hk j hj
  obtain ⟨_, d', g', -, h4, -, h5, h6⟩ := C80_interchangeable z debug hints f g ho h3 h2 hv h32
  exact ⟨g, d', g', h1, h4, h5, h6⟩

/-! ## Keys with maps in them -/

/-- A map whose two keys are structs that have the same fields in different orders. -/
def turnedKeys : GvasFile := ⟨.default, textHeader, [("a", .map (.properties "StructProperty"
  "IntProperty" 0
  [(.structValue (.customStruct [("x", [.int 1]), ("y", [.int 2])]), .int 3),
   (.structValue (.customStruct [("y", [.int 2]), ("x", [.int 1])]), .int 4)]))]⟩

theorem turnedKeys_maps : FileMaps turnedKeys := by
  refine ⟨by simp [turnedKeys, textHeader, GvasHeader.customVersions], ?_, ?_⟩
  · simp [turnedKeys, KeysDistinct]
  · simp only [turnedKeys, List.mem_singleton, forall_eq, MapsDistinct, MapMaps, EntriesMaps,
      StructMaps, FieldsMaps, PropsMaps, and_true, List.map_cons, List.map_nil, KeysDistinct]
    decide +kernel

/-- **C102** fails for maps whose keys have maps in them: sorting the entries of the objects makes
the two keys one, so that one of the two entries of the map is lost. -/
theorem C102_entry_lost : ∃ f g : GvasFile, FileMaps f ∧ fileFinite f = true ∧
    GvasFile.ofJson (sorted f.toJson) = some g ∧ f.eqv g = false ∧
    ∃ m m' : List (Property × Property), m.length = 2 ∧ m'.length = 1 ∧
      f.properties = [("a", .map (.properties "StructProperty" "IntProperty" 0 m))] ∧
      g.properties = [("a", .map (.properties "StructProperty" "IntProperty" 0 m'))] := by
  have h : (match GvasFile.ofJson (sorted turnedKeys.toJson) with
      | some ⟨_, _, [(a, .map (.properties k v fl m))]⟩ =>
        decide (a = "a" ∧ k = "StructProperty" ∧ v = "IntProperty" ∧ fl = 0 ∧ m.length = 1)
      | _ => false) = true := by decide +kernel
  have he : (match GvasFile.ofJson (sorted turnedKeys.toJson) with
      | some g => turnedKeys.eqv g | _ => true) = false := by decide +kernel
  revert h he
  cases hg : GvasFile.ofJson (sorted turnedKeys.toJson) with
  | none => intro h; cases h
  | some g =>
    obtain ⟨gv, hd, ps⟩ := g
    intro h he
    split at h
    · rename_i e
      cases e
      obtain ⟨rfl, rfl, rfl, rfl, hl⟩ := of_decide_eq_true h
      exact ⟨turnedKeys, _, turnedKeys_maps, by decide +kernel, hg, he, _, _, rfl, hl, rfl, rfl⟩
    · cases h

/-- A hint for the keys of that map. -/
def keyHints : String → Option String := fun p =>
  if p = "a.MapProperty.Key.StructProperty" then some "Struct" else none

/-- **C102**: it happens to the contents of saves: there is one that, taken through a `Value` that
sorts, is saved again in fewer bytes. -/
theorem C102_save_shrinks : ∃ input h ps g output,
    (readData true keyHints input).1 = .ok (h, ps) ∧ GvasFile.encode ⟨.default, h, ps⟩ = .ok input ∧
      GvasFile.ofJson (sorted (GvasFile.toJson ⟨.default, h, ps⟩)) = some g ∧
      g.encode = .ok output ∧ output.length < input.length := by
  have hk : (match (readData true keyHints (bytesOf turnedKeys)).1 with
      | .ok (h, ps) =>
        (match GvasFile.encode ⟨.default, h, ps⟩,
          GvasFile.ofJson (sorted (GvasFile.toJson ⟨.default, h, ps⟩)) with
        | .ok d, some g =>
          d == bytesOf turnedKeys && (match g.encode with
          | .ok d' => decide (d'.length < (bytesOf turnedKeys).length)
          | .bad _ => false)
        | _, _ => false)
      | .bad _ => false) = true := by decide +kernel
  revert hk
  rcases hr : (readData true keyHints (bytesOf turnedKeys)).1 with ⟨h, ps⟩ | f
  · intro hk
    simp only at hk
    split at hk
    · rename_i d g hd hg
      rw [Bool.and_eq_true, beq_iff_eq] at hk
      obtain ⟨rfl, hk⟩ := hk
      split at hk
      · rename_i d' hd'
        exact ⟨_, h, ps, g, d', hr, hd, hg, hd', of_decide_eq_true hk⟩
      · cases hk
    · cases hk
  · intro hk; cases hk

/-! ## Such files -/

/-- A file with structs, texts and maps at several depths. -/
def manyMaps : GvasFile := ⟨.palworld .zlib, .version3 522 1008 ⟨5, 1, 1, 0, "b"⟩ 3
    [(Guid.fromU128 7, 5), (Guid.fromU128 3, 6)] "c",
  [("z", .struct (Guid.fromU128 1) "S" (.customStruct [("y", [.struct (Guid.fromU128 0) "Vector"
        (.vectorF ⟨0x3F800000⟩ ⟨0⟩ ⟨0xBF800000⟩)]),
      ("x", [.map (.properties "IntProperty" "StructProperty" 0
        [(.int 2, .structValue (.customStruct [("q", [.int 1]), ("p", [.bool true])])),
         (.int 1, .structValue (.dateTime 9))])])])),
   ("t", .text (.mk 2 (.namedFormat (.mk 0 (.base "n" "k" "s"))
     [("v", .text (.mk 0 (.none none))), ("u", .int 4)]))),
   ("m", .map (.strInt [("b", 1), ("a", 2)])),
   ("o", .map (.properties "StructProperty" "BoolProperty" 0
     [(.structValue (.customStruct [("g", []), ("f", [])]), .bool true)]))]⟩

theorem manyMaps_ok : FileMaps manyMaps ∧ fileFinite manyMaps = true ∧
    ∀ e ∈ manyMaps.properties, PlainKeys e.2 := by
  refine ⟨⟨by decide +kernel, by simp only [manyMaps, KeysDistinct]; decide +kernel, ?_⟩,
    by decide +kernel, ?_⟩
  · simp only [manyMaps, List.forall_mem_cons, MapsDistinct, StructMaps, FieldsMaps, PropsMaps,
      MapMaps, EntriesMaps, TextMaps, HistoryMaps, NamedArgsMaps, ArgMaps, KeysDistinct, and_true,
      List.not_mem_nil, false_implies, implies_true]
    decide +kernel
  · simp [manyMaps, PlainKeys, StructPlain, FieldsPlain, PropsPlain, MapPlain, EntriesPlain,
      Mapless]

/-- The names of the properties of a file in JSON. -/
def topNames (j : J) : List String :=
  match j with
  | .obj l => (match l.lookup "properties" with | some (.obj m) => m.map Prod.fst | _ => [])
  | _ => []

/-- Sorting changes its value, and an equal file is loaded from it. -/
example : sorted manyMaps.toJson ≠ manyMaps.toJson ∧
    ∃ g, GvasFile.ofJson (sorted manyMaps.toJson) = some g ∧ manyMaps.eqv g = true := by
  refine ⟨fun h => ?_, ?_⟩
  · have := congrArg topNames h
    revert this
    decide +kernel
  · obtain ⟨h1, h2, h3⟩ := manyMaps_ok
    obtain ⟨g, h4, h5, -⟩ := C102_sorted manyMaps h1 h2 h3
    exact ⟨g, h4, h5⟩

/-- A save whose JSON is sorted and saved again. -/
example (z : Codec) : ∃ g d g', GvasFile.ofJson (sorted (zeroFile 0).toJson) = some g ∧
    g.encode = .ok d ∧ GvasFile.read z true .default sampleHints 0 d = .ok g' ∧
    (zeroFile 0).eqv g' = true :=
  C102_saves z true sampleHints (zeroFile 0) (zeroFile_ok 0) (by decide +kernel)
    (by simp [zeroFile, PlainKeys]) rfl
    (by
      intro e he o ho
      have hs : e = ("Health", .float ⟨0⟩) := by simpa [zeroFile] using he
      subst hs
      have : (match Property.write (zeroFile 0).header.customVersions true (.float ⟨0⟩) with
        | .ok o => decide (o.bytes.length < 2 ^ 32) | .bad _ => false) = true := by decide +kernel
      rw [ho] at this
      exact of_decide_eq_true this) _ (Reord.sorted_is _)

/-- A property without maps comes back the same. -/
example : Property.ofJson 3 (.obj [("value", .int 7), ("type", .str "IntProperty")]) =
    some (.int 7) := rfl

end Gvas
