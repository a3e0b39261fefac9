import Verif.Model.File
import Verif.Model.Key

/-!
# `==` on properties and files

`PartialEq` is derived throughout (`src/properties/mod.rs` 494, `src/lib.rs` 114, 330 and the types
inside): same variant, equal fields; floats are `OrderedFloat`s; `HashableIndexMap`s compare as
indexmap's maps do, regardless of order.  A value is turned into a tree of what the derived
implementation compares, and the trees are compared.
-/

namespace Gvas

/-- What derived equality compares: scalars, fields in order, vectors and maps.  The keys of a map
are given by the data they feed a hasher (`Verif.Model.Key`). -/
inductive Tree where
  | leaf (ts : List Tok)
  | node (l : List Tree)
  | list (l : List Tree)
  | umap (l : List (List Tok × Tree))

/-- A map with properties for keys (`src/properties/map_property.rs` 63-73), given its keys and its
entries.  In a map with one entry, indexmap (`IndexMap::get_index_of`; `Cargo.toml` 19) finds a key by
`==` alone, without hashing it: the key is compared as a value.  Otherwise the hash has to be found
too.  Strings and GUIDs, the other keys there are, are equal exactly if they feed a hasher alike. -/
def pairTree : List Tree → List (List Tok × Tree) → Tree
  | [k], [(_, v)] => .node [.leaf [.n 1], k, v]
  | _, l => .umap l

mutual
/-- Derived `PartialEq::eq`.  For a map (indexmap, `PartialEq for IndexMap`): as many entries, and
every entry of one is found in the other with an equal value. -/
def Tree.eqv : Tree → Tree → Bool
  | .leaf a, .leaf b => a == b
  | .node l, .node l' => eqvList l l'
  | .list l, .list l' => eqvList l l'
  | .umap l, .umap l' => l.length == l'.length && eqvAll l l'
  | _, _ => false
/-- Fields or elements, one by one, and equally many. -/
def eqvList : List Tree → List Tree → Bool
  | [], [] => true
  | a :: l, b :: l' => a.eqv b && eqvList l l'
  | _, _ => false
/-- Is every entry in the map `m`? -/
def eqvAll : List (List Tok × Tree) → List (List Tok × Tree) → Bool
  | [], _ => true
  | (k, t) :: l, m =>
    (match m.lookup k with
      | some t' => t.eqv t'
      | none => false) && eqvAll l m
end

mutual
/-- `FText` (`src/properties/text_property.rs` 65). -/
def FText.tree : FText → Tree
  | .mk flags h => .node [.leaf [.n flags.toNat], FTextHistory.tree h]
/-- `FTextHistory` (`src/properties/text_property.rs` 174-287); arguments are maps
(200, 214). -/
def FTextHistory.tree : FTextHistory → Tree
  | .namedFormat src args => .node [.leaf [.n 3], FText.tree src, .umap (treeNamedArgs args)]
  | .orderedFormat src args => .node [.leaf [.n 4], FText.tree src, .list (treeArgs args)]
  | .argumentFormat src args => .node [.leaf [.n 5], FText.tree src, .umap (treeNamedArgs args)]
  | .asNumber v o c =>
    .node [.leaf [.n 6], FormatArgumentValue.tree v, .leaf (feedFormatOptions o), .leaf (feedOpt c)]
  | .asPercent v o c =>
    .node [.leaf [.n 7], FormatArgumentValue.tree v, .leaf (feedFormatOptions o), .leaf (feedOpt c)]
  | .asCurrency a v o c =>
    .node [.leaf (.n 8 :: feedOpt a), FormatArgumentValue.tree v, .leaf (feedFormatOptions o),
      .leaf (feedOpt c)]
  | .transform src tt => .node [.leaf [.n 12], FText.tree src, .leaf [.n tt.toI8.toUInt8.toNat]]
  | .empty => .leaf (FTextHistory.feed .empty)
  | .none s => .leaf (FTextHistory.feed (.none s))
  | .base a b c => .leaf (FTextHistory.feed (.base a b c))
  | .asDate t st c => .leaf (FTextHistory.feed (.asDate t st c))
  | .asTime t st z c => .leaf (FTextHistory.feed (.asTime t st z c))
  | .asDateTime t ds ts z c => .leaf (FTextHistory.feed (.asDateTime t ds ts z c))
  | .stringTableEntry a b => .leaf (FTextHistory.feed (.stringTableEntry a b))
/-- `FormatArgumentValue` (`src/properties/text_property.rs` 734-756). -/
def FormatArgumentValue.tree : FormatArgumentValue → Tree
  | .text t => .node [.leaf [.n 4], FText.tree t]
  | .int v => .leaf [.n 0, .n v.toUInt32.toNat]
  | .uint v => .leaf [.n 1, .n v.toNat]
  | .float v => .leaf [.n 2, .n v.canon]
  | .double v => .leaf [.n 3, .n v.canon]
  | .int64 v => .leaf [.n 5, .n v.toUInt64.toNat]
  | .uint64 v => .leaf [.n 6, .n v.toNat]
/-- `Vec<FormatArgumentValue>`. -/
def treeArgs : List FormatArgumentValue → List Tree
  | [] => []
  | v :: l => FormatArgumentValue.tree v :: treeArgs l
/-- `HashableIndexMap<String, FormatArgumentValue>`. -/
def treeNamedArgs : List (String × FormatArgumentValue) → List (List Tok × Tree)
  | [] => []
  | (k, v) :: l => ([.s k], FormatArgumentValue.tree v) :: treeNamedArgs l
end

mutual
/-- `Property` (`src/properties/mod.rs` 494-548).  Types without maps inside are compared by the
data they hold, the same as they feed a hasher. -/
def Property.tree : Property → Tree
  | .array v => .node [.leaf [.n 0], ArrayProperty.tree v]
  | .map v => .node [.leaf [.n 10], MapProperty.tree v]
  | .set t fl ps => .node [.leaf [.n 17, .s t, .n fl.toNat], .list (treeProps ps)]
  | .struct g t v =>
    .node [.leaf (.n 19 :: (g.bytes.map (fun b => Tok.n b.toNat) ++ [.s t])),
      StructPropertyValue.tree v]
  | .structValue v => .node [.leaf [.n 20], StructPropertyValue.tree v]
  | .text v => .node [.leaf [.n 21], v.tree]
  | .bool v => .leaf (Property.feed (.bool v))
  | .byte name v => .leaf (Property.feed (.byte name v))
  | .double v => .leaf (Property.feed (.double v))
  | .enum t v => .leaf (Property.feed (.enum t v))
  | .float v => .leaf (Property.feed (.float v))
  | .int16 v => .leaf (Property.feed (.int16 v))
  | .int64 v => .leaf (Property.feed (.int64 v))
  | .int8 v => .leaf (Property.feed (.int8 v))
  | .int v => .leaf (Property.feed (.int v))
  | .name i v => .leaf (Property.feed (.name i v))
  | .object v => .leaf (Property.feed (.object v))
  | .delegate v => .leaf (Property.feed (.delegate v))
  | .multicastInlineDelegate v => .leaf (Property.feed (.multicastInlineDelegate v))
  | .multicastSparseDelegate v => .leaf (Property.feed (.multicastSparseDelegate v))
  | .fieldPath v => .leaf (Property.feed (.fieldPath v))
  | .str v => .leaf (Property.feed (.str v))
  | .uint16 v => .leaf (Property.feed (.uint16 v))
  | .uint32 v => .leaf (Property.feed (.uint32 v))
  | .uint64 v => .leaf (Property.feed (.uint64 v))
  | .unknown name raw => .leaf (Property.feed (.unknown name raw))
/-- `ArrayProperty` (`src/properties/array_property.rs` 29-90). -/
def ArrayProperty.tree : ArrayProperty → Tree
  | .structs f t g v =>
    .node [.leaf (.n 7 :: .s f :: .s t :: g.bytes.map (fun b => Tok.n b.toNat)),
      .list (treeStructs v)]
  | .properties t v => .node [.leaf [.n 8, .s t], .list (treeProps v)]
  | .bools v => .leaf (ArrayProperty.feed (.bools v))
  | .bytes v => .leaf (ArrayProperty.feed (.bytes v))
  | .enums v => .leaf (ArrayProperty.feed (.enums v))
  | .floats v => .leaf (ArrayProperty.feed (.floats v))
  | .ints v => .leaf (ArrayProperty.feed (.ints v))
  | .names v => .leaf (ArrayProperty.feed (.names v))
  | .strings v => .leaf (ArrayProperty.feed (.strings v))
/-- `MapProperty` (`src/properties/map_property.rs` 24-96). -/
def MapProperty.tree : MapProperty → Tree
  | .enumBool v => .node [.leaf [.n 0], .umap (v.map fun e => ([.s e.1], .leaf [.n e.2.toNat]))]
  | .enumInt v =>
    .node [.leaf [.n 1], .umap (v.map fun e => ([.s e.1], .leaf [.n e.2.toUInt32.toNat]))]
  | .enumProperty t v => .node [.leaf [.n 2, .s t], .umap (treeStrProps v)]
  | .nameBool v => .node [.leaf [.n 3], .umap (v.map fun e => ([.s e.1], .leaf [.n e.2.toNat]))]
  | .nameInt v =>
    .node [.leaf [.n 4], .umap (v.map fun e => ([.s e.1], .leaf [.n e.2.toUInt32.toNat]))]
  | .nameProperty t v => .node [.leaf [.n 5, .s t], .umap (treeStrProps v)]
  | .properties kt vt fl v =>
    .node [.leaf [.n 6, .s kt, .s vt, .n fl.toNat], pairTree (treeKeys v) (treePairs v)]
  | .strBool v => .node [.leaf [.n 7], .umap (v.map fun e => ([.s e.1], .leaf [.n e.2.toNat]))]
  | .strInt v =>
    .node [.leaf [.n 8], .umap (v.map fun e => ([.s e.1], .leaf [.n e.2.toUInt32.toNat]))]
  | .strProperty t v => .node [.leaf [.n 9, .s t], .umap (treeStrProps v)]
  | .strStr v => .node [.leaf [.n 10], .umap (v.map fun e => ([.s e.1], .leaf (feedOpt e.2)))]
/-- `StructPropertyValue` (`src/properties/struct_property.rs` 53-86); fields are a map (85). -/
def StructPropertyValue.tree : StructPropertyValue → Tree
  | .customStruct fs => .node [.leaf [.n 14], .umap (treeFields fs)]
  | .vector2F x y => .leaf [.n 0, .n x.canon, .n y.canon]
  | .vector2D x y => .leaf [.n 1, .n x.canon, .n y.canon]
  | .vectorF x y z => .leaf [.n 2, .n x.canon, .n y.canon, .n z.canon]
  | .vectorD x y z => .leaf [.n 3, .n x.canon, .n y.canon, .n z.canon]
  | .rotatorF x y z => .leaf [.n 4, .n x.canon, .n y.canon, .n z.canon]
  | .rotatorD x y z => .leaf [.n 5, .n x.canon, .n y.canon, .n z.canon]
  | .quatF x y z w => .leaf [.n 6, .n x.canon, .n y.canon, .n z.canon, .n w.canon]
  | .quatD x y z w => .leaf [.n 7, .n x.canon, .n y.canon, .n z.canon, .n w.canon]
  | .dateTime t => .leaf [.n 8, .n t.toNat]
  | .timespan t => .leaf [.n 9, .n t.toNat]
  | .guid g => .leaf (.n 10 :: g.bytes.map (fun b => Tok.n b.toNat))
  | .linearColor r g b a => .leaf [.n 11, .n r.canon, .n g.canon, .n b.canon, .n a.canon]
  | .intPoint x y => .leaf [.n 12, .n x.toUInt32.toNat, .n y.toUInt32.toNat]
  | .gameplayTagContainer tags => .leaf (.n 13 :: .n tags.length :: tags.map Tok.s)
/-- `Vec<Property>`. -/
def treeProps : List Property → List Tree
  | [] => []
  | p :: l => Property.tree p :: treeProps l
/-- `Vec<StructPropertyValue>`. -/
def treeStructs : List StructPropertyValue → List Tree
  | [] => []
  | p :: l => StructPropertyValue.tree p :: treeStructs l
/-- `HashableIndexMap<String, Property>`. -/
def treeStrProps : List (String × Property) → List (List Tok × Tree)
  | [] => []
  | (k, p) :: l => ([.s k], Property.tree p) :: treeStrProps l
/-- The keys of a `HashableIndexMap<Property, Property>`. -/
def treeKeys : List (Property × Property) → List Tree
  | [] => []
  | (k, _) :: l => Property.tree k :: treeKeys l
/-- `HashableIndexMap<Property, Property>`. -/
def treePairs : List (Property × Property) → List (List Tok × Tree)
  | [] => []
  | (k, p) :: l => (Property.feed k, Property.tree p) :: treePairs l
/-- `HashableIndexMap<String, Vec<Property>>`. -/
def treeFields : List (String × List Property) → List (List Tok × Tree)
  | [] => []
  | (k, ps) :: l => ([.s k], .list (treeProps ps)) :: treeFields l
end

/-- `==` on properties (derived, `src/properties/mod.rs` 494). -/
def Property.eqv (a b : Property) : Bool := a.tree.eqv b.tree

/-- `FEngineVersion` (`src/engine_version.rs` 10-27). -/
def FEngineVersion.feed (v : FEngineVersion) : List Tok :=
  [.n v.major.toNat, .n v.minor.toNat, .n v.patch.toNat, .n v.changeList.toNat, .s v.branch]

/-- The custom versions, a `HashableIndexMap<Guid, u32>` (`src/lib.rs` 127, 142). -/
def treeVersions (cvs : List (Guid × UInt32)) : Tree :=
  .umap (cvs.map fun e => (e.1.bytes.map (fun b => Tok.n b.toNat), .leaf [.n e.2.toNat]))

/-- `GvasHeader` (derived, `src/lib.rs` 114-146). -/
def GvasHeader.tree : GvasHeader → Tree
  | .version2 pkg ev format cvs name =>
    .node [.leaf [.n 0, .n pkg.toNat], .leaf ev.feed, .leaf [.n format.toNat], treeVersions cvs,
      .leaf [.s name]]
  | .version3 pkg ue5 ev format cvs name =>
    .node [.leaf [.n 1, .n pkg.toNat, .n ue5.toNat], .leaf ev.feed, .leaf [.n format.toNat],
      treeVersions cvs, .leaf [.s name]]

/-- `DeserializedGameVersion` (derived, `src/game_version.rs` 32-38). -/
def DeserializedGameVersion.feed : DeserializedGameVersion → List Tok
  | .default => [.n 0]
  | .palworld c => [.n 1, .n c.toI8.toUInt8.toNat]

/-- `GvasFile` (derived, `src/lib.rs` 330-343). -/
def GvasFile.tree (f : GvasFile) : Tree :=
  .node [.leaf f.gameVersion.feed, f.header.tree, .umap (treeStrProps f.properties)]

/-- `==` on files (derived, `src/lib.rs` 330). -/
def GvasFile.eqv (f g : GvasFile) : Bool := f.tree.eqv g.tree

end Gvas
