import Verif.Model.Types

/-!
# Equality of map keys

`MapProperty` keys are `Property` values in an `IndexMap`.  Two keys are the
same entry when their hashes agree and `==` holds.  `==` is derived structural
equality with `OrderedFloat` equality on floats (all NaNs equal, `+0 = -0`) and
order-insensitive equality on nested maps, while the hash of a nested map is
order-sensitive (`src/types.rs` 246-257).  With the hash idealised to the data
it is fed, two keys are the same entry iff they agree structurally, in order,
up to `OrderedFloat` equality.  `feed` is that data.  Simplified: `feed` also has
the number of entries of a map inside a key, which `HashableIndexMap` does not
feed; `Verif.Props.SameEntry` (C101) shows that this matters only for keys that
hold a map with keys that hold maps.
-/

namespace Gvas

/-- One item fed to the hasher. -/
inductive Tok where
  | n (x : Nat)
  | s (x : String)
deriving DecidableEq, Repr

/-- `OrderedFloat<f32>`'s equality class (ordered-float; used in
`src/properties/struct_types.rs` 17-27): NaNs are identified, and so are the
zeros. -/
def F32.canon (f : F32) : Nat :=
  if 0x7F800000 < f.bits.toNat % 0x80000000 then 0x7FC00000
  else if f.bits.toNat = 0x80000000 then 0 else f.bits.toNat

/-- `OrderedFloat<f64>`'s equality class. -/
def F64.canon (f : F64) : Nat :=
  if 0x7FF0000000000000 < f.bits.toNat % 0x8000000000000000 then 0x7FF8000000000000
  else if f.bits.toNat = 0x8000000000000000 then 0 else f.bits.toNat

/-- Feed of an `Option<String>` (derived `Hash`). -/
def feedOpt : Option String → List Tok
  | none => [.n 0]
  | some s => [.n 1, .s s]

/-- Feed of a bool. -/
def feedBool (b : Bool) : List Tok := [.n b.toNat]

/-- Feed of a byte value (derived `Hash`, `src/properties/int_property.rs` 139-147). -/
def BytePropertyValue.feed : BytePropertyValue → List Tok
  | .byte v => [.n 0, .n v.toNat]
  | .namespaced v => [.n 1, .s v]

/-- Feed of a delegate (`src/properties/delegate_property.rs` 12-20). -/
def Delegate.feed (d : Delegate) : List Tok := [.s d.object, .s d.functionName]

/-- Feed of formatting options (`src/properties/text_property.rs` 880-899). -/
def NumberFormattingOptions.feed (o : NumberFormattingOptions) : List Tok :=
  [.n o.alwaysIncludeSign.toNat, .n o.useGrouping.toNat, .n o.roundingMode.toI8.toUInt8.toNat,
   .n o.minimumIntegralDigits.toUInt32.toNat, .n o.maximumIntegralDigits.toUInt32.toNat,
   .n o.minimumFractionalDigits.toUInt32.toNat, .n o.maximumFractionalDigits.toUInt32.toNat]

/-- Feed of optional formatting options. -/
def feedFormatOptions : Option NumberFormattingOptions → List Tok
  | none => [.n 0]
  | some o => .n 1 :: o.feed

mutual
/-- Feed of a text (derived `Hash`, `src/properties/text_property.rs` 65). -/
def FText.feed : FText → List Tok
  | .mk flags h => .n flags.toNat :: FTextHistory.feed h
/-- Feed of a text history (derived `Hash`, 174). -/
def FTextHistory.feed : FTextHistory → List Tok
  | .empty => [.n 0]
  | .none s => .n 1 :: feedOpt s
  | .base a b c => .n 2 :: (feedOpt a ++ feedOpt b ++ feedOpt c)
  | .namedFormat src args => .n 3 :: (FText.feed src ++ (.n args.length :: feedNamedArgs args))
  | .orderedFormat src args => .n 4 :: (FText.feed src ++ (.n args.length :: feedArgs args))
  | .argumentFormat src args =>
    .n 5 :: (FText.feed src ++ (.n args.length :: feedNamedArgs args))
  | .asNumber v o c => .n 6 :: (FormatArgumentValue.feed v ++ feedFormatOptions o ++ feedOpt c)
  | .asPercent v o c => .n 7 :: (FormatArgumentValue.feed v ++ feedFormatOptions o ++ feedOpt c)
  | .asCurrency a v o c =>
    .n 8 :: (feedOpt a ++ FormatArgumentValue.feed v ++ feedFormatOptions o ++ feedOpt c)
  | .asDate t st c => [.n 9, .n t.toNat, .n st.toI8.toUInt8.toNat, .s c]
  | .asTime t st z c => [.n 10, .n t.toNat, .n st.toI8.toUInt8.toNat, .s z, .s c]
  | .asDateTime t ds ts z c =>
    [.n 11, .n t.toNat, .n ds.toI8.toUInt8.toNat, .n ts.toI8.toUInt8.toNat, .s z, .s c]
  | .transform src tt => .n 12 :: (FText.feed src ++ [.n tt.toI8.toUInt8.toNat])
  | .stringTableEntry a b => [.n 13, .s a, .s b]
/-- Feed of a format argument (derived `Hash`, 734). -/
def FormatArgumentValue.feed : FormatArgumentValue → List Tok
  | .int v => [.n 0, .n v.toUInt32.toNat]
  | .uint v => [.n 1, .n v.toNat]
  | .float v => [.n 2, .n v.canon]
  | .double v => [.n 3, .n v.canon]
  | .text t => .n 4 :: FText.feed t
  | .int64 v => [.n 5, .n v.toUInt64.toNat]
  | .uint64 v => [.n 6, .n v.toNat]
/-- Feed of an argument list. -/
def feedArgs : List FormatArgumentValue → List Tok
  | [] => []
  | v :: l => FormatArgumentValue.feed v ++ feedArgs l
/-- Feed of an argument map. -/
def feedNamedArgs : List (String × FormatArgumentValue) → List Tok
  | [] => []
  | (k, v) :: l => .s k :: (FormatArgumentValue.feed v ++ feedNamedArgs l)
end

mutual
/-- Feed of a property (derived `Hash`, `src/properties/mod.rs` 494). -/
def Property.feed : Property → List Tok
  | .array v => .n 0 :: ArrayProperty.feed v
  | .bool v => [.n 1, .n v.toNat]
  | .byte name v => .n 2 :: (feedOpt name ++ v.feed)
  | .double v => [.n 3, .n v.canon]
  | .enum t v => .n 4 :: (feedOpt t ++ [.s v])
  | .float v => [.n 5, .n v.canon]
  | .int16 v => [.n 6, .n v.toUInt16.toNat]
  | .int64 v => [.n 7, .n v.toUInt64.toNat]
  | .int8 v => [.n 8, .n v.toUInt8.toNat]
  | .int v => [.n 9, .n v.toUInt32.toNat]
  | .map v => .n 10 :: MapProperty.feed v
  | .name i v => .n 11 :: .n i.toNat :: feedOpt v
  | .object v => [.n 12, .s v]
  | .delegate v => .n 13 :: v.feed
  | .multicastInlineDelegate v => .n 14 :: .n v.length :: v.flatMap Delegate.feed
  | .multicastSparseDelegate v => .n 15 :: .n v.length :: v.flatMap Delegate.feed
  | .fieldPath v => .n 16 :: .n v.path.length :: (v.path.map Tok.s ++ [.s v.resolvedOwner])
  | .set t fl ps => .n 17 :: .s t :: .n fl.toNat :: .n ps.length :: feedProps ps
  | .str v => .n 18 :: feedOpt v
  | .struct g t v => .n 19 :: (g.bytes.map (fun b => Tok.n b.toNat) ++
      (.s t :: StructPropertyValue.feed v))
  | .structValue v => .n 20 :: StructPropertyValue.feed v
  | .text v => .n 21 :: v.feed
  | .uint16 v => [.n 22, .n v.toNat]
  | .uint32 v => [.n 23, .n v.toNat]
  | .uint64 v => [.n 24, .n v.toNat]
  | .unknown name raw => .n 25 :: .s name :: .n raw.length :: raw.map (fun b => Tok.n b.toNat)
/-- Feed of an array (derived `Hash`, `src/properties/array_property.rs` 29). -/
def ArrayProperty.feed : ArrayProperty → List Tok
  | .bools v => .n 0 :: .n v.length :: v.map (fun b => Tok.n b.toNat)
  | .bytes v => .n 1 :: .n v.length :: v.map (fun b => Tok.n b.toNat)
  | .enums v => .n 2 :: .n v.length :: v.map Tok.s
  | .floats v => .n 3 :: .n v.length :: v.map (fun b => Tok.n b.canon)
  | .ints v => .n 4 :: .n v.length :: v.map (fun b => Tok.n b.toUInt32.toNat)
  | .names v => .n 5 :: .n v.length :: v.flatMap feedOpt
  | .strings v => .n 6 :: .n v.length :: v.flatMap feedOpt
  | .structs f t g v => .n 7 :: .s f :: .s t :: (g.bytes.map (fun b => Tok.n b.toNat) ++
      (.n v.length :: feedStructs v))
  | .properties t v => .n 8 :: .s t :: .n v.length :: feedProps v
/-- Feed of a map (derived `Hash`, `src/properties/map_property.rs` 24). -/
def MapProperty.feed : MapProperty → List Tok
  | .enumBool v => .n 0 :: .n v.length :: v.flatMap (fun e => [Tok.s e.1, .n e.2.toNat])
  | .enumInt v => .n 1 :: .n v.length :: v.flatMap (fun e => [Tok.s e.1, .n e.2.toUInt32.toNat])
  | .enumProperty t v => .n 2 :: .s t :: .n v.length :: feedStrProps v
  | .nameBool v => .n 3 :: .n v.length :: v.flatMap (fun e => [Tok.s e.1, .n e.2.toNat])
  | .nameInt v => .n 4 :: .n v.length :: v.flatMap (fun e => [Tok.s e.1, .n e.2.toUInt32.toNat])
  | .nameProperty t v => .n 5 :: .s t :: .n v.length :: feedStrProps v
  | .properties kt vt fl v => .n 6 :: .s kt :: .s vt :: .n fl.toNat :: .n v.length :: feedPairs v
  | .strBool v => .n 7 :: .n v.length :: v.flatMap (fun e => [Tok.s e.1, .n e.2.toNat])
  | .strInt v => .n 8 :: .n v.length :: v.flatMap (fun e => [Tok.s e.1, .n e.2.toUInt32.toNat])
  | .strProperty t v => .n 9 :: .s t :: .n v.length :: feedStrProps v
  | .strStr v => .n 10 :: .n v.length :: v.flatMap (fun e => Tok.s e.1 :: feedOpt e.2)
/-- Feed of a struct value (derived `Hash`, `src/properties/struct_property.rs` 53). -/
def StructPropertyValue.feed : StructPropertyValue → List Tok
  | .vector2F x y => [.n 0, .n x.canon, .n y.canon]
  | .vector2D x y => [.n 1, .n x.canon, .n y.canon]
  | .vectorF x y z => [.n 2, .n x.canon, .n y.canon, .n z.canon]
  | .vectorD x y z => [.n 3, .n x.canon, .n y.canon, .n z.canon]
  | .rotatorF x y z => [.n 4, .n x.canon, .n y.canon, .n z.canon]
  | .rotatorD x y z => [.n 5, .n x.canon, .n y.canon, .n z.canon]
  | .quatF x y z w => [.n 6, .n x.canon, .n y.canon, .n z.canon, .n w.canon]
  | .quatD x y z w => [.n 7, .n x.canon, .n y.canon, .n z.canon, .n w.canon]
  | .dateTime t => [.n 8, .n t.toNat]
  | .timespan t => [.n 9, .n t.toNat]
  | .guid g => .n 10 :: g.bytes.map (fun b => Tok.n b.toNat)
  | .linearColor r g b a => [.n 11, .n r.canon, .n g.canon, .n b.canon, .n a.canon]
  | .intPoint x y => [.n 12, .n x.toUInt32.toNat, .n y.toUInt32.toNat]
  | .gameplayTagContainer tags => .n 13 :: .n tags.length :: tags.map Tok.s
  | .customStruct fs => .n 14 :: .n fs.length :: feedFields fs
/-- Feed of a property list. -/
def feedProps : List Property → List Tok
  | [] => []
  | p :: l => Property.feed p ++ feedProps l
/-- Feed of a list of struct values. -/
def feedStructs : List StructPropertyValue → List Tok
  | [] => []
  | p :: l => StructPropertyValue.feed p ++ feedStructs l
/-- Feed of string keyed entries. -/
def feedStrProps : List (String × Property) → List Tok
  | [] => []
  | (k, p) :: l => .s k :: (Property.feed p ++ feedStrProps l)
/-- Feed of property keyed entries. -/
def feedPairs : List (Property × Property) → List Tok
  | [] => []
  | (k, p) :: l => Property.feed k ++ (Property.feed p ++ feedPairs l)
/-- Feed of struct fields. -/
def feedFields : List (String × List Property) → List Tok
  | [] => []
  | (k, ps) :: l => .s k :: .n ps.length :: (feedProps ps ++ feedFields l)
end

/-- Do two properties denote the same map key (see the header of this file)? -/
def sameKey (a b : Property) : Bool := a.feed == b.feed

end Gvas
