import Verif.Model.Equality

/-!
# What is hashed, exactly

`Verif.Model.Key` takes two keys of a map for the same entry if they feed a hasher alike, where a map
inside a key also feeds the number of its entries.  `HashableIndexMap` does not feed this number
(`src/types.rs` 246-257), and indexmap asks for equality (`==`) besides equal hashes.  Here are the
data as they are fed, and the test as indexmap does it (the hash still idealised to these data).
Types without maps inside feed the same as in `Verif.Model.Key`.
-/

namespace Gvas

mutual
/-- What a text feeds (derived `Hash`, `src/properties/text_property.rs` 65). -/
def FText.hashed : FText → List Tok
  | .mk flags h => .n flags.toNat :: FTextHistory.hashed h
/-- What a text history feeds (derived `Hash`, `src/properties/text_property.rs` 174); arguments are
maps (200, 214). -/
def FTextHistory.hashed : FTextHistory → List Tok
  | .namedFormat src args => .n 3 :: (FText.hashed src ++ hashedNamedArgs args)
  | .orderedFormat src args => .n 4 :: (FText.hashed src ++ (.n args.length :: hashedArgs args))
  | .argumentFormat src args => .n 5 :: (FText.hashed src ++ hashedNamedArgs args)
  | .asNumber v o c => .n 6 :: (FormatArgumentValue.hashed v ++ feedFormatOptions o ++ feedOpt c)
  | .asPercent v o c => .n 7 :: (FormatArgumentValue.hashed v ++ feedFormatOptions o ++ feedOpt c)
  | .asCurrency a v o c =>
    .n 8 :: (feedOpt a ++ FormatArgumentValue.hashed v ++ feedFormatOptions o ++ feedOpt c)
  | .transform src tt => .n 12 :: (FText.hashed src ++ [.n tt.toI8.toUInt8.toNat])
  | h => h.feed
/-- What a format argument feeds (derived `Hash`, `src/properties/text_property.rs` 734). -/
def FormatArgumentValue.hashed : FormatArgumentValue → List Tok
  | .text t => .n 4 :: FText.hashed t
  | v => v.feed
/-- What a vector of arguments feeds besides its length. -/
def hashedArgs : List FormatArgumentValue → List Tok
  | [] => []
  | v :: l => FormatArgumentValue.hashed v ++ hashedArgs l
/-- What a map of arguments feeds (`src/types.rs` 246-257). -/
def hashedNamedArgs : List (String × FormatArgumentValue) → List Tok
  | [] => []
  | (k, v) :: l => .s k :: (FormatArgumentValue.hashed v ++ hashedNamedArgs l)
end

mutual
/-- What a property feeds (derived `Hash`, `src/properties/mod.rs` 494). -/
def Property.hashed : Property → List Tok
  | .array v => .n 0 :: ArrayProperty.hashed v
  | .map v => .n 10 :: MapProperty.hashed v
  | .set t fl ps => .n 17 :: .s t :: .n fl.toNat :: .n ps.length :: hashedProps ps
  | .struct g t v => .n 19 :: (g.bytes.map (fun b => Tok.n b.toNat) ++
      (.s t :: StructPropertyValue.hashed v))
  | .structValue v => .n 20 :: StructPropertyValue.hashed v
  | .text v => .n 21 :: v.hashed
  | p => p.feed
/-- What an array feeds (derived `Hash`, `src/properties/array_property.rs` 29). -/
def ArrayProperty.hashed : ArrayProperty → List Tok
  | .structs f t g v => .n 7 :: .s f :: .s t :: (g.bytes.map (fun b => Tok.n b.toNat) ++
      (.n v.length :: hashedStructs v))
  | .properties t v => .n 8 :: .s t :: .n v.length :: hashedProps v
  | a => a.feed
/-- What a map feeds (derived `Hash`, `src/properties/map_property.rs` 24; the entries by
`src/types.rs` 246-257). -/
def MapProperty.hashed : MapProperty → List Tok
  | .enumBool v => .n 0 :: v.flatMap (fun e => [Tok.s e.1, .n e.2.toNat])
  | .enumInt v => .n 1 :: v.flatMap (fun e => [Tok.s e.1, .n e.2.toUInt32.toNat])
  | .enumProperty t v => .n 2 :: .s t :: hashedStrProps v
  | .nameBool v => .n 3 :: v.flatMap (fun e => [Tok.s e.1, .n e.2.toNat])
  | .nameInt v => .n 4 :: v.flatMap (fun e => [Tok.s e.1, .n e.2.toUInt32.toNat])
  | .nameProperty t v => .n 5 :: .s t :: hashedStrProps v
  | .properties kt vt fl v => .n 6 :: .s kt :: .s vt :: .n fl.toNat :: hashedPairs v
  | .strBool v => .n 7 :: v.flatMap (fun e => [Tok.s e.1, .n e.2.toNat])
  | .strInt v => .n 8 :: v.flatMap (fun e => [Tok.s e.1, .n e.2.toUInt32.toNat])
  | .strProperty t v => .n 9 :: .s t :: hashedStrProps v
  | .strStr v => .n 10 :: v.flatMap (fun e => Tok.s e.1 :: feedOpt e.2)
/-- What a struct value feeds (derived `Hash`, `src/properties/struct_property.rs` 53); fields are a
map (85). -/
def StructPropertyValue.hashed : StructPropertyValue → List Tok
  | .customStruct fs => .n 14 :: hashedFields fs
  | v => v.feed
/-- What a vector of properties feeds besides its length. -/
def hashedProps : List Property → List Tok
  | [] => []
  | p :: l => Property.hashed p ++ hashedProps l
/-- What a vector of struct values feeds besides its length. -/
def hashedStructs : List StructPropertyValue → List Tok
  | [] => []
  | p :: l => StructPropertyValue.hashed p ++ hashedStructs l
/-- What the entries of a map with string keys feed (`src/types.rs` 246-257). -/
def hashedStrProps : List (String × Property) → List Tok
  | [] => []
  | (k, p) :: l => .s k :: (Property.hashed p ++ hashedStrProps l)
/-- What the entries of a map with properties for keys feed (`src/types.rs` 246-257). -/
def hashedPairs : List (Property × Property) → List Tok
  | [] => []
  | (k, p) :: l => Property.hashed k ++ (Property.hashed p ++ hashedPairs l)
/-- What the fields of a struct feed (`src/types.rs` 246-257). -/
def hashedFields : List (String × List Property) → List Tok
  | [] => []
  | (k, ps) :: l => .s k :: .n ps.length :: (hashedProps ps ++ hashedFields l)
end

/-- The entry of a key is found (indexmap, `IndexMap::insert_full`, used by
`src/properties/map_property.rs` 468-478): the hashes agree and the keys are equal. -/
def sameEntry (a b : Property) : Bool := a.hashed == b.hashed && a.eqv b

end Gvas
