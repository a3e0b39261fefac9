import Verif.Model.JsonText

/-!
# Loading JSON text without a `serde_json::Value` in between

`serde_json::from_str::<GvasFile>` (`tests/serde_tests/serde_json_round_trip.rs` 11).  The tagged and
flattened parts of a file are buffered by serde, which keeps repeated names; the outermost object is
read straight from the text.  Differences to loading by way of a `Value` (`GvasFile.ofText`):

* a field of a struct that is repeated is an error (`duplicate_field` of serde's derived code), so is
  a repeated tag (serde's `TaggedContentVisitor`);
* of two entries of an object that could be a flattened variant the first is taken (serde's
  `FlatMapDeserializer`), so the first of two with the same name;
* entries of the outermost object that are no fields of `GvasFile` are skipped
  (`Deserializer::ignore_value`, serde_json): their nesting is not limited, and their numbers and
  `\u` escapes need not stand for anything.

serde and serde_json are not part of the repository and modelled from knowledge of their sources.
Errors are `none` without their text; a panic of the GUID parser counts as one (see
`Verif.Model.JsonLoad` for these).
-/

namespace Gvas

/-- The value of a field in a derived `visit_map`, which refuses a field that is repeated. -/
def uniqueField (es : List (String × J)) (k : String) : Option (Option J) :=
  match es.filter fun e => e.1 == k with
  | [] => some none
  | [e] => some (some e.2)
  | _ => none

/-- `Deserialize for GvasFile` (`src/lib.rs` 331-343) from text with the given structure, in which
names may be repeated. -/
def GvasFile.ofRaw (j : J) : Option GvasFile := @GvasFile.ofJson ⟨uniqueField⟩ j

namespace Text

/-- Skip a string up to the closing quote (`ignore_str` and `ignore_escape`, serde_json); no more
than the given number of characters and escapes. -/
def skipChars : Nat → List Char → Option (List Char)
  | 0, _ => none
  | _ + 1, [] => none
  | n + 1, c :: r =>
    if c = '"' then some r
    else if c = '\\' then
      match r with
      | [] => none
      | e :: r =>
        if e = 'u' then do
          let (_, r) ← hex4 r
          skipChars n r
        else if e ∈ ['"', '\\', '/', 'b', 'f', 'n', 'r', 't'] then skipChars n r
        else none
    else if c.toNat < 32 then none
    else skipChars n r

/-- Skip a string with its quotes. -/
def skipString : List Char → Option (List Char)
  | '"' :: r => skipChars r.length r
  | _ => none

/-- Skip a value that is neither an array nor an object (`ignore_value`, `ignore_number`,
serde_json). -/
def skipScalar (cs : List Char) : Option (List Char) :=
  match cs with
  | 'n' :: 'u' :: 'l' :: 'l' :: r => some r
  | 't' :: 'r' :: 'u' :: 'e' :: r => some r
  | 'f' :: 'a' :: 'l' :: 's' :: 'e' :: r => some r
  | '"' :: _ => skipString cs
  | _ => (signed cs).map Prod.snd

/-- Skip the elements of an array up to the closing bracket; no more than the given number. -/
def skipItems (value : List Char → Option (List Char)) : Nat → List Char → Option (List Char)
  | 0, _ => none
  | n + 1, cs => do
    let cs ← value (skip cs)
    match skip cs with
    | ']' :: r => return r
    | ',' :: r => skipItems value n r
    | _ => none

/-- Skip the entries of an object up to the closing brace; no more than the given number. -/
def skipMembers (value : List Char → Option (List Char)) : Nat → List Char → Option (List Char)
  | 0, _ => none
  | n + 1, cs => do
    let cs ← skipString (skip cs)
    match skip cs with
    | ':' :: cs => do
      let cs ← value (skip cs)
      match skip cs with
      | '}' :: r => return r
      | ',' :: r => skipMembers value n r
      | _ => none
    | _ => none

/-- Skip a value (`ignore_value`, serde_json), nested no deeper than the given number: this is a
bound for the model only, never met when it is the length of the text. -/
def skipValue : Nat → List Char → Option (List Char)
  | 0, cs => skipScalar cs
  | d + 1, cs =>
    match cs with
    | '[' :: r =>
      match skip r with
      | ']' :: r => some r
      | _ => skipItems (skipValue d) r.length r
    | '{' :: r =>
      match skip r with
      | '}' :: r => some r
      | _ => skipMembers (skipValue d) r.length r
    | _ => skipScalar cs

/-- The fields of `GvasFile` (`src/lib.rs` 331-343). -/
def fileFields : List String := ["deserialized_game_version", "header", "properties"]

/-- The value of an entry of the outermost object (derived `visit_map` of `GvasFile`, `src/lib.rs`
331-343): that of a field is read, any other is skipped (`IgnoredAny`).  Fields may be nested `d` deep. -/
def fileEntry (d : Nat) (k : String) (cs : List Char) : Option (List (String × J) × List Char) :=
  if k ∈ fileFields then (value d cs).map fun r => ([(k, r.1)], r.2)
  else (skipValue cs.length cs).map fun r => ([], r)

/-- The entries of the outermost object up to the closing brace (derived `visit_map` of `GvasFile`),
no more than the given number. -/
def fileMembers (d : Nat) : Nat → List Char → Option (List (String × J) × List Char)
  | 0, _ => none
  | n + 1, cs => do
    let (k, cs) ← string (skip cs)
    match skip cs with
    | ':' :: cs => do
      let (e, cs) ← fileEntry d k (skip cs)
      match skip cs with
      | '}' :: r => return (e, r)
      | ',' :: r => do
        let (l, r) ← fileMembers d n r
        return (e ++ l, r)
      | _ => none
    | _ => none

/-- The outermost value of a file (`deserialize_struct`, serde_json): an array with the fields in
order or an object.  It counts for the limit of the nesting, which is 127. -/
def fileValue (d : Nat) (cs : List Char) : Option (J × List Char) :=
  match cs with
  | '[' :: r => array (value d) r
  | '{' :: r =>
    match skip r with
    | '}' :: r => some (.obj [], r)
    | _ => do
      let (l, r) ← fileMembers d r.length r
      return (.obj l, r)
  | _ => none

end Text

/-- `serde_json::from_str::<GvasFile>` (`tests/serde_tests/serde_json_round_trip.rs` 11). -/
def GvasFile.ofStr (s : String) : Option GvasFile := do
  let (j, r) ← Text.fileValue 126 (Text.skip s.toList)
  if (Text.skip r).isEmpty then GvasFile.ofRaw j else none

end Gvas
