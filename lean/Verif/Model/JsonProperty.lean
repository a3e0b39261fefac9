import Verif.Model.JsonDirect
import Verif.Model.JsonPretty

/-!
# Properties by themselves as JSON text

The tests save and load single properties (`serde_json` in
`tests/serde_tests/serde_json_template.rs` 43-58 with `T = Property`).  serde and serde_json are not
part of the repository and modelled from knowledge of their sources.
-/

namespace Gvas

/-- `serde_json::to_string` of a property (`#[derive(Serialize)]`, `src/properties/mod.rs` 489-495). -/
def Property.toText (t : FloatText) (p : Property) : String := String.ofList (p.toS.text t)

/-- `Deserialize for Property` (`src/properties/mod.rs` 489-495) from text with the given structure,
in which names may be repeated. -/
def Property.ofRaw (j : J) : Option Property := @Property.ofJson ⟨uniqueField⟩ j.depth j

/-- `serde_json::from_str::<Property>` (`tests/serde_tests/serde_json_template.rs` 53-56).  Property is
an internally tagged enum, so everything in it is read (into a buffer of serde), and all of it counts
for the limit of the nesting. -/
def Property.ofStr (s : String) : Option Property := do
  let (j, r) ← Text.value 127 (Text.skip s.toList)
  if (Text.skip r).isEmpty then Property.ofRaw j else none

/-- `serde_json::from_value::<Property>` of what `serde_json::from_str::<Value>` gives. -/
def Property.ofText (s : String) : Option Property :=
  (J.ofText s).bind fun j => Property.ofJson j.depth j

end Gvas
