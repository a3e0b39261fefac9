import Verif.Model.File
import Verif.Model.GuidText
import Verif.Model.Writers
import Verif.Props.Scalars
import Verif.Props.Strings
import Verif.Props.Guid
import Verif.Props.GuidExact
import Verif.Props.Versions
import Verif.Props.Construct
import Verif.Props.Depth
import Verif.Props.Duplicates
import Verif.Props.Header
import Verif.Props.Container
import Verif.Props.Converted
import Verif.Props.InARow
import Verif.Props.Broken
import Verif.Props.Rounds
import Verif.Props.Copied
import Verif.Props.Merged
import Verif.Props.Mixed
import Verif.Props.Writers
import Verif.Props.Robust
import Verif.Props.Text
import Verif.Props.RoundTrip
import Verif.Props.Layout
import Verif.Props.File
import Verif.Props.Accept
import Verif.Props.Huge
import Verif.Props.Exact
import Verif.Props.Paths
import Verif.Props.Keys
import Verif.Props.Lengths
import Verif.Props.Size
import Verif.Props.Json
import Verif.Props.Edit
import Verif.Props.Stream
import Verif.Props.Limited
import Verif.Props.Equality
import Verif.Props.Hints
import Verif.Props.Place
import Verif.Props.Grammar
import Verif.Props.Floats
import Verif.Props.JsonScalars
import Verif.Props.Memory
import Verif.Props.Access
import Verif.Props.TextExact
import Verif.Props.Display
import Verif.Props.Large
import Verif.Spec.Layout
import Verif.Spec.LayoutNames
import Verif.Lemmas.Layout
import Verif.Lemmas.LayoutDepth
import Verif.Props.JsonLayout
import Verif.Spec.Unicode
import Verif.Props.Unicode
import Verif.Props.Written
import Verif.Lemmas.EqualSize
import Verif.Lemmas.EqualOk
import Verif.Props.EqualSaves
import Verif.Check.Basic
import Verif.Check.Errors
import Verif.Check.Properties
import Verif.Check.Templates
import Verif.Check.Saves
import Verif.Model.Build
import Verif.Lemmas.Build
import Verif.Props.Build
import Verif.Model.Debug
import Verif.Props.Debug
import Verif.Spec.Errors
import Verif.Lemmas.Errors
import Verif.Lemmas.ErrorsFile
import Verif.Props.Errors
import Verif.Props.Blames
import Verif.Props.Lookahead
import Verif.Props.Zlib
import Verif.Model.JsonLoad
import Verif.Spec.JsonLoad
import Verif.Lemmas.JsonLoad
import Verif.Lemmas.JsonBlame
import Verif.Lemmas.JsonSaved
import Verif.Props.JsonLoad
import Verif.Model.Serde
import Verif.Model.JsonText
import Verif.Spec.JsonText
import Verif.Lemmas.JsonNumber
import Verif.Lemmas.JsonString
import Verif.Lemmas.JsonText
import Verif.Lemmas.Serde
import Verif.Lemmas.JsonWrite
import Verif.Lemmas.JsonKept
import Verif.Props.JsonText
import Verif.Model.JsonDirect
import Verif.Spec.JsonDirect
import Verif.Lemmas.JsonField
import Verif.Lemmas.JsonSkip
import Verif.Lemmas.JsonDirect
import Verif.Props.JsonDirect
import Verif.Spec.Steps
import Verif.Lemmas.Steps
import Verif.Lemmas.Earns
import Verif.Props.Steps
import Verif.Spec.Inside
import Verif.Spec.Nested
import Verif.Spec.Damage
import Verif.Lemmas.Inside
import Verif.Lemmas.Nested
import Verif.Lemmas.Damage
import Verif.Props.Damage
import Verif.Model.Spool
import Verif.Lemmas.Spool
import Verif.Props.Spool
import Verif.Spec.Inflate
import Verif.Lemmas.Inflate
import Verif.Props.Inflate
import Verif.Spec.Element
import Verif.Lemmas.Element
import Verif.Spec.Pointer
import Verif.Lemmas.Pointer
import Verif.Props.Pointer
import Verif.Spec.Part
import Verif.Lemmas.ElementMaps
import Verif.Lemmas.Part
import Verif.Props.Part
import Verif.Lemmas.Truncate
import Verif.Props.Truncate
import Verif.Model.JsonPretty
import Verif.Spec.JsonSpace
import Verif.Lemmas.JsonPretty
import Verif.Props.JsonPretty
import Verif.Model.JsonProperty
import Verif.Lemmas.JsonProperty
import Verif.Props.JsonProperty
import Verif.Spec.Faults
import Verif.Lemmas.Faults
import Verif.Props.Faults
import Verif.Spec.Hints
import Verif.Lemmas.Hints
import Verif.Lemmas.Asks
import Verif.Props.Needs
import Verif.Spec.Strip
import Verif.Lemmas.Strip
import Verif.Props.Moved
import Verif.Props.Reproduced
import Verif.Model.Hash
import Verif.Spec.PlainKeys
import Verif.Lemmas.Hashed
import Verif.Props.SameEntry
import Verif.Spec.Reordered
import Verif.Lemmas.Reordered
import Verif.Lemmas.ReorderedText
import Verif.Lemmas.ReorderedProperty
import Verif.Props.Reordered
import Verif.Spec.MoreEntries
import Verif.Lemmas.MoreEntries
import Verif.Lemmas.MoreEntriesIn
import Verif.Props.MoreEntries
import Verif.Props.DebugTexts
import Verif.Model.DebugTree
import Verif.Spec.Calm
import Verif.Lemmas.DebugText
import Verif.Lemmas.DebugTree
import Verif.Lemmas.DebugTell
import Verif.Props.DebugTree
import Verif.Spec.Shift
import Verif.Lemmas.Shift
import Verif.Props.Shift
import Verif.Spec.Terminator
import Verif.Lemmas.Terminator
import Verif.Props.Terminator
import Verif.Props.Framed
import Verif.Spec.Stretch
import Verif.Lemmas.Stretch
import Verif.Props.Stretch
import Verif.Spec.Message
import Verif.Props.Message
import Verif.Spec.Declared
import Verif.Lemmas.Declared
import Verif.Props.Declared
