import Verif.Spec.Wf
import Verif.Spec.Header

/-!
# Specification vocabulary: files the format can represent, and what zlib must do
-/

namespace Gvas.Spec

/-- The environment in which the properties of a file are read. -/
def fileEnv (debug : Bool) (hints : String → Option String) (h : GvasHeader) : Env :=
  { debug := debug, hints := hints, cv := h.customVersions }

/-- A file is representable: valid header, distinct names that fit and are not the end marker, and
representable properties. -/
def FileOK (debug : Bool) (hints : String → Option String) (f : GvasFile) : Prop :=
  HeaderOK f.header ∧ (f.properties.map Prod.fst).Nodup ∧
    ∀ e ∈ f.properties, StrOK e.1 ∧ e.1 ≠ "None" ∧ HeadOK (fileEnv debug hints f.header) [e.1] e.2

/-- Every property of the file takes less than 4 GiB when it is written, whatever they take
together. -/
def EachFits (f : GvasFile) : Prop :=
  ∀ e ∈ f.properties, ∀ o, Property.write f.header.customVersions true e.2 = .ok o →
    o.bytes.length < 2 ^ 32

/-- What is assumed of zlib: decompression inverts compression at every level and stops at the end
of the compressed stream. -/
structure Lawful (z : Codec) : Prop where
  once : ∀ lvl x rest, z.inflate (z.deflate lvl x ++ rest) = (x, true)
  twice : ∀ a b x rest, z.inflate2 (z.deflate a (z.deflate b x) ++ rest) = some x

end Gvas.Spec
