import Verif.Model.File
import Verif.Spec.Str

/-!
# Specification vocabulary: valid headers
-/

namespace Gvas.Spec

/-- The parts common to both header versions are valid: custom version format 3, a table of fewer
than 2^32 versions with distinct GUIDs, strings within the length limit. -/
structure HeaderTailOK (ev : FEngineVersion) (format : UInt32) (cvs : List (Guid × UInt32))
    (name : String) : Prop where
  format : format = 3
  branch : StrOK ev.branch
  distinct : (cvs.map Prod.fst).Nodup
  count : cvs.length < 2 ^ 32
  name : StrOK name

/-- A header is valid. -/
def HeaderOK : GvasHeader → Prop
  | .version2 pkg ev format cvs name =>
    0x205 ≤ pkg.toNat ∧ pkg.toNat ≤ 0x20D ∧ HeaderTailOK ev format cvs name
  | .version3 pkg ue5 ev format cvs name =>
    0x205 ≤ pkg.toNat ∧ pkg.toNat ≤ 0x20D ∧ 1000 ≤ ue5.toNat ∧ ue5.toNat ≤ 1009 ∧
      HeaderTailOK ev format cvs name

end Gvas.Spec
