import Verif.Model.File

/-! # Concrete save bytes, for the examples beside the theorems -/

namespace Gvas.Spec

/-- An ASCII string as stored: length with terminator, bytes, zero. -/
def ascii (s : String) : Bytes :=
  leBytes 4 (s.toList.length + 1) ++ s.toList.map (fun c => UInt8.ofNat c.toNat) ++ [0]

/-- A version 2 header with the given custom versions. -/
def headerBytes (cvs : List (Guid × UInt32)) : Bytes :=
  [0x47, 0x56, 0x41, 0x53, 2, 0, 0, 0, 0x05, 0x02, 0, 0, 4, 0, 27, 0, 2, 0, 0, 0, 0, 0] ++
    ascii "++UE4" ++ [3, 0, 0, 0] ++ leBytes 4 cvs.length ++
    cvs.flatMap (fun e => e.1.bytes ++ leBytes 4 e.2.toNat) ++ ascii "Save"

/-- A save with the given property bytes between header and `None`. -/
def saveBytes (props : Bytes) : Bytes := headerBytes [] ++ props ++ ascii "None" ++ [0, 0, 0, 0]

/-- A property named `a` holding the 32 bit integer 7. -/
def intBytes : Bytes :=
  ascii "a" ++ ascii "IntProperty" ++ [4, 0, 0, 0, 0, 0, 0, 0, 0] ++ [7, 0, 0, 0]

/-- The failure of an outcome, if it is one. -/
def failure {α : Type} : Res α → Option Fail
  | .ok _ => none
  | .bad f => some f

/-- The names of the properties read. -/
def namesRead : Res (GvasHeader × List (String × Property)) → List String
  | .ok (_, ps) => ps.map Prod.fst
  | .bad _ => []

theorem eq_bad {α : Type} {r : Res α} {f : Fail} (h : failure r = some f) : r = .bad f := by
  cases r with
  | ok a => simp [failure] at h
  | bad g => simp [failure] at h; rw [h]

theorem eq_ok {α : Type} {r : Res α} (h : failure r = none) : ∃ a, r = .ok a := by
  cases r with
  | ok a => exact ⟨a, rfl⟩
  | bad g => simp [failure] at h

/-- No hints. -/
def noHints : String → Option String := fun _ => none

/-- A property named `a`: a map with one entry, from the integer 1 to a headerless struct, which
ends at once. -/
def structMapBytes : Bytes :=
  ascii "a" ++ ascii "MapProperty" ++ [21, 0, 0, 0, 0, 0, 0, 0] ++ ascii "IntProperty" ++
    ascii "StructProperty" ++ [0] ++ [0, 0, 0, 0] ++ [1, 0, 0, 0] ++ [1, 0, 0, 0] ++ ascii "None"

/-- A stand-in for a compression format: the length in the first byte, then the data. -/
def prefixInflate : Bytes → Option Bytes
  | [] => none
  | b :: x => if b.toNat ≤ x.length then some (x.take b.toNat) else none

/-- A decompressor for it. -/
def prefixCodec : Codec where
  inflate x := match prefixInflate x with
    | some d => (d, true)
    | none => ([], false)
  inflate2 := prefixInflate
  deflate _ x := UInt8.ofNat x.length :: x

end Gvas.Spec
