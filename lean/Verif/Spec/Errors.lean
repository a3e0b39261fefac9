import Verif.Spec.Unicode
import Verif.Spec.Wf

/-!
# Specification vocabulary: what an error says about the input

`Describes hints data e` spells out, for every error, the fact about the bytes `data` that the error
reports.  Positions count from the beginning of `data`; some errors point at the beginning of the
offending item, others behind it, as the crate does.
-/

namespace Gvas.Spec

open Unicode

/-- The bytes `b` stand in `data` from position `p` on. -/
def At (data : Bytes) (p : Nat) (b : Bytes) : Prop :=
  ∃ pre post, data = pre ++ (b ++ post) ∧ pre.length = p

/-- The `w` bytes from position `p` on are the number `n`. -/
def NumAt (data : Bytes) (p w n : Nat) : Prop := ∃ b, LittleEndian w n b ∧ At data p b

/-- The string `t` is stored in `data` from position `p` on. -/
def StrAt (data : Bytes) (p : Nat) (t : String) : Prop :=
  ∃ b, Stored 131072 (some t) b ∧ At data p b

/-- The enums that are read from texts, with their least and greatest value. -/
def textEnums : List (String × Int × Int) :=
  [("gvas::properties::text_property::TextHistoryType", -1, 13),
   ("gvas::properties::text_property::FormatArgumentType", 0, 5),
   ("gvas::properties::text_property::RoundingMode", 0, 6),
   ("gvas::properties::text_property::DateTimeStyle", 0, 4),
   ("gvas::properties::text_property::TransformType", 0, 1)]

/-- What the messages about headers report: the number at a position, and that it is not among
those supported. -/
inductive HeaderFault (data : Bytes) : String → Prop
  | fileType (n : Nat) : NumAt data 0 4 n → n ≠ 0x53415647 →
      HeaderFault data ("File type " ++ toString n ++ " not recognized")
  | version (n : Nat) : NumAt data 4 4 n → n ≠ 2 → n ≠ 3 →
      HeaderFault data ("GVAS version " ++ toString n ++ " not supported")
  | package (n : Nat) : NumAt data 8 4 n → (n < 517 ∨ 525 < n) →
      HeaderFault data ("Package file version " ++ toString n ++ " not supported")
  | ue5 (n : Nat) : NumAt data 4 4 3 → NumAt data 12 4 n → (n < 1000 ∨ 1009 < n) →
      HeaderFault data ("UE5 Package file version " ++ toString n ++ " is not supported")
  | format (p n : Nat) (branch : String) : NumAt data 4 4 2 ∧ p = 22 ∨ NumAt data 4 4 3 ∧ p = 26 →
      (∃ b, Stored 131072 (some branch) b ∧ At data p b ∧ NumAt data (p + b.length) 4 n) → n ≠ 3 →
      HeaderFault data ("Custom version format " ++ toString n ++ " not supported")

/-- What is true of the input `data` if reading it reports the error. -/
def Describes (hints : String → Option String) (data : Bytes) : Err → Prop
  | .invalidHeader msg => HeaderFault data msg
  -- a fixed size behind which `pos` is, or a length declared in a header before `pos`, where a
  -- body of the actual size begins
  | .invalidValueSize expected actual pos => expected ≠ actual ∧
      ((expected ∈ [0, 1, 2, 4, 8] ∧ ∃ q, pos = q + 8 ∧ NumAt data q 8 actual) ∨
       (∃ q, NumAt data q 4 expected ∧ q + 9 ≤ pos ∧ NumAt data (pos - 1) 1 0 ∧
         pos + actual ≤ data.length))
  | .invalidString len pos => NumAt data pos 4 len.toUInt32.toNat ∧
      (len.toInt = 0 ∨ len.toInt < -131072 ∨ 131072 < len.toInt)
  -- the length, as many units as it says, the last of which is `t`
  | .invalidStringTerminator t pos => t ≠ 0 ∧ ∃ q n, 1 ≤ n ∧ n ≤ 131072 ∧
      ((NumAt data q 4 n ∧ pos = q + 4 + n ∧ NumAt data (pos - 1) 1 t.toNat) ∨
       (NumAt data q 4 (2 ^ 32 - n) ∧ pos = q + 4 + 2 * n ∧ NumAt data (pos - 2) 2 t.toNat))
  | .invalidBoolean v pos => 2 ≤ v.toNat ∧ ∃ q,
      (pos = q + 1 ∧ NumAt data q 1 v.toNat) ∨ (pos = q + 4 ∧ NumAt data q 4 v.toNat)
  | .missingHint struct path pos => struct = "StructProperty" ∧ hints path = none ∧
      pos ≤ data.length
  -- an element that cannot be in a container, an element of a type that is not known (it is named
  -- in the input), or an array of structs of another size than is stored before it
  | .invalidProperty reason pos => pos ≤ data.length ∧
      (reason ∈ ["ArrayProperty is not supported in arrays", "SetProperty is not supported in arrays",
         "MapProperty is not supported in arrays"] ∨
       (reason ∉ knownTypes ∧ ∃ q, q < pos ∧ StrAt data q reason) ∨
       (∃ actual size q, actual ≠ size ∧ reason = toString actual ++ " != " ++ toString size ∧
         NumAt data q 8 size ∧ q + 8 + actual ≤ pos))
  | .invalidEnumValue name v pos => ∃ q lo hi, (name, lo, hi) ∈ textEnums ∧
      (v.toInt < lo ∨ hi < v.toInt) ∧ pos = q + 1 ∧ NumAt data q 1 v.toUInt8.toNat
  | .invalidArrayIndex v pos => v ≠ 0 ∧ NumAt data pos 4 v.toNat
  | .invalidTerminator v pos => v ≠ 0 ∧ NumAt data pos 1 v.toNat
  -- a length and as many units, the last of which is 0, that are not the encoding of any text
  | .fromUtf8 pos => ∃ n len body, 1 ≤ n ∧ n ≤ 131072 ∧ LittleEndian 4 n len ∧
      body.length + 1 = n ∧ At data pos (len ++ body ++ [0]) ∧ ∀ t, ¬ Narrow t (len ++ body ++ [0])
  | .fromUtf16 pos => ∃ n len body, 1 ≤ n ∧ n ≤ 131072 ∧ LittleEndian 4 (2 ^ 32 - n) len ∧
      body.length + 2 = 2 * n ∧ At data pos (len ++ body ++ [0, 0]) ∧
      ∀ t, ¬ Wide t (len ++ body ++ [0, 0])
  | .eof => True
  | .missingArgument _ _ => False
  | .serializeInvalidValue _ => False
  | .io => False

/-- What is true of the input `data` if reading it panics at position `pos` with the message. -/
inductive Blames (debug : Bool) (data : Bytes) (pos : Nat) : String → Prop
  -- a separator that is not zero
  | separator (q t : Nat) : pos = q + 1 → NumAt data q 1 t → t ≠ 0 →
      Blames debug data pos "assertion `left == right` failed"
  -- an array of structs of another type than it should be
  | inner (q : Nat) (b : Bytes) (t : String) : pos = q + b.length → Stored 131072 (some t) b →
      At data q b → t ≠ "StructProperty" → Blames debug data pos "assertion `left == right` failed"
  -- a field of a struct, named at `q`, that was there before or whose index (only names have one)
  -- is not zero
  | field (q : Nat) (b : Bytes) (name : String) : debug = true → pos ≤ data.length →
      Stored 131072 (some name) b → At data q b →
      (∃ q', q' < q ∧ StrAt data q' name) ∨
      (∃ t n, Stored 131072 (some "NameProperty") t ∧ At data (q + b.length) t ∧
        NumAt data (q + b.length + t.length + 4) 4 n ∧ n ≠ 0 ∧ q + b.length + t.length + 8 ≤ pos) →
      Blames debug data pos "assertion `left == right` failed"
  | index (q n : Nat) : pos = q + 4 → NumAt data q 4 n → n ≠ 0 →
      Blames debug data pos "Expected array_index value zero"
  -- a negative count
  | capacity (q n : Nat) : pos = q + 4 → NumAt data q 4 n → 2 ^ 31 ≤ n →
      Blames debug data pos "capacity overflow"
  -- kinds of arguments and texts
  | gender (q : Nat) : pos = q + 1 → NumAt data q 1 5 → Blames debug data pos "not implemented"
  | generator (q : Nat) : pos = q + 1 → NumAt data q 1 12 →
      Blames debug data pos "not implemented: unimplemented history type: TextGenerator"
  | raw (q : Nat) : pos = q + 1 → NumAt data q 1 13 →
      Blames debug data pos "not implemented: unimplemented history type: RawText"
  -- a byte property of length 0, or a container that is too small for the elements it counts
  | small (q len : Nat) : debug = true → NumAt data q 4 len → q + 4 ≤ pos →
      (len = 0 ∨ ∃ q' count, q < q' ∧ q' + 4 ≤ pos ∧ NumAt data q' 4 count ∧ 0 < count ∧
        len < count + 8) →
      Blames debug data pos "attempt to subtract with overflow"

/-- What is wrong with the frame of a Palworld save (two numbers, the letters `PlZ` and the kind of
compression) at position `start` of a stream. -/
inductive FrameFault (start : Nat) (input : Bytes) : Err → Prop
  | short : input.length < 11 → FrameFault start input .eof
  | kindless : input.length = 11 → At input 8 [0x50, 0x6C, 0x5A] → FrameFault start input .eof
  | magic (m : Bytes) : m.length = 3 → At input 8 m → m ≠ [0x50, 0x6C, 0x5A] →
      FrameFault start input
        (.invalidHeader ("Invalid PlZ magic " ++ toString (m.map UInt8.toNat)))
  | kind (v : Int8) : At input 8 [0x50, 0x6C, 0x5A, v.toUInt8] → v.toInt ∉ [0x30, 0x31, 0x32] →
      FrameFault start input
        (.invalidEnumValue "gvas::game_version::PalworldCompressionType" v (start + 12))

end Gvas.Spec
