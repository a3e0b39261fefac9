import Verif.Model.Write

/-!
# Headers and files (`src/lib.rs`), default and Palworld containers
-/

namespace Gvas

/-! ## The header -/

/-- `FILE_TYPE_GVAS` (`src/lib.rs` 111). -/
def fileTypeGvas : UInt32 := UInt32.ofNat (leNat [0x47, 0x56, 0x41, 0x53])

/-- `GvasHeader` (`src/lib.rs` 117-146).  `custom_versions` is an `IndexMap`. -/
inductive GvasHeader where
  | version2 (packageFileVersion : UInt32) (engineVersion : FEngineVersion)
      (customVersionFormat : UInt32) (customVersions : List (Guid × UInt32))
      (saveGameClassName : String)
  | version3 (packageFileVersion packageFileVersionUE5 : UInt32)
      (engineVersion : FEngineVersion) (customVersionFormat : UInt32)
      (customVersions : List (Guid × UInt32)) (saveGameClassName : String)
deriving DecidableEq

/-- `OrdExt::between` (`src/ord_ext.rs`): both ends included. -/
def between (x lo hi : UInt32) : Bool := lo ≤ x && x ≤ hi

/-- An `InvalidHeader` check (`src/lib.rs` 172-176 and the like). -/
def headerCheck (c : Prop) [Decidable c] (msg : String) : R Unit :=
  R.ensure c (R.fail (.invalidHeader msg))

/-- The part of the header behind the package versions (`src/lib.rs` 214-230). -/
def readHeaderTail : R (FEngineVersion × UInt32 × List (Guid × UInt32) × String) := do
  let engineVersion ← FEngineVersion.read
  let format ← readU32
  headerCheck (format = 3) ("Custom version format " ++ toString format.toNat ++ " not supported")
  let n ← readU32
  let vs ← R.replicate FCustomVersion.read n.toNat
  let className ← readString
  return (engineVersion, format, imExtend (fun a b => decide (a = b)) [] vs, className)

/-- `GvasHeader::read` (`src/lib.rs` 170-249). -/
def GvasHeader.read : R GvasHeader := do
  let tag ← readU32
  headerCheck (tag = fileTypeGvas) ("File type " ++ toString tag.toNat ++ " not recognized")
  let version ← readU32
  headerCheck (between version 2 3) ("GVAS version " ++ toString version.toNat ++ " not supported")
  let pkg ← readU32
  headerCheck (between pkg 0x205 0x20D)
    ("Package file version " ++ toString pkg.toNat ++ " not supported")
  if 3 ≤ version then
    let ue5 ← readU32
    headerCheck (between ue5 1000 1009)
      ("UE5 Package file version " ++ toString ue5.toNat ++ " is not supported")
    let (ev, format, cvs, name) ← readHeaderTail
    return .version3 pkg ue5 ev format cvs name
  else
    let (ev, format, cvs, name) ← readHeaderTail
    return .version2 pkg ev format cvs name

/-- The part of the header behind the package versions, written
(`src/lib.rs` 281-287, 303-309). -/
def writeHeaderTail (ev : FEngineVersion) (format : UInt32) (cvs : List (Guid × UInt32))
    (name : String) : Out :=
  ev.write ++ u32O format ++ u32O (UInt32.ofNat cvs.length) ++
    concatOut FCustomVersion.write cvs ++ writeString name

/-- `GvasHeader::write` (`src/lib.rs` 269-314). -/
def GvasHeader.write : GvasHeader → Out
  | .version2 pkg ev format cvs name =>
    u32O fileTypeGvas ++ u32O 2 ++ u32O pkg ++ writeHeaderTail ev format cvs name
  | .version3 pkg ue5 ev format cvs name =>
    u32O fileTypeGvas ++ u32O 3 ++ u32O pkg ++ u32O ue5 ++ writeHeaderTail ev format cvs name

/-- `GvasHeader::get_custom_versions` (`src/lib.rs` 317-326). -/
def GvasHeader.customVersions : GvasHeader → List (Guid × UInt32)
  | .version2 _ _ _ cvs _ => cvs
  | .version3 _ _ _ _ cvs _ => cvs

/-! ## Game versions (`src/game_version.rs`) -/

/-- `GameVersion` (`src/game_version.rs` 8-14). -/
inductive GameVersion where
  | default | palworld
deriving DecidableEq, Repr

/-- `PalworldCompressionType` (`src/game_version.rs` 16-27). -/
inductive PalworldCompressionType where
  | none | zlib | zlibTwice
deriving DecidableEq, Repr

/-- `Into<i8>` for `PalworldCompressionType` (derived, `src/game_version.rs` 17-27). -/
def PalworldCompressionType.toI8 : PalworldCompressionType → Int8
  | .none => 0x30 | .zlib => 0x31 | .zlibTwice => 0x32

/-- `TryFrom<i8>` for `PalworldCompressionType` (derived, `src/game_version.rs` 17-27). -/
def PalworldCompressionType.ofI8 (v : Int8) : Option PalworldCompressionType :=
  if v = 0x30 then some .none else if v = 0x31 then some .zlib
  else if v = 0x32 then some .zlibTwice else Option.none

/-- `DeserializedGameVersion` (`src/game_version.rs` 29-38). -/
inductive DeserializedGameVersion where
  | default
  | palworld (c : PalworldCompressionType)
deriving DecidableEq, Repr

/-- `PLZ_MAGIC` (`src/game_version.rs` 57). -/
def plzMagic : Bytes := [0x50, 0x6C, 0x5A]

/-! ## Files: the contents -/

/-- `GvasFile` (`src/lib.rs` 330-343).  `properties` is an `IndexMap`. -/
structure GvasFile where
  gameVersion : DeserializedGameVersion
  header : GvasHeader
  properties : List (String × Property)

/-- The top-level property loop of `read_with_hints` (`src/lib.rs` 465-484).  The
code pops the name only on success, but the stack is dropped on failure, so
this is not observable and `withEntry` is used. -/
def readTop (rec : String → Bool → Option UInt32 → R Property) :
    Nat → List (String × Property) → R (List (String × Property))
  | 0, _ => R.outOfFuel
  | n + 1, ps => do
    let name ← readString
    if name = "None" then return ps
    else
      let ty ← readString
      let p ← R.withEntry name (rec ty true none)
      readTop rec n (imInsert (· == ·) name p ps)

/-- The decompressed contents of a file (`src/lib.rs` 457-490). -/
def readContents (debug : Bool) (hints : String → Option String) (fuel : Nat) :
    R (GvasHeader × List (String × Property)) := do
  let header ← GvasHeader.read
  let env : Env := { debug := debug, hints := hints, cv := header.customVersions }
  let ps ← readTop (Property.read env fuel) fuel []
  return (header, ps)

/-- A fresh `Cursor` over `data` with an empty path stack (`src/lib.rs` 415,
459-463). -/
def RS.init (data : Bytes) : RS := { rest := data, pos := 0, stack := [] }

/-- Reading decompressed `data`, with the final reader state. -/
def readData (debug : Bool) (hints : String → Option String) (data : Bytes) :
    Res (GvasHeader × List (String × Property)) × RS :=
  readContents debug hints (data.length + 1) (RS.init data)

/-- The top-level property loop of `write` (`src/lib.rs` 528-531). -/
def writeTop (cv : List (Guid × UInt32)) : List (String × Property) → Res Out
  | [] => .ok Out.nil
  | (k, p) :: l => do
    let a ← Property.write cv true p
    let b ← writeTop cv l
    return writeString k ++ a ++ b

/-- The in-memory buffer `write` fills before touching the output
(`src/lib.rs` 518-533). -/
def GvasFile.encode (f : GvasFile) : Res Bytes := do
  let ps ← writeTop f.header.customVersions f.properties
  return f.header.write.bytes ++ ps.bytes ++ (writeString "None").bytes ++ i32B 0

/-! ## Containers -/

/-- What is assumed of zlib (flate2).  `inflate x` is everything a `ZlibDecoder`
over `x` yields, and whether it ends cleanly; `inflate2 x` is the result of
`read_to_end` on a decoder over a decoder; `deflate lvl` is a finished
`ZlibEncoder`.  Laws are stated where they are used
(`Verif.Spec.Codec.Lawful`). -/
structure Codec where
  inflate : Bytes → Bytes × Bool
  inflate2 : Bytes → Option Bytes
  deflate : Nat → Bytes → Bytes

/-- The Palworld frame header (`src/lib.rs` 418-433): decompressed length and
compression type. -/
def readFrame : R (UInt32 × PalworldCompressionType) := do
  let dlen ← readU32
  let _clen ← readU32
  let magic ← R.take 3
  headerCheck (magic = plzMagic)
    ("Invalid PlZ magic " ++ toString (magic.map UInt8.toNat))
  let c ← readEnum "gvas::game_version::PalworldCompressionType" PalworldCompressionType.ofI8
  return (dlen, c)

/-- `decoder.read_exact(&mut zlib_data)` on a decoder that yields `p`. -/
def inflateExact (p : Bytes × Bool) (n : Nat) : Res Bytes :=
  if n ≤ p.1.length then .ok (p.1.take n) else .err (if p.2 then .eof else .io)

/-- The payload behind the frame header (`src/lib.rs` 435-456). -/
def unpack (z : Codec) (dlen : UInt32) (c : PalworldCompressionType) (payload : Bytes) :
    Res Bytes :=
  match c with
  | .none => if dlen.toNat ≤ payload.length then .ok (payload.take dlen.toNat) else .err .eof
  | .zlib => inflateExact (z.inflate payload) dlen.toNat
  | .zlibTwice =>
    match z.inflate2 payload with
    | some d => .ok d
    | none => .err .io

/-- `GvasFile::read_with_hints` (`src/lib.rs` 404-491) on a stream with
`input` left at position `start`. -/
def GvasFile.read (z : Codec) (debug : Bool) (gv : GameVersion) (hints : String → Option String)
    (start : Nat) (input : Bytes) : Res GvasFile :=
  match gv with
  | .default => do
    let (h, ps) ← (readData debug hints input).1
    return { gameVersion := .default, header := h, properties := ps }
  | .palworld =>
    match readFrame { rest := input, pos := start, stack := [] } with
    | (.ok (dlen, c), s) => do
      let data ← unpack z dlen c s.rest
      let (h, ps) ← (readData debug hints data).1
      return { gameVersion := .palworld c, header := h, properties := ps }
    | (.bad f, _) => .bad f

/-! ## Output -/

/-- A seekable output that accepts every write, such as `Cursor<Vec<u8>>` or a
file: contents and position. -/
structure Sink where
  data : Bytes
  pos : Nat
deriving DecidableEq, Repr

/-- `write_all`: overwrite from the position on, growing (and zero filling a
gap) as needed. -/
def Sink.write (s : Sink) (bs : Bytes) : Sink :=
  { data := s.data.take s.pos ++ List.replicate (s.pos - s.data.length) 0 ++ bs ++
      s.data.drop (s.pos + bs.length)
    pos := s.pos + bs.length }

/-- `seek(SeekFrom::Start(p))`. -/
def Sink.seek (s : Sink) (p : Nat) : Sink := { s with pos := p }

/-- The compressed payload (`src/lib.rs` 547-561). -/
def pack (z : Codec) (c : PalworldCompressionType) (data : Bytes) : Bytes :=
  match c with
  | .none => data
  | .zlib => z.deflate 6 data
  | .zlibTwice => z.deflate 6 (z.deflate 6 data)

/-- `GvasFile::write` (`src/lib.rs` 517-570). -/
def GvasFile.write (z : Codec) (f : GvasFile) (s : Sink) : Res Unit × Sink :=
  match f.encode with
  | .bad e => (.bad e, s)
  | .ok data =>
    match f.gameVersion with
    | .default => (.ok (), s.write data)
    | .palworld c =>
      let s := s.write (u32B (UInt32.ofNat data.length))
      let lenPos := s.pos
      let s := s.write (u32B 0)
      let s := s.write plzMagic
      let s := s.write (i8B c.toI8)
      let s := s.write (pack z c data)
      let endPos := s.pos
      let s := s.seek lenPos
      let s := s.write (u32B (UInt32.ofNat (endPos - (lenPos + 4))))
      (.ok (), s.seek endPos)

end Gvas
