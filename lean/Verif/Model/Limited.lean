import Verif.Model.File

/-!
# Writing to an output of limited size

`Sink` (`Verif.Model.File`) accepts every write.  Here the output holds at most `cap` bytes, as
`Cursor<&mut [u8]>` or a full disk does.
-/

namespace Gvas

/-- An output with room for `cap` bytes. -/
structure Limited where
  sink : Sink
  cap : Nat
deriving DecidableEq, Repr

/-- `write_all` (std): the bytes for which there is room are stored; if these are not all, the
result is an error (`WriteZero` or the like).  `true` is `Ok`. -/
def Limited.writeAll (l : Limited) (bs : Bytes) : Bool × Limited :=
  (decide (l.sink.pos + bs.length ≤ l.cap),
    { l with sink := l.sink.write (bs.take (l.cap - l.sink.pos)) })

/-- `GvasFile::write` behind the frame header (`src/lib.rs` 563-568): the compressed length is
stored at its place, over bytes that exist already. -/
def Limited.patch (l : Limited) (lenPos : Nat) : Limited :=
  let endPos := l.sink.pos
  let s := l.sink.seek lenPos
  let s := s.write (u32B (UInt32.ofNat (endPos - (lenPos + 4))))
  { l with sink := s.seek endPos }

/-- The payload (`src/lib.rs` 547-561) of an output with room for some of it.  A `ZlibEncoder`
reports errors from `write_all` and `finish`.  With `ZlibTwice`, `finish` of the inner encoder
returns the outer one, which is dropped; the destructor (flate2 `zio::Writer`) stores what the outer
encoder still holds and ignores errors.  `early` is the number of bytes of the payload stored before
that; it depends on zlib's buffers. -/
def Limited.payload (z : Codec) (c : PalworldCompressionType) (early : Nat) (data : Bytes)
    (l : Limited) : Bool × Limited :=
  match c with
  | .none => l.writeAll data
  | .zlib => l.writeAll (z.deflate 6 data)
  | .zlibTwice =>
    let p := z.deflate 6 (z.deflate 6 data)
    match l.writeAll (p.take early) with
    | (false, l) => (false, l)
    | (true, l) => (true, (l.writeAll (p.drop early)).2)

/-- `GvasFile::write` (`src/lib.rs` 517-570) on such an output. -/
def GvasFile.writeLimited (z : Codec) (f : GvasFile) (early : Nat) (l : Limited) :
    Res Unit × Limited :=
  match f.encode with
  | .bad e => (.bad e, l)
  | .ok data =>
    match f.gameVersion with
    | .default =>
      match l.writeAll data with
      | (true, l) => (.ok (), l)
      | (false, l) => (.err .io, l)
    | .palworld c =>
      match l.writeAll (u32B (UInt32.ofNat data.length)) with
      | (false, l) => (.err .io, l)
      | (true, l) =>
        let lenPos := l.sink.pos
        match l.writeAll (u32B 0) with
        | (false, l) => (.err .io, l)
        | (true, l) =>
          match l.writeAll plzMagic with
          | (false, l) => (.err .io, l)
          | (true, l) =>
            match l.writeAll (i8B c.toI8) with
            | (false, l) => (.err .io, l)
            | (true, l) =>
              match l.payload z c early data with
              | (false, l) => (.err .io, l)
              | (true, l) => (.ok (), l.patch lenPos)

end Gvas
