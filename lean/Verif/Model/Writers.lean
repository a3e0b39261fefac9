import Verif.Model.Cursor

/-!
# Writers that perform short writes

`io::Write::write` may accept fewer bytes than offered.  `write_string`
(`src/cursor_ext.rs` 147-167) calls `write` and ignores the count for ASCII
strings, and `write_all` for everything else.
-/

namespace Gvas

/-- A writer accepting at most `chunk` bytes per `write` call and `room` bytes
in all, e.g. `Cursor<&mut [u8]>` (`chunk` unbounded) or a pipe. -/
structure ShortWriter where
  data : Bytes
  chunk : Nat
  room : Nat
deriving DecidableEq, Repr

/-- One `write` call: the count it returns and the new state. -/
def ShortWriter.write (w : ShortWriter) (bs : Bytes) : Nat × ShortWriter :=
  let k := min bs.length (min w.chunk w.room)
  (k, { w with data := w.data ++ bs.take k, room := w.room - k })

/-- `write_all` (std): repeat until everything is accepted, fail with
`WriteZero` (here `io`) when a call accepts nothing.  One iteration per byte is
always enough, so the recursion is on a bound of the remaining length. -/
def ShortWriter.writeAllN : Nat → ShortWriter → Bytes → Res Unit × ShortWriter
  | _, w, [] => (.ok (), w)
  | 0, w, _ => (.bad .fuel, w)
  | n + 1, w, bs =>
    match w.write bs with
    | (0, w') => (.err .io, w')
    | (k, w') => writeAllN n w' (bs.drop k)

/-- `write_all`. -/
def ShortWriter.writeAll (w : ShortWriter) (bs : Bytes) : Res Unit × ShortWriter :=
  ShortWriter.writeAllN bs.length w bs

/-- Sequencing of writes with `?`. -/
def andThen (r : Res Unit × ShortWriter) (k : ShortWriter → Res Unit × ShortWriter) :
    Res Unit × ShortWriter :=
  match r with
  | (.ok _, w) => k w
  | (.bad f, w) => (.bad f, w)

/-- `write_string` (`src/cursor_ext.rs` 147-167) on such a writer. -/
def writeStringTo (s : String) (w : ShortWriter) : Res Unit × ShortWriter :=
  if isAscii s.toList then
    andThen (w.writeAll (i32B (Int32.ofNat (s.toList.length + 1)))) fun w =>
      let w := (w.write (utf8Encode s.toList)).2
      (.ok (), (w.write [0]).2)
  else
    let words := utf16Encode s.toList
    andThen (w.writeAll (i32B (-(Int32.ofNat (words.length + 1))))) fun w =>
      andThen (words.foldl (fun r u => andThen r fun w => w.writeAll (u16B u)) (.ok (), w)) fun w =>
        w.writeAll (u16B 0)

end Gvas
