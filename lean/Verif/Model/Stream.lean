import Verif.Model.File

/-!
# Reading from a stream that delivers its bytes piecemeal

`io::Read::read` may return fewer bytes than asked for, or fail with
`ErrorKind::Interrupted`, after which the caller tries again.  `read_exact` and
`read_to_end` (std) loop over `read`; these loops, and `GvasFile::read_with_hints` on top
of them, are modelled here for an arbitrary sequence of answers.  Everywhere else
`R.take` stands for `read_exact`.
-/

namespace Gvas

/-- One answer a stream has in store (`io::Read::read`, std): some bytes, an interruption, or
another error. -/
inductive Event where
  | data (bs : Bytes)
  | interrupted
  | error
deriving DecidableEq, Repr

/-- A stream: the answers to come, and how many bytes it delivered so far (`stream_position`).
Without further answers it is at its end. -/
structure Stream where
  events : List Event
  pos : Nat
deriving DecidableEq, Repr

/-- What one `read` call returns. -/
inductive Answer where
  | bytes (bs : Bytes)
  | interrupted
  | error

/-- `read` into a buffer of `n` bytes: bytes that do not fit are delivered by the next call. -/
def Stream.read (n : Nat) (s : Stream) : Answer × Stream :=
  match s.events with
  | [] => (.bytes [], s)
  | .data bs :: es =>
    if bs.length ≤ n then (.bytes bs, ⟨es, s.pos + bs.length⟩)
    else (.bytes (bs.take n), ⟨.data (bs.drop n) :: es, s.pos + n⟩)
  | .interrupted :: es => (.interrupted, ⟨es, s.pos⟩)
  | .error :: es => (.error, ⟨es, s.pos⟩)

/-- A measure of what a stream can still do. -/
def Event.size : Event → Nat
  | .data bs => bs.length + 1
  | _ => 1

/-- A measure of what a stream can still do. -/
def eventsSize : List Event → Nat
  | [] => 0
  | e :: es => e.size + eventsSize es

/-- A call with a non-empty buffer uses something up, unless the stream is at its end. -/
theorem Stream.read_size (n : Nat) (s : Stream) (h : s.events ≠ []) :
    eventsSize (s.read (n + 1)).2.events < eventsSize s.events := by
  obtain ⟨es, pos⟩ := s
  cases es with
  | nil => simp at h
  | cons e es =>
    cases e with
    | data bs =>
      simp only [Stream.read]
      split
      · simp [eventsSize, Event.size]
      · simp only [eventsSize, Event.size, List.length_drop]; omega
    | interrupted => simp [Stream.read, eventsSize, Event.size]
    | error => simp [Stream.read, eventsSize, Event.size]

/-- `read_exact` (std): repeat until the buffer of `n` bytes is full; an answer of no bytes is the
end of the input; interruptions are ignored.  `acc` are the bytes so far. -/
def Stream.readExact (n : Nat) (acc : Bytes) (s : Stream) : Res Bytes × Stream :=
  match n with
  | 0 => (.ok acc, s)
  | m + 1 =>
    if _h : s.events = [] then (.err .eof, s)
    else
      match hr : s.read (m + 1) with
      | (.bytes [], s') => (.err .eof, s')
      | (.bytes (b :: bs), s') => s'.readExact (m - bs.length) (acc ++ b :: bs)
      | (.interrupted, s') => s'.readExact (m + 1) acc
      | (.error, s') => (.err .io, s')
termination_by eventsSize s.events
decreasing_by
  all_goals
    have := Stream.read_size m s _h
    rw [hr] at this
    exact this

/-- `read_to_end` (std): repeat until an answer of no bytes.  The size of the buffer offered in
the `i`th call is `size i + 1`; std chooses it by experience with the stream. -/
def Stream.readToEnd (size : Nat → Nat) (i : Nat) (acc : Bytes) (s : Stream) :
    Res Bytes × Stream :=
  if _h : s.events = [] then (.ok acc, s)
  else
    match hr : s.read (size i + 1) with
    | (.bytes [], s') => (.ok acc, s')
    | (.bytes (b :: bs), s') => s'.readToEnd size (i + 1) (acc ++ b :: bs)
    | (.interrupted, s') => s'.readToEnd size (i + 1) acc
    | (.error, s') => (.err .io, s')
termination_by eventsSize s.events
decreasing_by
  all_goals
    have := Stream.read_size (size i) s _h
    rw [hr] at this
    exact this

/-- The Palworld frame header (`src/lib.rs` 418-433) read from a stream: four `read_exact`. -/
def Stream.frame (s : Stream) : Res (UInt32 × PalworldCompressionType) × Stream :=
  match s.readExact 4 [] with
  | (.bad e, s) => (.bad e, s)
  | (.ok dlen, s) =>
    match s.readExact 4 [] with
    | (.bad e, s) => (.bad e, s)
    | (.ok _, s) =>
      match s.readExact 3 [] with
      | (.bad e, s) => (.bad e, s)
      | (.ok magic, s) =>
        if magic ≠ plzMagic then
          (.err (.invalidHeader ("Invalid PlZ magic " ++ toString (magic.map UInt8.toNat))), s)
        else
          match s.readExact 1 [] with
          | (.bad e, s) => (.bad e, s)
          | (.ok t, s) =>
            match PalworldCompressionType.ofI8 (UInt8.ofNat (leNat t)).toInt8 with
            | some c => (.ok (UInt32.ofNat (leNat dlen), c), s)
            | none => (.err (.invalidEnumValue "gvas::game_version::PalworldCompressionType"
                (UInt8.ofNat (leNat t)).toInt8 s.pos), s)

/-- `GvasFile::read_with_hints` (`src/lib.rs` 404-491) on a stream.  Simplification: a zlib
decoder is taken to read the stream to its end before it decompresses (flate2 reads as much as it
needs, in blocks). -/
def GvasFile.readStream (z : Codec) (debug : Bool) (gv : GameVersion)
    (hints : String → Option String) (size : Nat → Nat) (s : Stream) : Res GvasFile :=
  match gv with
  | .default => do
    let data ← (s.readToEnd size 0 []).1
    let (h, ps) ← (readData debug hints data).1
    return { gameVersion := .default, header := h, properties := ps }
  | .palworld =>
    match s.frame with
    | (.bad e, _) => .bad e
    | (.ok (dlen, c), s) => do
      let data ← match c with
        | .none => (s.readExact dlen.toNat []).1
        | .zlib => do
          let payload ← (s.readToEnd size 0 []).1
          inflateExact (z.inflate payload) dlen.toNat
        | .zlibTwice => do
          let payload ← (s.readToEnd size 0 []).1
          match z.inflate2 payload with
          | some d => .ok d
          | none => .err .io
      let (h, ps) ← (readData debug hints data).1
      return { gameVersion := .palworld c, header := h, properties := ps }

/-- `GvasFile::read_with_hints` (`src/lib.rs` 404-491) on a stream, and the stream it leaves to the
caller, who lent it (`cursor: &mut R`).  The contents are parsed from a buffer (415, 439, 446, 455),
so what becomes of them does not move the stream.  Simplification: a zlib decoder is taken to leave
the stream at its end (flate2 takes blocks of 32 KiB, so it stops somewhere behind the payload). -/
def GvasFile.readOn (z : Codec) (debug : Bool) (gv : GameVersion)
    (hints : String → Option String) (size : Nat → Nat) (s : Stream) : Res GvasFile × Stream :=
  let parsed (g : DeserializedGameVersion) (data : Res Bytes) : Res GvasFile := do
    let (h, ps) ← (readData debug hints (← data)).1
    return { gameVersion := g, header := h, properties := ps }
  match gv with
  | .default =>
    let (data, s) := s.readToEnd size 0 []
    (parsed .default data, s)
  | .palworld =>
    match s.frame with
    | (.bad e, s) => (.bad e, s)
    | (.ok (dlen, c), s) =>
      match c with
      | .none =>
        let (data, s) := s.readExact dlen.toNat []
        (parsed (.palworld c) data, s)
      | .zlib =>
        let (payload, s) := s.readToEnd size 0 []
        (parsed (.palworld c) (do inflateExact (z.inflate (← payload)) dlen.toNat), s)
      | .zlibTwice =>
        let (payload, s) := s.readToEnd size 0 []
        (parsed (.palworld c) (do
          match z.inflate2 (← payload) with
          | some d => .ok d
          | none => .err .io), s)

end Gvas
