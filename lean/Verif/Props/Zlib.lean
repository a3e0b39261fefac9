import Verif.Lemmas.ZlibStream
import Verif.Spec.Sample
import Verif.Spec.File
import Verif.Props.Container
import Verif.Props.File

/-!
# C86: compressed saves and zlib streams

The container functions take a codec.  Here the codec is tied to the documents that define the
format: what a zlib stream is comes from `Spec.Zlib.StreamOf`, and a decoder that follows the documents
is `Zlib.decode`.
-/

namespace Gvas

open Spec
open Spec.Zlib (StreamOf BitsOf low Block Blocks adlerA adlerB)

/-- **C86**: the decoder accepts exactly the inputs that start with a zlib stream, and gives the data
of the stream and the bytes behind it. -/
theorem C86_decode_iff (input data rest : Bytes) : Zlib.decode input = some (data, rest) ↔
    ∃ stream, input = stream ++ rest ∧ StreamOf data stream :=
  Zlib.decode_iff input data rest

/-- **C86**: the decoder refuses an input exactly if it does not start with a zlib stream. -/
theorem C86_decode_fails_iff (input : Bytes) : Zlib.decode input = none ↔
    ¬ ∃ data stream rest, input = stream ++ rest ∧ StreamOf data stream := by
  constructor
  · rintro h ⟨data, stream, rest, h1, h2⟩
    rw [(C86_decode_iff input data rest).2 ⟨stream, h1, h2⟩] at h
    cases h
  · intro h
    cases hd : Zlib.decode input with
    | none => rfl
    | some p =>
      obtain ⟨stream, h1, h2⟩ := (C86_decode_iff input p.1 p.2).1 hd
      exact absurd ⟨p.1, stream, p.2, h1, h2⟩ h

/-- **C86**: a zlib stream shows where it ends and determines its data: whatever follows it, the
input cannot be taken apart in another way. -/
theorem C86_stream_unique (data data' stream stream' rest rest' : Bytes) (h : StreamOf data stream)
    (h' : StreamOf data' stream') (he : stream ++ rest = stream' ++ rest') :
    data = data' ∧ stream = stream' ∧ rest = rest' := by
  have h1 := (C86_decode_iff _ data rest).2 ⟨stream, rfl, h⟩
  have h2 := (C86_decode_iff (stream ++ rest) data' rest').2 ⟨stream', he, h'⟩
  rw [h1] at h2
  cases h2
  exact ⟨rfl, List.append_cancel_right he, rfl⟩

/-! ## Every sequence of bytes has a stream -/

/-- Blocks without compression. -/
def storedBlocks (data : Bytes) : Bytes :=
  if _h : data.length ≤ 65535 then
    [1] ++ leBytes 2 data.length ++ leBytes 2 (65535 - data.length) ++ data
  else
    [0] ++ leBytes 2 65535 ++ leBytes 2 0 ++ data.take 65535 ++ storedBlocks (data.drop 65535)
termination_by data.length
decreasing_by simp only [List.length_drop]; omega

/-- A stream that does not compress. -/
def storedStream (data : Bytes) : Bytes :=
  [0x78, 0x01] ++ storedBlocks data ++ (leBytes 4 (adlerB data * 65536 + adlerA data)).reverse

theorem low_leBytes (n v : Nat) : low (Zlib.bits (leBytes n v)) = v % 256 ^ n := by
  induction n generalizing v with
  | zero => simp [leBytes, Zlib.bits, low, Nat.mod_one]
  | succ n ih =>
    have happ : ∀ u w : List Bool, low (u ++ w) = low u + 2 ^ u.length * low w := by
      intro u w
      induction u with
      | nil => simp [low]
      | cons a u ihu =>
        simp only [List.cons_append, low, ihu, List.length_cons, Nat.pow_succ]
        rw [Nat.mul_add, Nat.mul_comm (2 ^ u.length) 2, Nat.mul_assoc, Nat.add_assoc]
    have e : Zlib.bits (leBytes (n + 1) v) =
        Zlib.byteBits (UInt8.ofNat v) ++ Zlib.bits (leBytes n (v / 256)) := rfl
    rw [e, happ, ih, Zlib.byteBits_length, Zlib.low_byteBits]
    have : (UInt8.ofNat v).toNat = v % 256 := by simp
    rw [this, Nat.pow_succ 256 n, Nat.mul_comm (256 ^ n) 256, Nat.mod_mul]

theorem storedBlock (pos : Nat) (hp : pos % 8 = 0) (out bs : Bytes) (h : bs.length ≤ 65535) :
    Block pos out ([false, false] ++ [false, false, false, false, false] ++
      Zlib.bits (leBytes 2 bs.length) ++ Zlib.bits (leBytes 2 (65535 - bs.length)) ++ Zlib.bits bs)
      (out ++ bs) := by
  have l1 : (Zlib.bits (leBytes 2 bs.length)).length = 16 := by
    rw [Zlib.bits_length, leBytes_length]
  have l2 : (Zlib.bits (leBytes 2 (65535 - bs.length))).length = 16 := by
    rw [Zlib.bits_length, leBytes_length]
  refine .stored bs (by decide) (by simp; omega) l1 l2 ?_ ?_ ((Zlib.bitsOf_iff _ _).2 rfl)
  · rw [← l1]
    refine (Zlib.complement_iff _ _ (by rw [l1, l2])).2 ?_
    rw [l1, low_leBytes, low_leBytes, Nat.mod_eq_of_lt (by omega), Nat.mod_eq_of_lt (by omega)]
    omega
  · rw [low_leBytes, Nat.mod_eq_of_lt (by omega)]

theorem storedBlocks_valid (pos : Nat) (hp : pos % 8 = 0) (out data : Bytes) :
    Blocks pos out (Zlib.bits (storedBlocks data)) (out ++ data) := by
  induction h : data.length using Nat.strongRecOn generalizing pos out data with
  | _ n ih =>
    subst h
    rw [storedBlocks]
    split
    · rename_i hl
      have e : Zlib.bits ([1] ++ leBytes 2 data.length ++ leBytes 2 (65535 - data.length) ++ data) =
          true :: ([false, false] ++ [false, false, false, false, false] ++
            Zlib.bits (leBytes 2 data.length) ++ Zlib.bits (leBytes 2 (65535 - data.length)) ++
            Zlib.bits data) := by
        simp only [Zlib.bits_append]; rfl
      rw [e]
      exact .last (storedBlock pos hp out data hl)
    · rename_i hl
      have ht : (data.take 65535).length = 65535 := by rw [List.length_take]; omega
      have e : Zlib.bits ([0] ++ leBytes 2 65535 ++ leBytes 2 0 ++ data.take 65535 ++
          storedBlocks (data.drop 65535)) =
          false :: (([false, false] ++ [false, false, false, false, false] ++
            Zlib.bits (leBytes 2 (data.take 65535).length) ++
            Zlib.bits (leBytes 2 (65535 - (data.take 65535).length)) ++
            Zlib.bits (data.take 65535)) ++ Zlib.bits (storedBlocks (data.drop 65535))) := by
        rw [ht]; simp only [Zlib.bits_append]; rfl
      rw [e]
      have e2 : out ++ data = (out ++ data.take 65535) ++ data.drop 65535 := by
        rw [List.append_assoc, List.take_append_drop]
      rw [e2]
      refine .more (storedBlock pos hp out _ (by omega)) (ih _ ?_ _ ?_ _ _ rfl)
      · rw [List.length_drop]; omega
      · simp only [List.length_append, Zlib.bits_length, leBytes_length, ht, List.length_cons,
          List.length_nil]
        omega

theorem adlerA_lt (bs : Bytes) : adlerA bs < 65521 := Nat.mod_lt _ (by decide)
theorem adlerB_lt (bs : Bytes) : adlerB bs < 65521 := Nat.mod_lt _ (by decide)

/-- **C86**: every sequence of bytes has a zlib stream, so that nothing that is said of streams is
empty for any save. -/
theorem C86_stream_exists (data : Bytes) : StreamOf data (storedStream data) := by
  refine ⟨0x78, 0x01, storedBlocks data, _, Zlib.bits (storedBlocks data), [], rfl, by decide,
    by decide, by decide, by decide, (Zlib.bitsOf_iff _ _).2 (by simp), by simp, ?_, ?_, ?_⟩
  · simpa using storedBlocks_valid 0 rfl [] data
  · rw [List.length_reverse, leBytes_length]
  · rw [List.reverse_reverse, leNat_leBytes]
    have := adlerA_lt data
    have := adlerB_lt data
    exact Nat.mod_eq_of_lt (by omega)

/-! ## Codecs that follow the documents -/

/-- The decompressor yields the data of every zlib stream and ends cleanly, whatever follows the
stream; one over another yields the data of the inner stream. -/
structure Spec.Decodes (z : Codec) : Prop where
  once : ∀ data s rest, StreamOf data s → z.inflate (s ++ rest) = (data, true)
  twice : ∀ data s s' rest rest', StreamOf data s → StreamOf (s ++ rest) s' →
    z.inflate2 (s' ++ rest') = some data

/-- The compressor gives, at every level, a zlib stream of what it is given. -/
def Spec.Encodes (z : Codec) : Prop := ∀ lvl data, StreamOf data (z.deflate lvl data)

/-- **C86**: whatever is proved about saving and loading under the assumption that decompression
inverts compression holds for every compressor that emits zlib streams, together with every
decompressor that reads them. -/
theorem C86_lawful (z : Codec) (hd : Decodes z) (he : Encodes z) : Lawful z where
  once lvl x rest := hd.once x _ rest (he lvl x)
  twice a b x rest := by
    have := hd.twice x (z.deflate b x) (z.deflate a (z.deflate b x)) [] rest (he b x)
      (by simpa using he a (z.deflate b x))
    exact this

/-- A codec that follows the documents: the decoder above and an encoder that does not compress. -/
def zlibCodec : Codec where
  inflate x := match Zlib.decode x with
    | some (d, _) => (d, true)
    | none => ([], false)
  inflate2 x := match Zlib.decode x with
    | some (d, _) => (Zlib.decode d).map Prod.fst
    | none => none
  deflate _ := storedStream

/-- **C86**: there is such a codec. -/
theorem C86_zlibCodec : Decodes zlibCodec ∧ Encodes zlibCodec ∧ Lawful zlibCodec := by
  have hd : Decodes zlibCodec := by
    constructor
    · intro data s rest h
      simp only [zlibCodec, (C86_decode_iff (s ++ rest) data rest).2 ⟨s, rfl, h⟩]
    · intro data s s' rest rest' h h'
      simp only [zlibCodec, (C86_decode_iff (s' ++ rest') (s ++ rest) rest').2 ⟨s', rfl, h'⟩,
        (C86_decode_iff (s ++ rest) data rest).2 ⟨s, rfl, h⟩, Option.map_some]
  have he : Encodes zlibCodec := fun _ data => C86_stream_exists data
  exact ⟨hd, he, C86_lawful _ hd he⟩

/-! ## Palworld saves -/

/-- The outcome of reading `data` as it is, labelled with a compression. -/
def Spec.labelled (c : PalworldCompressionType) (r : Res GvasFile) : Res GvasFile :=
  match r with
  | .ok f => .ok { f with gameVersion := .palworld c }
  | .bad e => .bad e

theorem labelled_bind (c : PalworldCompressionType)
    (r : Res (GvasHeader × List (String × Property))) :
    (do
      let (h, ps) ← r
      return { gameVersion := .palworld c, header := h, properties := ps } : Res GvasFile) =
    labelled c (do
      let (h, ps) ← r
      return { gameVersion := .default, header := h, properties := ps }) := by
  cases r <;> rfl

/-- **C86**: a frame around any zlib stream of `data` is read as `data` is, whichever program
compressed it and whatever follows the stream. -/
theorem C86_zlib_frame (z : Codec) (hz : Decodes z) (debug : Bool) (hints : String → Option String)
    (start start' : Nat) (dlen clen : UInt32) (data s extra : Bytes) (hs : StreamOf data s)
    (hl : dlen.toNat = data.length) :
    GvasFile.read z debug .palworld hints start (frame dlen clen .zlib (s ++ extra)) =
      labelled .zlib (GvasFile.read z debug .default hints start' data) := by
  simp only [GvasFile.read, readFrame_frame, unpack, inflateExact, hz.once data s extra hs]
  rw [if_pos (by omega), hl, List.take_length]
  exact labelled_bind _ _

/-- **C86**: a frame around a zlib stream of a zlib stream of `data` is read as `data` is, whatever
lengths the frame states. -/
theorem C86_zlib_twice_frame (z : Codec) (hz : Decodes z) (debug : Bool)
    (hints : String → Option String) (start start' : Nat) (dlen clen : UInt32)
    (data s s' rest extra : Bytes) (hs : StreamOf data s) (hs' : StreamOf (s ++ rest) s') :
    GvasFile.read z debug .palworld hints start (frame dlen clen .zlibTwice (s' ++ extra)) =
      labelled .zlibTwice (GvasFile.read z debug .default hints start' data) := by
  simp only [GvasFile.read, readFrame_frame, unpack, hz.twice data s s' rest extra hs hs']
  exact labelled_bind _ _

/-- **C86**: a file written with any compressor reads back with any decompressor, also if they are
not a pair. -/
theorem C86_other_decoder (z z' : Codec) (he : Encodes z) (hd : Decodes z') (data : Bytes)
    (hl : data.length < 2 ^ 32) (debug : Bool) (hints : String → Option String)
    (start start' : Nat) (clen : UInt32) (c : PalworldCompressionType) :
    GvasFile.read z' debug .palworld hints start
        (frame (UInt32.ofNat data.length) clen c (pack z c data)) =
      labelled c (GvasFile.read z' debug .default hints start' data) := by
  have hn : (UInt32.ofNat data.length).toNat = data.length := by
    rw [UInt32.toNat_ofNat_of_lt' (by simpa [UInt32.size] using hl)]
  cases c with
  | none =>
    simp only [GvasFile.read, readFrame_frame, unpack, pack, hn]
    rw [if_pos (Nat.le_refl _), List.take_length]
    exact labelled_bind _ _
  | zlib =>
    have := C86_zlib_frame z' hd debug hints start start' _ clen data _ [] (he 6 data) hn
    rwa [List.append_nil] at this
  | zlibTwice =>
    have := C86_zlib_twice_frame z' hd debug hints start start' (UInt32.ofNat data.length) clen data
      _ (z.deflate 6 (z.deflate 6 data)) [] [] (he 6 data) (by simpa using he 6 _)
    rwa [List.append_nil] at this

/-! ## Examples -/

/-- The save with one property as zlib 1.3 compresses it at level 9. -/
def exampleStream : Bytes :=
  [120, 218, 115, 15, 115, 12, 102, 98, 96, 96, 96, 5, 18, 44, 12, 210, 12, 32, 54, 3, 3, 27,
    16, 107, 107, 135, 186, 154, 48, 48, 51, 64, 0, 43, 16, 7, 39, 150, 165, 130, 21, 36, 50,
    240, 0, 73, 207, 188, 146, 128, 162, 252, 130, 212, 162, 146, 74, 160, 86, 40, 96, 135, 170,
    245, 203, 207, 75, 5, 11, 0, 0, 215, 119, 10, 188]

/-- These bytes and two more, compressed again. -/
def exampleTwice : Bytes :=
  [120, 218, 1, 77, 0, 178, 255, 120, 218, 115, 15, 115, 12, 102, 98, 96, 96, 96, 5, 18, 44,
    12, 210, 12, 32, 54, 3, 3, 27, 16, 107, 107, 135, 186, 154, 48, 48, 51, 64, 0, 43, 16, 7,
    39, 150, 165, 130, 21, 36, 50, 240, 0, 73, 207, 188, 146, 128, 162, 252, 130, 212, 162, 146,
    74, 160, 86, 40, 96, 135, 170, 245, 203, 207, 75, 5, 11, 0, 0, 215, 119, 10, 188, 1, 2, 242,
    83, 27, 253]

/-- A stream with a dynamic code. -/
def exampleDynamic : Bytes :=
  [120, 218, 13, 193, 1, 1, 0, 0, 0, 130, 160, 255, 111, 205, 5, 9, 176, 170, 76, 176, 241, 238, 6,
    20, 178]

theorem exampleStream_decode : Zlib.decode exampleStream = some (saveBytes intBytes, []) := by
  decide +kernel

theorem exampleTwice_decode : Zlib.decode exampleTwice = some (exampleStream ++ [1, 2], []) := by
  decide +kernel

/-- What the decoder accepts is a stream. -/
theorem exampleStream_valid : StreamOf (saveBytes intBytes) exampleStream := by
  obtain ⟨s, h1, h2⟩ := (C86_decode_iff _ _ _).1 exampleStream_decode
  rw [List.append_nil] at h1
  rwa [h1]

theorem exampleTwice_valid : StreamOf (exampleStream ++ [1, 2]) exampleTwice := by
  obtain ⟨s, h1, h2⟩ := (C86_decode_iff _ _ _).1 exampleTwice_decode
  rw [List.append_nil] at h1
  rwa [h1]

/-- The decoder finds the end of a stream with a dynamic code. -/
example : ∃ s, exampleDynamic ++ [1, 2, 3] = s ++ [1, 2, 3] ∧
    StreamOf [240, 240, 241, 240, 241, 240, 242, 242, 242, 240, 241, 242, 240, 240, 242, 240, 242,
      240, 240, 240, 240, 242] s :=
  (C86_decode_iff _ _ _).1 (by decide +kernel)

/-- A wrong checksum, a dictionary, a truncated stream: no streams. -/
example : ¬ (∃ data stream rest, exampleDynamic.dropLast ++ [179] = stream ++ rest ∧
      StreamOf data stream) ∧
    ¬ (∃ data stream rest, [120, 187] ++ exampleDynamic.drop 2 = stream ++ rest ∧
      StreamOf data stream) ∧
    ¬ (∃ data stream rest, exampleDynamic.dropLast = stream ++ rest ∧ StreamOf data stream) :=
  ⟨(C86_decode_fails_iff _).1 (by decide +kernel), (C86_decode_fails_iff _).1 (by decide +kernel),
    (C86_decode_fails_iff _).1 (by decide +kernel)⟩

/-- Data has more than one stream, with different lengths. -/
example : StreamOf (saveBytes intBytes) exampleStream ∧
    StreamOf (saveBytes intBytes) (storedStream (saveBytes intBytes)) ∧ exampleStream.length = 75 ∧
    (saveBytes intBytes).length = 97 :=
  ⟨exampleStream_valid, C86_stream_exists _, by decide +kernel, by decide +kernel⟩

/-- The names of the properties of the file read. -/
def exampleNames : Res GvasFile → List String
  | .ok f => f.properties.map Prod.fst
  | .bad _ => []

theorem exampleRead (z : Codec) (c : PalworldCompressionType) :
    exampleNames (labelled c (GvasFile.read z true .default noHints 0 (saveBytes intBytes))) =
      ["a"] := by
  have h : namesRead (readData true noHints (saveBytes intBytes)).1 = ["a"] := by decide +kernel
  unfold GvasFile.read
  cases hr : (readData true noHints (saveBytes intBytes)).1 with
  | ok p => rw [hr] at h; exact h
  | bad e => rw [hr] at h; cases h

/-- A save compressed once, read by any decompressor that follows the documents. -/
example (z : Codec) (hz : Decodes z) :
    exampleNames (GvasFile.read z true .palworld noHints 0
      (frame 97 75 .zlib (exampleStream ++ [9, 9]))) = ["a"] := by
  rw [C86_zlib_frame z hz true noHints 0 0 97 75 _ _ [9, 9] exampleStream_valid (by decide +kernel)]
  exact exampleRead z _

/-- The save compressed twice, with bytes between the two streams. -/
example (z : Codec) (hz : Decodes z) :
    exampleNames (GvasFile.read z true .palworld noHints 0
      (frame 0 0 .zlibTwice (exampleTwice ++ [9]))) = ["a"] := by
  rw [C86_zlib_twice_frame z hz true noHints 0 0 0 0 _ _ _ [1, 2] [9] exampleStream_valid
    exampleTwice_valid]
  exact exampleRead z _

/-- Saving with the encoder that does not compress and loading with the decoder. -/
example : GvasFile.read zlibCodec true .palworld noHints 0
      (frame (UInt32.ofNat (saveBytes intBytes).length) 0 .zlibTwice
        (pack zlibCodec .zlibTwice (saveBytes intBytes))) =
    labelled .zlibTwice (GvasFile.read zlibCodec true .default noHints 0 (saveBytes intBytes)) :=
  C86_other_decoder zlibCodec zlibCodec C86_zlibCodec.2.1 C86_zlibCodec.1 _ (by decide +kernel) true
    noHints 0 0 0 .zlibTwice

end Gvas
