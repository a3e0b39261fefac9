import Verif.Lemmas.Inflate
import Verif.Props.Zlib
import Verif.Props.Robust
import Verif.Props.Errors

/-!
# C93: how much a compressed save can grow

A bit of a deflate stream stands for at most 129 bytes.  So what is decompressed is at most 1032 times
as long as what was compressed, and in a save that is compressed twice at most 1032 times 1032 times.
Both bounds are reached but for a constant, by files that load: the length a frame states limits the
first, nothing else limits the second.
-/

namespace Gvas

open Spec
open Spec.Zlib (StreamOf BitsOf low Block Blocks adlerA adlerB Yields Faithful)

/-! ## The bound -/

/-- **C93**: data is at most 1032 times as long as any zlib stream of it, less the six bytes of the
header and the checksum. -/
theorem C93_stream (data stream : Bytes) (h : StreamOf data stream) :
    data.length ≤ 1032 * (stream.length - 6) := by
  obtain ⟨cmf, flg, body, check, w, pad, rfl, -, -, -, -, h1, -, h2, h3, -⟩ := h
  have h4 := Zlib.bitsOf_length h1
  have h5 := Zlib.someBlocks_bound (Zlib.blocks_some h2)
  simp only [List.length_append, List.length_cons, List.length_nil] at h4 h5 ⊢
  omega

/-- **C93**: nor can a decompressor that stops early give out more. -/
theorem C93_yields (input data : Bytes) (h : Yields input data) :
    data.length ≤ 1032 * (input.length - 2) :=
  Zlib.yields_bound h

/-- **C93**: what a decompressor gives out when it has seen a whole stream is the data of it, so the
theorem above is about more than the one before. -/
theorem C93_stream_yields (data stream rest : Bytes) (h : StreamOf data stream) :
    Yields (stream ++ rest) data :=
  Zlib.streamOf_yields h rest

/-- How many times as long as the payload of a frame its contents can be. -/
def Spec.growth : PalworldCompressionType → Nat
  | .none => 1
  | .zlib => 1032
  | .zlibTwice => 1032 * 1032

/-- **C93**: the save in a Palworld file is at most 1 time, 1032 times or 1032 times 1032 times as long
as what follows the frame header, depending on the compression. -/
theorem C93_file (z : Codec) (hz : Faithful z) (dlen : UInt32) (c : PalworldCompressionType)
    (payload data : Bytes) (h : unpack z dlen c payload = .ok data) :
    data.length ≤ growth c * payload.length := by
  cases c with
  | none =>
    simp only [unpack] at h
    split at h
    · cases h
      simp only [List.length_take, growth]
      omega
    · cases h
  | zlib =>
    simp only [unpack, inflateExact] at h
    split at h
    · cases h
      have := C93_yields _ _ (hz.once payload (z.inflate payload).1 (z.inflate payload).2 rfl)
      simp only [List.length_take, growth]
      omega
    · cases h
  | zlibTwice =>
    simp only [unpack] at h
    split at h
    · rename_i d hd
      cases h
      obtain ⟨mid, h1, h2⟩ := hz.twice payload _ hd
      have := C93_yields _ _ h1
      have := C93_yields _ _ h2
      simp only [growth]
      omega
    · cases h

/-- **C93**: a Palworld file that is read is read as some save that is no longer than that, and is
read the same by itself. -/
theorem C93_read (z : Codec) (hz : Faithful z) (debug : Bool) (hints : String → Option String)
    (start start' : Nat) (input : Bytes) (f : GvasFile)
    (h : GvasFile.read z debug .palworld hints start input = .ok f) :
    ∃ c data, f.gameVersion = .palworld c ∧ data.length ≤ growth c * (input.length - 12) ∧
      labelled c (GvasFile.read z debug .default hints start' data) = .ok f := by
  simp only [GvasFile.read] at h
  match hf : readFrame ⟨input, start, []⟩ with
  | (.bad e, s) => rw [hf] at h; cases h
  | (.ok (dlen, c), s) =>
    obtain ⟨clen, rfl⟩ := readFrame_ok hf
    rw [hf] at h
    cases hu : unpack z dlen c s.rest with
    | bad e => simp only [hu] at h; cases h
    | ok data =>
      simp only [hu] at h
      have hb := C93_file z hz dlen c s.rest data hu
      refine ⟨c, data, ?_, ?_, ?_⟩
      · change (do
          let (h, ps) ← (readData debug hints data).1
          return { gameVersion := .palworld c, header := h, properties := ps } : Res GvasFile) = _ at h
        cases hr : (readData debug hints data).1 with
        | ok p => rw [hr] at h; cases h; rfl
        | bad e => rw [hr] at h; cases h
      · have : (frame dlen clen c s.rest).length = s.rest.length + 12 := by
          simp only [frame, List.length_append, u32B_length, List.length_cons, List.length_nil]
          omega
        rw [this]
        simpa using hb
      · rw [← h]
        exact (labelled_bind _ _).symm

/-- **C93**: of a save that is compressed at most once, the contents are as long as the frame says. -/
theorem C93_stated (z : Codec) (dlen : UInt32) (c : PalworldCompressionType)
    (payload data : Bytes) (hc : c ≠ .zlibTwice) (h : unpack z dlen c payload = .ok data) :
    data.length = dlen.toNat := by
  cases c with
  | none =>
    simp only [unpack] at h
    split at h
    · cases h
      rw [List.length_take]
      omega
    · cases h
  | zlib =>
    simp only [unpack, inflateExact] at h
    split at h
    · cases h
      rw [List.length_take]
      omega
    · cases h
  | zlibTwice => exact absurd rfl hc

/-- **C93**: the codec that follows the documents gives out nothing else. -/
theorem C93_zlibCodec : Faithful zlibCodec := by
  constructor
  · intro input data ok h
    simp only [zlibCodec] at h
    split at h
    · rename_i d rest hd
      obtain ⟨s, rfl, hs⟩ := (C86_decode_iff _ _ _).1 hd
      cases h
      exact C93_stream_yields _ _ _ hs
    · cases h
      exact .inl rfl
  · intro input data h
    simp only [zlibCodec] at h
    split at h
    · rename_i d rest hd
      obtain ⟨s, rfl, hs⟩ := (C86_decode_iff _ _ _).1 hd
      cases hd2 : Zlib.decode d with
      | none => rw [hd2] at h; cases h
      | some p =>
        rw [hd2] at h
        cases h
        obtain ⟨s2, rfl, hs2⟩ := (C86_decode_iff _ _ _).1 hd2
        exact ⟨_, C93_stream_yields _ _ _ hs, C93_stream_yields _ _ _ hs2⟩
    · cases h

/-! ## The bound is reached -/

/-- A zlib stream of `p`, `3 + 1032 * k` zeros and `q`: `k` of its bytes are zeros. -/
def zerosStream (p : Bytes) (k : Nat) (q : Bytes) : Bytes :=
  ([0x78, 0x01, 0x00] ++ leBytes 2 p.length ++ leBytes 2 (65535 - p.length) ++ p ++ Zlib.runStart) ++
    List.replicate k 0 ++
    ([0x07] ++ leBytes 2 q.length ++ leBytes 2 (65535 - q.length) ++ q ++
      (leBytes 4 (adlerB (p ++ List.replicate (3 + 1032 * k) 0 ++ q) * 65536 +
        adlerA (p ++ List.replicate (3 + 1032 * k) 0 ++ q))).reverse)

theorem storedBlock_pad (pos : Nat) (pad : List Bool) (hp : (pos + 3 + pad.length) % 8 = 0)
    (hl : pad.length < 8) (out bs : Bytes) (h : bs.length ≤ 65535) :
    Block pos out ([false, false] ++ pad ++ Zlib.bits (leBytes 2 bs.length) ++
      Zlib.bits (leBytes 2 (65535 - bs.length)) ++ Zlib.bits bs) (out ++ bs) := by
  have l1 : (Zlib.bits (leBytes 2 bs.length)).length = 16 := by
    rw [Zlib.bits_length, leBytes_length]
  have l2 : (Zlib.bits (leBytes 2 (65535 - bs.length))).length = 16 := by
    rw [Zlib.bits_length, leBytes_length]
  refine .stored bs hl hp l1 l2 ?_ ?_ ((Zlib.bitsOf_iff _ _).2 rfl)
  · rw [← l1]
    refine (Zlib.complement_iff _ _ (by rw [l1, l2])).2 ?_
    rw [l1, low_leBytes, low_leBytes, Nat.mod_eq_of_lt (by omega), Nat.mod_eq_of_lt (by omega)]
    omega
  · rw [low_leBytes, Nat.mod_eq_of_lt (by omega)]

/-- **C93**: bytes with a run of zeros in them have a zlib stream in which one zero stands for 1032. -/
theorem C93_zeros (p q : Bytes) (k : Nat) (hp : p.length ≤ 65535) (hq : q.length ≤ 65535) :
    StreamOf (p ++ List.replicate (3 + 1032 * k) 0 ++ q) (zerosStream p k q) := by
  have hA := adlerA_lt (p ++ List.replicate (3 + 1032 * k) 0 ++ q)
  have hB := adlerB_lt (p ++ List.replicate (3 + 1032 * k) 0 ++ q)
  obtain ⟨w, hw, hb⟩ := Zlib.run_block (0 + 1 + ([false, false] ++
      [false, false, false, false, false] ++ Zlib.bits (leBytes 2 p.length) ++
      Zlib.bits (leBytes 2 (65535 - p.length)) ++ Zlib.bits p).length) k p
  have hlen : w.length + 1 = 8 * (14 + k) + 2 := by
    have := congrArg List.length hw
    simp only [List.length_append, Zlib.bits_length, List.length_replicate, List.length_cons,
      List.length_nil, Zlib.runStart] at this
    omega
  refine ⟨0x78, 0x01, [0x00] ++ leBytes 2 p.length ++ leBytes 2 (65535 - p.length) ++ p ++
    (Zlib.runStart ++ List.replicate k 0) ++ [0x07] ++ leBytes 2 q.length ++
    leBytes 2 (65535 - q.length) ++ q,
    (leBytes 4 (adlerB (p ++ List.replicate (3 + 1032 * k) 0 ++ q) * 65536 +
      adlerA (p ++ List.replicate (3 + 1032 * k) 0 ++ q))).reverse,
    Zlib.bits ([0x00] ++ leBytes 2 p.length ++ leBytes 2 (65535 - p.length) ++ p ++
      (Zlib.runStart ++ List.replicate k 0) ++ [0x07] ++ leBytes 2 q.length ++
      leBytes 2 (65535 - q.length) ++ q), [], ?_, by decide, by decide, by decide, by decide,
    (Zlib.bitsOf_iff _ _).2 (List.append_nil _), by simp, ?_, ?_, ?_⟩
  rotate_left
  · have e : Zlib.bits ([0x00] ++ leBytes 2 p.length ++ leBytes 2 (65535 - p.length) ++ p ++
        (Zlib.runStart ++ List.replicate k 0) ++ [0x07] ++ leBytes 2 q.length ++
        leBytes 2 (65535 - q.length) ++ q) =
        false :: (([false, false] ++ [false, false, false, false, false] ++
            Zlib.bits (leBytes 2 p.length) ++ Zlib.bits (leBytes 2 (65535 - p.length)) ++
            Zlib.bits p) ++
          (false :: (w ++ (true :: ([false, false] ++ [false, false, false] ++
            Zlib.bits (leBytes 2 q.length) ++ Zlib.bits (leBytes 2 (65535 - q.length)) ++
            Zlib.bits q))))) := by
      rw [← List.cons_append (as := w), ← hw]
      simp only [Zlib.bits_append]
      have e1 : Zlib.bits [0x00] = [false, false, false, false, false, false, false, false] := by
        decide
      have e2 : Zlib.bits [0x07] = [true, true, true, false, false, false, false, false] := by
        decide
      rw [e1, e2]
      simp only [List.append_assoc, List.cons_append, List.nil_append]
    rw [e]
    refine .more (out' := p) ?_ (.more hb (.last ?_))
    · simpa using storedBlock_pad 0 [false, false, false, false, false] (by decide) (by decide) [] p hp
    · refine storedBlock_pad _ [false, false, false] ?_ (by decide) _ q hq
      simp only [List.length_append, Zlib.bits_length, leBytes_length, List.length_cons,
        List.length_nil]
      omega
  · rw [List.length_reverse, leBytes_length]
  · rw [List.reverse_reverse, leNat_leBytes]
    exact Nat.mod_eq_of_lt (by omega)
  · simp only [zerosStream, List.append_assoc, List.cons_append, List.nil_append]

theorem zerosStream_length (p q : Bytes) (k : Nat) :
    (zerosStream p k q).length = p.length + q.length + k + 30 := by
  simp only [zerosStream, List.length_append, leBytes_length, List.length_replicate,
    List.length_reverse, List.length_cons, List.length_nil, Zlib.runStart]
  omega

/-- **C93**: no smaller factor than 1032 will do, whatever is added to it. -/
theorem C93_factor_reached (a b : Nat) (h : ∀ data stream, StreamOf data stream →
    data.length ≤ a * stream.length + b) : 1032 ≤ a := by
  have := h _ _ (C93_zeros [] [] (31 * a + b) (by simp) (by simp))
  simp only [zerosStream_length, List.length_append, List.length_replicate, List.length_nil] at this
  rcases Nat.lt_or_ge a 1032 with ha | ha
  · exfalso
    have h1 : a * (0 + 0 + (31 * a + b) + 30) = a * (31 * a + b) + 30 * a := by
      rw [show 0 + 0 + (31 * a + b) + 30 = (31 * a + b) + 30 from by omega, Nat.mul_add,
        Nat.mul_comm a 30]
    have h2 : a * (31 * a + b) ≤ 1031 * (31 * a + b) := Nat.mul_le_mul_right _ (by omega)
    omega
  · exact ha

/-- A stream of `zerosStream save k []`, where `k` is `3 + 1032 * j`. -/
def zerosTwice (save : Bytes) (j : Nat) : Bytes :=
  zerosStream ([0x78, 0x01, 0x00] ++ leBytes 2 save.length ++ leBytes 2 (65535 - save.length) ++
    save ++ Zlib.runStart) j
    ([0x07] ++ leBytes 2 0 ++ leBytes 2 65535 ++
      (leBytes 4 (adlerB (save ++ List.replicate (3 + 1032 * (3 + 1032 * j)) 0) * 65536 +
        adlerA (save ++ List.replicate (3 + 1032 * (3 + 1032 * j)) 0))).reverse)

theorem zerosTwice_valid (save : Bytes) (j : Nat) (h : save.length ≤ 65000) :
    StreamOf (zerosStream save (3 + 1032 * j) []) (zerosTwice save j) := by
  have := C93_zeros ([0x78, 0x01, 0x00] ++ leBytes 2 save.length ++
    leBytes 2 (65535 - save.length) ++ save ++ Zlib.runStart)
    ([0x07] ++ leBytes 2 0 ++ leBytes 2 65535 ++
      (leBytes 4 (adlerB (save ++ List.replicate (3 + 1032 * (3 + 1032 * j)) 0) * 65536 +
        adlerA (save ++ List.replicate (3 + 1032 * (3 + 1032 * j)) 0))).reverse) j
    (by simp only [List.length_append, leBytes_length, List.length_cons, List.length_nil,
          Zlib.runStart]; omega)
    (by simp only [List.length_append, leBytes_length, List.length_cons, List.length_nil,
          List.length_reverse]; omega)
  have e : zerosStream save (3 + 1032 * j) [] = [0x78, 0x01, 0x00] ++ leBytes 2 save.length ++
      leBytes 2 (65535 - save.length) ++ save ++ Zlib.runStart ++ List.replicate (3 + 1032 * j) 0 ++
      ([0x07] ++ leBytes 2 0 ++ leBytes 2 65535 ++
      (leBytes 4 (adlerB (save ++ List.replicate (3 + 1032 * (3 + 1032 * j)) 0) * 65536 +
        adlerA (save ++ List.replicate (3 + 1032 * (3 + 1032 * j)) 0))).reverse) := by
    rw [zerosStream]
    simp only [List.length_nil, List.append_nil, Nat.sub_zero]
  rw [e]
  exact this

theorem zerosTwice_length (save : Bytes) (j : Nat) :
    (zerosTwice save j).length = save.length + j + 60 := by
  rw [zerosTwice, zerosStream_length]
  simp only [List.length_append, leBytes_length, List.length_cons, List.length_nil,
    List.length_reverse, Zlib.runStart]
  omega

/-- **C93**: around every save of up to 65000 bytes there is a Palworld file for each `j` which is
`j + 72` bytes longer, states that its contents have no bytes, has more than 1032 times 1032 times `j`
bytes to decompress, and is read as the save is. -/
theorem C93_bomb (z : Codec) (hz : Decodes z) (debug : Bool) (hints : String → Option String)
    (start start' : Nat) (save : Bytes) (h : save.length ≤ 65000)
    (hr : GvasFile.read z debug .default hints start' save ≠ .err .eof) (j : Nat) :
    ∃ payload data, (frame 0 0 .zlibTwice payload).length = save.length + j + 72 ∧
      unpack z 0 .zlibTwice payload = .ok data ∧ 1032 * 1032 * j ≤ data.length ∧
      GvasFile.read z debug .palworld hints start (frame 0 0 .zlibTwice payload) =
        labelled .zlibTwice (GvasFile.read z debug .default hints start' save) := by
  have h1 := C93_zeros save [] (3 + 1032 * j) (by omega) (by simp)
  have h2 := zerosTwice_valid save j h
  refine ⟨zerosTwice save j, save ++ List.replicate (3 + 1032 * (3 + 1032 * j)) 0, ?_, ?_, ?_, ?_⟩
  · simp only [frame, List.length_append, zerosTwice_length]
    simp only [u32B_length, List.length_cons, List.length_nil]
    omega
  · have := hz.twice _ _ _ [] [] h1 (by simpa using h2)
    simp only [List.append_nil] at this
    simp only [unpack, this]
  · simp only [List.length_append, List.length_replicate]
    omega
  · have := C86_zlib_twice_frame z hz debug hints start start' 0 0 _ _ _ [] [] h1 (by simpa using h2)
    simp only [List.append_nil] at this
    rw [this, C24_file_trailing_ignored z debug hints start' save _ hr]

/-- **C93**: so no smaller factor will do for files that are compressed twice. -/
theorem C93_file_factor_reached (z : Codec) (hz : Decodes z) (a b : Nat)
    (h : ∀ payload data, unpack z 0 .zlibTwice payload = .ok data →
      data.length ≤ a * payload.length + b) : 1032 * 1032 ≤ a := by
  have h1 := C93_zeros [] [] (3 + 1032 * (61 * a + b)) (by simp) (by simp)
  have h2 := zerosTwice_valid [] (61 * a + b) (by simp)
  have h3 := hz.twice _ _ _ [] [] h1 (by simpa using h2)
  simp only [List.append_nil] at h3
  have h4 := h (zerosTwice [] (61 * a + b)) _ (by simp only [unpack, h3]; rfl)
  simp only [zerosTwice_length, List.length_append, List.length_replicate, List.length_nil] at h4
  rcases Nat.lt_or_ge a (1032 * 1032) with ha | ha
  · exfalso
    have e1 : a * (0 + (61 * a + b) + 60) = a * (61 * a + b) + 60 * a := by
      rw [show 0 + (61 * a + b) + 60 = (61 * a + b) + 60 from by omega, Nat.mul_add,
        Nat.mul_comm a 60]
    have e2 : a * (61 * a + b) ≤ 1065023 * (61 * a + b) := Nat.mul_le_mul_right _ (by omega)
    omega
  · exact ha

/-! ## Examples -/

/-- A file of 1169 bytes that loads, with more than a thousand million bytes to decompress. -/
example : ∃ payload data, (frame 0 0 .zlibTwice payload).length = 1169 ∧
    unpack zlibCodec 0 .zlibTwice payload = .ok data ∧ 1000000000 ≤ data.length ∧
    exampleNames (GvasFile.read zlibCodec true .palworld noHints 0 (frame 0 0 .zlibTwice payload)) =
      ["a"] := by
  have hr : GvasFile.read zlibCodec true .default noHints 0 (saveBytes intBytes) ≠ .err .eof := by
    intro h
    have := exampleRead zlibCodec .zlibTwice
    rw [h] at this
    cases this
  obtain ⟨payload, data, h1, h2, h3, h4⟩ := C93_bomb zlibCodec C86_zlibCodec.1 true noHints 0 0
    (saveBytes intBytes) (by decide +kernel) hr 1000
  refine ⟨payload, data, ?_, h2, by omega, ?_⟩
  · rw [h1]
    decide +kernel
  · rw [h4]
    exact exampleRead _ _

/-- The bound and what a stream does: 1035 bytes in a stream of 31. -/
example : (zerosStream [] 1 []).length = 31 ∧
    Zlib.decode (zerosStream [] 1 []) = some (List.replicate 1035 0, []) :=
  ⟨zerosStream_length [] [] 1, (C86_decode_iff _ _ _).2 ⟨_, (List.append_nil _).symm,
    by simpa only [List.nil_append, List.append_nil] using C93_zeros [] [] 1 (by simp) (by simp)⟩⟩

/-- A stream of which the end is missing: no stream, but something can be given out. -/
example : Zlib.decode (exampleStream.dropLast) = none ∧
    Yields exampleStream.dropLast (saveBytes intBytes) := by
  refine ⟨by decide +kernel, ?_⟩
  obtain ⟨cmf, flg, body, check, w, pad, h, -, -, -, -, h1, -, h2, hc, -⟩ := exampleStream_valid
  refine .inr ⟨cmf, flg, body ++ check.dropLast, w, pad ++ Zlib.bits check.dropLast, _, ?_, ?_,
    Zlib.blocks_some h2, List.prefix_refl _⟩
  · rw [h, List.dropLast_append_of_ne_nil (by rintro rfl; cases hc)]
    rfl
  · rw [Zlib.bitsOf_iff] at h1 ⊢
    rw [← List.append_assoc, h1, Zlib.bits_append]

end Gvas
