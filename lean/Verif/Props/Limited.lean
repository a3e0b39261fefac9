import Verif.Model.Limited
import Verif.Props.File
import Verif.Spec.Sample

/-!
# C63: outputs that fill up
-/

namespace Gvas

open Spec

/-- Everything `write` stores in one pass, before the compressed length is filled in. -/
def Spec.image (z : Codec) (gv : DeserializedGameVersion) (data : Bytes) : Bytes :=
  match gv with
  | .default => data
  | .palworld c => frame (UInt32.ofNat data.length) 0 c (pack z c data)

private theorem overwritten_nil {old : Bytes} {pos : Nat} (h : pos ≤ old.length) :
    overwritten old pos [] = old := by
  simp [overwritten, Nat.sub_eq_zero_of_le h]

/-- The output `l` after `w` was stored at its position. -/
private def stored (l : Limited) (w : Bytes) : Limited :=
  ⟨⟨overwritten l.sink.data l.sink.pos w, l.sink.pos + w.length⟩, l.cap⟩

private theorem stored_write (l : Limited) (w bs : Bytes) :
    (stored l w).writeAll bs = (decide (l.sink.pos + (w ++ bs).length ≤ l.cap),
      stored l (w ++ bs.take (l.cap - (l.sink.pos + w.length)))) := by
  simp only [Limited.writeAll, stored, Sink.write, List.length_append, Nat.add_assoc]
  refine Prod.ext rfl ?_
  simp only []
  congr 1
  have := overwritten_append l.sink.data l.sink.pos w (bs.take (l.cap - (l.sink.pos + w.length)))
  rw [← this]
  simp [overwritten, Nat.add_assoc]

private theorem stored_nil {l : Limited} (h : l.sink.pos ≤ l.sink.data.length) :
    stored l [] = l := by
  simp [stored, overwritten_nil h]

/-- What fits is stored. -/
private theorem stored_fits (l : Limited) (w bs : Bytes)
    (h : l.sink.pos + (w ++ bs).length ≤ l.cap) :
    (stored l w).writeAll bs = (true, stored l (w ++ bs)) := by
  rw [stored_write, decide_eq_true h, List.take_of_length_le]
  rw [List.length_append] at h
  omega

/-- What does not fit is stored as far as it does. -/
private theorem stored_full (l : Limited) (w bs rest : Bytes)
    (h0 : l.sink.pos + w.length ≤ l.cap)
    (h : ¬ l.sink.pos + (w ++ bs).length ≤ l.cap) :
    (stored l w).writeAll bs = (false, stored l ((w ++ bs ++ rest).take (l.cap - l.sink.pos))) := by
  rw [stored_write, decide_eq_false h]
  rw [List.length_append] at h
  have e : (w ++ bs ++ rest).take (l.cap - l.sink.pos) =
      w ++ bs.take (l.cap - (l.sink.pos + w.length)) := by
    rw [List.append_assoc, List.take_append, List.take_of_length_le (l := w) (by omega),
      List.take_append,
      show l.cap - l.sink.pos - w.length - bs.length = 0 by omega, List.take_zero, List.append_nil,
      show l.cap - l.sink.pos - w.length = l.cap - (l.sink.pos + w.length) by omega]
  rw [e]

private theorem stored_patch (l : Limited) (a b d : Bytes) (hb : b.length = 4) :
    (stored l (a ++ b ++ d)).patch (l.sink.pos + a.length) =
      stored l (a ++ u32B (UInt32.ofNat d.length) ++ d) := by
  have h := overwritten_patch l.sink.data l.sink.pos a b (u32B (UInt32.ofNat d.length)) d
    (by rw [hb, u32B_length])
  simp only [Limited.patch, stored, Sink.seek, Sink.write]
  have e : l.sink.pos + (a ++ b ++ d).length - (l.sink.pos + a.length + 4) = d.length := by
    simp only [List.length_append]; omega
  rw [e]
  congr 2
  simp [hb, u32B_length]

/-- The frame in the order in which it is stored. -/
private theorem frame_parts (n m : UInt32) (c : PalworldCompressionType) (p : Bytes) :
    frame n m c p = u32B n ++ u32B m ++ plzMagic ++ i8B c.toI8 ++ p := by
  have hc : i8B c.toI8 = [compressionByte c] := by cases c <;> decide
  rw [hc]
  rfl

/-- Everything up to the payload. -/
private def front (n : UInt32) (c : PalworldCompressionType) : Bytes :=
  u32B n ++ u32B 0 ++ plzMagic ++ i8B c.toI8

private theorem front_length (n : UInt32) (c : PalworldCompressionType) :
    (front n c).length = 12 := by
  simp [front, u32B_length, plzMagic, i8B, u8B]

/-- The part in front of the payload. -/
private theorem write_front (z : Codec) (f : GvasFile) (c : PalworldCompressionType)
    (early : Nat) (l : Limited) (data : Bytes) (he : f.encode = .ok data)
    (hg : f.gameVersion = .palworld c) (hp : l.sink.pos ≤ l.sink.data.length)
    (hc : l.sink.pos ≤ l.cap) (p : Bytes) :
    f.writeLimited z early l =
      if l.sink.pos + 12 ≤ l.cap then
        match (stored l (front (UInt32.ofNat data.length) c)).payload z c early data with
        | (false, l) => (.err .io, l)
        | (true, l') => (.ok (), l'.patch (l.sink.pos + 4))
      else (.err .io,
        stored l ((front (UInt32.ofNat data.length) c ++ p).take (l.cap - l.sink.pos))) := by
  have h4 : ∀ x, (u32B x).length = 4 := u32B_length
  have h3 : plzMagic.length = 3 := rfl
  have h1 : (i8B c.toI8).length = 1 := rfl
  unfold GvasFile.writeLimited
  rw [he]
  simp only [hg]
  generalize hn : u32B (UInt32.ofNat data.length) = n
  have hn4 : n.length = 4 := by rw [← hn, h4]
  have hf : front (UInt32.ofNat data.length) c = [] ++ n ++ u32B 0 ++ plzMagic ++ i8B c.toI8 := by
    rw [← hn]; rfl
  rw [hf]
  have e0 : l.writeAll n = (stored l []).writeAll n := by rw [stored_nil hp]
  rw [e0]
  by_cases q1 : l.sink.pos + ([] ++ n).length ≤ l.cap
  rotate_left
  · rw [stored_full l [] n (u32B 0 ++ plzMagic ++ i8B c.toI8 ++ p) (by simpa using hc) q1]
    rw [if_neg (by simp [hn4] at q1; omega)]
    simp
  rw [stored_fits l [] n q1]
  simp only []
  by_cases q2 : l.sink.pos + ([] ++ n ++ u32B 0).length ≤ l.cap
  rotate_left
  · rw [stored_full l _ (u32B 0) (plzMagic ++ i8B c.toI8 ++ p) q1 q2]
    rw [if_neg (by simp [hn4, h4] at q2; omega)]
    simp
  rw [stored_fits l _ _ q2]
  simp only []
  by_cases q3 : l.sink.pos + ([] ++ n ++ u32B 0 ++ plzMagic).length ≤ l.cap
  rotate_left
  · rw [stored_full l _ plzMagic (i8B c.toI8 ++ p) q2 q3]
    rw [if_neg (by simp [hn4, h4, h3] at q3; omega)]
    simp
  rw [stored_fits l _ _ q3]
  simp only []
  by_cases q4 : l.sink.pos + ([] ++ n ++ u32B 0 ++ plzMagic ++ i8B c.toI8).length ≤ l.cap
  rotate_left
  · rw [stored_full l _ (i8B c.toI8) p q3 q4]
    rw [if_neg (by simp [hn4, h4, h3, h1] at q4; omega)]
  rw [stored_fits l _ _ q4]
  rw [if_pos (by simp [hn4, h4, h3, h1] at q4; omega)]
  have e4 : (stored l ([] ++ n)).sink.pos = l.sink.pos + 4 := by simp [stored, hn4]
  simp only [e4]
  generalize Limited.payload z c early data _ = r
  obtain ⟨b, l'⟩ := r
  cases b <;> rfl

/-- The payload, completely stored. -/
private theorem payload_fits (z : Codec) (c : PalworldCompressionType) (early : Nat) (data w : Bytes)
    (l : Limited) (h : l.sink.pos + (w ++ pack z c data).length ≤ l.cap) :
    (stored l w).payload z c early data = (true, stored l (w ++ pack z c data)) := by
  cases c with
  | none => exact stored_fits l w _ h
  | zlib => exact stored_fits l w _ h
  | zlibTwice =>
    simp only [Limited.payload, pack] at h ⊢
    generalize z.deflate 6 (z.deflate 6 data) = p at h
    have e := List.take_append_drop early p
    have h1 : l.sink.pos + (w ++ p.take early ++ p.drop early).length ≤ l.cap := by
      rw [List.append_assoc, e]; exact h
    rw [stored_fits l w _ (by simp only [List.length_append] at h1 ⊢; omega)]
    simp only []
    rw [stored_fits l _ _ h1, List.append_assoc, e]

/-- The payload with less room than it needs, if it is not compressed twice. -/
private theorem payload_full (z : Codec) (c : PalworldCompressionType) (early : Nat) (data w : Bytes)
    (l : Limited) (hc : c ≠ .zlibTwice) (h0 : l.sink.pos + w.length ≤ l.cap)
    (h : ¬ l.sink.pos + (w ++ pack z c data).length ≤ l.cap) :
    (stored l w).payload z c early data =
      (false, stored l ((w ++ pack z c data).take (l.cap - l.sink.pos))) := by
  have := stored_full l w (pack z c data) [] h0 h
  rw [List.append_nil] at this
  cases c with
  | none => exact this
  | zlib => exact this
  | zlibTwice => exact absurd rfl hc

/-- The payload compressed twice, with less room than it needs. -/
private theorem payload_twice (z : Codec) (early : Nat) (data w : Bytes)
    (l : Limited) (h0 : l.sink.pos + w.length ≤ l.cap)
    (h : ¬ l.sink.pos + (w ++ pack z .zlibTwice data).length ≤ l.cap) :
    (stored l w).payload z .zlibTwice early data =
      (decide (l.sink.pos + w.length + early ≤ l.cap),
        stored l ((w ++ pack z .zlibTwice data).take (l.cap - l.sink.pos))) := by
  simp only [Limited.payload, pack] at h ⊢
  generalize z.deflate 6 (z.deflate 6 data) = p at h
  have e := List.take_append_drop early p
  have hl : early ≤ p.length ∨ p.length < early := by omega
  by_cases h1 : l.sink.pos + (w ++ p.take early).length ≤ l.cap
  · rw [stored_fits l w _ h1]
    simp only []
    have h2 : ¬ l.sink.pos + (w ++ p.take early ++ p.drop early).length ≤ l.cap := by
      rw [List.append_assoc, e]; exact h
    have := stored_full l (w ++ p.take early) (p.drop early) [] h1 h2
    rw [this]
    simp only [List.append_nil, List.append_assoc, e]
    rw [decide_eq_true]
    simp only [List.length_append, List.length_take, List.length_drop] at h1 h2
    omega
  · have := stored_full l w (p.take early) (p.drop early) h0 h1
    rw [List.append_assoc, e] at this
    rw [this]
    simp only []
    rw [decide_eq_false]
    simp only [List.length_append, List.length_take] at h1
    omega

/-- **C63**: with enough room, the limit plays no role. -/
theorem C63_enough_room (z : Codec) (f : GvasFile) (early : Nat) (l : Limited) (data : Bytes)
    (he : f.encode = .ok data) (hp : l.sink.pos ≤ l.sink.data.length)
    (hc : l.sink.pos + (image z f.gameVersion data).length ≤ l.cap) :
    f.writeLimited z early l = (.ok (), ⟨(f.write z l.sink).2, l.cap⟩) := by
  cases hg : f.gameVersion with
  | default =>
    rw [hg] at hc
    have := stored_fits l [] data hc
    rw [stored_nil hp] at this
    simp only [GvasFile.writeLimited, GvasFile.write, he, hg, this]
    rfl
  | palworld c =>
    rw [hg] at hc
    simp only [image, frame_parts] at hc
    rw [write_front z f c early l data he hg hp (by omega) []]
    have hl : 12 + (pack z c data).length = (u32B (UInt32.ofNat data.length) ++ u32B 0 ++ plzMagic ++
        i8B c.toI8 ++ pack z c data).length := by
      have := front_length (UInt32.ofNat data.length) c
      rw [← this, ← List.length_append]
      rfl
    rw [if_pos (by omega), payload_fits z c early data (front (UInt32.ofNat data.length) c) l hc]
    obtain ⟨s', hw⟩ : ∃ s', f.write z l.sink = (.ok (), s') := by
      simp only [GvasFile.write, he, hg]; exact ⟨_, rfl⟩
    obtain ⟨data', he', h1, h2⟩ := C42_palworld_frame z f c l.sink s' hg hw
    rw [he] at he'
    cases he'
    simp only []
    have ha : front (UInt32.ofNat data.length) c ++ pack z c data =
        u32B (UInt32.ofNat data.length) ++ u32B 0 ++ (plzMagic ++ i8B c.toI8 ++ pack z c data) := by
      simp [front]
    have hq := stored_patch l (u32B (UInt32.ofNat data.length)) (u32B 0)
      (plzMagic ++ i8B c.toI8 ++ pack z c data) (u32B_length 0)
    rw [u32B_length] at hq
    rw [ha, hq, hw]
    have hcb : i8B c.toI8 = [compressionByte c] := by cases c <;> decide
    have e1 : (plzMagic ++ i8B c.toI8 ++ pack z c data).length = 3 + 1 + (pack z c data).length := by
      rw [hcb]; simp [plzMagic]; omega
    simp only [stored, e1]
    congr 2
    obtain ⟨sd, sp⟩ := s'
    simp only [] at h1 h2
    rw [h1, h2, hcb]
    congr 1
    simp [u32B_length, plzMagic]
    omega

private theorem image_palworld (z : Codec) (c : PalworldCompressionType) (data : Bytes) :
    image z (.palworld c) data = front (UInt32.ofNat data.length) c ++ pack z c data := by
  simp only [image, frame_parts]
  rfl

/-- **C63, what does hold**: unless the payload is compressed twice, an output that is too small is
reported, and holds as much of the file as there is room for; everything before is as it was.
Missing: `ZlibTwice`, see `C63_truncated_but_ok`. -/
theorem C63_full_reported_partial (z : Codec) (f : GvasFile) (early : Nat) (l : Limited)
    (data : Bytes) (he : f.encode = .ok data) (ht : f.gameVersion ≠ .palworld .zlibTwice)
    (hp : l.sink.pos ≤ l.sink.data.length) (hl : l.sink.data.length ≤ l.cap)
    (hc : l.cap < l.sink.pos + (image z f.gameVersion data).length) :
    f.writeLimited z early l = (.err .io, ⟨⟨overwritten l.sink.data l.sink.pos
      ((image z f.gameVersion data).take (l.cap - l.sink.pos)), l.cap⟩, l.cap⟩) := by
  have hst : stored l ((image z f.gameVersion data).take (l.cap - l.sink.pos)) =
      ⟨⟨overwritten l.sink.data l.sink.pos
      ((image z f.gameVersion data).take (l.cap - l.sink.pos)), l.cap⟩, l.cap⟩ := by
    simp only [stored, List.length_take]
    rw [show l.sink.pos + min (l.cap - l.sink.pos) (image z f.gameVersion data).length = l.cap by
      omega]
  rw [← hst]
  cases hg : f.gameVersion with
  | default =>
    rw [hg] at hc
    have := stored_full l [] data [] (by simp; omega) (by simpa [image] using hc)
    rw [stored_nil hp] at this
    simp only [GvasFile.writeLimited, he, hg, this, image]
    simp
  | palworld c =>
    rw [hg] at hc ht
    rw [image_palworld] at hc ⊢
    rw [write_front z f c early l data he hg hp (by omega) (pack z c data)]
    split
    · rw [payload_full z c early data _ l (fun h => ht (by rw [h]))
        (by rw [front_length]; assumption) (by omega)]
    · rfl

/-- **C63, what does hold**: unless the payload is compressed twice, `Ok` means that the whole file
is in the output. -/
theorem C63_ok_complete_partial (z : Codec) (f : GvasFile) (early : Nat) (l l' : Limited)
    (ht : f.gameVersion ≠ .palworld .zlibTwice)
    (hp : l.sink.pos ≤ l.sink.data.length) (hl : l.sink.data.length ≤ l.cap)
    (h : f.writeLimited z early l = (.ok (), l')) :
    f.write z l.sink = (.ok (), l'.sink) ∧ l'.sink.pos ≤ l.cap := by
  cases he : f.encode with
  | bad e => simp [GvasFile.writeLimited, he] at h
  | ok data =>
    by_cases hc : l.sink.pos + (image z f.gameVersion data).length ≤ l.cap
    · have h' := C63_enough_room z f early l data he hp hc
      rw [h'] at h
      cases h
      have hw : f.write z l.sink = (.ok (), (f.write z l.sink).2) := by
        refine Prod.ext ?_ rfl
        cases hg : f.gameVersion <;> simp only [GvasFile.write, he, hg]
      refine ⟨hw, ?_⟩
      cases hg : f.gameVersion with
      | default =>
        obtain ⟨d, e, -, h2⟩ := C42_default_frame z f _ _ hg hw
        rw [he] at e
        cases e
        rw [hg] at hc
        exact h2 ▸ hc
      | palworld c =>
        obtain ⟨d, e, -, h2⟩ := C42_palworld_frame z f c _ _ hg hw
        rw [he] at e
        cases e
        rw [hg, image_palworld, List.length_append, front_length] at hc
        exact h2 ▸ hc
    · rw [C63_full_reported_partial z f early l data he ht hp hl (by omega)] at h
      cases h

/-- **C63 is false for `ZlibTwice`**: if the payload does not fit, but the part that was stored
before the outer encoder was dropped does, the result is `Ok`.  The output then holds a frame with
as much of the payload as there is room for, and a compressed length to match. -/
theorem C63_truncated_but_ok (z : Codec) (f : GvasFile) (early : Nat) (l : Limited)
    (data : Bytes) (he : f.encode = .ok data) (ht : f.gameVersion = .palworld .zlibTwice)
    (hp : l.sink.pos ≤ l.sink.data.length) (hl : l.sink.pos + 12 + early ≤ l.cap)
    (hc : l.cap < l.sink.pos + 12 + (pack z .zlibTwice data).length) :
    f.writeLimited z early l = (.ok (), ⟨⟨overwritten l.sink.data l.sink.pos
      (frame (UInt32.ofNat data.length) (UInt32.ofNat (l.cap - l.sink.pos - 8)) .zlibTwice
        ((pack z .zlibTwice data).take (l.cap - l.sink.pos - 12))), l.cap⟩, l.cap⟩) := by
  have h12 := front_length (UInt32.ofNat data.length) .zlibTwice
  rw [write_front z f .zlibTwice early l data he ht hp (by omega) [], if_pos (by omega),
    payload_twice z early data _ l (by omega) (by rw [List.length_append, h12]; omega),
    decide_eq_true (by omega)]
  simp only []
  have e : (front (UInt32.ofNat data.length) .zlibTwice ++ pack z .zlibTwice data).take
      (l.cap - l.sink.pos) = u32B (UInt32.ofNat data.length) ++ u32B 0 ++
      (plzMagic ++ i8B PalworldCompressionType.zlibTwice.toI8 ++
        (pack z .zlibTwice data).take (l.cap - l.sink.pos - 12)) := by
    rw [List.take_append, List.take_of_length_le (by omega), h12]
    simp [front]
  have hq := stored_patch l (u32B (UInt32.ofNat data.length)) (u32B 0)
    (plzMagic ++ i8B PalworldCompressionType.zlibTwice.toI8 ++
        (pack z .zlibTwice data).take (l.cap - l.sink.pos - 12)) (u32B_length 0)
  rw [u32B_length] at hq
  rw [e, hq]
  have e1 : (plzMagic ++ i8B PalworldCompressionType.zlibTwice.toI8 ++
      (pack z .zlibTwice data).take (l.cap - l.sink.pos - 12)).length = l.cap - l.sink.pos - 8 := by
    have : (i8B PalworldCompressionType.zlibTwice.toI8).length = 1 := rfl
    simp only [List.length_append, this, List.length_take, plzMagic, List.length_cons,
      List.length_nil]
    omega
  rw [e1, frame_parts]
  simp only [stored, List.length_append, u32B_length, e1]
  rw [show l.sink.pos + (4 + 4 + (l.cap - l.sink.pos - 8)) = l.cap by omega]
  simp only [List.append_assoc]

/-- A code like `toyCodec` that insists on the end marks when it decodes twice. -/
private def strictCodec : Codec :=
  { toyCodec with
    inflate2 := fun x =>
      match toyInflate x with
      | (y, true) =>
        match toyInflate y with
        | (d, true) => some d
        | _ => none
      | _ => none }

private theorem strictCodec_lawful : Lawful strictCodec := by
  refine ⟨fun _ x rest => toyInflate_deflate x rest, fun _ _ x rest => ?_⟩
  have := toyInflate_deflate x []
  rw [List.append_nil] at this
  simp only [strictCodec, toyCodec, toyInflate_deflate, this]

/-- A small file, compressed twice. -/
private def twiceFile : GvasFile :=
  ⟨.palworld .zlibTwice, .version2 0x20A ⟨5, 0, 0, 0, ""⟩ 3 [] "S", [("a", .bool true)]⟩

private theorem twiceFile_ok : FileOK true noHints twiceFile := by
  refine ⟨?_, by simp only [twiceFile]; decide +kernel, ?_⟩
  · simp only [twiceFile, HeaderOK]
    refine ⟨by decide, by decide, ?_⟩
    constructor <;> decide +kernel
  · simp only [twiceFile, List.forall_mem_cons]
    refine ⟨⟨by decide +kernel, by decide, ?_⟩, by simp⟩
    simp only [HeadOK]

/-- **C63 is false**: `write` to a buffer of 200 bytes returns `Ok`, but the file is longer, and what
is in the buffer cannot be read. -/
theorem C63_lost_save : ∃ (z : Codec) (f : GvasFile) (l' : Limited), Lawful z ∧
    f.writeLimited z 0 ⟨⟨[], 0⟩, 200⟩ = (.ok (), l') ∧
    200 < (f.write z ⟨[], 0⟩).2.data.length ∧
    GvasFile.read z true .palworld noHints 0 (f.write z ⟨[], 0⟩).2.data = .ok f ∧
    GvasFile.read z true .palworld noHints 0 l'.sink.data = .err .io := by
  obtain ⟨data, he, h18⟩ := C18_palworld_roundtrip strictCodec strictCodec_lawful true noHints
    twiceFile .zlibTwice rfl twiceFile_ok
  have hlen : (match twiceFile.encode with | .ok d => d.length | .bad _ => 0) < 2 ^ 32 := by
    decide +kernel
  rw [he] at hlen
  obtain ⟨s', hw, hr⟩ := h18 hlen ⟨[], 0⟩
  rw [List.drop_zero] at hr
  have h1 : (twiceFile.writeLimited strictCodec 0 ⟨⟨[], 0⟩, 200⟩).1 = .ok () := by decide +kernel
  refine ⟨strictCodec, twiceFile, (twiceFile.writeLimited strictCodec 0 ⟨⟨[], 0⟩, 200⟩).2,
    strictCodec_lawful, Prod.ext h1 rfl, ?_, by rw [hw]; exact hr, ?_⟩
  · decide +kernel
  · exact eq_bad (by decide +kernel)

/-- The sample save, uncompressed, and an output with too little room for it. -/
example : ∃ data, (sampleFile (.palworld .none)).encode = .ok data ∧
    ((sampleFile (.palworld .none)).writeLimited toyCodec 0 ⟨⟨[1, 2, 3], 2⟩, 500⟩).1 = .err .io := by
  obtain ⟨data, he⟩ := fileOK_encodes (sampleFile_ok (.palworld .none))
  exact ⟨data, he, by decide +kernel⟩

end Gvas
