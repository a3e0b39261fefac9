import Verif.Lemmas.Header
import Verif.Spec.Codec

/-!
# C41-C43: containers
-/

namespace Gvas

open Spec

/-! ## C41 -/

/-- **C41**: a write that fails leaves contents and position of the output as they were. -/
theorem C41_failed_write_untouched (z : Codec) (f : GvasFile) (s s' : Sink) (e : Fail)
    (h : f.write z s = (.bad e, s')) : s' = s := by
  unfold GvasFile.write at h
  cases he : f.encode with
  | bad e' => rw [he] at h; simp at h; exact h.2.symm
  | ok data =>
    rw [he] at h
    simp only [] at h
    cases hg : f.gameVersion <;> rw [hg] at h <;> simp at h

/-- **C41**: a write fails exactly if a property cannot be serialized, whatever the container. -/
theorem C41_fails_iff (z : Codec) (f : GvasFile) (s : Sink) :
    (∃ e s', f.write z s = (.bad e, s')) ↔
      ∃ e, writeTop f.header.customVersions f.properties = .bad e := by
  have he : (∃ e, f.encode = .bad e) ↔
      ∃ e, writeTop f.header.customVersions f.properties = .bad e := by
    unfold GvasFile.encode
    cases hw : writeTop f.header.customVersions f.properties with
    | bad e => exact ⟨fun _ => ⟨e, rfl⟩, fun _ => ⟨e, rfl⟩⟩
    | ok o => exact ⟨fun ⟨e, h⟩ => (by cases h), fun ⟨e, h⟩ => (by cases h)⟩
  rw [← he]
  unfold GvasFile.write
  cases hf : f.encode with
  | bad e => exact ⟨fun _ => ⟨e, rfl⟩, fun _ => ⟨e, s, rfl⟩⟩
  | ok data =>
    refine ⟨?_, fun ⟨e, h⟩ => (by cases h)⟩
    rintro ⟨e, s', h⟩
    simp only [] at h
    cases hg : f.gameVersion <;> rw [hg] at h <;> simp at h

/-- A file that cannot be written: a single-precision vector in a file with large world
coordinates. -/
example (z : Codec) (s : Sink) :
    ∃ e s', (GvasFile.mk (.palworld .zlib)
      (.version2 0x20A ⟨5, 0, 0, 0, ""⟩ 3 [(ue5ReleaseGuid, 100)] "Save")
      [("a", .bool true), ("v", .struct editorGuid "Vector" (.vectorF ⟨0⟩ ⟨0⟩ ⟨0⟩))]).write z s
        = (.bad e, s') := by
  rw [C41_fails_iff]
  exact ⟨_, rfl⟩

/-! ## C42 -/

/-- The contents of an output of contents `old` after `bs` was written at position `pos`:
whatever was before stays (a gap is filled with zeros), and so does what lies behind. -/
def Spec.overwritten (old : Bytes) (pos : Nat) (bs : Bytes) : Bytes :=
  old.take pos ++ List.replicate (pos - old.length) 0 ++ bs ++ old.drop (pos + bs.length)

theorem write_data (s : Sink) (bs : Bytes) :
    (s.write bs).data = overwritten s.data s.pos bs ∧ (s.write bs).pos = s.pos + bs.length :=
  ⟨rfl, rfl⟩

theorem overwritten_append (old : Bytes) (pos : Nat) (a b : Bytes) :
    overwritten (overwritten old pos a) (pos + a.length) b = overwritten old pos (a ++ b) := by
  unfold overwritten
  have hl : (old.take pos ++ List.replicate (pos - old.length) 0 ++ a).length = pos + a.length := by
    simp; omega
  have h1 : (old.take pos ++ List.replicate (pos - old.length) 0 ++ a ++
      old.drop (pos + a.length)).take (pos + a.length) =
      old.take pos ++ List.replicate (pos - old.length) 0 ++ a := by
    rw [← hl, List.take_left]
  have h2 : (old.take pos ++ List.replicate (pos - old.length) 0 ++ a ++
      old.drop (pos + a.length)).drop (pos + a.length + b.length) =
      old.drop (pos + (a ++ b).length) := by
    conv => lhs; rw [show pos + a.length + b.length =
      (old.take pos ++ List.replicate (pos - old.length) 0 ++ a).length + b.length by rw [hl]]
    rw [List.drop_append, List.drop_of_length_le (by omega), List.drop_drop, List.nil_append]
    congr 1; simp; omega
  rw [h1, h2]
  have h3 : pos + a.length - (old.take pos ++ List.replicate (pos - old.length) 0 ++ a ++
      old.drop (pos + a.length)).length = 0 := by
    rw [List.length_append, hl]; omega
  rw [h3]
  simp only [List.replicate_zero, List.append_nil, List.append_assoc]

theorem overwritten_patch (old : Bytes) (pos : Nat) (a b c d : Bytes)
    (h : b.length = c.length) :
    overwritten (overwritten old pos (a ++ b ++ d)) (pos + a.length) c =
      overwritten old pos (a ++ c ++ d) := by
  unfold overwritten
  have hl : (old.take pos ++ List.replicate (pos - old.length) 0 ++ a).length = pos + a.length := by
    simp; omega
  have e : old.take pos ++ List.replicate (pos - old.length) 0 ++ (a ++ b ++ d) ++
      old.drop (pos + (a ++ b ++ d).length) =
      (old.take pos ++ List.replicate (pos - old.length) 0 ++ a) ++ (b ++ (d ++
      old.drop (pos + (a ++ b ++ d).length))) := by simp
  have h1 : (old.take pos ++ List.replicate (pos - old.length) 0 ++ (a ++ b ++ d) ++
      old.drop (pos + (a ++ b ++ d).length)).take (pos + a.length) =
      old.take pos ++ List.replicate (pos - old.length) 0 ++ a := by
    rw [e, ← hl, List.take_left]
  have h2 : (old.take pos ++ List.replicate (pos - old.length) 0 ++ (a ++ b ++ d) ++
      old.drop (pos + (a ++ b ++ d).length)).drop (pos + a.length + c.length) =
      d ++ old.drop (pos + (a ++ b ++ d).length) := by
    rw [e, ← List.append_assoc, ← h]
    rw [show pos + a.length + b.length =
      (old.take pos ++ List.replicate (pos - old.length) 0 ++ a ++ b).length by
        rw [List.length_append, hl], List.drop_left]
  have h3 : pos + a.length - (old.take pos ++ List.replicate (pos - old.length) 0 ++
      (a ++ b ++ d) ++ old.drop (pos + (a ++ b ++ d).length)).length = 0 := by
    rw [e, List.length_append, hl]; omega
  rw [h1, h2, h3]
  simp only [List.replicate_zero, List.append_nil, List.append_assoc]
  congr 6
  · simp only [List.length_append]; omega

/-- The letter of a compression type in the frame. -/
def Spec.compressionByte : PalworldCompressionType → UInt8
  | .none => 0x30 | .zlib => 0x31 | .zlibTwice => 0x32

/-- **C42**: what is written for a Palworld file: at the initial position the decompressed length,
the number of bytes behind the second field, `PlZ`, the compression type, and the payload;
everything else in the output is untouched and the position is right behind the payload. -/
theorem C42_palworld_frame (z : Codec) (f : GvasFile) (c : PalworldCompressionType) (s s' : Sink)
    (hg : f.gameVersion = .palworld c) (h : f.write z s = (.ok (), s')) :
    ∃ data, f.encode = .ok data ∧
      s'.data = overwritten s.data s.pos (u32B (UInt32.ofNat data.length) ++
        u32B (UInt32.ofNat (3 + 1 + (pack z c data).length)) ++ [0x50, 0x6C, 0x5A] ++
        [compressionByte c] ++ pack z c data) ∧
      s'.pos = s.pos + (12 + (pack z c data).length) := by
  unfold GvasFile.write at h
  cases he : f.encode with
  | bad e => rw [he] at h; simp at h
  | ok data =>
    rw [he] at h
    simp only [hg] at h
    simp only [Prod.mk.injEq, true_and] at h
    refine ⟨data, rfl, ?_⟩
    subst h
    have hc : i8B c.toI8 = [compressionByte c] := by cases c <;> decide
    rw [hc]
    have hm : plzMagic = [0x50, 0x6C, 0x5A] := rfl
    rw [hm]
    simp only [Sink.seek, (write_data _ _).1, (write_data _ _).2]
    constructor
    · rw [overwritten_append, Nat.add_assoc, ← List.length_append, overwritten_append, Nat.add_assoc,
        ← List.length_append, overwritten_append, Nat.add_assoc, ← List.length_append,
        overwritten_append]
      rw [show ∀ a b c d e : Bytes, a ++ b ++ c ++ d ++ e = a ++ b ++ (c ++ d ++ e) by simp]
      rw [overwritten_patch _ _ _ _ _ _ (by simp [u32B_length])]
      congr 1
      simp only [List.append_assoc, List.length_append, u32B_length, List.length_cons,
        List.length_nil]
      rw [show s.pos + (4 + 4) + (0 + 1 + 1 + 1 + (0 + 1 + (pack z c data).length)) -
        (s.pos + 4 + 4) =
        3 + 1 + (pack z c data).length by omega]
    · simp [u32B_length]
      omega

/-- **C42**, default container: the encoding at the initial position, nothing else touched. -/
theorem C42_default_frame (z : Codec) (f : GvasFile) (s s' : Sink)
    (hg : f.gameVersion = .default) (h : f.write z s = (.ok (), s')) :
    ∃ data, f.encode = .ok data ∧ s'.data = overwritten s.data s.pos data ∧
      s'.pos = s.pos + data.length := by
  unfold GvasFile.write at h
  cases he : f.encode with
  | bad e => rw [he] at h; simp at h
  | ok data =>
    rw [he] at h
    simp only [hg, Prod.mk.injEq, true_and] at h
    subst h
    exact ⟨data, rfl, rfl, rfl⟩

/-- Bytes in front of the initial position stay, and at the end of an output the position is the
end of the file. -/
theorem C42_before_untouched (old : Bytes) (pos : Nat) (bs : Bytes) (h : pos ≤ old.length) :
    (overwritten old pos bs).take pos = old.take pos ∧
    (old.length ≤ pos + bs.length → (overwritten old pos bs).length = pos + bs.length) := by
  unfold overwritten
  constructor
  · rw [Nat.sub_eq_zero_of_le h, List.replicate_zero, List.append_nil, List.append_assoc]
    rw [List.take_append_of_le_length (by simp; omega), List.take_take, Nat.min_self]
  · intro h'; simp; omega

example : overwritten [1, 2, 3, 4, 5, 6] 2 [9, 9] = [1, 2, 9, 9, 5, 6] ∧
    overwritten [1, 2] 4 [9] = [1, 2, 0, 0, 9] := by decide

/-- A Palworld file in the middle of an output. -/
example : ∃ s', (GvasFile.mk (.palworld .none)
      (.version2 0x20A ⟨5, 0, 0, 0, ""⟩ 3 [] "S") []).write
      ⟨fun x => (x, true), some, fun _ x => x⟩ ⟨[7, 7, 7], 2⟩ = (.ok (), s') ∧
    s'.data.take 15 = [7, 7, 54, 0, 0, 0, 58, 0, 0, 0, 0x50, 0x6C, 0x5A, 0x30, 0x47] ∧
    s'.pos = 68 := ⟨_, rfl, by decide, by decide⟩

/-! ## C43 -/

/-- **C43**: the stored compressed length never influences reading. -/
theorem C43_compressed_length_ignored (z : Codec) (debug : Bool) (hints : String → Option String)
    (start : Nat) (dlen clen clen' : UInt32) (rest : Bytes) :
    GvasFile.read z debug .palworld hints start (u32B dlen ++ u32B clen ++ rest) =
      GvasFile.read z debug .palworld hints start (u32B dlen ++ u32B clen' ++ rest) := by
  have h : ∀ clen : UInt32, readFrame ⟨u32B dlen ++ u32B clen ++ rest, start, []⟩ =
      (do
        let magic ← R.take 3
        headerCheck (magic = plzMagic)
          ("Invalid PlZ magic " ++ toString (magic.map UInt8.toNat))
        let c ← readEnum "gvas::game_version::PalworldCompressionType" PalworldCompressionType.ofI8
        return (dlen, c) : R (UInt32 × PalworldCompressionType)) ⟨rest, start + 8, []⟩ := by
    intro clen
    unfold readFrame
    rw [List.append_assoc, R.bind_ok ((reads_u32 (st := []) _).run _ _),
      R.bind_ok ((reads_u32 (st := []) _).run _ _)]
    simp [u32B_length, Nat.add_assoc]
  simp only [GvasFile.read, h clen, h clen']

/-- A Palworld frame around `payload`. -/
def Spec.frame (dlen clen : UInt32) (c : PalworldCompressionType) (payload : Bytes) : Bytes :=
  u32B dlen ++ u32B clen ++ [0x50, 0x6C, 0x5A] ++ [compressionByte c] ++ payload

theorem readFrame_frame (dlen clen : UInt32) (c : PalworldCompressionType) (payload : Bytes)
    (pos : Nat) (st : List String) :
    readFrame ⟨frame dlen clen c payload, pos, st⟩ = (.ok (dlen, c), ⟨payload, pos + 12, st⟩) := by
  have hc : i8B c.toI8 = [compressionByte c] := by cases c <;> decide
  unfold frame readFrame
  simp only [List.append_assoc, ← hc]
  have hk : ∀ m s, headerCheck ([0x50, 0x6C, 0x5A] = plzMagic) m s = (.ok (), s) := by
    intro m s; rw [headerCheck, R.ensure_true (by decide)]; rfl
  rw [R.bind_ok ((reads_u32 (st := st) _).run _ _), R.bind_ok ((reads_u32 (st := st) _).run _ _),
    R.bind_ok ((Reads.take (st := st) (n := 3) rfl).run _ _), R.bind_ok (hk _ _),
    R.bind_ok ((reads_enum (st := st) _ _ c.toI8 c (by cases c <;> decide)).run _ _)]
  simp [R.pure_def, u32B_length, hc]

/-- **C43**: with a decompressed length beyond the end of the payload, reading fails. -/
theorem C43_decompressed_length_too_large (z : Codec) (debug : Bool)
    (hints : String → Option String) (start : Nat) (dlen clen : UInt32) (payload : Bytes) :
    (payload.length < dlen.toNat →
      GvasFile.read z debug .palworld hints start (frame dlen clen .none payload) = .err .eof) ∧
    ((z.inflate payload).1.length < dlen.toNat →
      ∃ e, GvasFile.read z debug .palworld hints start (frame dlen clen .zlib payload) = .err e) := by
  constructor
  · intro h
    simp only [GvasFile.read, readFrame_frame, unpack]
    rw [if_neg (by omega)]
    rfl
  · intro h
    simp only [GvasFile.read, readFrame_frame, unpack, inflateExact]
    rw [if_neg (by omega)]
    exact ⟨_, rfl⟩

/-- **C43**: a decompressed length within the payload cuts it off there, so bytes behind it do not
matter. -/
theorem C43_decompressed_length_cuts (z : Codec) (debug : Bool)
    (hints : String → Option String) (start : Nat) (dlen clen : UInt32) (payload extra : Bytes)
    (h : dlen.toNat ≤ payload.length) :
    GvasFile.read z debug .palworld hints start (frame dlen clen .none (payload ++ extra)) =
      GvasFile.read z debug .palworld hints start (frame dlen clen .none payload) := by
  simp only [GvasFile.read, readFrame_frame, unpack]
  rw [if_pos (by simp; omega), if_pos h, List.take_append_of_le_length h]

/-- **C43**: with double compression the decompressed length is not used at all. -/
theorem C43_twice_ignores_length (z : Codec) (debug : Bool) (hints : String → Option String)
    (start : Nat) (dlen dlen' clen : UInt32) (payload : Bytes) :
    GvasFile.read z debug .palworld hints start (frame dlen clen .zlibTwice payload) =
      GvasFile.read z debug .palworld hints start (frame dlen' clen .zlibTwice payload) := by
  simp only [GvasFile.read, readFrame_frame, unpack]

example : (10 : UInt32).toNat ≤ (List.replicate 12 (0 : UInt8)).length ∧
    [1, 2, 3].length < (10 : UInt32).toNat := by decide

end Gvas
