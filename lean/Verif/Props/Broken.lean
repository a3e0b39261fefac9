import Verif.Props.Stream
import Verif.Props.Errors
import Verif.Props.Framed

/-!
# C62: when the failure of a stream shows
-/

namespace Gvas

open Spec

/-- **C62**: a stream that fails within the frame of a Palworld save is reported as failing; if the
frame has a fault before the failure, that is reported. -/
theorem C62_failure_in_frame (z : Codec) (debug : Bool) (hints : String → Option String)
    (size : Nat → Nat) (before behind : List Event) (p : Nat) (hc : Clean before) (e : Err)
    (h : FrameFault p (contents before) e) :
    GvasFile.readStream z debug .palworld hints size ⟨before ++ .error :: behind, p⟩ =
      .err (if e = .eof then .io else e) := by
  have hr := (C83_frame p (contents before) [] e).2 h
  simp only [GvasFile.readStream]
  rcases stream_frame_broken before behind p hc with ⟨a, es', p', h1, h2, -⟩ | ⟨f, s', r, h1, h2⟩
  · rw [h2] at hr; cases hr
  · rcases h2 with ⟨h2, ne⟩ | ⟨rfl, h2⟩
    · rw [h2] at hr
      cases hr
      rw [h1, if_neg (fun he => ne (by rw [he]))]
    · rw [h2] at hr
      cases hr
      rw [h1, if_pos rfl]

/-- A failure in the middle of the letters: the same bytes at the end of a stream would have been
cut off.  And wrong letters before a failure. -/
example (z : Codec) (size : Nat → Nat) :
    GvasFile.readStream z true .palworld noHints size
      ⟨[.data [5, 0, 0, 0, 1], .interrupted, .data [1, 1, 1, 0x50]] ++ .error :: [], 3⟩ = .err .io ∧
    GvasFile.read z true .palworld noHints 3 [5, 0, 0, 0, 1, 1, 1, 1, 0x50] = .err .eof ∧
    GvasFile.readStream z true .palworld noHints size
      ⟨[.data [5, 0, 0, 0, 1, 1, 1, 1, 0x50], .data [0x4B, 0x03]] ++ .error :: [], 3⟩ =
        .err (.invalidHeader "Invalid PlZ magic [80, 75, 3]") := by
  refine ⟨?_, rfl, ?_⟩
  · rw [C62_failure_in_frame z true noHints size _ [] 3 (by decide +kernel) .eof
      (.short (by decide +kernel))]
    rfl
  · rw [C62_failure_in_frame z true noHints size _ [] 3 (by decide +kernel) _
      (.magic [0x50, 0x4B, 0x03] rfl ⟨[5, 0, 0, 0, 1, 1, 1, 1], [], rfl, rfl⟩ (by decide)),
      if_neg (by simp), show "Invalid PlZ magic " ++ toString (([0x50, 0x4B, 0x03] : Bytes).map
        UInt8.toNat) = "Invalid PlZ magic [80, 75, 3]" by decide +kernel]

/-- **C62**: a stream that fails behind the frame of an uncompressed Palworld save is reported as
failing if the payload is not complete by then; otherwise the failure is not met. -/
theorem C62_failure_in_payload (z : Codec) (debug : Bool) (hints : String → Option String)
    (size : Nat → Nat) (before behind : List Event) (p : Nat) (hc : Clean before)
    (dlen clen : UInt32) (payload : Bytes) (h : contents before = frame dlen clen .none payload) :
    GvasFile.readStream z debug .palworld hints size ⟨before ++ .error :: behind, p⟩ =
      if dlen.toNat ≤ payload.length then
        GvasFile.read z debug .palworld hints p (frame dlen clen .none payload)
      else .err .io := by
  simp only [GvasFile.readStream]
  rcases stream_frame_broken before behind p hc with ⟨a, es', p', h1, h2, hc'⟩ | ⟨f, s', r, h1, h2⟩
  · rw [h, readFrame_frame] at h2
    simp only [Prod.mk.injEq, Res.ok.injEq, RS.mk.injEq, and_true] at h2
    obtain ⟨rfl, h3, rfl⟩ := h2
    simp only [h1, stream_take_broken dlen.toNat es' behind _ hc', ← h3]
    by_cases hl : dlen.toNat ≤ payload.length
    · simp only [if_pos hl, GvasFile.read, readFrame_frame, unpack]
    · simp only [if_neg hl]
      rfl
  · rw [h, readFrame_frame] at h2
    rcases h2 with ⟨h2, -⟩ | ⟨-, h2⟩ <;> cases h2

/-- A failure one byte before the end of the announced payload, and right behind it. -/
example (z : Codec) (size : Nat → Nat) :
    GvasFile.readStream z true .palworld noHints size
      ⟨[.data [2, 0, 0, 0, 6, 0, 0, 0, 0x50, 0x6C], .data [0x5A, 0x30, 7]] ++ .error :: [], 0⟩ =
        .err .io ∧
    GvasFile.readStream z true .palworld noHints size
      ⟨[.data [2, 0, 0, 0, 6, 0, 0, 0, 0x50, 0x6C], .data [0x5A, 0x30, 7, 8]] ++ .error :: [], 0⟩ =
        .err .eof := by
  constructor
  · rw [C62_failure_in_payload z true noHints size _ [] 0 (by decide +kernel) 2 6 [7]
      (by decide +kernel), if_neg (by decide)]
  · rw [C62_failure_in_payload z true noHints size _ [] 0 (by decide +kernel) 2 6 [7, 8]
      (by decide +kernel), if_pos (by decide)]
    rfl

end Gvas
