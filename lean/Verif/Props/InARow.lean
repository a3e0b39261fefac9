import Verif.Props.Stream
import Verif.Props.Framed
import Verif.Props.Converted
import Verif.Props.Equality
import Verif.Lemmas.File

/-!
# C109: where reading leaves the stream
-/

namespace Gvas

open Spec

/-- What is read is the same whether or not one asks for the stream that is left. -/
theorem readOn_result (z : Codec) (debug : Bool) (gv : GameVersion)
    (hints : String → Option String) (size : Nat → Nat) (s : Stream) :
    (GvasFile.readOn z debug gv hints size s).1 = GvasFile.readStream z debug gv hints size s := by
  cases gv with
  | default => rfl
  | palworld =>
    simp only [GvasFile.readOn, GvasFile.readStream]
    rcases s.frame with ⟨⟨dlen, c⟩ | e, s'⟩
    · cases c with
      | none => rfl
      | zlib =>
        simp only []
        cases (Stream.readToEnd size 0 [] s').1 <;> rfl
      | zlibTwice =>
        simp only []
        cases (Stream.readToEnd size 0 [] s').1 with
        | bad e => rfl
        | ok d =>
          simp only [Res.bind_ok (m := Res.ok d) rfl]
          cases z.inflate2 d <;> rfl
    · rfl

/-- **C109**: an ordinary save is read with everything that follows it: whatever the outcome, the
stream is at its end, so a second save behind the first one is not to be had from the same stream. -/
theorem C109_ordinary_takes_all (z : Codec) (debug : Bool) (hints : String → Option String)
    (size : Nat → Nat) (s : Stream) (hc : Clean s.events) :
    GvasFile.readOn z debug .default hints size s =
      (GvasFile.read z debug .default hints s.pos (contents s.events),
        ⟨[], s.pos + (contents s.events).length⟩) := by
  refine Prod.ext ?_ ?_
  · rw [readOn_result, C62_delivery_irrelevant z debug .default hints size s hc]
  · simp only [GvasFile.readOn]
    rw [stream_all size 0 [] s.events s.pos hc]

/-- **C109**: so the next one asked for is reported as ending too soon. -/
theorem C109_nothing_behind_ordinary (z : Codec) (debug : Bool) (hints : String → Option String)
    (size : Nat → Nat) (s : Stream) (hc : Clean s.events) :
    (GvasFile.readOn z debug .default hints size
      (GvasFile.readOn z debug .default hints size s).2).1 = .err .eof := by
  rw [C109_ordinary_takes_all z debug hints size s hc]
  rw [C109_ordinary_takes_all z debug hints size ⟨[], _⟩ (by simp [Clean])]
  rfl

/-- Two ordinary saves in one stream: the first is loaded, the second is gone. -/
example : ∃ f, (GvasFile.readOn prefixCodec true .default noHints (fun _ => 3)
      ⟨[.data (saveBytes intBytes), .interrupted, .data (saveBytes intBytes)], 7⟩).1 = .ok f ∧
    (GvasFile.readOn prefixCodec true .default noHints (fun _ => 3)
      (GvasFile.readOn prefixCodec true .default noHints (fun _ => 3)
        ⟨[.data (saveBytes intBytes), .interrupted, .data (saveBytes intBytes)], 7⟩).2).1 = .err .eof := by
  have hc : Clean [.data (saveBytes intBytes), .interrupted, .data (saveBytes intBytes)] := by decide +kernel
  obtain ⟨f, hf⟩ : ∃ f, GvasFile.read prefixCodec true .default noHints 7
      (contents [.data (saveBytes intBytes), .interrupted, .data (saveBytes intBytes)]) = .ok f :=
    eq_ok (by decide +kernel)
  exact ⟨f, by rw [C109_ordinary_takes_all _ _ _ _ _ hc]; exact hf,
    C109_nothing_behind_ordinary _ _ _ _ _ hc⟩

/-- **C109**: of an uncompressed Palworld save nothing behind the announced length is taken,
whatever the contents are read to; the stream is left right behind the payload. -/
theorem C109_plain_leaves_rest (z : Codec) (debug : Bool) (hints : String → Option String)
    (size : Nat → Nat) (s : Stream) (hc : Clean s.events) (dlen clen : UInt32) (payload rest : Bytes)
    (hl : payload.length = dlen.toNat)
    (h : contents s.events = frame dlen clen .none payload ++ rest) :
    ∃ es', GvasFile.readOn z debug .palworld hints size s =
        (GvasFile.read z debug .palworld hints s.pos (frame dlen clen .none payload),
          ⟨es', s.pos + (frame dlen clen .none payload).length⟩) ∧
      Clean es' ∧ contents es' = rest := by
  have hf : contents s.events = frame dlen clen .none (payload ++ rest) := by
    rw [h, frame, frame]; simp only [List.append_assoc]
  obtain ⟨es1, h1, c1, e1⟩ := stream_frame s.events s.pos hc (dlen, .none) (payload ++ rest)
    (s.pos + 12) (by rw [hf, readFrame_frame])
  obtain ⟨es2, h2, c2, e2⟩ := stream_take dlen.toNat es1 (s.pos + 12) c1
    (by rw [e1, List.length_append]; omega)
  rw [e1, ← hl, List.drop_left] at e2
  refine ⟨es2, ?_, c2, e2⟩
  refine Prod.ext ?_ ?_
  · rw [readOn_result, C62_delivery_irrelevant z debug .palworld hints size s hc, hf]
    have hp : Payload z dlen.toNat (payload ++ rest) .none payload := by
      have := Payload.plain (z := z) (dlen := dlen.toNat) (payload := payload ++ rest)
        (by rw [List.length_append]; omega)
      rwa [← hl, List.take_left, hl] at this
    have hp' : Payload z dlen.toNat payload .none payload := by
      have := Payload.plain (z := z) (dlen := dlen.toNat) (payload := payload) (by omega)
      rwa [← hl, List.take_length, hl] at this
    rw [C106_contents z dlen clen .none _ _ hp debug hints s.pos 0,
      C106_contents z dlen clen .none _ _ hp' debug hints s.pos 0]
  · have hs : s.frame = (.ok (dlen, .none), ⟨es1, s.pos + 12⟩) := h1
    simp only [GvasFile.readOn, hs, h2]
    simp [frame, u32B_length, hl]
    omega

/-- A frame around two bytes that are no save, delivered in pieces that do not respect its end: the
contents are refused, and the three bytes behind them are left. -/
example : ∃ es', GvasFile.readOn prefixCodec true .palworld noHints (fun _ => 3)
      ⟨[.data [2, 0, 0, 0, 7, 7], .interrupted, .data [7, 7, 0x50, 0x6C, 0x5A], .data [0x30, 1],
        .data [2, 9, 8], .interrupted, .data [7]], 4⟩ = (.err .eof, ⟨es', 18⟩) ∧
    contents es' = [9, 8, 7] := by
  obtain ⟨es', h, -, t⟩ := C109_plain_leaves_rest prefixCodec true noHints (fun _ => 3)
    ⟨[.data [2, 0, 0, 0, 7, 7], .interrupted, .data [7, 7, 0x50, 0x6C, 0x5A], .data [0x30, 1],
      .data [2, 9, 8], .interrupted, .data [7]], 4⟩ (by decide +kernel) 2 0x07070707 [1, 2] [9, 8, 7]
    rfl (by decide +kernel)
  refine ⟨es', ?_, t⟩
  rw [h]
  refine Prod.ext ?_ rfl
  show GvasFile.read prefixCodec true .palworld noHints 4 (frame 2 0x07070707 .none [1, 2]) = _
  exact eq_bad (by decide +kernel)

/-- Files saved one after the other to the same output. -/
def Spec.saveAll (z : Codec) : List GvasFile → Sink → Res Unit × Sink
  | [], s => (.ok (), s)
  | f :: fs, s =>
    match f.write z s with
    | (.ok (), s') => saveAll z fs s'
    | r => r

/-- As many files loaded one after the other from the same stream. -/
def Spec.loadMany (z : Codec) (debug : Bool) (gv : GameVersion) (hints : String → Option String)
    (size : Nat → Nat) : Nat → Stream → List (Res GvasFile) × Stream
  | 0, s => ([], s)
  | n + 1, s =>
    let (r, s') := GvasFile.readOn z debug gv hints size s
    let (rs, s'') := loadMany z debug gv hints size n s'
    (r :: rs, s'')

/-- **C109**: uncompressed Palworld saves written one after the other at the end of an output are
loaded one after the other from a stream, however it delivers its bytes and whatever follows them;
the stream is left right behind the last one. -/
theorem C109_in_a_row (z : Codec) (debug : Bool) (hints : String → Option String)
    (size : Nat → Nat) (fs : List GvasFile)
    (hfs : ∀ f ∈ fs, f.gameVersion = .palworld .none ∧ FileOK debug hints f ∧
      ∀ data, f.encode = .ok data → data.length < 2 ^ 32)
    (s : Sink) (hs : s.pos = s.data.length) :
    ∃ bytes, saveAll z fs s = (.ok (), ⟨s.data ++ bytes, s.pos + bytes.length⟩) ∧
      ∀ (st : Stream) (rest : Bytes), Clean st.events → contents st.events = bytes ++ rest →
        ∃ es', loadMany z debug .palworld hints size fs.length st =
            (fs.map .ok, ⟨es', st.pos + bytes.length⟩) ∧ Clean es' ∧ contents es' = rest := by
  induction fs generalizing s with
  | nil => exact ⟨[], by simp [saveAll], fun st rest hc h => ⟨st.events, rfl, hc, by simpa using h⟩⟩
  | cons f fs ih =>
    obtain ⟨hg, hok, hsz⟩ := hfs f (List.mem_cons_self ..)
    obtain ⟨data, he⟩ : ∃ data, f.encode = .ok data := by
      obtain ⟨d, h, -⟩ := C17_files_roundtrip z debug hints ⟨.default, f.header, f.properties⟩ rfl hok
      exact ⟨d, h⟩
    have h32 := hsz data he
    obtain ⟨s1, hw⟩ : ∃ s1, f.write z s = (.ok (), s1) :=
      ⟨_, by simp only [GvasFile.write, he, hg]; rfl⟩
    obtain ⟨d, hd, h1, h2⟩ := C42_palworld_frame z f .none s s1 hg hw
    rw [he] at hd; cases hd
    have hn : (UInt32.ofNat data.length).toNat = data.length := u32_ofNat_toNat h32
    generalize hF : frame (UInt32.ofNat data.length) (UInt32.ofNat (3 + 1 + data.length)) .none
      data = F
    have hFl : F.length = 12 + data.length := by
      rw [← hF]; simp [frame, u32B_length]; omega
    have h1' : s1 = ⟨s.data ++ F, s.pos + F.length⟩ := by
      obtain ⟨d1, p1⟩ := s1
      have : d1 = overwritten s.data s.pos F := by rw [← hF]; exact h1
      have h2 : p1 = s.pos + (12 + data.length) := h2
      rw [this, h2, hFl, overwritten, hs]
      simp
    subst h1'
    obtain ⟨bytes, hb, hr⟩ := ih (fun g hg => hfs g (List.mem_cons_of_mem _ hg))
      ⟨s.data ++ F, s.pos + F.length⟩ (by simp [hs])
    refine ⟨F ++ bytes, ?_, fun st rest hc h => ?_⟩
    · simp only [saveAll, hw, hb, List.append_assoc, List.length_append, Nat.add_assoc]
    · obtain ⟨es1, e1, c1, t1⟩ := C109_plain_leaves_rest z debug hints size st hc
        (UInt32.ofNat data.length) (UInt32.ofNat (3 + 1 + data.length)) data (bytes ++ rest) hn.symm
        (by rw [hF, h, List.append_assoc])
      obtain ⟨es2, e2, c2, t2⟩ := hr ⟨es1, st.pos + F.length⟩ rest c1 t1
      have hp : Payload z (UInt32.ofNat data.length).toNat data .none data := by
        have := Payload.plain (z := z) (dlen := data.length) (payload := data) (Nat.le_refl _)
        rwa [List.take_length, ← hn] at this
      have hread : GvasFile.read z debug .palworld hints st.pos F = .ok f := by
        rw [← hF, C106_contents z _ _ .none _ _ hp debug hints st.pos 0, read_default_eq]
        have := fileOK_reads hok he h32 []
        rw [List.append_nil] at this
        rw [this]
        show Res.ok _ = _
        rw [← hg]
      rw [hF, hread] at e1
      refine ⟨es2, ?_, c2, t2⟩
      simp only [List.length_cons, loadMany, e1, e2, List.map_cons, List.length_append,
        Nat.add_assoc]

/-- The sample file and one with a single property, in a row behind a byte that was there before,
with two bytes behind them: both are loaded, and the two bytes are left. -/
example (z : Codec) (size : Nat → Nat) : ∃ bytes es',
    saveAll z [sampleFile (.palworld .none), savedIn (.palworld .none) (zeroFile 5)] ⟨[9], 1⟩ =
      (.ok (), ⟨[9] ++ bytes, 1 + bytes.length⟩) ∧
    loadMany z true .palworld sampleHints size 2 ⟨[.data (bytes ++ [8, 7])], 0⟩ =
      ([.ok (sampleFile (.palworld .none)), .ok (savedIn (.palworld .none) (zeroFile 5))],
        ⟨es', 0 + bytes.length⟩) ∧ contents es' = [8, 7] := by
  have h1 : (match (sampleFile .default).encode with | .ok d => d.length | .bad _ => 0) = 1278 := by
    decide +kernel
  have h2 : (match (zeroFile 5).encode with | .ok d => d.length | .bad _ => 0) < 2 ^ 32 := by
    decide +kernel
  obtain ⟨bytes, hb, hr⟩ := C109_in_a_row z true sampleHints size
    [sampleFile (.palworld .none), savedIn (.palworld .none) (zeroFile 5)] (by
      simp only [List.forall_mem_cons]
      refine ⟨⟨rfl, sampleFile_ok _, fun d hd => ?_⟩, ⟨rfl, zeroFile_ok 5, fun d hd => ?_⟩, by simp⟩
      · have hd : (sampleFile .default).encode = .ok d := hd
        rw [hd] at h1; simp only at h1; omega
      · have hd : (zeroFile 5).encode = .ok d := hd
        rw [hd] at h2; exact h2) ⟨[9], 1⟩ rfl
  obtain ⟨es', e, -, t⟩ := hr ⟨[.data (bytes ++ [8, 7])], 0⟩ [8, 7] (by simp [Clean])
    (by simp [contents])
  exact ⟨bytes, es', hb, e, t⟩

end Gvas
