import Verif.Lemmas.Truncate
import Verif.Props.Inflate

/-!
# C95: a cut off or extended save never reads as another one
-/

namespace Gvas

open Spec Zlib

/-- **C95**: what decompressors give out for inputs of which one begins with the other: one begins
with the other.  In particular no two of them disagree on the same input. -/
theorem C95_yields (input input' data data' : Bytes) (h : Yields input data)
    (h' : Yields input' data') (hi : input <+: input' ∨ input' <+: input) :
    data <+: data' ∨ data' <+: data :=
  yields_along h h' hi

/-- **C95** for the contents: they are read as before, or are found to end too soon. -/
theorem C95_contents (debug : Bool) (hints : String → Option String) (data data' : Bytes)
    (r : GvasHeader × List (String × Property)) (h : (readData debug hints data).1 = .ok r)
    (hi : data <+: data' ∨ data' <+: data) :
    (readData debug hints data').1 = .ok r ∨ (readData debug hints data').1 = .err .eof := by
  rcases hi with ⟨y, rfl⟩ | ⟨y, rfl⟩
  · exact .inl ((C24_trailing_ignored debug hints data y (by rw [h]; simp)).trans h)
  · by_cases he : (readData debug hints data').1 = .err .eof
    · exact .inr he
    · exact .inl ((C24_trailing_ignored debug hints data' y he).symm.trans h)

/-- The payload of the same kind and stated length. -/
theorem unpack_along {z z' : Codec} (hz : Faithful z) (hz' : Faithful z') {dlen : UInt32}
    {c : PalworldCompressionType} {payload payload' data : Bytes}
    (h : unpack z dlen c payload = .ok data)
    (hi : payload <+: payload' ∨ payload' <+: payload) :
    (∃ data', unpack z' dlen c payload' = .ok data' ∧ Along data data') ∨
      unpack z' dlen c payload' = .err .eof ∨ unpack z' dlen c payload' = .err .io := by
  cases c with
  | none =>
    simp only [unpack] at h ⊢
    split at h <;> cases h
    split
    · refine .inl ⟨_, rfl, ?_⟩
      exact Along.mono hi (List.take_prefix _ _) (List.take_prefix _ _)
    · exact .inr (.inl rfl)
  | zlib =>
    simp only [unpack, inflateExact] at h ⊢
    split at h <;> cases h
    split
    · refine .inl ⟨_, rfl, ?_⟩
      exact (yields_along (hz.once payload _ _ rfl) (hz'.once payload' _ _ rfl) hi).mono
        (List.take_prefix _ _) (List.take_prefix _ _)
    · split
      · exact .inr (.inl rfl)
      · exact .inr (.inr rfl)
  | zlibTwice =>
    simp only [unpack] at h ⊢
    cases h1 : z.inflate2 payload with
    | none => rw [h1] at h; cases h
    | some d =>
      rw [h1] at h
      cases h
      cases h2 : z'.inflate2 payload' with
      | none => exact .inr (.inr rfl)
      | some d' =>
        obtain ⟨m, i1, i2⟩ := hz.twice _ _ h1
        obtain ⟨m', j1, j2⟩ := hz'.twice _ _ h2
        exact .inl ⟨d', rfl, yields_along i2 j2 (yields_along i1 j1 hi)⟩

private theorem readFrame_good (s : RS) : GoodAt 0 readFrame s :=
  (good_closed true noHints).frame (K := 0) s (Nat.zero_le _)

/-- The frame header is the same, or it is cut off. -/
theorem readFrame_along {input input' : Bytes} {start : Nat} {x : UInt32 × PalworldCompressionType}
    {s : RS} (h : readFrame ⟨input, start, []⟩ = (.ok x, s))
    (hi : input <+: input' ∨ input' <+: input) :
    (∃ s', readFrame ⟨input', start, []⟩ = (.ok x, s') ∧ Along s.rest s'.rest) ∨
      (readFrame ⟨input', start, []⟩).1 = .err .eof := by
  rcases hi with ⟨y, rfl⟩ | ⟨y, rfl⟩
  · have := (readFrame_good ⟨input, start, []⟩).append y
    rw [h] at this
    exact .inl ⟨_, this (by simp), .inl (List.prefix_append _ _)⟩
  · by_cases he : (readFrame ⟨input', start, []⟩).1 = .err .eof
    · exact .inr he
    · have ha := (readFrame_good ⟨input', start, []⟩).append y he
      simp only at ha
      rw [h] at ha
      obtain ⟨h1, h2⟩ := Prod.mk.injEq .. ▸ ha
      refine .inl ⟨(readFrame ⟨input', start, []⟩).2, ?_, ?_⟩
      · rw [h1]
      · rw [h2]; exact .inr (List.prefix_append _ _)

/-- **C95**: if a file is read, and another input begins with it or is a beginning of it, then the
other one is read as the same file or is refused, with an unexpected end of file or a failure of
decompression.  This holds for the default container and for Palworld files of all compressions, and
for any decompressors that give out nothing but what they have decoded, even different ones. -/
theorem C95_same_or_refused (z z' : Codec) (hz : Faithful z) (hz' : Faithful z') (debug : Bool)
    (gv : GameVersion) (hints : String → Option String) (start : Nat) (input input' : Bytes)
    (f : GvasFile) (h : GvasFile.read z debug gv hints start input = .ok f)
    (hi : input <+: input' ∨ input' <+: input) :
    GvasFile.read z' debug gv hints start input' = .ok f ∨
      GvasFile.read z' debug gv hints start input' = .err .eof ∨
      GvasFile.read z' debug gv hints start input' = .err .io := by
  cases gv with
  | default =>
    simp only [GvasFile.read] at h ⊢
    obtain ⟨r, hr, h⟩ := Res.bind_inv h
    rcases C95_contents debug hints input input' r hr hi with e | e
    · rw [e]; exact .inl h
    · rw [e]; exact .inr (.inl rfl)
  | palworld =>
    simp only [GvasFile.read] at h ⊢
    match hf : readFrame ⟨input, start, []⟩ with
    | (.bad e, s) => rw [hf] at h; simp at h
    | (.ok (dlen, c), s) =>
      rw [hf] at h
      simp only at h
      obtain ⟨data, hd, h⟩ := Res.bind_inv h
      obtain ⟨r, hr, h⟩ := Res.bind_inv h
      rcases readFrame_along hf hi with ⟨s', hf', ha⟩ | he
      · rw [hf']
        simp only
        rcases unpack_along hz hz' hd ha with ⟨data', hd', ha'⟩ | e | e
        · rw [hd']
          rcases C95_contents debug hints data data' r hr ha' with e | e
          · left
            show Res.bind _ _ = _
            simp only [Res.bind, e]
            exact h
          · right; left
            show Res.bind _ _ = _
            simp only [Res.bind, e]
            rfl
        · rw [e]; exact .inr (.inl rfl)
        · rw [e]; exact .inr (.inr rfl)
      · right; left
        match hg : readFrame ⟨input', start, []⟩ with
        | (.ok p, s') => rw [hg] at he; simp at he
        | (.bad e, s') => rw [hg] at he; simpa using he

/-- **C95**: two decompressors that give out nothing but what they have decoded never make different
files of the same input. -/
theorem C95_decompressors_agree (z z' : Codec) (hz : Faithful z) (hz' : Faithful z')
    (debug : Bool) (gv : GameVersion) (hints : String → Option String) (start : Nat)
    (input : Bytes) (f g : GvasFile) (h : GvasFile.read z debug gv hints start input = .ok f)
    (h' : GvasFile.read z' debug gv hints start input = .ok g) : f = g := by
  rcases C95_same_or_refused z z' hz hz' debug gv hints start input input f h
    (.inl List.prefix_rfl) with e | e | e <;> rw [h'] at e <;> cases e
  rfl

/-! ## Concrete cases -/

/-- A Palworld file, compressed once and followed by two bytes, cut off anywhere. -/
example (k : Nat) : ∃ f, exampleNames (.ok f) = ["a"] ∧
    (GvasFile.read zlibCodec true .palworld noHints 0
        ((frame 97 75 .zlib (exampleStream ++ [9, 9])).take k) = .ok f ∨
      GvasFile.read zlibCodec true .palworld noHints 0
        ((frame 97 75 .zlib (exampleStream ++ [9, 9])).take k) = .err .eof ∨
      GvasFile.read zlibCodec true .palworld noHints 0
        ((frame 97 75 .zlib (exampleStream ++ [9, 9])).take k) = .err .io) := by
  have h : exampleNames (GvasFile.read zlibCodec true .palworld noHints 0
      (frame 97 75 .zlib (exampleStream ++ [9, 9]))) = ["a"] := by
    rw [C86_zlib_frame zlibCodec C86_zlibCodec.1 true noHints 0 0 97 75 _ _ [9, 9]
      exampleStream_valid (by decide +kernel)]
    exact exampleRead zlibCodec _
  match hr : GvasFile.read zlibCodec true .palworld noHints 0
      (frame 97 75 .zlib (exampleStream ++ [9, 9])) with
  | .bad e => rw [hr] at h; cases h
  | .ok f =>
    rw [hr] at h
    exact ⟨f, h, C95_same_or_refused _ _ C93_zlibCodec C93_zlibCodec _ _ _ _ _ _ f hr
      (.inr (List.take_prefix _ _))⟩

/-- The same for one that is compressed twice. -/
example (k : Nat) : ∃ f, exampleNames (.ok f) = ["a"] ∧
    (GvasFile.read zlibCodec true .palworld noHints 0
        ((frame 0 0 .zlibTwice (exampleTwice ++ [9])).take k) = .ok f ∨
      GvasFile.read zlibCodec true .palworld noHints 0
        ((frame 0 0 .zlibTwice (exampleTwice ++ [9])).take k) = .err .eof ∨
      GvasFile.read zlibCodec true .palworld noHints 0
        ((frame 0 0 .zlibTwice (exampleTwice ++ [9])).take k) = .err .io) := by
  have h : exampleNames (GvasFile.read zlibCodec true .palworld noHints 0
      (frame 0 0 .zlibTwice (exampleTwice ++ [9]))) = ["a"] := by
    rw [C86_zlib_twice_frame zlibCodec C86_zlibCodec.1 true noHints 0 0 0 0 _ _ _ [1, 2] [9]
      exampleStream_valid exampleTwice_valid]
    exact exampleRead zlibCodec _
  match hr : GvasFile.read zlibCodec true .palworld noHints 0
      (frame 0 0 .zlibTwice (exampleTwice ++ [9])) with
  | .bad e => rw [hr] at h; cases h
  | .ok f =>
    rw [hr] at h
    exact ⟨f, h, C95_same_or_refused _ _ C93_zlibCodec C93_zlibCodec _ _ _ _ _ _ f hr
      (.inr (List.take_prefix _ _))⟩

end Gvas
