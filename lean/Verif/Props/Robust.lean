import Verif.Lemmas.Instances
import Verif.Spec.Sample

/-!
# C23-C29, C51, C54: reading arbitrary bytes
-/

namespace Gvas

open Spec

/-! ## The shape of runs -/

private theorem readData_good (debug : Bool) (hints : String → Option String) (data : Bytes) :
    GoodAt 0 (readContents debug hints (data.length + 1)) (RS.init data) :=
  readContents_good _ _ _ _

/-- Reading is a prefix matter: unless the end of the input is hit, appended bytes are left
unread and change nothing. -/
private theorem readData_append (debug : Bool) (hints : String → Option String) (data y : Bytes)
    (h : (readData debug hints data).1 ≠ .err .eof) :
    readData debug hints (data ++ y) = ((readData debug hints data).1,
      { (readData debug hints data).2 with rest := (readData debug hints data).2.rest ++ y }) := by
  rw [readData, readContents_more debug hints (n' := (data ++ y).length + 1) (by simp [RS.init])
    (by simp)] at h
  rw [show readData debug hints (data ++ y) = readContents debug hints ((data ++ y).length + 1)
    { RS.init data with rest := (RS.init data).rest ++ y } from rfl]
  rw [(readContents_good debug hints _ _).append y h, show readData debug hints data =
    readContents debug hints ((data ++ y).length + 1) (RS.init data) from
    readContents_more debug hints (by simp [RS.init]) (by simp)]

/-- The position after reading is the number of bytes consumed. -/
private theorem readData_pos (debug : Bool) (hints : String → Option String) (data : Bytes) :
    (readData debug hints data).2.pos + (readData debug hints data).2.rest.length = data.length := by
  obtain ⟨pre, h1, h2, _⟩ := (readData_good debug hints data).consumes
  have h3 := congrArg List.length h1
  rw [List.length_append] at h3
  simp only [RS.init, readData] at *
  omega

/-! ## C24: appended bytes -/

/-- **C24**: appended bytes change no outcome but "unexpected end of file". -/
theorem C24_trailing_ignored (debug : Bool) (hints : String → Option String) (data y : Bytes)
    (h : (readData debug hints data).1 ≠ .err .eof) :
    (readData debug hints (data ++ y)).1 = (readData debug hints data).1 := by
  rw [readData_append debug hints data y h]

/-- **C24** for files in the default container. -/
theorem C24_file_trailing_ignored (z : Codec) (debug : Bool) (hints : String → Option String)
    (start : Nat) (input y : Bytes)
    (h : GvasFile.read z debug .default hints start input ≠ .err .eof) :
    GvasFile.read z debug .default hints start (input ++ y) =
      GvasFile.read z debug .default hints start input := by
  have : (readData debug hints input).1 ≠ .err .eof := by
    intro h'
    apply h
    unfold GvasFile.read
    simp only [h']
    rfl
  unfold GvasFile.read
  simp only [C24_trailing_ignored debug hints input y this]

private theorem readFrame_good (s : RS) : GoodAt 0 readFrame s :=
  (good_closed true noHints).frame (K := 0) s (Nat.zero_le _)

/-- What is assumed of a decompressor regarding bytes behind the compressed stream. -/
structure Spec.StopsAtEnd (z : Codec) : Prop where
  once : ∀ x y n d, inflateExact (z.inflate x) n = .ok d → inflateExact (z.inflate (x ++ y)) n = .ok d
  twice : ∀ x y d, z.inflate2 x = some d → z.inflate2 (x ++ y) = some d

/-- **C24** for Palworld saves: an accepted file stays accepted, with the same contents.  For
compressed payloads this is as good as the decompressor. -/
theorem C24_palworld_trailing_ignored (z : Codec) (hz : StopsAtEnd z) (debug : Bool)
    (hints : String → Option String) (start : Nat) (input y : Bytes) (f : GvasFile)
    (h : GvasFile.read z debug .palworld hints start input = .ok f) :
    GvasFile.read z debug .palworld hints start (input ++ y) = .ok f := by
  unfold GvasFile.read at h ⊢
  simp only at h ⊢
  have ha := (readFrame_good ⟨input, start, []⟩).append y
  match hf : readFrame ⟨input, start, []⟩ with
  | (.bad e, s) => rw [hf] at h; simp at h
  | (.ok (dlen, c), s) =>
    rw [hf] at h ha
    rw [ha (by simp)]
    simp only at h ⊢
    have hu : ∀ d, unpack z dlen c s.rest = .ok d → unpack z dlen c (s.rest ++ y) = .ok d := by
      intro d hd
      cases c with
      | none =>
        simp only [unpack] at hd ⊢
        split at hd
        · rename_i hl
          rw [if_pos (by rw [List.length_append]; omega), List.take_append_of_le_length hl]
          exact hd
        · simp at hd
      | zlib => exact hz.once _ _ _ _ hd
      | zlibTwice =>
        simp only [unpack] at hd ⊢
        match hi : z.inflate2 s.rest with
        | some d' => rw [hi] at hd; rw [hz.twice _ _ _ hi]; exact hd
        | none => rw [hi] at hd; simp at hd
    match hd : unpack z dlen c s.rest with
    | .ok d => rw [hd] at h; rw [hu d hd]; exact h
    | .bad e => rw [hd] at h; cases h

/-- A save with one integer property is accepted, and its last four bytes are not looked at. -/
example : failure (readData true noHints (saveBytes intBytes)).1 = none ∧
    (readData true noHints (saveBytes intBytes)).2.rest = [0, 0, 0, 0] ∧
    namesRead (readData true noHints (saveBytes intBytes ++ [1, 2, 3])).1 = ["a"] := by
  decide +kernel

/-- A decompressor for data with a length prefix stops at the end. -/
example : StopsAtEnd prefixCodec := by
  have h : ∀ x y d, prefixInflate x = some d → prefixInflate (x ++ y) = some d := by
    intro x y d h
    cases x with
    | nil => simp [prefixInflate] at h
    | cons b x =>
      simp only [prefixInflate, List.cons_append, List.length_append] at h ⊢
      split at h
      · rename_i hb
        rw [if_pos (by omega), List.take_append_of_le_length hb]
        exact h
      · simp at h
  refine ⟨fun x y n d hd => ?_, h⟩
  match hx : prefixInflate x with
  | some c =>
    have e1 : prefixCodec.inflate x = (c, true) := by simp [prefixCodec, hx]
    have e2 : prefixCodec.inflate (x ++ y) = (c, true) := by simp [prefixCodec, h x y c hx]
    rw [e2, ← e1]
    exact hd
  | none =>
    have e1 : prefixCodec.inflate x = ([], false) := by simp [prefixCodec, hx]
    rw [e1] at hd
    cases n with
    | zero => simpa [inflateExact] using hd
    | succ n => simp [inflateExact] at hd

/-! ## C23: truncation -/

/-- **C23**: if a save is accepted and its content ends at byte `k` (the final position), then
every shorter prefix fails with "unexpected end of file". -/
theorem C23_truncation_detected (debug : Bool) (hints : String → Option String) (data : Bytes)
    (r : GvasHeader × List (String × Property)) (s : RS)
    (h : readData debug hints data = (.ok r, s)) (k : Nat) (hk : k < s.pos) :
    (readData debug hints (data.take k)).1 = .err .eof := by
  apply Classical.byContradiction
  intro hne
  have ha := readData_append debug hints (data.take k) (data.drop k) hne
  rw [List.take_append_drop, h] at ha
  have hp := readData_pos debug hints (data.take k)
  have h1 := congrArg (fun x : _ × RS => x.2.pos) ha
  simp only at h1
  have h2 := readData_pos debug hints data
  rw [h] at h2
  simp only at h2
  rw [List.length_take] at hp
  omega

/-- **C23** for files in the default container. -/
theorem C23_file_truncation_detected (z : Codec) (debug : Bool) (hints : String → Option String)
    (start : Nat) (data : Bytes) (r : GvasHeader × List (String × Property)) (s : RS)
    (h : readData debug hints data = (.ok r, s)) (k : Nat) (hk : k < s.pos) :
    GvasFile.read z debug .default hints start (data.take k) = .err .eof := by
  have := C23_truncation_detected debug hints data r s h k hk
  unfold GvasFile.read
  simp only [this]
  rfl

/-- **C23** for uncompressed Palworld files: cutting anything off the 12 byte frame and the
payload of the declared length is detected. -/
theorem C23_palworld_truncation_detected (z : Codec) (debug : Bool)
    (hints : String → Option String) (start : Nat) (input : Bytes) (dlen : UInt32) (s : RS)
    (h : readFrame ⟨input, start, []⟩ = (.ok (dlen, .none), s)) (k : Nat)
    (hk : k < s.pos - start + dlen.toNat) (hk' : k < input.length) :
    GvasFile.read z debug .palworld hints start (input.take k) = .err .eof := by
  unfold GvasFile.read
  simp only
  have hg := readFrame_good ⟨input.take k, start, []⟩
  by_cases he : (readFrame ⟨input.take k, start, []⟩).1 = .err .eof
  · match hf : readFrame ⟨input.take k, start, []⟩ with
    | (.ok p, s') => rw [hf] at he; simp at he
    | (.bad f, s') => rw [hf] at he; simpa using he
  · have ha := hg.append (input.drop k) he
    simp only [List.take_append_drop] at ha
    rw [h] at ha
    obtain ⟨pre, h1, h2, _⟩ := hg.consumes
    match hf : readFrame ⟨input.take k, start, []⟩ with
    | (.bad f, s') => rw [hf] at ha; simp at ha
    | (.ok p, s') =>
      rw [hf] at ha h1 h2
      simp only [Prod.mk.injEq, Res.ok.injEq] at ha
      obtain ⟨rfl, hs⟩ := ha
      simp only at h1 h2
      have hlen := congrArg List.length h1
      have hpos := congrArg RS.pos hs
      simp only [List.length_append, List.length_take] at hlen hpos
      simp only [unpack]
      rw [if_neg (by omega)]
      rfl

/-- The accepted save above cannot be cut anywhere before byte 93, e.g. at byte 92 or 40. -/
example : (readData true noHints ((saveBytes intBytes).take 92)).1 = .err .eof ∧
    (readData true noHints ((saveBytes intBytes).take 40)).1 = .err .eof := by
  have hp : (readData true noHints (saveBytes intBytes)).2.pos = 93 := by decide +kernel
  obtain ⟨r, h⟩ := eq_ok (show failure (readData true noHints (saveBytes intBytes)).1 = none by
    decide +kernel)
  generalize saveBytes intBytes = data at h hp
  have h := Prod.ext (x := readData true noHints data)
    (y := (.ok r, (readData true noHints data).2)) h rfl
  exact ⟨C23_truncation_detected true noHints _ r _ h 92 (by rw [hp]; omega),
    C23_truncation_detected true noHints _ r _ h 40 (by rw [hp]; omega)⟩

/-! ## C25: termination -/

/-- **C25**: reading ends on every input: recursion and loops stay within the fuel given by
the input length. -/
theorem C25_reading_terminates (debug : Bool) (hints : String → Option String) (data : Bytes) :
    (readData debug hints data).1 ≠ .bad .fuel :=
  readContents_fuel debug hints (by simp [RS.init])

/-- **C25**: more fuel than there are bytes makes no difference, so the bound on nesting and
iterations is an artefact of the model and the result is that of the unbounded program. -/
theorem C25_fuel_irrelevant (debug : Bool) (hints : String → Option String) (data : Bytes)
    (n : Nat) (hn : data.length < n) :
    readContents debug hints n (RS.init data) = readData debug hints data := by
  exact (readContents_more debug hints (n' := n) (by simp [RS.init]) (by omega)).symm

/-- **C25** for single properties. -/
theorem C25_property_terminates (env : Env) (ty : String) (hdr : Bool) (o : Option UInt32) (s : RS)
    (n : Nat) (hn : s.rest.length < n) : (Property.read env n ty hdr o s).1 ≠ .bad .fuel ∧
      ∀ n', n ≤ n' → Property.read env n' ty hdr o s = Property.read env n ty hdr o s :=
  ⟨property_fuel env hn ty hdr o, fun _ hn' => (property_more env hn hn' ty hdr o).symm⟩

/-- **C25** for files. -/
theorem C25_file_terminates (z : Codec) (debug : Bool) (gv : GameVersion)
    (hints : String → Option String) (start : Nat) (input : Bytes) :
    GvasFile.read z debug gv hints start input ≠ .bad .fuel := by
  have hd : ∀ (data : Bytes) (g : GvasHeader × List (String × Property) → Res GvasFile),
      (∀ x, ∃ f, g x = .ok f) → ((readData debug hints data).1 >>= g) ≠ .bad .fuel := by
    intro data g hg
    have := C25_reading_terminates debug hints data
    match h : (readData debug hints data).1 with
    | .ok x =>
      obtain ⟨f, hf⟩ := hg x
      show g x ≠ _
      rw [hf]; simp
    | .bad e =>
      rw [h] at this
      show (Res.bad e : Res GvasFile) ≠ _
      simpa using this
  unfold GvasFile.read
  cases gv with
  | default => exact hd input _ fun x => ⟨_, rfl⟩
  | palworld =>
    simp only
    have hf := (fuel_closed (start + input.length) true true noHints noHints (.inl rfl)
      (fun _ _ h => h)).frame (K := start) ⟨input, start, []⟩ (Nat.le_refl _) rfl
    match h : readFrame ⟨input, start, []⟩ with
    | (.bad e, s) =>
      have := hf.fuel
      rw [h] at this
      simpa using this
    | (.ok (dlen, c), s) =>
      simp only
      match hu : unpack z dlen c s.rest with
      | .ok d => exact hd d _ fun x => ⟨_, rfl⟩
      | .bad e =>
        show (Res.bad e : Res GvasFile) ≠ _
        intro he
        simp at he
        subst he
        cases c with
        | none => simp only [unpack] at hu; split at hu <;> simp at hu
        | zlib => simp only [unpack, inflateExact] at hu; split at hu <;> simp at hu
        | zlibTwice => simp only [unpack] at hu; split at hu <;> simp at hu

/-! ## C26: panics -/

/-- **C26 is false**: a nonzero separator byte behind the size of an integer property panics, in
every build and whatever the hints. -/
theorem C26_reading_can_panic (debug : Bool) (hints : String → Option String) :
    (readData debug hints (saveBytes (ascii "a" ++ ascii "IntProperty" ++
      [4, 0, 0, 0, 0, 0, 0, 0, 1]))).1 = .panic "assertion `left == right` failed" := by
  have h : ∀ debug, failure (readData debug noHints (saveBytes (ascii "a" ++
      ascii "IntProperty" ++ [4, 0, 0, 0, 0, 0, 0, 0, 1]))).1 =
      some (.panic "assertion `left == right` failed") := by
    intro debug
    cases debug <;> decide +kernel
  have h := eq_bad (h debug)
  rcases ((sim_closed (fun e => (∃ p q, e = .err (.missingHint "StructProperty" p q)) ∨ e = .fuel)
    debug debug noHints hints (.inl rfl) (fun _ _ h => by simp [noHints] at h) (.inr rfl)
    (fun h => absurd rfl h) (fun p q _ _ => .inl ⟨p, q, rfl⟩)).contents (K := 0)
    (Nat.le_refl _) trivial (RS.init (saveBytes (ascii "a" ++ ascii "IntProperty" ++
      [4, 0, 0, 0, 0, 0, 0, 0, 1]))) (Nat.zero_le _)).same with ⟨e, h1, h2⟩ | hs
  · unfold readData at h
    rw [h] at h1
    simp only [Res.bad.injEq] at h1
    subst h1
    simp at h2
  · unfold readData at h ⊢
    rw [← hs, h]

/-- **C26 is false**, more ways: a nonzero array index of an unknown property, a negative number
of text arguments, a gender argument, the two unimplemented text histories, and (with overflow
checks only) a byte property of length zero. -/
theorem C26_more_panics :
    (readData false noHints (saveBytes (ascii "a" ++ ascii "X" ++
      [0, 0, 0, 0, 1, 0, 0, 0]))).1 = .panic "Expected array_index value zero" ∧
    (readData false noHints (saveBytes (ascii "a" ++ ascii "TextProperty" ++
      [9, 0, 0, 0, 0, 0, 0, 0, 0] ++ [0, 0, 0, 0, 1, 0, 0, 0, 0, 0xFF] ++
      [0xFF, 0xFF, 0xFF, 0xFF]))).1 = .panic "capacity overflow" ∧
    (readData false noHints (saveBytes (ascii "a" ++ ascii "TextProperty" ++
      [9, 0, 0, 0, 0, 0, 0, 0, 0] ++ [0, 0, 0, 0, 4, 5]))).1 = .panic "not implemented" ∧
    (readData false noHints (saveBytes (ascii "a" ++ ascii "TextProperty" ++
      [9, 0, 0, 0, 0, 0, 0, 0, 0] ++ [0, 0, 0, 0, 12]))).1 =
        .panic "not implemented: unimplemented history type: TextGenerator" ∧
    (readData false noHints (saveBytes (ascii "a" ++ ascii "TextProperty" ++
      [9, 0, 0, 0, 0, 0, 0, 0, 0] ++ [0, 0, 0, 0, 13]))).1 =
        .panic "not implemented: unimplemented history type: RawText" ∧
    (readData true noHints (saveBytes (ascii "a" ++ ascii "ByteProperty" ++
      [0, 0, 0, 0, 0, 0, 0, 0] ++ ascii "None" ++ [0, 7]))).1 =
        .panic "attempt to subtract with overflow" :=
  ⟨eq_bad (by decide +kernel), eq_bad (by decide +kernel), eq_bad (by decide +kernel),
    eq_bad (by decide +kernel), eq_bad (by decide +kernel), eq_bad (by decide +kernel)⟩

/-- What failing runs look like. -/
private theorem readData_fails (debug : Bool) (hints : String → Option String) (data : Bytes)
    (f : Fail) (h : (readData debug hints data).1 = .bad f) :
    FailOK debug hints f (readData debug hints data).2 :=
  ((fails_closed debug hints).contents (K := 0) (Nat.le_refl (data.length + 1)) trivial
    (RS.init data) (Nat.zero_le _)).fails f h

/-- **C26**, what holds: the panics above are all there are; missing is the absence of panics. -/
theorem C26_panics_known_partial (debug : Bool) (hints : String → Option String) (data : Bytes)
    (msg : String) (h : (readData debug hints data).1 = .panic msg) :
    msg ∈ ["assertion `left == right` failed", "Expected array_index value zero",
      "capacity overflow", "not implemented", "not implemented: unimplemented history type: TextGenerator",
      "not implemented: unimplemented history type: RawText"] ∨
    (debug = true ∧ msg = "attempt to subtract with overflow") := by
  have := readData_fails debug hints data _ h
  simp only [FailOK, panicMessages, List.mem_append] at this
  rcases this with h | h
  · exact .inl h
  · cases debug with
    | false => simp at h
    | true => exact .inr ⟨rfl, by simpa using h⟩

/-! ## C27: missing hints -/

/-- **C27**: a reported missing hint is missing in the table. -/
theorem C27_missing_hint_is_missing (debug : Bool) (hints : String → Option String) (data : Bytes)
    (ty path : String) (pos : Nat)
    (h : (readData debug hints data).1 = .err (.missingHint ty path pos)) :
    hints path = none ∧ ty = "StructProperty" := by
  have := (readData_fails debug hints data _ h).2.1 _ _ _ rfl
  exact ⟨this.2, this.1⟩

/-- **C27**: a headerless struct without a hint for its path fails with that path. -/
theorem C27_no_hint_fails (env : Env) (n : Nat) (o : Option UInt32) (s : RS)
    (h : env.hints (joinDots (s.stack ++ ["StructProperty"])) = none) :
    Property.read env (n + 1) "StructProperty" false o s =
      (.err (.missingHint "StructProperty" (joinDots (s.stack ++ ["StructProperty"])) s.pos), s) := by
  have hk : Kind.ofName "StructProperty" = some .struct := by decide +kernel
  have hr : readStructProperty env (n + 1) (Property.read env n) false
      { s with stack := s.stack ++ ["StructProperty"] } =
      (.err (.missingHint "StructProperty" (joinDots (s.stack ++ ["StructProperty"])) s.pos),
        { s with stack := s.stack ++ ["StructProperty"] }) := by
    unfold readStructProperty
    rw [if_neg (by simp), R.bind_ok (a := s.stack ++ ["StructProperty"]) (by rfl)]
    simp only [h]
    rfl
  rw [Property.read, Property.readStep, hk]
  simp only [R.withEntry, readKind, hr]
  simp

/-- **C27**: supplying a hint under the reported path removes the failure. -/
theorem C27_supplied_hint_helps (debug : Bool) (hints : String → Option String) (data : Bytes)
    (path hint : String) (ty : String) (pos : Nat) :
    (readData debug (fun p => if p = path then some hint else hints p) data).1 ≠
      .err (.missingHint ty path pos) := by
  intro h
  have := (C27_missing_hint_is_missing _ _ _ _ _ _ h).1
  simp at this

/-- A map to structs needs a hint, and reads with one. -/
example : (readData true noHints (saveBytes structMapBytes)).1 =
      .err (.missingHint "StructProperty" "a.MapProperty.Value.StructProperty" 127) ∧
    failure (readData true (fun p => if p = "a.MapProperty.Value.StructProperty" then some "S"
      else noHints p) (saveBytes structMapBytes)).1 = none :=
  ⟨eq_bad (by decide +kernel), by decide +kernel⟩

/-! ## C28: extra hints -/

/-- **C28**: adding hints changes no outcome but a missing hint that was added. -/
theorem C28_extra_hints_harmless (debug : Bool) (hints hints' : String → Option String)
    (hh : ∀ p h, hints p = some h → hints' p = some h) (data : Bytes) :
    readData debug hints' data = readData debug hints data ∨
      ∃ path pos, (readData debug hints data).1 = .err (.missingHint "StructProperty" path pos) ∧
        hints path = none ∧ hints' path ≠ none := by
  rcases ((sim_closed (fun e => (∃ p q, e = .err (.missingHint "StructProperty" p q) ∧
      hints p = none ∧ hints' p ≠ none) ∨ e = .fuel)
    debug debug hints hints' (.inl rfl) hh (.inr rfl)
    (fun h => absurd rfl h) (fun p q h h' => .inl ⟨p, q, rfl, h, h'⟩)).contents (K := 0)
    (Nat.le_refl (data.length + 1)) trivial (RS.init data) (Nat.zero_le _)).same
    with ⟨e, h1, ⟨p, q, rfl, h2, h3⟩ | rfl⟩ | h
  · exact .inr ⟨p, q, h1, h2, h3⟩
  · exact absurd h1 (C25_reading_terminates debug hints data)
  · exact .inl h.symm

/-- **C28** for files in either container. -/
theorem C28_file_extra_hints_harmless (z : Codec) (debug : Bool) (gv : GameVersion)
    (hints hints' : String → Option String) (hh : ∀ p h, hints p = some h → hints' p = some h)
    (start : Nat) (input : Bytes) (f : GvasFile)
    (h : GvasFile.read z debug gv hints start input = .ok f) :
    GvasFile.read z debug gv hints' start input = .ok f := by
  have hd : ∀ data (x : GvasHeader × List (String × Property)),
      (readData debug hints data).1 = .ok x → (readData debug hints' data).1 = .ok x := by
    intro data x hx
    rcases C28_extra_hints_harmless debug hints hints' hh data with h | ⟨_, _, h, _⟩
    · rw [h, hx]
    · rw [h] at hx; simp at hx
  have hb : ∀ data (g : GvasHeader × List (String × Property) → Res GvasFile) (f : GvasFile),
      ((readData debug hints data).1 >>= g) = .ok f →
        ((readData debug hints' data).1 >>= g) = .ok f := by
    intro data g f h
    match hx : (readData debug hints data).1 with
    | .ok x => rw [hd data x hx]; rw [hx] at h; exact h
    | .bad e => rw [hx] at h; cases h
  unfold GvasFile.read at h ⊢
  cases gv with
  | default => exact hb _ _ _ h
  | palworld =>
    simp only at h ⊢
    match hf : readFrame ⟨input, start, []⟩ with
    | (.bad e, s) => rw [hf] at h; simp at h
    | (.ok (dlen, c), s) =>
      rw [hf] at h
      simp only at h ⊢
      match hu : unpack z dlen c s.rest with
      | .ok d => rw [hu] at h; exact hb _ _ _ h
      | .bad e => rw [hu] at h; cases h

/-- The save with one integer reads the same with hints it does not need. -/
example : readData true (fun _ => some "X") (saveBytes intBytes) =
    readData true noHints (saveBytes intBytes) := by
  rcases C28_extra_hints_harmless true noHints (fun _ => some "X") (by simp [noHints])
    (saveBytes intBytes) with h | ⟨path, pos, h, _⟩
  · exact h
  · have : failure (readData true noHints (saveBytes intBytes)).1 = none := by decide +kernel
    rw [h] at this
    simp [Spec.failure] at this

/-! ## C54: build profiles -/

/-- **C54**: a debug build returns what a release build returns, unless it panics. -/
theorem C54_debug_agrees_with_release (hints : String → Option String) (data : Bytes) :
    readData true hints data = readData false hints data ∨
      ∃ msg, (readData true hints data).1 = .panic msg := by
  rcases ((sim_closed (fun e => (∃ msg, e = .panic msg) ∨ e = .fuel) true false hints hints
    (.inr ⟨rfl, rfl⟩) (fun _ _ h => h) (.inr rfl) (fun _ msg _ => .inl ⟨msg, rfl⟩)
    (fun p q h h' => absurd h h')).contents (K := 0)
    (Nat.le_refl (data.length + 1)) trivial (RS.init data) (Nat.zero_le _)).same
    with ⟨e, h1, ⟨msg, rfl⟩ | rfl⟩ | h
  · exact .inr ⟨msg, h1⟩
  · exact absurd h1 (C25_reading_terminates true hints data)
  · exact .inl h

/-- **C54**: in particular what a debug build accepts, a release build accepts with the same
result. -/
theorem C54_release_accepts (hints : String → Option String) (data : Bytes)
    (x : GvasHeader × List (String × Property)) (s : RS)
    (h : readData true hints data = (.ok x, s)) : readData false hints data = (.ok x, s) := by
  rcases C54_debug_agrees_with_release hints data with h' | ⟨msg, h'⟩
  · rw [← h', h]
  · rw [h] at h'; simp at h'

/-- **C54**: the profiles do differ: two values for the plain field `b` of a struct are accepted
by a release build only. -/
theorem C54_profiles_differ :
    let data := saveBytes (ascii "a" ++ ascii "StructProperty" ++ [75, 0, 0, 0, 0, 0, 0, 0] ++
      ascii "S" ++ List.replicate 17 0 ++
      (ascii "b" ++ ascii "BoolProperty" ++ List.replicate 10 0) ++
      (ascii "b" ++ ascii "BoolProperty" ++ List.replicate 10 0) ++ ascii "None")
    failure (readData false noHints data).1 = none ∧
      failure (readData true noHints data).1 =
        some (.panic "assertion `left == right` failed") := by
  decide +kernel

/-! ## C29: the path stack -/

/-- **C29**: `Property::new` leaves the path stack as it found it, whatever the outcome. -/
theorem C29_stack_restored (env : Env) (n : Nat) (ty : String) (hdr : Bool) (o : Option UInt32)
    (s : RS) : (Property.read env n ty hdr o s).2.stack = s.stack :=
  (property_good env n ty hdr o s).stack

/-- An erroneous, a panicking and a successful run, each inside an outer path. -/
example : Property.read ⟨true, noHints, []⟩ 3 "StructProperty" false none ⟨[1], 7, ["x", "y"]⟩ =
      (.err (.missingHint "StructProperty" "x.y.StructProperty" 7), ⟨[1], 7, ["x", "y"]⟩) ∧
    failure (Property.read ⟨true, noHints, []⟩ 3 "IntProperty" true none
      ⟨[4, 0, 0, 0, 0, 0, 0, 0, 1], 7, ["x"]⟩).1 = some (.panic "assertion `left == right` failed") ∧
    (Property.read ⟨true, noHints, []⟩ 3 "IntProperty" true none
      ⟨[4, 0, 0, 0, 0, 0, 0, 0, 0, 1, 0, 0, 0], 7, ["x"]⟩).2 = ⟨[], 20, ["x"]⟩ :=
  ⟨C27_no_hint_fails _ _ _ _ rfl, by decide +kernel, by decide +kernel⟩

/-! ## C51: error positions -/

/-- **C51**: a position in an error lies within the input. -/
theorem C51_error_positions_inside (debug : Bool) (hints : String → Option String) (data : Bytes)
    (e : Err) (h : (readData debug hints data).1 = .err e) (p : Nat) (hp : errPos e = some p) :
    p ≤ data.length := by
  have h1 := (readData_fails debug hints data _ h).1 p hp
  have h2 := readData_pos debug hints data
  omega

/-- **C51**: more precisely, not beyond what was read when the error was found. -/
theorem C51_error_positions_read (debug : Bool) (hints : String → Option String) (data : Bytes)
    (e : Err) (h : (readData debug hints data).1 = .err e) (p : Nat) (hp : errPos e = some p) :
    p ≤ (readData debug hints data).2.pos :=
  (readData_fails debug hints data _ h).1 p hp

/-- **C51** for the frame of Palworld saves, which is read from the stream itself. -/
theorem C51_frame_positions_inside (start : Nat) (input : Bytes) (e : Err)
    (h : (readFrame ⟨input, start, []⟩).1 = .err e) (p : Nat) (hp : errPos e = some p) :
    p ≤ start + input.length := by
  have h1 := (((fails_closed true noHints).frame (K := 0) ⟨input, start, []⟩
    (Nat.zero_le _)).fails _ h).1 p hp
  obtain ⟨pre, h2, h3, _⟩ := (readFrame_good ⟨input, start, []⟩).consumes
  have h4 := congrArg List.length h2
  rw [List.length_append] at h4
  simp only at h4 h3
  omega

/-- A boolean of value 2, reported one byte behind it. -/
example : (readData true noHints (saveBytes (ascii "a" ++ ascii "BoolProperty" ++
    [0, 0, 0, 0, 0, 0, 0, 0, 2]))).1 = .err (.invalidBoolean 2 81) :=
  eq_bad (by decide +kernel)

end Gvas
