import Verif.Props.File
import Verif.Props.Header
import Verif.Spec.Sample
import Verif.Spec.Pairs

/-!
# C59, C60, C61: editing saves, telling containers apart, reading only the header
-/

namespace Gvas

open Spec

/-! ## C59 -/

/-- A named property as stored at the top level: `bs` are the name and the property. -/
def Spec.Stored (cv : List (Guid × UInt32)) (e : String × Property) (bs : Bytes) : Prop :=
  ∃ o, Property.write cv true e.2 = .ok o ∧ bs = (writeString e.1).bytes ++ o.bytes

private theorem writeTop_iff (cv : List (Guid × UInt32)) (l : List (String × Property))
    (bs : Bytes) : (∃ o, writeTop cv l = .ok o ∧ o.bytes = bs) ↔
      ∃ segs, Pairs (Stored cv) l segs ∧ bs = segs.flatten := by
  induction l generalizing bs with
  | nil =>
    constructor
    · rintro ⟨o, h, rfl⟩
      simp only [writeTop] at h
      cases h
      exact ⟨[], .nil, rfl⟩
    · rintro ⟨segs, h, rfl⟩
      cases h
      exact ⟨_, rfl, rfl⟩
  | cons e l ih =>
    obtain ⟨k, p⟩ := e
    constructor
    · rintro ⟨o, h, rfl⟩
      simp only [writeTop] at h
      obtain ⟨a, ha, h⟩ := Res.bind_inv h
      obtain ⟨b, hb, h⟩ := Res.bind_inv h
      cases h
      obtain ⟨segs, hs, e⟩ := (ih b.bytes).mp ⟨b, hb, rfl⟩
      refine ⟨_ :: segs, .cons ⟨a, ha, rfl⟩ hs, ?_⟩
      simp only [Out.app_bytes, List.flatten_cons, e]
    · rintro ⟨segs, h, rfl⟩
      cases h with
      | cons h1 h2 =>
        obtain ⟨a, ha, rfl⟩ := h1
        obtain ⟨b, hb, e⟩ := (ih _).mpr ⟨_, h2, rfl⟩
        exact ⟨_, by simp only [writeTop, ha, hb]; rfl,
          by simp only [Out.app_bytes, List.flatten_cons, e]⟩

/-- **C59**: the contents of a save are the header, the stored properties one after the other,
the name `None` and four zero bytes; every stored property depends on nothing but its name, its
value and the custom versions. -/
theorem C59_save_is_concatenation (f : GvasFile) (data : Bytes) :
    f.encode = .ok data ↔ ∃ segs, Pairs (Stored f.header.customVersions) f.properties segs ∧
      data = f.header.write.bytes ++ segs.flatten ++ [5, 0, 0, 0, 0x4E, 0x6F, 0x6E, 0x65, 0] ++
        [0, 0, 0, 0] := by
  have hn : (writeString "None").bytes = [5, 0, 0, 0, 0x4E, 0x6F, 0x6E, 0x65, 0] := by
    decide +kernel
  have hz : i32B 0 = [0, 0, 0, 0] := by decide
  unfold GvasFile.encode
  rw [hn, hz]
  constructor
  · intro h
    obtain ⟨o, ho, h⟩ := Res.bind_inv h
    cases h
    obtain ⟨segs, h1, h2⟩ := (writeTop_iff _ _ _).mp ⟨o, ho, rfl⟩
    exact ⟨segs, h1, by rw [h2]⟩
  · rintro ⟨segs, h1, rfl⟩
    obtain ⟨o, ho, e⟩ := (writeTop_iff _ _ _).mpr ⟨segs, h1, rfl⟩
    rw [ho, ← e]
    rfl

private theorem pairs_append_inv {α β : Type} {r : α → β → Prop} {a b : List α} {c : List β}
    (h : Pairs r (a ++ b) c) :
    ∃ c1 c2, c = c1 ++ c2 ∧ Pairs r a c1 ∧ Pairs r b c2 := by
  induction a generalizing c with
  | nil => exact ⟨[], c, rfl, .nil, h⟩
  | cons x a ih =>
    cases h with
    | cons h1 h2 =>
      obtain ⟨c1, c2, rfl, h3, h4⟩ := ih h2
      exact ⟨_ :: c1, c2, rfl, .cons h1 h3, h4⟩

private theorem stored_unique {cv : List (Guid × UInt32)} {l : List (String × Property)}
    {a b : List Bytes} (ha : Pairs (Stored cv) l a) (hb : Pairs (Stored cv) l b) :
    a = b := by
  induction ha generalizing b with
  | nil => cases hb; rfl
  | cons h1 _ ih =>
    cases hb with
    | cons h3 h4 =>
      rw [ih h4]
      obtain ⟨o, h1, rfl⟩ := h1
      obtain ⟨o', h3, rfl⟩ := h3
      rw [h1] at h3
      cases h3
      rfl

/-- **C59**: replacing some neighbouring properties of a save by others (one by one, by none, by
several) changes the bytes of these properties only: what is in front and behind is the same in
both saves. -/
theorem C59_edit_is_local (f g : GvasFile) (pre old new post : List (String × Property))
    (df dg : Bytes) (hh : g.header = f.header) (hf : f.properties = pre ++ old ++ post)
    (hg : g.properties = pre ++ new ++ post) (h1 : f.encode = .ok df) (h2 : g.encode = .ok dg) :
    ∃ front back sold snew, df = front ++ sold.flatten ++ back ∧ dg = front ++ snew.flatten ++ back ∧
      Pairs (Stored f.header.customVersions) old sold ∧
      Pairs (Stored f.header.customVersions) new snew := by
  obtain ⟨sf, e1, rfl⟩ := (C59_save_is_concatenation f df).mp h1
  obtain ⟨sg, e2, rfl⟩ := (C59_save_is_concatenation g dg).mp h2
  rw [hh] at e2 ⊢
  rw [hf] at e1
  rw [hg] at e2
  obtain ⟨a, c, rfl, e1, hc⟩ := pairs_append_inv e1
  obtain ⟨a, b, rfl, ha, hb⟩ := pairs_append_inv e1
  obtain ⟨a', c', rfl, e2, hc'⟩ := pairs_append_inv e2
  obtain ⟨a', b', rfl, ha', hb'⟩ := pairs_append_inv e2
  have := stored_unique ha ha'
  subst this
  have := stored_unique hc hc'
  subst this
  refine ⟨f.header.write.bytes ++ a.flatten, c.flatten ++ [5, 0, 0, 0, 0x4E, 0x6F, 0x6E, 0x65, 0] ++
    [0, 0, 0, 0], b, b', ?_, ?_, hb, hb'⟩ <;>
  simp only [List.flatten_append, List.append_assoc]

/-- **C59**: a save read with `read` and edited this way is written, and read back as edited, if
the new properties are representable and the names stay distinct (below 4 GiB). -/
theorem C59_edit_reads_back (z : Codec) (debug : Bool) (hints : String → Option String)
    (f : GvasFile) (pre old new post : List (String × Property))
    (hv : f.gameVersion = .default) (hf : f.properties = pre ++ old ++ post)
    (hok : FileOK debug hints f) (hd : ((pre ++ new ++ post).map Prod.fst).Nodup)
    (hnew : ∀ e ∈ new, StrOK e.1 ∧ e.1 ≠ "None" ∧ HeadOK (fileEnv debug hints f.header) [e.1] e.2) :
    ∃ data, { f with properties := pre ++ new ++ post }.encode = .ok data ∧
      (data.length < 2 ^ 32 → GvasFile.read z debug .default hints 0 data =
        .ok { f with properties := pre ++ new ++ post }) := by
  have hg : FileOK debug hints { f with properties := pre ++ new ++ post } := by
    refine ⟨hok.1, hd, fun e he => ?_⟩
    simp only [List.mem_append] at he
    rcases he with (he | he) | he
    · exact hok.2.2 e (by rw [hf]; simp [he])
    · exact hnew e he
    · exact hok.2.2 e (by rw [hf]; simp [he])
  obtain ⟨data, he⟩ := fileOK_encodes hg
  refine ⟨data, he, fun h32 => ?_⟩
  have := fileOK_reads hg he h32 []
  rw [List.append_nil] at this
  simp only [GvasFile.read, this, ← hv]
  rfl

/-- Replacing the second property of the sample by two others. -/
example : ∃ data, GvasFile.encode { sampleFile .default with
      properties := [("Inventory", sampleTree)] ++ [("Neu", .bool true), ("N2", .str none)] ++
        [("Done", .bool true)] } = .ok data ∧
    (data.length < 2 ^ 32 → GvasFile.read toyCodec true .default sampleHints 0 data =
      .ok { sampleFile .default with
        properties := [("Inventory", sampleTree)] ++ [("Neu", .bool true), ("N2", .str none)] ++
          [("Done", .bool true)] }) := by
  refine C59_edit_reads_back toyCodec true sampleHints (sampleFile .default)
    [("Inventory", sampleTree)] [("Über", .str (some "x"))] _ [("Done", .bool true)] rfl rfl
    (sampleFile_ok _) (by decide +kernel) ?_
  simp only [List.forall_mem_cons]
  refine ⟨⟨by decide +kernel, by decide, ?_⟩, ⟨by decide +kernel, by decide, ?_⟩, by simp⟩
  · simp only [HeadOK]
  · simp only [HeadOK]; decide +kernel

/-! ## C60 -/

private theorem u32B_bytes (x : UInt32) : u32B x =
    [UInt8.ofNat x.toNat, UInt8.ofNat (x.toNat / 256), UInt8.ofNat (x.toNat / 256 / 256),
      UInt8.ofNat (x.toNat / 256 / 256 / 256)] := rfl

private theorem headerAt_package {input rest : Bytes} {h : GvasHeader} (ha : HeaderAt input h rest) :
    ∃ (v pkg : UInt32) (r : Bytes), 0x205 ≤ pkg.toNat ∧ pkg.toNat ≤ 0x20D ∧
      input = [0x47, 0x56, 0x41, 0x53] ++ u32B v ++ u32B pkg ++ r := by
  cases h with
  | version2 pkg ev format cvs name =>
    obtain ⟨h1, h2, r, rfl, h3⟩ := ha
    exact ⟨2, pkg, r, h1, h2, rfl⟩
  | version3 pkg ue5 ev format cvs name =>
    obtain ⟨h1, h2, h4, h5, r, rfl, h3⟩ := ha
    exact ⟨3, pkg, u32B ue5 ++ r, h1, h2, by simp only [List.append_assoc]⟩

/-- **C60**: what is accepted as an ordinary save is refused as a Palworld save, with an error
about the magic number, whatever hints and build. -/
theorem C60_default_is_not_palworld (z z' : Codec) (debug debug' : Bool)
    (hints hints' : String → Option String) (start start' : Nat) (input : Bytes) (f : GvasFile)
    (h : GvasFile.read z debug .default hints start input = .ok f) :
    ∃ m, GvasFile.read z' debug' .palworld hints' start' input = .err (.invalidHeader m) := by
  simp only [GvasFile.read] at h
  obtain ⟨⟨hd, ps⟩, h1, h⟩ := Res.bind_inv h
  have h2 : ∃ s', readData debug hints input = (.ok (hd, ps), s') := ⟨_, Prod.ext h1 rfl⟩
  obtain ⟨s', h2⟩ := h2
  unfold readData readContents at h2
  rbind h2 => hd' s1 h3
  have hk := readHeader_stack h3
  obtain ⟨r1, p1, k1⟩ := s1
  simp only [RS.init] at hk
  subst hk
  obtain ⟨v, pkg, r, g1, g2, rfl⟩ := headerAt_package ((C13_accepts_iff input r1 0 [] hd').mp ⟨p1, h3⟩)
  have hm : u32B fileTypeGvas = [0x47, 0x56, 0x41, 0x53] := by decide
  have hb : ([UInt8.ofNat pkg.toNat, UInt8.ofNat (pkg.toNat / 256),
      UInt8.ofNat (pkg.toNat / 256 / 256)] : Bytes) ≠ plzMagic := by
    intro hx
    simp only [plzMagic, List.cons.injEq, and_true] at hx
    have h5 := congrArg UInt8.toNat hx.2.2
    simp only [UInt8.toNat_ofNat'] at h5
    have : pkg.toNat / 256 / 256 = 0 := by omega
    rw [this] at h5
    exact absurd h5 (by decide)
  have e : readFrame ⟨[0x47, 0x56, 0x41, 0x53] ++ u32B v ++ u32B pkg ++ r, start', []⟩ =
      (.err (.invalidHeader ("Invalid PlZ magic " ++ toString
        (([UInt8.ofNat pkg.toNat, UInt8.ofNat (pkg.toNat / 256),
          UInt8.ofNat (pkg.toNat / 256 / 256)] : Bytes).map UInt8.toNat))),
        ⟨[UInt8.ofNat (pkg.toNat / 256 / 256 / 256)] ++ r, start' + 4 + 4 + 3, []⟩) := by
    unfold readFrame
    rw [← hm]
    simp only [List.append_assoc]
    rw [R.bind_ok ((reads_u32 (st := []) _).run _ _), R.bind_ok ((reads_u32 (st := []) _).run _ _)]
    rw [u32B_bytes pkg]
    rw [show ∀ (a b c d : UInt8) (r : Bytes), [a, b, c, d] ++ r = [a, b, c] ++ ([d] ++ r) from
      fun _ _ _ _ _ => rfl]
    rw [R.bind_ok ((Reads.take (st := []) (n := 3) rfl).run _ _)]
    rw [R.bind_bad (e := .err (.invalidHeader _)) (by rw [headerCheck, R.ensure_false hb]; rfl)]
    simp [u32B_length]
  simp only [GvasFile.read, e]
  exact ⟨_, rfl⟩

/-- **C60**: what is accepted as a Palworld save is refused as an ordinary save, with a header
error. -/
theorem C60_palworld_is_not_default (z z' : Codec) (debug debug' : Bool)
    (hints hints' : String → Option String) (start start' : Nat) (input : Bytes) (f : GvasFile)
    (h : GvasFile.read z debug .palworld hints start input = .ok f) :
    ∃ m, GvasFile.read z' debug' .default hints' start' input = .err (.invalidHeader m) := by
  have hr : ∃ d s', readFrame ⟨input, start, []⟩ = (.ok d, s') := by
    simp only [GvasFile.read] at h
    split at h
    · rename_i h'; exact ⟨_, _, h'⟩
    · cases h
  obtain ⟨d, s', hr⟩ := hr
  unfold readFrame at hr
  rbind hr => dlen s1 h1
  rbind hr => clen s2 h2
  rbind hr => magic s3 h3
  rbind hr => u s4 h4
  rbind hr => c s5 h5
  obtain ⟨e1, -, -⟩ := readU32_inv h1
  obtain ⟨e2, -, -⟩ := readU32_inv h2
  obtain ⟨-, e3, -⟩ := R.take_inv h3
  obtain ⟨hm, rfl⟩ := R.ensure_inv (fun _ _ _ => R.fail_ne) h4
  unfold readEnum at h5
  rbind h5 => t s6 h6
  obtain ⟨e6, -, -⟩ := readI8_inv h6
  have hin : ∃ (pkg : UInt32) (r : Bytes), 0x20D < pkg.toNat ∧
      input = u32B dlen ++ u32B clen ++ u32B pkg ++ r := by
    refine ⟨UInt32.ofNat (0x5A6C50 + 2 ^ 24 * t.toUInt8.toNat), s6.rest, ?_, ?_⟩
    · have := t.toUInt8.toNat_lt
      rw [UInt32.toNat_ofNat', Nat.mod_eq_of_lt (by omega)]
      omega
    · simp only [] at e1
      rw [e1, e2, e3, e6, hm]
      have : u32B (UInt32.ofNat (0x5A6C50 + 2 ^ 24 * t.toUInt8.toNat)) = plzMagic ++ i8B t := by
        have := t.toUInt8.toNat_lt
        rw [u32B_bytes, UInt32.toNat_ofNat', Nat.mod_eq_of_lt (by omega)]
        have h1 : (0x5A6C50 + 2 ^ 24 * t.toUInt8.toNat) / 256 = 0x5A6C + 2 ^ 16 * t.toUInt8.toNat := by
          omega
        have h2 : (0x5A6C + 2 ^ 16 * t.toUInt8.toNat) / 256 = 0x5A + 2 ^ 8 * t.toUInt8.toNat := by
          omega
        have h3 : (0x5A + 2 ^ 8 * t.toUInt8.toNat) / 256 = t.toUInt8.toNat := by omega
        have key : ∀ n m : Nat, n % 256 = m % 256 → UInt8.ofNat n = UInt8.ofNat m := by
          intro n m h
          apply UInt8.toNat_inj.mp
          rw [UInt8.toNat_ofNat', UInt8.toNat_ofNat']
          exact h
        rw [h1, h2, h3, key _ 0x50 (by omega), key (0x5A6C + _) 0x6C (by omega),
          key (0x5A + _) 0x5A (by omega)]
        rfl
      rw [this]
      simp only [List.append_assoc]
  obtain ⟨pkg, r, hp, rfl⟩ := hin
  obtain ⟨c1, c2, c3, -⟩ := C13_rejects (u32B clen ++ u32B pkg ++ r) 0 []
  have hbad : ∃ m, (GvasHeader.read ⟨u32B dlen ++ u32B clen ++ u32B pkg ++ r, 0, []⟩).1 =
      .err (.invalidHeader m) := by
    by_cases q1 : u32B dlen = [0x47, 0x56, 0x41, 0x53]
    · rw [q1]
      by_cases q2 : clen.toNat = 2 ∨ clen.toNat = 3
      · obtain ⟨-, -, c3, -⟩ := C13_rejects r 0 []
        exact c3 clen pkg q2 (by omega)
      · obtain ⟨-, c2, -⟩ := C13_rejects (u32B pkg ++ r) 0 []
        have := c2 clen (fun h => q2 (.inl h)) (fun h => q2 (.inr h))
        simp only [List.append_assoc] at this ⊢
        exact this
    · have := c1 dlen q1
      simp only [List.append_assoc] at this ⊢
      exact this
  obtain ⟨m, hbad⟩ := hbad
  refine ⟨m, ?_⟩
  simp only [GvasFile.read, readData, readContents, RS.init]
  rw [R.bind_bad (Prod.ext hbad rfl)]
  rfl

/-- Both containers occur. -/
example : (∃ f, GvasFile.read prefixCodec true .default noHints 0 (saveBytes intBytes) = .ok f) ∧
    (∃ f, GvasFile.read prefixCodec true .palworld noHints 0
      (frame (UInt32.ofNat (saveBytes intBytes).length) 0 .none (saveBytes intBytes)) = .ok f) :=
  ⟨eq_ok (by decide +kernel), eq_ok (by decide +kernel)⟩

/-- Even when a Palworld frame starts like an ordinary save. -/
example : failure (GvasFile.read prefixCodec true .default noHints 0
    (frame 0x53415647 2 .none (saveBytes intBytes))) =
    some (.err (.invalidHeader "Package file version 811232336 not supported")) := by
  decide +kernel

/-! ## C61 -/

/-- **C61**: `GvasHeader::read` on the bytes of a save returns the header the whole save has, and
where it fails, reading the save fails in the same way. -/
theorem C61_header_alone (z : Codec) (debug : Bool) (hints : String → Option String) (start : Nat)
    (input : Bytes) :
    (∀ f, GvasFile.read z debug .default hints start input = .ok f →
      (GvasHeader.read (RS.init input)).1 = .ok f.header) ∧
    (∀ e, (GvasHeader.read (RS.init input)).1 = .bad e →
      GvasFile.read z debug .default hints start input = .bad e) := by
  constructor
  · intro f h
    simp only [GvasFile.read] at h
    obtain ⟨⟨hd, ps⟩, h1, h⟩ := Res.bind_inv h
    cases h
    obtain ⟨s', h2⟩ : ∃ s', readData debug hints input = (.ok (hd, ps), s') := ⟨_, Prod.ext h1 rfl⟩
    unfold readData readContents at h2
    rbind h2 => hd' s1 h3
    rbind h2 => ps' s2 h4
    obtain ⟨he, -⟩ := R.pure_inv h2
    cases he
    rw [h3]
  · intro e h
    simp only [GvasFile.read, readData, readContents]
    rw [R.bind_bad (Prod.ext h rfl)]
    rfl

/-- The header of a save, read alone; of bytes that are no save, an error. -/
example : (∃ f, GvasFile.read prefixCodec true .default noHints 0 (saveBytes intBytes) = .ok f) ∧
    failure (GvasHeader.read (RS.init [1, 2, 3])).1 = some (.err .eof) :=
  ⟨eq_ok (by decide +kernel), by decide +kernel⟩

end Gvas
