import Verif.Lemmas.Header
import Verif.Lemmas.LastWins
import Verif.Props.Strings

/-!
# C12-C14: headers
-/

namespace Gvas

open Spec

/-- **C12**: every valid header reads back, whatever follows it. -/
theorem C12_headers_roundtrip (h : GvasHeader) (hok : HeaderOK h) :
    ReadsBack GvasHeader.read h.write.bytes h :=
  fun rest pos st => (reads_header (st := st) hok).run rest pos

/-- A version 3 header with two custom versions and a non-ASCII branch is valid. -/
example : HeaderOK (.version3 522 1008 ⟨5, 1, 1, 0, "++UE5+Rel–5.1"⟩ 3
    [(editorGuid, 40), (ue5ReleaseGuid, 12)] "/Script/Game.Save") := by
  refine ⟨by decide, by decide, by decide, by decide, rfl, by decide, ?_, by decide, by decide⟩
  simp [editorGuid, ue5ReleaseGuid, Guid.fromU32, u32B, leBytes]

/-! ## C13: what is accepted -/

/-- `input` starts with an engine version, `rest` follows. -/
def Spec.EngineAt (input : Bytes) (ev : FEngineVersion) (rest : Bytes) : Prop :=
  ∃ r k, input = u16B ev.major ++ u16B ev.minor ++ u16B ev.patch ++ u32B ev.changeList ++ r ∧
    FStringAt r (some ev.branch) k rest

/-- `input` starts with engine version, custom version format 3, a table of custom versions, and
the class name; repeated GUIDs are collapsed. -/
def Spec.HeaderTailAt (input : Bytes) (ev : FEngineVersion) (format : UInt32)
    (cvs : List (Guid × UInt32)) (name : String) (rest : Bytes) : Prop :=
  ∃ r1 r2 es k, EngineAt input ev r1 ∧ format = 3 ∧ es.length < 2 ^ 32 ∧
    r1 = u32B 3 ++ u32B (UInt32.ofNat es.length) ++
      es.flatMap (fun e : Guid × UInt32 => guidB e.1 ++ u32B e.2) ++ r2 ∧
    FStringAt r2 (some name) k rest ∧ LastWins (fun a b => decide (a = b)) es cvs

/-- `input` starts with a header, `rest` follows: the letters `GVAS`, save game version 2 or 3,
the package file versions in the supported ranges, and the common part. -/
def Spec.HeaderAt (input : Bytes) (h : GvasHeader) (rest : Bytes) : Prop :=
  match h with
  | .version2 pkg ev format cvs name =>
    0x205 ≤ pkg.toNat ∧ pkg.toNat ≤ 0x20D ∧
      ∃ r, input = [0x47, 0x56, 0x41, 0x53] ++ u32B 2 ++ u32B pkg ++ r ∧
        HeaderTailAt r ev format cvs name rest
  | .version3 pkg ue5 ev format cvs name =>
    0x205 ≤ pkg.toNat ∧ pkg.toNat ≤ 0x20D ∧ 1000 ≤ ue5.toNat ∧ ue5.toNat ≤ 1009 ∧
      ∃ r, input = [0x47, 0x56, 0x41, 0x53] ++ u32B 3 ++ u32B pkg ++ u32B ue5 ++ r ∧
        HeaderTailAt r ev format cvs name rest

private theorem gvasMagic : u32B fileTypeGvas = [0x47, 0x56, 0x41, 0x53] := by decide

private theorem readString_at {s s2 : RS} {t : String} (h : readString s = (.ok t, s2)) :
    ∃ k, FStringAt s.rest (some t) k s2.rest ∧ s2.pos = s.pos + k ∧ s2.stack = s.stack :=
  C05_decoded_strings_valid _ _ _ (readString_inv' h)

private theorem at_readString {input rest : Bytes} {t : String} {k pos : Nat} {st : List String}
    (h : FStringAt input (some t) k rest) :
    readString ⟨input, pos, st⟩ = (.ok t, ⟨rest, pos + k, st⟩) := by
  unfold readString
  rw [R.bind_ok (show R.position ⟨input, pos, st⟩ = (.ok pos, _) from rfl),
    R.bind_ok (C05_valid_strings_accepted _ _ _ _ h pos st)]
  rfl

private theorem engine_at {s s2 : RS} {ev : FEngineVersion}
    (h : FEngineVersion.read s = (.ok ev, s2)) :
    EngineAt s.rest ev s2.rest ∧ s2.stack = s.stack := by
  unfold FEngineVersion.read at h
  rbind h => a s1 h1
  rbind h => b s3 h3
  rbind h => c s4 h4
  rbind h => d s5 h5
  rbind h => e s6 h6
  obtain ⟨rfl, rfl⟩ := R.pure_inv h
  obtain ⟨e1, p1, k1⟩ := readU16_inv h1
  obtain ⟨e3, p3, k3⟩ := readU16_inv h3
  obtain ⟨e4, p4, k4⟩ := readU16_inv h4
  obtain ⟨e5, p5, k5⟩ := readU32_inv h5
  obtain ⟨k, h7, _, h8⟩ := readString_at h6
  exact ⟨⟨s5.rest, k, by simp only [e1, e3, e4, e5, List.append_assoc], h7⟩,
    by rw [h8, k5, k4, k3, k1]⟩

theorem readGuid_inv {s s2 : RS} {g : Guid} (h : readGuid s = (.ok g, s2)) :
    s.rest = guidB g ++ s2.rest ∧ s2.pos = s.pos + 16 ∧ s2.stack = s.stack := by
  unfold readGuid at h
  rbind h => bs s1 h1
  obtain ⟨hl, hr, hp, hs⟩ := R.take_inv h1
  rw [dif_pos hl] at h
  obtain ⟨rfl, rfl⟩ := R.pure_inv h
  exact ⟨hr, hp, hs⟩

theorem customVersions_items {s s2 : RS} {es : List (Guid × UInt32)}
    (h : Items FCustomVersion.read s es s2) :
    s.rest = es.flatMap (fun e => guidB e.1 ++ u32B e.2) ++ s2.rest ∧ s2.stack = s.stack ∧
      s2.pos = s.pos + 20 * es.length := by
  induction h with
  | nil => simp
  | @cons s s1 s' a as h1 _ ih =>
    unfold FCustomVersion.read at h1
    rbind h1 => g s3 h3
    rbind h1 => v s4 h4
    obtain ⟨rfl, rfl⟩ := R.pure_inv h1
    obtain ⟨e3, p3, k3⟩ := readGuid_inv h3
    obtain ⟨e4, p4, k4⟩ := readU32_inv h4
    obtain ⟨i1, i2, i3⟩ := ih
    refine ⟨by simp only [e3, e4, i1, List.flatMap_cons, List.append_assoc], by rw [i2, k4, k3], ?_⟩
    rw [List.length_cons]; omega

private theorem tail_at {s s2 : RS} {ev : FEngineVersion} {format : UInt32}
    {cvs : List (Guid × UInt32)} {name : String}
    (h : readHeaderTail s = (.ok (ev, format, cvs, name), s2)) :
    HeaderTailAt s.rest ev format cvs name s2.rest ∧ s2.stack = s.stack := by
  unfold readHeaderTail at h
  rbind h => ev' s1 h1
  rbind h => f s3 h3
  rbind h => u s4 h4
  rbind h => n s5 h5
  rbind h => vs s6 h6
  rbind h => nm s7 h7
  obtain ⟨he, rfl⟩ := R.pure_inv h
  simp only [Prod.mk.injEq] at he
  obtain ⟨rfl, rfl, rfl, rfl⟩ := he
  obtain ⟨g1, g2⟩ := engine_at h1
  obtain ⟨e3, p3, k3⟩ := readU32_inv h3
  obtain ⟨rfl, rfl⟩ := R.ensure_inv (fun _ _ _ => R.fail_ne) h4
  obtain ⟨e5, p5, k5⟩ := readU32_inv h5
  obtain ⟨hi, hl⟩ := replicate_items.mp h6
  obtain ⟨e6, k6, _⟩ := customVersions_items hi
  obtain ⟨k, h8, _, k7⟩ := readString_at h7
  refine ⟨⟨s1.rest, s6.rest, vs, k, g1, rfl, ?_, ?_, h8, lastWins_imExtend equiv_decide vs⟩, ?_⟩
  · rw [hl]; exact n.toNat_lt
  · rw [e3, e5, e6, hl, UInt32.ofNat_toNat]; simp only [List.append_assoc]
  · rw [k7, k6, k5, k3, g2]

private theorem at_engine {input rest : Bytes} {ev : FEngineVersion} {pos : Nat}
    {st : List String} (h : EngineAt input ev rest) :
    ∃ pos', FEngineVersion.read ⟨input, pos, st⟩ = (.ok ev, ⟨rest, pos', st⟩) := by
  obtain ⟨r, k, rfl, h⟩ := h
  unfold FEngineVersion.read
  simp only [List.append_assoc]
  rw [R.bind_ok ((reads_u16 (st := st) _).run _ _), R.bind_ok ((reads_u16 (st := st) _).run _ _),
    R.bind_ok ((reads_u16 (st := st) _).run _ _), R.bind_ok ((reads_u32 (st := st) _).run _ _),
    R.bind_ok (at_readString h)]
  exact ⟨_, rfl⟩

private theorem at_tail {input rest : Bytes} {ev : FEngineVersion} {format : UInt32}
    {cvs : List (Guid × UInt32)} {name : String} {pos : Nat} {st : List String}
    (h : HeaderTailAt input ev format cvs name rest) :
    ∃ pos', readHeaderTail ⟨input, pos, st⟩ = (.ok (ev, format, cvs, name), ⟨rest, pos', st⟩) := by
  obtain ⟨r1, r2, es, k, h1, rfl, h2, rfl, h3, h4⟩ := h
  obtain ⟨pos', h1⟩ := at_engine (pos := pos) (st := st) h1
  unfold readHeaderTail
  rw [R.bind_ok h1]
  simp only [List.append_assoc]
  have hc : ∀ s, headerCheck ((3 : UInt32) = 3) ("Custom version format " ++
      toString (3 : UInt32).toNat ++ " not supported") s = (.ok (), s) := by
    intro s; rw [headerCheck, R.ensure_true rfl]; rfl
  rw [R.bind_ok ((reads_u32 (st := st) _).run _ _), R.bind_ok (hc _),
    R.bind_ok ((reads_u32 (st := st) _).run _ _)]
  rw [u32_ofNat_toNat h2]
  have hr := (Reads.replicate (st := st) (fun v => (FCustomVersion.write v).bytes) id es
    (fun v _ => reads_customVersion v))
  rw [List.map_id] at hr
  have e : es.flatMap (fun v => (FCustomVersion.write v).bytes) =
      es.flatMap (fun e => guidB e.1 ++ u32B e.2) := rfl
  rw [← e, R.bind_ok (hr.run _ _), R.bind_ok (at_readString h3)]
  have : imExtend (fun a b => decide (a = b)) [] es = cvs :=
    lastWins_unique (lastWins_imExtend equiv_decide es) h4
  rw [this]
  exact ⟨_, rfl⟩

/-- **C13**: a header is accepted exactly where one in a supported version is stored. -/
theorem C13_accepts_iff (input rest : Bytes) (pos : Nat) (st : List String) (h : GvasHeader) :
    (∃ pos', GvasHeader.read ⟨input, pos, st⟩ = (.ok h, ⟨rest, pos', st⟩)) ↔
      HeaderAt input h rest := by
  constructor
  · rintro ⟨pos', hr⟩
    unfold GvasHeader.read at hr
    rbind hr => tag s1 h1
    rbind hr => u s2 h2
    rbind hr => v s3 h3
    rbind hr => u s4 h4
    rbind hr => pkg s5 h5
    rbind hr => u s6 h6
    obtain ⟨e1, p1, k1⟩ := readU32_inv h1
    obtain ⟨rfl, rfl⟩ := R.ensure_inv (fun _ _ _ => R.fail_ne) h2
    obtain ⟨e3, p3, k3⟩ := readU32_inv h3
    obtain ⟨c4, rfl⟩ := R.ensure_inv (fun _ _ _ => R.fail_ne) h4
    obtain ⟨e5, p5, k5⟩ := readU32_inv h5
    obtain ⟨c6, rfl⟩ := R.ensure_inv (fun _ _ _ => R.fail_ne) h6
    simp only [between, UInt32.le_iff_toNat_le, Bool.and_eq_true, decide_eq_true_eq] at c4 c6
    have c4' : (2 : UInt32).toNat = 2 ∧ (3 : UInt32).toNat = 3 ∧ (0x205 : UInt32).toNat = 0x205 ∧
      (0x20D : UInt32).toNat = 0x20D := by decide
    split at hr
    · rename_i hv
      rw [UInt32.le_iff_toNat_le] at hv
      have hv : v = 3 := UInt32.toNat_inj.mp (by omega)
      subst hv
      rbind hr => ue5 s7 h7
      rbind hr => u s8 h8
      rbind hr => t s9 h9
      obtain ⟨e7, p7, k7⟩ := readU32_inv h7
      obtain ⟨c8, rfl⟩ := R.ensure_inv (fun _ _ _ => R.fail_ne) h8
      obtain ⟨ev, f, cvs, nm⟩ := t
      obtain ⟨rfl, rfl⟩ := R.pure_inv hr
      simp only [between, UInt32.le_iff_toNat_le, Bool.and_eq_true, decide_eq_true_eq] at c8
      have c8' : (1000 : UInt32).toNat = 1000 ∧ (1009 : UInt32).toNat = 1009 := by decide
      simp only [] at e1
      refine ⟨by omega, by omega, by omega, by omega, s8.rest, ?_, (tail_at h9).1⟩
      rw [e1, e3, e5, e7, gvasMagic]
      simp only [List.append_assoc]
    · rename_i hv
      rw [UInt32.le_iff_toNat_le] at hv
      have hv : v = 2 := UInt32.toNat_inj.mp (by omega)
      subst hv
      rbind hr => t s9 h9
      obtain ⟨ev, f, cvs, nm⟩ := t
      obtain ⟨rfl, rfl⟩ := R.pure_inv hr
      simp only [] at e1
      refine ⟨by omega, by omega, s6.rest, ?_, (tail_at h9).1⟩
      rw [e1, e3, e5, gvasMagic]
      simp only [List.append_assoc]
  · intro ha
    have hc : ∀ (c : Prop) [Decidable c] (m : String) (s : RS), c →
        headerCheck c m s = (.ok (), s) := by
      intro c _ m s h; rw [headerCheck, R.ensure_true h]; rfl
    cases h with
    | version2 pkg ev format cvs name =>
      obtain ⟨h1, h2, r, rfl, h3⟩ := ha
      unfold GvasHeader.read
      simp only [← gvasMagic, List.append_assoc]
      rw [R.bind_ok ((reads_u32 (st := st) _).run _ _), R.bind_ok (hc _ _ _ rfl),
        R.bind_ok ((reads_u32 (st := st) _).run _ _), R.bind_ok (hc _ _ _ (by decide)),
        R.bind_ok ((reads_u32 (st := st) _).run _ _), R.bind_ok (hc _ _ _ ?_),
        if_neg (by decide)]
      · obtain ⟨pos', h⟩ := at_tail h3 (st := st)
        rw [R.bind_ok h]
        exact ⟨_, rfl⟩
      · simp [between, UInt32.le_iff_toNat_le]; omega
    | version3 pkg ue5 ev format cvs name =>
      obtain ⟨h1, h2, h4, h5, r, rfl, h3⟩ := ha
      unfold GvasHeader.read
      simp only [← gvasMagic, List.append_assoc]
      rw [R.bind_ok ((reads_u32 (st := st) _).run _ _), R.bind_ok (hc _ _ _ rfl),
        R.bind_ok ((reads_u32 (st := st) _).run _ _), R.bind_ok (hc _ _ _ (by decide)),
        R.bind_ok ((reads_u32 (st := st) _).run _ _), R.bind_ok (hc _ _ _ ?_),
        if_pos (by decide), R.bind_ok ((reads_u32 (st := st) _).run _ _), R.bind_ok (hc _ _ _ ?_)]
      · obtain ⟨pos', h⟩ := at_tail h3 (st := st)
        rw [R.bind_ok h]
        exact ⟨_, rfl⟩
      · simp [between, UInt32.le_iff_toNat_le]; omega
      · simp [between, UInt32.le_iff_toNat_le]; omega

/-- **C13**: reading a header never panics. -/
theorem C13_never_panics (s : RS) (f : Fail) (h : (GvasHeader.read s).1 = .bad f) :
    ∃ e, f = .err e := NoPanic.header s f h

/-- **C13**: a wrong value in any of the checked fields, behind fields that are right, is an
`InvalidHeader` error. -/
theorem C13_rejects (rest : Bytes) (pos : Nat) (st : List String) :
    (∀ tag : UInt32, u32B tag ≠ [0x47, 0x56, 0x41, 0x53] →
      ∃ m, (GvasHeader.read ⟨u32B tag ++ rest, pos, st⟩).1 = .err (.invalidHeader m)) ∧
    (∀ v : UInt32, v.toNat ≠ 2 → v.toNat ≠ 3 →
      ∃ m, (GvasHeader.read ⟨[0x47, 0x56, 0x41, 0x53] ++ u32B v ++ rest, pos, st⟩).1 =
        .err (.invalidHeader m)) ∧
    (∀ v pkg : UInt32, (v.toNat = 2 ∨ v.toNat = 3) → ¬(0x205 ≤ pkg.toNat ∧ pkg.toNat ≤ 0x20D) →
      ∃ m, (GvasHeader.read ⟨[0x47, 0x56, 0x41, 0x53] ++ u32B v ++ u32B pkg ++ rest, pos, st⟩).1 =
        .err (.invalidHeader m)) ∧
    (∀ pkg ue5 : UInt32, 0x205 ≤ pkg.toNat → pkg.toNat ≤ 0x20D →
      ¬(1000 ≤ ue5.toNat ∧ ue5.toNat ≤ 1009) →
      ∃ m, (GvasHeader.read ⟨[0x47, 0x56, 0x41, 0x53] ++ u32B 3 ++ u32B pkg ++ u32B ue5 ++ rest,
        pos, st⟩).1 = .err (.invalidHeader m)) ∧
    (∀ (pkg ue5 format : UInt32) (ev : FEngineVersion), 0x205 ≤ pkg.toNat → pkg.toNat ≤ 0x20D →
      1000 ≤ ue5.toNat → ue5.toNat ≤ 1009 → StrOK ev.branch → format.toNat ≠ 3 →
      (∃ m, (GvasHeader.read ⟨[0x47, 0x56, 0x41, 0x53] ++ u32B 2 ++ u32B pkg ++ ev.write.bytes ++
        u32B format ++ rest, pos, st⟩).1 = .err (.invalidHeader m)) ∧
      (∃ m, (GvasHeader.read ⟨[0x47, 0x56, 0x41, 0x53] ++ u32B 3 ++ u32B pkg ++ u32B ue5 ++
        ev.write.bytes ++ u32B format ++ rest, pos, st⟩).1 = .err (.invalidHeader m))) := by
  have hc : ∀ (c : Prop) [Decidable c] (m : String) (s : RS), c →
      headerCheck c m s = (.ok (), s) := by
    intro c _ m s h; rw [headerCheck, R.ensure_true h]; rfl
  have hb : ∀ (c : Prop) [Decidable c] (m : String) (s : RS), ¬ c →
      headerCheck c m s = (.err (.invalidHeader m), s) := by
    intro c _ m s h; rw [headerCheck, R.ensure_false h]; rfl
  have h2 : ∀ v : UInt32, (v.toNat = 2 ∨ v.toNat = 3) → between v 2 3 = true := by
    intro v h; simp [between, UInt32.le_iff_toNat_le]; omega
  have hp : ∀ v : UInt32, 0x205 ≤ v.toNat → v.toNat ≤ 0x20D → between v 0x205 0x20D = true := by
    intro v h h'; simp [between, UInt32.le_iff_toNat_le]; omega
  have hu : ∀ v : UInt32, 1000 ≤ v.toNat → v.toNat ≤ 1009 → between v 1000 1009 = true := by
    intro v h h'; simp [between, UInt32.le_iff_toNat_le]; omega
  have htail : ∀ (ev : FEngineVersion) (format : UInt32) (pos : Nat), StrOK ev.branch →
      format.toNat ≠ 3 → ∃ s', readHeaderTail ⟨ev.write.bytes ++ (u32B format ++ rest), pos, st⟩ =
        (.err (.invalidHeader ("Custom version format " ++ toString format.toNat ++
          " not supported")), s') := by
    intro ev format pos h4 h5
    unfold readHeaderTail
    rw [R.bind_ok ((reads_engineVersion (st := st) ev h4).run _ _),
      R.bind_ok ((reads_u32 (st := st) _).run _ _),
      R.bind_bad (hb _ _ _ (by rintro rfl; exact h5 rfl))]
    exact ⟨_, rfl⟩
  refine ⟨fun tag h => ?_, fun v h h' => ?_, fun v pkg h h' => ?_, fun pkg ue5 h h' h'' => ?_,
    fun pkg ue5 format ev h1 h1' h3 h3' h4 h5 => ⟨?_, ?_⟩⟩ <;>
  unfold GvasHeader.read <;> simp only [← gvasMagic, List.append_assoc]
  · rw [R.bind_ok ((reads_u32 (st := st) _).run _ _), R.bind_bad (hb _ _ _ ?_)]
    · exact ⟨_, rfl⟩
    · rintro rfl; exact h gvasMagic
  · rw [R.bind_ok ((reads_u32 (st := st) _).run _ _), R.bind_ok (hc _ _ _ rfl),
      R.bind_ok ((reads_u32 (st := st) _).run _ _), R.bind_bad (hb _ _ _ ?_)]
    · exact ⟨_, rfl⟩
    · simp [between, UInt32.le_iff_toNat_le]; omega
  · rw [R.bind_ok ((reads_u32 (st := st) _).run _ _), R.bind_ok (hc _ _ _ rfl),
      R.bind_ok ((reads_u32 (st := st) _).run _ _), R.bind_ok (hc _ _ _ (h2 v h)),
      R.bind_ok ((reads_u32 (st := st) _).run _ _), R.bind_bad (hb _ _ _ ?_)]
    · exact ⟨_, rfl⟩
    · simp [between, UInt32.le_iff_toNat_le]; omega
  · rw [R.bind_ok ((reads_u32 (st := st) _).run _ _), R.bind_ok (hc _ _ _ rfl),
      R.bind_ok ((reads_u32 (st := st) _).run _ _), R.bind_ok (hc _ _ _ (by decide)),
      R.bind_ok ((reads_u32 (st := st) _).run _ _), R.bind_ok (hc _ _ _ (hp _ h h')),
      if_pos (by decide), R.bind_ok ((reads_u32 (st := st) _).run _ _), R.bind_bad (hb _ _ _ ?_)]
    · exact ⟨_, rfl⟩
    · simp [between, UInt32.le_iff_toNat_le]; omega
  · rw [R.bind_ok ((reads_u32 (st := st) _).run _ _), R.bind_ok (hc _ _ _ rfl),
      R.bind_ok ((reads_u32 (st := st) _).run _ _), R.bind_ok (hc _ _ _ (by decide)),
      R.bind_ok ((reads_u32 (st := st) _).run _ _), R.bind_ok (hc _ _ _ (hp _ h1 h1')),
      if_neg (by decide)]
    obtain ⟨s', ht⟩ := htail ev format _ h4 h5
    rw [R.bind_bad ht]
    exact ⟨_, rfl⟩
  · rw [R.bind_ok ((reads_u32 (st := st) _).run _ _), R.bind_ok (hc _ _ _ rfl),
      R.bind_ok ((reads_u32 (st := st) _).run _ _), R.bind_ok (hc _ _ _ (by decide)),
      R.bind_ok ((reads_u32 (st := st) _).run _ _), R.bind_ok (hc _ _ _ (hp _ h1 h1')),
      if_pos (by decide), R.bind_ok ((reads_u32 (st := st) _).run _ _),
      R.bind_ok (hc _ _ _ (hu _ h3 h3'))]
    obtain ⟨s', ht⟩ := htail ev format _ h4 h5
    rw [R.bind_bad ht]
    exact ⟨_, rfl⟩

/-- Some values on either side of the checks. -/
example : (GvasHeader.read ⟨[0x47, 0x56, 0x41, 0x54], 0, []⟩).1 =
      .err (.invalidHeader "File type 1413568071 not recognized") ∧
    (GvasHeader.read ⟨[0x47, 0x56, 0x41, 0x53, 4, 0, 0, 0], 0, []⟩).1 =
      .err (.invalidHeader "GVAS version 4 not supported") ∧
    (GvasHeader.read ⟨[0x47, 0x56, 0x41, 0x53, 2, 0, 0, 0, 0x0E, 2, 0, 0], 0, []⟩).1 =
      .err (.invalidHeader "Package file version 526 not supported") := by
  decide

/-! ## C14 -/

private theorem fstringAt_ok {input rest : Bytes} {t : String} {k : Nat}
    (h : FStringAt input (some t) k rest) : StrOK t :=
  (readString_ok (at_readString (pos := 0) (st := []) h)).2.1

private theorem tailAt_ok {input rest : Bytes} {ev : FEngineVersion} {format : UInt32}
    {cvs : List (Guid × UInt32)} {name : String}
    (h : HeaderTailAt input ev format cvs name rest) : HeaderTailOK ev format cvs name := by
  obtain ⟨r1, r2, es, k, ⟨r, k', _, h1⟩, rfl, h2, _, h3, h4⟩ := h
  refine ⟨rfl, fstringAt_ok h1, ?_, ?_, fstringAt_ok h3⟩
  · have := LastWins.pairwise h4
    exact this.imp (by simp)
  · have h5 : cvs.length ≤ es.length := by
      rw [← List.length_map (f := Prod.fst), h4.keys]
      exact Nat.le_trans (firsts_length _ _) (by simp)
    omega

/-- Accepted headers are valid. -/
theorem headerAt_ok {input rest : Bytes} {h : GvasHeader} (ha : HeaderAt input h rest) :
    HeaderOK h := by
  cases h with
  | version2 =>
    obtain ⟨h1, h2, r, _, h3⟩ := ha
    exact ⟨h1, h2, tailAt_ok h3⟩
  | version3 =>
    obtain ⟨h1, h2, h4, h5, r, _, h3⟩ := ha
    exact ⟨h1, h2, h4, h5, tailAt_ok h3⟩

theorem readHeader_stack {s s' : RS} {h : GvasHeader} (hr : GvasHeader.read s = (.ok h, s')) :
    s'.stack = s.stack := by
  unfold GvasHeader.read at hr
  rbind hr => tag s1 h1
  rbind hr => u s2 h2
  rbind hr => v s3 h3
  rbind hr => u s4 h4
  rbind hr => pkg s5 h5
  rbind hr => u s6 h6
  obtain ⟨e1, p1, k1⟩ := readU32_inv h1
  obtain ⟨rfl, rfl⟩ := R.ensure_inv (fun _ _ _ => R.fail_ne) h2
  obtain ⟨e3, p3, k3⟩ := readU32_inv h3
  obtain ⟨c4, rfl⟩ := R.ensure_inv (fun _ _ _ => R.fail_ne) h4
  obtain ⟨e5, p5, k5⟩ := readU32_inv h5
  obtain ⟨c6, rfl⟩ := R.ensure_inv (fun _ _ _ => R.fail_ne) h6
  split at hr
  · rbind hr => ue5 s7 h7
    rbind hr => u s8 h8
    rbind hr => t s9 h9
    obtain ⟨e7, p7, k7⟩ := readU32_inv h7
    obtain ⟨c8, rfl⟩ := R.ensure_inv (fun _ _ _ => R.fail_ne) h8
    obtain ⟨ev, f, cvs, nm⟩ := t
    obtain ⟨rfl, rfl⟩ := R.pure_inv hr
    rw [(tail_at h9).2, k7, k5, k3, k1]
  · rbind hr => t s9 h9
    obtain ⟨ev, f, cvs, nm⟩ := t
    obtain ⟨rfl, rfl⟩ := R.pure_inv hr
    rw [(tail_at h9).2, k5, k3, k1]

/-- Headers that were read are valid. -/
theorem readHeader_ok {s s' : RS} {h : GvasHeader} (hr : GvasHeader.read s = (.ok h, s')) :
    HeaderOK h := by
  have hs := readHeader_stack hr
  obtain ⟨rest, pos, st⟩ := s
  obtain ⟨rest', pos', st'⟩ := s'
  simp only at hs
  subst hs
  exact headerAt_ok ((C13_accepts_iff _ _ _ _ _).mp ⟨pos', hr⟩)

/-- **C14**: a header that was accepted, written again, reads back as the same header. -/
theorem C14_accepted_headers_stable (s s' : RS) (h : GvasHeader)
    (hr : GvasHeader.read s = (.ok h, s')) : ReadsBack GvasHeader.read h.write.bytes h :=
  C12_headers_roundtrip h (readHeader_ok hr)

/-- A header with a repeated GUID and a UTF-8 class name, which the library would not write
itself, is accepted. -/
example : HeaderAt ([0x47, 0x56, 0x41, 0x53] ++ u32B 2 ++ u32B 0x205 ++
      ([4, 0, 27, 0, 0, 0, 7, 0, 0, 0] ++ [1, 0, 0, 0, 0] ++ u32B 3 ++ u32B 2 ++
      ((guidB editorGuid ++ u32B 1) ++ (guidB editorGuid ++ u32B 2)) ++
      [3, 0, 0, 0, 0xC3, 0xA9, 0]))
    (.version2 0x205 ⟨4, 27, 0, 7, ""⟩ 3 [(editorGuid, 2)] "é") [] := by
  refine ⟨by decide, by decide, _, rfl, _, [3, 0, 0, 0, 0xC3, 0xA9, 0],
    [(editorGuid, 1), (editorGuid, 2)], 7, ⟨_, 5, rfl, .utf8 "" 1 [] _ ?_ ?_ ?_ rfl⟩,
    rfl, by decide, rfl, .utf8 "é" 3 [0xC3, 0xA9] [] ?_ ?_ ?_ ?_, ?_⟩
  iterate 7 decide
  exact lastWins_imExtend equiv_decide [(editorGuid, 1), (editorGuid, 2)]

/-- **C37**, custom versions: a repeated GUID keeps its first position and its last version. -/
theorem C37_custom_versions_duplicates (s s' : RS) (ev : FEngineVersion) (format : UInt32)
    (cvs : List (Guid × UInt32)) (name : String)
    (h : readHeaderTail s = (.ok (ev, format, cvs, name), s')) :
    ∃ r1 r2 es, EngineAt s.rest ev r1 ∧
      r1 = u32B 3 ++ u32B (UInt32.ofNat es.length) ++
        es.flatMap (fun e : Guid × UInt32 => guidB e.1 ++ u32B e.2) ++ r2 ∧
      LastWins (fun a b => decide (a = b)) es cvs := by
  obtain ⟨⟨r1, r2, es, k, h1, _, _, h2, _, h3⟩, _⟩ := tail_at h
  exact ⟨r1, r2, es, h1, h2, h3⟩

end Gvas
