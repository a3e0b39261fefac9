import Verif.Model.Stream
import Verif.Lemmas.Instances
import Verif.Lemmas.Inv
import Verif.Spec.Sample

/-!
# C62: the result of reading does not depend on how the stream delivers its bytes
-/

namespace Gvas

open Spec

/-- The bytes a stream delivers. -/
def Spec.contents : List Event → Bytes
  | [] => []
  | .data bs :: es => bs ++ contents es
  | _ :: es => contents es

/-- A stream without errors that returns no bytes only at its end (the contract of `io::Read`).
Interruptions are allowed. -/
def Spec.Clean (es : List Event) : Prop := .error ∉ es ∧ .data [] ∉ es

instance (es : List Event) : Decidable (Spec.Clean es) := inferInstanceAs (Decidable (_ ∧ _))

/-- How a stream goes on behind its clean part: it ends, or it fails. -/
private def Tail (t : List Event) : Prop := t = [] ∨ ∃ post, t = .error :: post

/-- The error a reader gets that needs more than the clean part. -/
private def tailErr (t : List Event) : Err := if t = [] then .eof else .io

private theorem read_clean (n : Nat) (es t : List Event) (p : Nat) (hc : Clean es) (hne : es ≠ []) :
    (∃ es', Stream.read (n + 1) ⟨es ++ t, p⟩ = (.interrupted, ⟨es' ++ t, p⟩) ∧ Clean es' ∧
      contents es' = contents es) ∨
    (∃ b bs es', Stream.read (n + 1) ⟨es ++ t, p⟩ =
        (.bytes (b :: bs), ⟨es' ++ t, p + (bs.length + 1)⟩) ∧ bs.length ≤ n ∧ Clean es' ∧
      contents es = (b :: bs) ++ contents es') := by
  obtain ⟨h1, h2⟩ := hc
  cases es with
  | nil => exact absurd rfl hne
  | cons e es =>
    simp only [List.mem_cons, not_or] at h1 h2
    cases e with
    | data bs =>
      cases bs with
      | nil => exact absurd rfl h2.1
      | cons b bs =>
        right
        simp only [Stream.read, List.cons_append]
        split
        · rename_i hl
          exact ⟨b, bs, es, rfl, by simpa using hl, ⟨h1.2, h2.2⟩, rfl⟩
        · rename_i hl
          simp only [List.length_cons] at hl
          refine ⟨b, bs.take n, .data (bs.drop n) :: es, ?_, ?_, ⟨?_, ?_⟩, ?_⟩
          · rw [List.length_take, Nat.min_eq_left (by omega)]; rfl
          · rw [List.length_take]; omega
          · simp only [List.mem_cons, not_or]; exact ⟨by simp, h1.2⟩
          · simp only [List.mem_cons, not_or]
            refine ⟨?_, h2.2⟩
            intro h
            injection h with h
            have := congrArg List.length h
            simp at this
            omega
          · simp only [contents, List.cons_append, ← List.append_assoc, List.take_append_drop]
    | interrupted => exact .inl ⟨_, rfl, ⟨h1.2, h2.2⟩, rfl⟩
    | error => exact absurd rfl h1.1

private theorem readExact_tail (m : Nat) (acc : Bytes) (t : List Event) (p : Nat) (ht : Tail t) :
    ∃ s', Stream.readExact (m + 1) acc ⟨t, p⟩ = (.err (tailErr t), s') := by
  rw [Stream.readExact]
  rcases ht with rfl | ⟨post, rfl⟩
  · exact ⟨_, rfl⟩
  · exact ⟨⟨post, p⟩, by simp [Stream.read, tailErr]⟩

/-- `read_exact` on a clean stream. -/
private theorem readExact_clean (n : Nat) (acc : Bytes) (es t : List Event) (p : Nat)
    (hc : Clean es) (ht : Tail t) :
    if n ≤ (contents es).length then
      ∃ es', Stream.readExact n acc ⟨es ++ t, p⟩ =
        (.ok (acc ++ (contents es).take n), ⟨es' ++ t, p + n⟩) ∧ Clean es' ∧
        contents es' = (contents es).drop n
    else ∃ s', Stream.readExact n acc ⟨es ++ t, p⟩ = (.err (tailErr t), s') := by
  induction hk : eventsSize (es ++ t) using Nat.strongRecOn generalizing n acc es p with
  | _ k ih =>
    subst hk
    cases n with
    | zero =>
      rw [if_pos (Nat.zero_le _)]
      exact ⟨es, by rw [Stream.readExact]; simp, hc, rfl⟩
    | succ m =>
      by_cases he : es = []
      · subst he
        simp only [contents, List.length_nil, Nat.le_zero_eq, Nat.add_one_ne_zero, if_false]
        exact readExact_tail m acc t p ht
      · have he' : es ++ t ≠ [] := by simp [he]
        have hlt := Stream.read_size m ⟨es ++ t, p⟩ he'
        rcases read_clean m es t p hc he with ⟨es', hr, hc', hx⟩ | ⟨b, bs, es', hr, hl, hc', hx⟩
        · rw [hr] at hlt
          have := ih _ hlt (m + 1) acc es' p hc' rfl
          rw [hx] at this
          have e : Stream.readExact (m + 1) acc ⟨es ++ t, p⟩ =
              Stream.readExact (m + 1) acc ⟨es' ++ t, p⟩ := by
            rw [Stream.readExact, dif_neg he']
            split <;> rename_i h <;> rw [hr] at h <;> cases h
            rfl
          rw [e]
          exact this
        · rw [hr] at hlt
          have := ih _ hlt (m - bs.length) (acc ++ b :: bs) es' (p + (bs.length + 1)) hc' rfl
          have e : Stream.readExact (m + 1) acc ⟨es ++ t, p⟩ =
              Stream.readExact (m - bs.length) (acc ++ b :: bs)
                ⟨es' ++ t, p + (bs.length + 1)⟩ := by
            rw [Stream.readExact, dif_neg he']
            split <;> rename_i h <;> rw [hr] at h <;> cases h
            rfl
          rw [e, hx]
          simp only [List.length_append, List.length_cons]
          by_cases hle : m - bs.length ≤ (contents es').length
          · rw [if_pos hle] at this
            rw [if_pos (by omega)]
            obtain ⟨es2, h1, h2, h4⟩ := this
            refine ⟨es2, ?_, h2, ?_⟩
            · rw [h1, List.append_assoc, List.cons_append, List.cons_append, List.take_succ_cons,
                List.take_append, List.take_of_length_le hl,
                show p + (bs.length + 1) + (m - bs.length) = p + (m + 1) by omega]
            · rw [h4, List.cons_append, List.drop_succ_cons, List.drop_append,
                List.drop_of_length_le hl]
              rfl
          · rw [if_neg hle] at this
            rw [if_neg (by omega)]
            exact this

/-- `read_to_end` on a clean stream. -/
private theorem readToEnd_clean (size : Nat → Nat) (i : Nat) (acc : Bytes) (es t : List Event)
    (p : Nat) (hc : Clean es) (ht : Tail t) :
    (Stream.readToEnd size i acc ⟨es ++ t, p⟩).1 =
      if t = [] then .ok (acc ++ contents es) else .err .io := by
  induction hk : eventsSize (es ++ t) using Nat.strongRecOn generalizing i acc es p with
  | _ k ih =>
    subst hk
    by_cases he : es = []
    · subst he
      rw [Stream.readToEnd]
      rcases ht with rfl | ⟨post, rfl⟩
      · simp [contents]
      · simp [Stream.read]
    · have he' : es ++ t ≠ [] := by simp [he]
      rw [Stream.readToEnd, dif_neg he']
      have hlt := Stream.read_size (size i) ⟨es ++ t, p⟩ he'
      rcases read_clean (size i) es t p hc he with ⟨es', hr, hc', hx⟩ | ⟨b, bs, es', hr, hl, hc', hx⟩
      · rw [hr] at hlt
        have := ih _ hlt (i + 1) acc es' p hc' rfl
        split <;> rename_i h <;> rw [hr] at h <;> cases h
        rw [this, hx]
      · rw [hr] at hlt
        have := ih _ hlt (i + 1) (acc ++ b :: bs) es' (p + (bs.length + 1)) hc' rfl
        split <;> rename_i h <;> rw [hr] at h <;> cases h
        rw [this, hx, List.append_assoc]

/-- A stream and an in-memory reader give the same result and, on success, agree on what is left,
or the stream failed. -/
private def Agree {α : Type} (t : List Event) (x : Res α × Stream) (y : Res α × RS) : Prop :=
  (∃ a es' p, x = (.ok a, ⟨es' ++ t, p⟩) ∧ y = (.ok a, ⟨contents es', p, []⟩) ∧ Clean es') ∨
  (∃ e s' r, x = (.bad e, s') ∧ (y = (.bad e, r) ∧ (t = [] ∨ e ≠ .err .eof) ∨
    t ≠ [] ∧ e = .err .io ∧ y = (.err .eof, r)))

private theorem agree_take (n : Nat) (es t : List Event) (p : Nat) (hc : Clean es) (ht : Tail t) :
    Agree t (Stream.readExact n [] ⟨es ++ t, p⟩) (R.take n ⟨contents es, p, []⟩) := by
  have h := readExact_clean n [] es t p hc ht
  rw [R.take_run]
  by_cases hl : n ≤ (contents es).length
  · rw [if_pos hl] at h
    obtain ⟨es', h1, h2, h4⟩ := h
    refine .inl ⟨_, es', _, h1, ?_, h2⟩
    rw [if_pos hl, h4]
    rfl
  · rw [if_neg hl] at h
    obtain ⟨s', h⟩ := h
    refine .inr ⟨_, s', ⟨[], p + (contents es).length, []⟩, h, ?_⟩
    by_cases hn : t = []
    · left
      exact ⟨by rw [if_neg hl, tailErr, if_pos hn], .inl hn⟩
    · right
      exact ⟨hn, by rw [tailErr, if_neg hn], by rw [if_neg hl]⟩

private theorem agree_frame (es t : List Event) (p : Nat) (hc : Clean es) (ht : Tail t) :
    Agree t (Stream.frame ⟨es ++ t, p⟩) (readFrame ⟨contents es, p, []⟩) := by
  unfold Stream.frame readFrame readU32 readEnum readI8 readU8
  rcases agree_take 4 es t p hc ht with ⟨a1, e1, p1, h1, g1, c1⟩ | ⟨e, s1, r1, h1, g1⟩
  rotate_left
  · rw [h1]
    refine .inr ⟨e, s1, r1, rfl, g1.imp (fun ⟨g1, ne⟩ => ⟨?_, ne⟩)
      (fun ⟨hn, he, g1⟩ => ⟨hn, he, ?_⟩)⟩ <;>
      rw [R.bind_bad (R.bind_bad g1)]
  rw [h1, R.bind_ok (by rw [R.bind_ok g1]; rfl)]
  rcases agree_take 4 e1 t p1 c1 ht with ⟨a2, e2, p2, h2, g2, c2⟩ | ⟨e, s2, r2, h2, g2⟩
  rotate_left
  · simp only [h2]
    refine .inr ⟨e, s2, r2, rfl, g2.imp (fun ⟨g2, ne⟩ => ⟨?_, ne⟩)
      (fun ⟨hn, he, g2⟩ => ⟨hn, he, ?_⟩)⟩ <;>
      rw [R.bind_bad (R.bind_bad g2)]
  simp only [h2]
  rw [R.bind_ok (by rw [R.bind_ok g2]; rfl)]
  rcases agree_take 3 e2 t p2 c2 ht with ⟨a3, e3, p3, h3, g3, c3⟩ | ⟨e, s3, r3, h3, g3⟩
  rotate_left
  · simp only [h3]
    refine .inr ⟨e, s3, r3, rfl, g3.imp (fun ⟨g3, ne⟩ => ⟨?_, ne⟩)
      (fun ⟨hn, he, g3⟩ => ⟨hn, he, ?_⟩)⟩ <;>
      rw [R.bind_bad g3]
  simp only [h3]
  rw [R.bind_ok g3]
  by_cases hm : a3 = plzMagic
  rotate_left
  · rw [if_pos hm]
    refine .inr ⟨_, _, ⟨contents e3, p3, []⟩, rfl, .inl ⟨?_, .inr (by simp)⟩⟩
    rw [R.bind_bad (by rw [headerCheck, R.ensure_false hm]; rfl)]
  rw [if_neg (by simpa using hm), R.bind_ok (by rw [headerCheck, R.ensure_true hm]; rfl)]
  rcases agree_take 1 e3 t p3 c3 ht with ⟨a4, e4, p4, h4, g4, c4⟩ | ⟨e, s4, r4, h4, g4⟩
  rotate_left
  · simp only [h4]
    refine .inr ⟨e, s4, r4, rfl, g4.imp (fun ⟨g4, ne⟩ => ⟨?_, ne⟩)
      (fun ⟨hn, he, g4⟩ => ⟨hn, he, ?_⟩)⟩ <;>
      rw [R.bind_bad (R.bind_bad (R.bind_bad (R.bind_bad g4)))]
  simp only [h4]
  have hb : ∀ {β : Type} (f : Int8 → R β),
      ((do return (← (do return UInt8.ofNat (leNat (← R.take 1)))).toInt8 : R Int8) >>= f)
        ⟨contents e3, p3, []⟩ =
      f (UInt8.ofNat (leNat a4)).toInt8 ⟨contents e4, p4, []⟩ := by
    intro β f
    rw [R.bind_ok (by rw [R.bind_ok (by rw [R.bind_ok g4]; rfl)]; rfl)]
  cases hp : PalworldCompressionType.ofI8 (UInt8.ofNat (leNat a4)).toInt8 with
  | some c =>
    refine .inl ⟨_, e4, _, rfl, ?_, c4⟩
    rw [R.bind_ok (by rw [hb, hp]; rfl)]
    rfl
  | none =>
    refine .inr ⟨_, _, ⟨contents e4, p4, []⟩, rfl, .inl ⟨?_, .inr (by simp)⟩⟩
    rw [R.bind_bad (by rw [hb, hp]; rfl)]

private theorem readStream_clean (z : Codec) (debug : Bool) (gv : GameVersion)
    (hints : String → Option String) (size : Nat → Nat) (es t : List Event) (p : Nat)
    (hc : Clean es) (ht : Tail t) :
    GvasFile.readStream z debug gv hints size ⟨es ++ t, p⟩ =
      GvasFile.read z debug gv hints p (contents es) ∨
    t ≠ [] ∧ GvasFile.readStream z debug gv hints size ⟨es ++ t, p⟩ = .err .io := by
  have hend : ∀ es' p', Clean es' →
      (Stream.readToEnd size 0 [] ⟨es' ++ t, p'⟩).1 = .ok (contents es') ∨
      t ≠ [] ∧ (Stream.readToEnd size 0 [] ⟨es' ++ t, p'⟩).1 = .err .io := by
    intro es' p' hc'
    rw [readToEnd_clean size 0 [] es' t p' hc' ht]
    by_cases hn : t = []
    · exact .inl (by rw [if_pos hn]; rfl)
    · exact .inr ⟨hn, by rw [if_neg hn]⟩
  cases gv with
  | default =>
    simp only [GvasFile.readStream, GvasFile.read]
    rcases hend es p hc with h | ⟨hn, h⟩
    · exact .inl (by rw [h]; rfl)
    · exact .inr ⟨hn, by rw [h]; rfl⟩
  | palworld =>
    simp only [GvasFile.readStream, GvasFile.read]
    rcases agree_frame es t p hc ht with ⟨⟨d, c⟩, e1, p1, h1, g1, c1⟩ | ⟨e, s1, r1, h1, g1⟩
    rotate_left
    · rcases g1 with ⟨g1, -⟩ | ⟨hn, rfl, -⟩
      · left; rw [h1, g1]
      · right; rw [h1]; exact ⟨hn, rfl⟩
    rw [h1, g1]
    cases c with
    | none =>
      simp only [unpack]
      have h := readExact_clean d.toNat [] e1 t p1 c1 ht
      by_cases hl : d.toNat ≤ (contents e1).length
      · rw [if_pos hl] at h
        obtain ⟨s', h, -⟩ := h
        rw [h, if_pos hl]
        exact .inl rfl
      · rw [if_neg hl] at h
        obtain ⟨s', h⟩ := h
        rw [h, if_neg hl]
        by_cases hn : t = []
        · exact .inl (by rw [tailErr, if_pos hn])
        · exact .inr ⟨hn, by rw [tailErr, if_neg hn]; rfl⟩
    | zlib =>
      simp only [unpack]
      rcases hend e1 p1 c1 with h | ⟨hn, h⟩
      · exact .inl (by rw [h]; rfl)
      · exact .inr ⟨hn, by rw [h]; rfl⟩
    | zlibTwice =>
      simp only [unpack]
      rcases hend e1 p1 c1 with h | ⟨hn, h⟩
      · left
        rw [h]
        simp only [bind, Res.bind]
        cases z.inflate2 (contents e1) <;> rfl
      · exact .inr ⟨hn, by rw [h]; rfl⟩

/-- **C62**: whatever the size of the pieces in which a stream delivers its bytes, however often it
is interrupted, and whatever buffers are offered to it, reading a file from it returns what reading
the same bytes at once returns: the same file, or the same error. -/
theorem C62_delivery_irrelevant (z : Codec) (debug : Bool) (gv : GameVersion)
    (hints : String → Option String) (size : Nat → Nat) (s : Stream) (hc : Clean s.events) :
    GvasFile.readStream z debug gv hints size s =
      GvasFile.read z debug gv hints s.pos (contents s.events) := by
  have := readStream_clean z debug gv hints size s.events [] s.pos hc (.inl rfl)
  rw [List.append_nil] at this
  rcases this with h | ⟨h, -⟩
  · exact h
  · exact absurd rfl h

/-- **C62**: a stream that fails is never taken for one that ended.  An ordinary save is then
refused with an I/O error, however complete the bytes before the failure are; for Palworld saves
the result is an I/O error or what was determined by the bytes before the failure. -/
theorem C62_failure_reported (z : Codec) (debug : Bool) (hints : String → Option String)
    (size : Nat → Nat) (before behind : List Event) (p : Nat) (hc : Clean before) :
    GvasFile.readStream z debug .default hints size ⟨before ++ .error :: behind, p⟩ = .err .io ∧
    (GvasFile.readStream z debug .palworld hints size ⟨before ++ .error :: behind, p⟩ = .err .io ∨
      GvasFile.readStream z debug .palworld hints size ⟨before ++ .error :: behind, p⟩ =
        GvasFile.read z debug .palworld hints p (contents before)) := by
  constructor
  · simp only [GvasFile.readStream]
    rw [readToEnd_clean size 0 [] before _ p hc (.inr ⟨behind, rfl⟩)]
    rfl
  · rcases readStream_clean z debug .palworld hints size before (.error :: behind) p hc
      (.inr ⟨behind, rfl⟩) with h | ⟨-, h⟩
    · exact .inr h
    · exact .inl h

/-- The frame header on a stream that fails: what the bytes before the failure have in it, unless
they end within. -/
theorem stream_frame_broken (es behind : List Event) (p : Nat) (hc : Clean es) :
    (∃ a es' p', Stream.frame ⟨es ++ .error :: behind, p⟩ =
        (.ok a, ⟨es' ++ .error :: behind, p'⟩) ∧
      readFrame ⟨contents es, p, []⟩ = (.ok a, ⟨contents es', p', []⟩) ∧ Clean es') ∨
    ∃ e s' r, Stream.frame ⟨es ++ .error :: behind, p⟩ = (.bad e, s') ∧
      (readFrame ⟨contents es, p, []⟩ = (.bad e, r) ∧ e ≠ .err .eof ∨
        e = .err .io ∧ readFrame ⟨contents es, p, []⟩ = (.err .eof, r)) := by
  rcases agree_frame es (.error :: behind) p hc (.inr ⟨behind, rfl⟩) with h | ⟨e, s', r, h, g⟩
  · exact .inl h
  · refine .inr ⟨e, s', r, h, ?_⟩
    rcases g with ⟨g, ne⟩ | ⟨-, he, g⟩
    · exact .inl ⟨g, ne.resolve_left (by simp)⟩
    · exact .inr ⟨he, g⟩

/-- `read_exact` on a stream that fails. -/
theorem stream_take_broken (n : Nat) (es behind : List Event) (p : Nat) (hc : Clean es) :
    (Stream.readExact n [] ⟨es ++ .error :: behind, p⟩).1 =
      if n ≤ (contents es).length then .ok ((contents es).take n) else .err .io := by
  have h := readExact_clean n [] es (.error :: behind) p hc (.inr ⟨behind, rfl⟩)
  by_cases hl : n ≤ (contents es).length
  · rw [if_pos hl] at h ⊢
    obtain ⟨es', h, -⟩ := h
    rw [h]; rfl
  · rw [if_neg hl] at h ⊢
    obtain ⟨s', h⟩ := h
    rw [h, tailErr, if_neg (by simp)]

/-- `read_exact` on a clean stream with enough bytes takes these and no more. -/
theorem stream_take (n : Nat) (es : List Event) (p : Nat) (hc : Clean es)
    (hn : n ≤ (contents es).length) :
    ∃ es', Stream.readExact n [] ⟨es, p⟩ = (.ok ((contents es).take n), ⟨es', p + n⟩) ∧ Clean es' ∧
      contents es' = (contents es).drop n := by
  have h := readExact_clean n [] es [] p hc (.inl rfl)
  rw [if_pos hn] at h
  simpa using h

/-- The frame header on a clean stream. -/
theorem stream_frame (es : List Event) (p : Nat) (hc : Clean es) (a : UInt32 × PalworldCompressionType)
    (rest : Bytes) (q : Nat) (h : readFrame ⟨contents es, p, []⟩ = (.ok a, ⟨rest, q, []⟩)) :
    ∃ es', Stream.frame ⟨es, p⟩ = (.ok a, ⟨es', q⟩) ∧ Clean es' ∧ contents es' = rest := by
  rcases agree_frame es [] p hc (.inl rfl) with ⟨a', es', p', h1, h2, h3⟩ | ⟨e, s', r, h1, h2 | h2⟩
  · rw [h] at h2
    cases h2
    exact ⟨es', by simpa using h1, h3, rfl⟩
  · rw [h] at h2; cases h2.1
  · exact absurd rfl h2.1

/-- `read_to_end` on a clean stream leaves nothing. -/
theorem stream_all (size : Nat → Nat) (i : Nat) (acc : Bytes) (es : List Event) (p : Nat)
    (hc : Clean es) : Stream.readToEnd size i acc ⟨es, p⟩ =
      (.ok (acc ++ contents es), ⟨[], p + (contents es).length⟩) := by
  induction hk : eventsSize es using Nat.strongRecOn generalizing i acc es p with
  | _ k ih =>
    subst hk
    by_cases he : es = []
    · subst he
      rw [Stream.readToEnd]
      simp [contents]
    · have hlt := Stream.read_size (size i) ⟨es, p⟩ he
      rw [Stream.readToEnd, dif_neg he]
      have := read_clean (size i) es [] p hc he
      simp only [List.append_nil] at this
      rcases this with ⟨es', hr, hc', hx⟩ | ⟨b, bs, es', hr, hl, hc', hx⟩
      · rw [hr] at hlt
        have := ih _ hlt (i + 1) acc es' p hc' rfl
        split <;> rename_i h <;> rw [hr] at h <;> cases h
        rw [this, hx]
      · rw [hr] at hlt
        have := ih _ hlt (i + 1) (acc ++ b :: bs) es' (p + (bs.length + 1)) hc' rfl
        split <;> rename_i h <;> rw [hr] at h <;> cases h
        rw [this, hx, List.append_assoc]
        simp only [List.length_append, List.length_cons, Nat.add_assoc, Nat.add_comm bs.length]

/-- The bytes one by one, with an interruption before each. -/
private def drip (bs : Bytes) : List Event := bs.flatMap fun b => [.interrupted, .data [b]]

/-- A save delivered byte by byte, with interruptions; the same failing at the end. -/
example : Clean (drip (saveBytes intBytes)) ∧
    (∃ f, GvasFile.read prefixCodec true .default noHints 7
      (contents (drip (saveBytes intBytes))) = .ok f) :=
  ⟨by decide +kernel, eq_ok (by decide +kernel)⟩

/-- A Palworld save delivered in pieces that do not respect its fields. -/
example : Clean [Event.data [0, 0], .interrupted, .data [0, 0, 7, 7, 7, 7, 0x50], .data [0x6C],
      .interrupted, .interrupted, .data [0x5A, 0x30]] ∧
    failure (GvasFile.readStream prefixCodec true .palworld noHints (fun _ => 3)
      ⟨[Event.data [0, 0], .interrupted, .data [0, 0, 7, 7, 7, 7, 0x50], .data [0x6C],
        .interrupted, .interrupted, .data [0x5A, 0x30]], 0⟩) = some (.err .eof) := by
  constructor
  · decide +kernel
  · rw [C62_delivery_irrelevant _ _ _ _ _ _ (by decide +kernel)]
    decide +kernel

end Gvas
