import Verif.Lemmas.Zlib

/-!
# Blocks and streams of the zlib decoder
-/

namespace Gvas.Zlib

open Spec.Zlib (low high BitsOf Tokens Block Blocks Codes)

/-! ## Bytes and bits -/

theorem exact_byte : Exact byte (fun b w => w.length = 8 ∧ low w = b.toNat) := by
  unfold byte
  refine (exact_bind (exact_number 8) fun a _ => exact_pure (UInt8.ofNat a)).congr fun b w => ?_
  constructor
  · rintro ⟨_, u, v, rfl, ⟨h1, rfl⟩, rfl, rfl⟩
    have := low_lt u
    rw [h1] at this
    refine ⟨by simpa using h1, ?_⟩
    rw [UInt8.toNat_ofNat_of_lt' (by simpa [UInt8.size] using this)]; simp
  · rintro ⟨h1, h2⟩
    exact ⟨low w, w, [], by simp, ⟨h1, rfl⟩, by rw [h2]; simp, rfl⟩

theorem bitsOf_all (bs : Bytes) (w : List Bool) :
    All (fun (b : UInt8) w => w.length = 8 ∧ low w = b.toNat) bs w ↔ BitsOf bs w := by
  induction bs generalizing w with
  | nil => exact Iff.rfl
  | cons x xs ih => simp only [All, BitsOf, ih, and_assoc]

theorem byteBits_length (b : UInt8) : (byteBits b).length = 8 := by simp [byteBits]

theorem low_byteBits (b : UInt8) : low (byteBits b) = b.toNat := by
  have h : ∀ n < 256, low ((List.range 8).map fun i => n.testBit i) = n := by decide +kernel
  exact h _ b.toNat_lt

theorem low_injective {u v : List Bool} (hl : u.length = v.length) (h : low u = low v) : u = v := by
  induction u generalizing v with
  | nil => cases v with
    | nil => rfl
    | cons => simp at hl
  | cons a u ih =>
    cases v with
    | nil => simp at hl
    | cons b v =>
      simp only [low] at h
      have ha := Bool.toNat_le a
      have hb := Bool.toNat_le b
      have e : a.toNat = b.toNat := by omega
      have e' : low u = low v := by omega
      rw [ih (by simpa using hl) e']
      cases a <;> cases b <;> simp_all

theorem bitsOf_iff (bs : Bytes) (w : List Bool) : BitsOf bs w ↔ w = bits bs := by
  induction bs generalizing w with
  | nil => simp [BitsOf, bits]
  | cons b bs ih =>
    simp only [BitsOf, bits, List.flatMap_cons]
    constructor
    · rintro ⟨u, v, rfl, h1, h2, h3⟩
      have e : u = byteBits b := low_injective (by rw [h1, byteBits_length])
        (by rw [h2, low_byteBits])
      rw [(ih v).1 h3, e]
      rfl
    · rintro rfl
      exact ⟨_, _, rfl, byteBits_length b, low_byteBits b, (ih _).2 rfl⟩

theorem bits_append (a b : Bytes) : bits (a ++ b) = bits a ++ bits b := by simp [bits]

theorem bits_length (bs : Bytes) : (bits bs).length = 8 * bs.length := by
  induction bs with
  | nil => rfl
  | cons b bs ih =>
    have : bits (b :: bs) = byteBits b ++ bits bs := rfl
    rw [this, List.length_append, ih, byteBits_length, List.length_cons]; omega

/-! ## Blocks -/

theorem complement_iff (u v : List Bool) (hl : u.length = v.length) :
    (∀ i < u.length, u[i]? = (v[i]?).map not) ↔ low u + low v + 1 = 2 ^ u.length := by
  induction u generalizing v with
  | nil =>
    have : v = [] := List.length_eq_zero_iff.1 (by simpa using hl.symm)
    subst this; simp [low]
  | cons a u ih =>
    cases v with
    | nil => simp at hl
    | cons b v =>
      have hl' : u.length = v.length := by simpa using hl
      have h := ih v hl'
      have ha := Bool.toNat_le a
      have hb := Bool.toNat_le b
      simp only [low, List.length_cons, Nat.pow_succ]
      constructor
      · intro hc
        have h0 := hc 0 (by simp)
        simp only [List.getElem?_cons_zero, Option.map_some, Option.some.injEq] at h0
        have h1 := h.1 fun i hi => by
          have := hc (i + 1) (by simpa using hi)
          simpa using this
        have : a.toNat + b.toNat = 1 := by rw [h0]; cases b <;> rfl
        omega
      · intro hs
        have e : a.toNat + b.toNat = 1 := by omega
        have h1 := h.2 (by omega)
        intro i hi
        cases i with
        | zero =>
          simp only [List.getElem?_cons_zero, Option.map_some, Option.some.injEq]
          cases a <;> cases b <;> simp_all
        | succ i => simpa using h1 i (by simpa using hi)

/-- What a block without compression has behind its type. -/
def Stored (pos : Nat) (out : Bytes) (w : List Bool) (out' : Bytes) : Prop :=
  ∃ (pad len nlen v : List Bool) (bs : Bytes), w = pad ++ len ++ nlen ++ v ∧ out' = out ++ bs ∧
    pad.length < 8 ∧ (pos + 3 + pad.length) % 8 = 0 ∧ len.length = 16 ∧ nlen.length = 16 ∧
    (∀ i < 16, len[i]? = (nlen[i]?).map not) ∧ bs.length = low len ∧ BitsOf bs v

/-- A block without compression behind the padding. -/
def unpadded (out : Bytes) : D Bytes := do
  let len ← D.number 16
  let nlen ← D.number 16
  D.guard (len + nlen = 65535)
  return out ++ (← D.replicate byte len)

theorem exact_unpadded (out : Bytes) : Exact (unpadded out) (fun out' w =>
    ∃ (len nlen v : List Bool) (bs : Bytes), w = len ++ nlen ++ v ∧ out' = out ++ bs ∧
    len.length = 16 ∧ nlen.length = 16 ∧
    (∀ i < 16, len[i]? = (nlen[i]?).map not) ∧ bs.length = low len ∧ BitsOf bs v) := by
  unfold unpadded
  refine (exact_bind (exact_number 16) fun len _ => exact_bind (exact_number 16) fun nlen _ =>
    exact_bind (exact_guard _) fun _ _ => exact_bind (exact_replicate exact_byte len) fun bs _ =>
    exact_pure (out ++ bs)).congr fun out' w => ?_
  constructor
  · rintro ⟨_, len, _, rfl, ⟨h1, rfl⟩, _, nlen, _, rfl, ⟨h2, rfl⟩, _, _, _, rfl, ⟨h3, rfl⟩,
      bs, v, _, rfl, ⟨h4, h5⟩, rfl, rfl⟩
    refine ⟨len, nlen, v, bs, by simp, rfl, h1, h2, ?_, h4, (bitsOf_all _ _).1 h5⟩
    rw [← h1]
    exact (complement_iff len nlen (by omega)).2 (by rw [h1]; omega)
  · rintro ⟨len, nlen, v, bs, rfl, rfl, h1, h2, h3, h4, h5⟩
    refine ⟨low len, len, _, by simp only [List.append_assoc]; rfl, ⟨h1, rfl⟩, low nlen, nlen, _,
      rfl, ⟨h2, rfl⟩, (), [], _, rfl, ⟨?_, rfl⟩, bs, v, [], by simp, ⟨h4, (bitsOf_all _ _).2 h5⟩,
      rfl, rfl⟩
    have := (complement_iff len nlen (by omega)).1 (by rw [h1]; exact h3)
    rw [h1] at this; omega

theorem stored_iff {pos : Nat} {out : Bytes} {s : List Bool} {out' : Bytes} {r : List Bool}
    (hp : (pos + 3 + s.length) % 8 = 0) :
    stored out s = some (out', r) ↔ ∃ w, s = w ++ r ∧ Stored pos out w out' := by
  have e : stored out s = unpadded out (s.drop (s.length % 8)) := rfl
  rw [e, exact_unpadded out _ _ _]
  constructor
  · rintro ⟨w, hw, len, nlen, v, bs, rfl, rfl, h1, h2, h3, h4, h5⟩
    have hs : s = s.take (s.length % 8) ++ (len ++ nlen ++ v ++ r) := by
      rw [← hw, List.take_append_drop]
    have hl : (s.take (s.length % 8)).length = s.length % 8 := by
      rw [List.length_take]; exact Nat.min_eq_left (Nat.mod_le _ _)
    refine ⟨s.take (s.length % 8) ++ len ++ nlen ++ v, by
        simp only [List.append_assoc] at hs ⊢; exact hs, _, len, nlen, v, bs, rfl, rfl, ?_, ?_,
      h1, h2, h3, h4, h5⟩
    · rw [hl]; omega
    · rw [hl]; omega
  · rintro ⟨w, rfl, pad, len, nlen, v, bs, rfl, rfl, h0, hp', h1, h2, h3, h4, h5⟩
    have hl : (pad ++ len ++ nlen ++ v ++ r).length % 8 = pad.length := by
      simp only [List.length_append] at hp ⊢; omega
    refine ⟨len ++ nlen ++ v, ?_, len, nlen, v, bs, rfl, rfl, h1, h2, h3, h4, h5⟩
    rw [hl]; simp

theorem fixedLiterals_eq : fixedLiterals = Spec.Zlib.fixedLiterals := by decide +kernel
theorem fixedDistances_eq : fixedDistances = Spec.Zlib.fixedDistances := by decide +kernel

theorem two_bits {u : List Bool} (h : u.length = 2) : ∃ a b, u = [a, b] := by
  match u, h with
  | [a, b], _ => exact ⟨a, b, rfl⟩

theorem block_iff {pos : Nat} {out : Bytes} {s : List Bool} {out' : Bytes} {r : List Bool}
    (hp : (pos + 1 + s.length) % 8 = 0) :
    block out s = some (out', r) ↔ ∃ w, s = w ++ r ∧ Block pos out w out' := by
  unfold block
  rw [D.bind_eq, D.bind_some]
  constructor
  · rintro ⟨ty, r1, h1, h⟩
    obtain ⟨u, rfl, hu, rfl⟩ := (exact_number _ _ _ _).1 h1
    obtain ⟨a, b, rfl⟩ := two_bits hu
    cases a <;> cases b
    · rw [if_pos (by rfl)] at h
      obtain ⟨w, rfl, pad, len, nlen, v, bs, rfl, rfl, h0, hp', h1, h2, h3, h4, h5⟩ :=
        (stored_iff (pos := pos) (by simp at hp ⊢; omega)).1 h
      exact ⟨_, by simp, .stored bs h0 hp' h1 h2 h3 h4 h5⟩
    · rw [if_neg (by decide), if_neg (by decide), if_pos (by rfl), D.bind_eq, D.bind_some] at h
      obtain ⟨⟨lit, dist⟩, r2, h2, h⟩ := h
      obtain ⟨v, rfl, hv⟩ := (exact_codes _ _ _).1 h2
      obtain ⟨w, rfl, hw⟩ := (exact_compressed _ _ _ _ _ _).1 h
      exact ⟨_, by simp, .dynamic hv hw⟩
    · rw [if_neg (by decide), if_pos (by rfl)] at h
      obtain ⟨w, rfl, hw⟩ := (exact_compressed _ _ _ _ _ _).1 h
      rw [fixedLiterals_eq, fixedDistances_eq] at hw
      exact ⟨_, by simp, .fixed hw⟩
    · rw [if_neg (by decide), if_neg (by decide), if_neg (by decide)] at h
      simp [D.fail] at h
  · rintro ⟨w, rfl, h⟩
    cases h with
    | @stored pad len nlen v bs h0 hp' h1 h2 h3 h4 h5 =>
      refine ⟨0, pad ++ len ++ nlen ++ v ++ r, ?_, ?_⟩
      · have := (exact_number 2).run (a := 0) (w := [false, false]) ⟨rfl, rfl⟩
          (pad ++ len ++ nlen ++ v ++ r)
        simpa using this
      · rw [if_pos rfl]
        refine (stored_iff (pos := pos) (by simp at hp ⊢; omega)).2 ⟨_, rfl, pad, len, nlen, v, bs,
          rfl, rfl, h0, hp', h1, h2, h3, h4, h5⟩
    | @fixed w _ hw =>
      refine ⟨1, w ++ r, (exact_number 2).run (a := 1) (w := [true, false]) ⟨rfl, rfl⟩ _, ?_⟩
      rw [if_neg (by decide), if_pos rfl]
      refine (exact_compressed _ _ _ _ _ _).2 ⟨w, rfl, ?_⟩
      rw [fixedLiterals_eq, fixedDistances_eq]; exact hw
    | @dynamic lit dist v w _ hv hw =>
      refine ⟨2, v ++ (w ++ r), ?_, ?_⟩
      · have := (exact_number 2).run (a := 2) (w := [false, true]) ⟨rfl, rfl⟩ (v ++ (w ++ r))
        simpa using this
      · rw [if_neg (by decide), if_neg (by decide), if_pos rfl, D.bind_eq,
          exact_codes.then (a := (lit, dist)) hv]
        exact (exact_compressed _ _ _ _ _ _).2 ⟨w, rfl, hw⟩

theorem one_bit {u : List Bool} (h : u.length = 1) : ∃ a, u = [a] := List.length_eq_one_iff.1 h

theorem blocks_sound {n pos : Nat} {out : Bytes} {s : List Bool} {out' : Bytes} {r : List Bool}
    (hp : (pos + s.length) % 8 = 0) (h : blocks n out s = some (out', r)) :
    ∃ w, s = w ++ r ∧ Blocks pos out w out' := by
  induction n generalizing pos out s with
  | zero => simp [blocks, D.fail] at h
  | succ n ih =>
    unfold blocks at h
    rw [D.bind_eq, D.bind_some] at h
    obtain ⟨last, r1, h1, h⟩ := h
    rw [D.bind_eq, D.bind_some] at h
    obtain ⟨mid, r2, h2, h⟩ := h
    obtain ⟨u, rfl, hu, rfl⟩ := (exact_number _ _ _ _).1 h1
    obtain ⟨a, rfl⟩ := one_bit hu
    obtain ⟨w, rfl, hw⟩ := (block_iff (pos := pos) (by simp at hp ⊢; omega)).1 h2
    cases a
    · rw [if_neg (by decide)] at h
      obtain ⟨v, rfl, hv⟩ := ih (pos := pos + 1 + w.length) (by simp at hp ⊢; omega) h
      exact ⟨false :: (w ++ v), by simp, .more hw hv⟩
    · rw [if_pos (by rfl)] at h
      have h : some (mid, r2) = some (out', r) := h
      cases h
      exact ⟨true :: w, by simp, .last hw⟩

theorem blocks_complete {pos : Nat} {out : Bytes} {w : List Bool} {out' : Bytes}
    (h : Blocks pos out w out') (n : Nat) (hn : w.length < n) (r : List Bool)
    (hp : (pos + (w ++ r).length) % 8 = 0) : blocks n out (w ++ r) = some (out', r) := by
  induction h generalizing n with
  | @last pos out w out' hw =>
    cases n with
    | zero => omega
    | succ n =>
      unfold blocks
      have e : true :: w ++ r = [true] ++ (w ++ r) := rfl
      rw [e, D.bind_eq, (exact_number 1).then (a := 1) ⟨rfl, rfl⟩, D.bind_eq]
      have := (block_iff (pos := pos) (s := w ++ r) (out := out) (out' := out') (r := r)
        (by simp at hp ⊢; omega)).2 ⟨w, rfl, hw⟩
      simp only [D.bind, this, if_true]
      rfl
  | @more pos out w out' v out'' hw _ ih =>
    cases n with
    | zero => omega
    | succ n =>
      unfold blocks
      have e : false :: (w ++ v) ++ r = [false] ++ (w ++ (v ++ r)) := by simp
      rw [e, D.bind_eq, (exact_number 1).then (a := 0) ⟨rfl, rfl⟩, D.bind_eq]
      have := (block_iff (pos := pos) (s := w ++ (v ++ r)) (out := out) (out' := out')
        (r := v ++ r) (by simp at hp ⊢; omega)).2 ⟨w, rfl, hw⟩
      simp only [D.bind, this]
      rw [if_neg (by decide)]
      exact ih n (by simp at hn; omega) (by simp at hp ⊢; omega)

theorem deflated_iff {s : List Bool} {out : Bytes} {r : List Bool} (hs : s.length % 8 = 0) :
    deflated s = some (out, r) ↔ ∃ w, s = w ++ r ∧ Blocks 0 [] w out := by
  constructor
  · exact blocks_sound (pos := 0) (by simpa using hs)
  · rintro ⟨w, rfl, h⟩
    exact blocks_complete h _ (by simp; omega) r (by simpa using hs)

/-! ## The checksum -/

theorem adlerA_append (bs : Bytes) (b : UInt8) :
    Spec.Zlib.adlerA (bs ++ [b]) = (Spec.Zlib.adlerA bs + b.toNat) % 65521 := by
  simp only [Spec.Zlib.adlerA, List.map_append, List.sum_append, List.map_cons, List.map_nil,
    List.sum_cons, List.sum_nil]
  omega

theorem adlerB_append (bs : Bytes) (b : UInt8) : Spec.Zlib.adlerB (bs ++ [b]) =
    (Spec.Zlib.adlerB bs + Spec.Zlib.adlerA (bs ++ [b])) % 65521 := by
  unfold Spec.Zlib.adlerB
  rw [List.length_append, List.length_singleton, List.range_succ, List.map_append, List.sum_append]
  have : (List.range bs.length).map (fun i => Spec.Zlib.adlerA ((bs ++ [b]).take (i + 1))) =
      (List.range bs.length).map (fun i => Spec.Zlib.adlerA (bs.take (i + 1))) := by
    apply List.map_congr_left
    intro i hi
    rw [List.take_append_of_le_length (by have := List.mem_range.1 hi; omega)]
  have e : (bs ++ [b]).take (bs.length + 1) = bs ++ [b] := List.take_of_length_le (by simp)
  rw [this]
  simp [e]

theorem adler_eq (bs : Bytes) : bs.foldl adlerStep (1, 0) =
    (Spec.Zlib.adlerA bs, Spec.Zlib.adlerB bs) := by
  suffices h : ∀ n, ∀ bs : Bytes, bs.length = n → bs.foldl adlerStep (1, 0) =
      (Spec.Zlib.adlerA bs, Spec.Zlib.adlerB bs) from h _ bs rfl
  intro n
  induction n with
  | zero =>
    intro bs h
    have := List.length_eq_zero_iff.1 h; subst this; rfl
  | succ n ih =>
    intro bs h
    have hne : bs ≠ [] := by rintro rfl; simp at h
    rw [← List.dropLast_concat_getLast hne, List.foldl_append, ih _ (by simp [h])]
    simp only [List.foldl_cons, List.foldl_nil, adlerStep]
    rw [adlerB_append, adlerA_append]

/-! ## Streams -/

theorem bits_split {body : Bytes} {u v : List Bool} (h : bits body = u ++ v)
    (hv : v.length % 8 = 0) : bits (body.take (body.length - v.length / 8)) = u ∧
      bits (body.drop (body.length - v.length / 8)) = v := by
  have hl := congrArg List.length h
  rw [bits_length, List.length_append] at hl
  have e := bits_append (body.take (body.length - v.length / 8))
    (body.drop (body.length - v.length / 8))
  rw [List.take_append_drop, h] at e
  have := List.append_inj e.symm (by rw [bits_length, List.length_take]; omega)
  exact this

/-- The decoder decodes exactly the streams. -/
theorem decode_iff (input data rest : Bytes) : decode input = some (data, rest) ↔
    ∃ stream, input = stream ++ rest ∧ Spec.Zlib.StreamOf data stream := by
  constructor
  · intro h
    unfold decode at h
    split at h
    · rename_i cmf flg body
      split at h
      · rename_i hh
        split at h
        · rename_i out r hd
          split at h
          · rename_i a b c d rest' ht
            split at h
            · rename_i hc
              cases h
              obtain ⟨w, hw, hb⟩ := (deflated_iff (by rw [bits_length]; omega)).1 hd
              have hl := congrArg List.length hw
              rw [bits_length, List.length_append] at hl
              have hr : r = r.take (r.length % 8) ++ r.drop (r.length % 8) := by simp
              have hdl : (r.drop (r.length % 8)).length = r.length - r.length % 8 :=
                List.length_drop
              have htl : (r.take (r.length % 8)).length = r.length % 8 := by
                rw [List.length_take]; exact Nat.min_eq_left (Nat.mod_le _ _)
              have e1 : (r.drop (r.length % 8)).length / 8 = r.length / 8 := by rw [hdl]; omega
              have hsp := bits_split (body := body) (u := w ++ r.take (r.length % 8))
                (v := r.drop (r.length % 8)) (by rw [List.append_assoc, ← hr]; exact hw)
                (by rw [hdl]; omega)
              rw [e1] at hsp
              refine ⟨[cmf, flg] ++ body.take (body.length - r.length / 8) ++ [a, b, c, d], ?_,
                cmf, flg, _, [a, b, c, d], w, r.take (r.length % 8), rfl, hh.1, hh.2.1, hh.2.2.1,
                hh.2.2.2, (bitsOf_iff _ _).2 hsp.1.symm, by rw [htl]; omega, hb, rfl, ?_⟩
              · have : body = body.take (body.length - r.length / 8) ++ (a :: b :: c :: d :: rest) := by
                  rw [← ht, List.take_append_drop]
                simp only [List.cons_append, List.nil_append, List.append_assoc, List.cons.injEq,
                  true_and]
                exact this
              · rw [adler32, adler_eq] at hc; exact hc
            · cases h
          · cases h
        · cases h
      · cases h
    · cases h
  · rintro ⟨_, rfl, cmf, flg, body, check, w, pad, rfl, h1, h2, h3, h4, h5, h6, h7, h8, h9⟩
    have e5 := (bitsOf_iff _ _).1 h5
    obtain ⟨a, b, c, d, rfl⟩ : ∃ a b c d, check = [a, b, c, d] := by
      match check, h8 with
      | [a, b, c, d], _ => exact ⟨a, b, c, d, rfl⟩
    have eb : bits (body ++ ([a, b, c, d] ++ rest)) = w ++ (pad ++ bits ([a, b, c, d] ++ rest)) := by
      rw [bits_append, ← e5, List.append_assoc]
    have hd : deflated (bits (body ++ ([a, b, c, d] ++ rest))) =
        some (data, pad ++ bits ([a, b, c, d] ++ rest)) :=
      (deflated_iff (by rw [bits_length]; omega)).2 ⟨w, eb, h7⟩
    have hlen : (pad ++ bits ([a, b, c, d] ++ rest)).length / 8 = ([a, b, c, d] ++ rest).length := by
      rw [List.length_append, bits_length]; omega
    have hdrop : (body ++ ([a, b, c, d] ++ rest)).drop
        ((body ++ ([a, b, c, d] ++ rest)).length -
          (pad ++ bits ([a, b, c, d] ++ rest)).length / 8) = a :: b :: c :: d :: rest := by
      rw [hlen, List.length_append, Nat.add_sub_cancel, List.drop_left]; rfl
    have e : [cmf, flg] ++ body ++ [a, b, c, d] ++ rest =
        cmf :: flg :: (body ++ ([a, b, c, d] ++ rest)) := by simp
    rw [e]
    unfold decode
    simp only [hd, hdrop]
    rw [if_pos ⟨h1, h2, h3, h4⟩]
    rw [if_pos (by rw [adler32, adler_eq]; exact h9)]

end Gvas.Zlib
