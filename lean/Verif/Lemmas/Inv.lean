import Verif.Lemmas.Str

/-! # Inverting successful reads -/

namespace Gvas

open Spec

theorem R.bind_inv {α β : Type} {m : R α} {f : α → R β} {s s2 : RS} {b : β}
    (h : (m >>= f) s = (.ok b, s2)) : ∃ a s1, m s = (.ok a, s1) ∧ f a s1 = (.ok b, s2) := by
  rw [R.bind_def] at h
  match hm : m s with
  | (.ok a, s1) => rw [hm] at h; exact ⟨a, s1, rfl, h⟩
  | (.bad e, s1) => rw [hm] at h; simp at h

/-- `rbind h => a s' h1` splits `h : (m >>= f) s = (ok b, s2)` into the run of `m` (`h1`) and
the rest, which is again called `h`. -/
macro "rbind " h:ident " => " a:ident s:ident h1:ident : tactic =>
  `(tactic| (have htmp := R.bind_inv $h; clear $h; obtain ⟨$a:ident, $s:ident, $h1:ident, $h:ident⟩ := htmp))

theorem R.pure_inv {α : Type} {a b : α} {s s2 : RS}
    (h : (Pure.pure a : R α) s = (.ok b, s2)) : b = a ∧ s2 = s := by
  rw [R.pure_def] at h
  simp at h
  exact ⟨h.1.symm, h.2.symm⟩

theorem R.rpure_inv {α : Type} {a b : α} {s s2 : RS}
    (h : (R.pure a : R α) s = (.ok b, s2)) : b = a ∧ s2 = s := R.pure_inv h

theorem R.ensure_inv {c : Prop} [Decidable c] {o : R Unit} {s s2 : RS} {u : Unit}
    (ho : ∀ s s2 u, o s ≠ (.ok u, s2))
    (h : R.ensure c o s = (.ok u, s2)) : c ∧ s2 = s := by
  unfold R.ensure at h
  split at h
  · exact ⟨‹_›, (R.rpure_inv h).2⟩
  · exact absurd h (ho _ _ _)

theorem R.fail_ne {α : Type} {e : Err} {s s2 : RS} {a : α} : R.fail e s ≠ (.ok a, s2) := by
  simp [R.fail]

theorem R.panic_ne {α : Type} {e : String} {s s2 : RS} {a : α} : R.panic e s ≠ (.ok a, s2) := by
  simp [R.panic]

theorem R.failPos_ne {α : Type} {e : Nat → Err} {s s2 : RS} {a : α} :
    (R.position >>= fun p => R.fail (e p)) s ≠ (.ok a, s2) := by
  intro h
  obtain ⟨_, _, _, h⟩ := R.bind_inv h
  exact R.fail_ne h

theorem R.position_inv {s s2 : RS} {p : Nat} (h : R.position s = (.ok p, s2)) :
    p = s.pos ∧ s2 = s := by
  simp [R.position] at h
  exact ⟨h.1.symm, h.2.symm⟩

theorem R.getStack_inv {s s2 : RS} {p : List String} (h : R.getStack s = (.ok p, s2)) :
    p = s.stack ∧ s2 = s := by
  simp [R.getStack] at h
  exact ⟨h.1.symm, h.2.symm⟩

theorem R.take_inv {n : Nat} {s s2 : RS} {bs : Bytes} (h : R.take n s = (.ok bs, s2)) :
    bs.length = n ∧ s.rest = bs ++ s2.rest ∧ s2.pos = s.pos + n ∧ s2.stack = s.stack := by
  unfold R.take at h
  split at h
  · simp at h
    obtain ⟨rfl, rfl⟩ := h
    simp [List.take_append_drop]; omega
  · simp at h

theorem readU8_inv {s s2 : RS} {x : UInt8} (h : readU8 s = (.ok x, s2)) :
    s.rest = u8B x ++ s2.rest ∧ s2.pos = s.pos + 1 ∧ s2.stack = s.stack := by
  obtain ⟨bs, s1, h1, h2⟩ := R.bind_inv h
  obtain ⟨hl, hr, hp, hs⟩ := R.take_inv h1
  obtain ⟨rfl, rfl⟩ := R.pure_inv h2
  refine ⟨?_, hp, hs⟩
  have hlt := leNat_lt bs
  rw [hr, u8B, UInt8.toNat_ofNat', Nat.mod_eq_of_lt (by rw [hl] at hlt; omega), leBytes_leNat' hl]

theorem readU16_inv {s s2 : RS} {x : UInt16} (h : readU16 s = (.ok x, s2)) :
    s.rest = u16B x ++ s2.rest ∧ s2.pos = s.pos + 2 ∧ s2.stack = s.stack := by
  obtain ⟨bs, s1, h1, h2⟩ := R.bind_inv h
  obtain ⟨hl, hr, hp, hs⟩ := R.take_inv h1
  obtain ⟨rfl, rfl⟩ := R.pure_inv h2
  refine ⟨?_, hp, hs⟩
  have hlt := leNat_lt bs
  rw [hr, u16B, UInt16.toNat_ofNat', Nat.mod_eq_of_lt (by rw [hl] at hlt; omega), leBytes_leNat' hl]

theorem readU32_inv {s s2 : RS} {x : UInt32} (h : readU32 s = (.ok x, s2)) :
    s.rest = u32B x ++ s2.rest ∧ s2.pos = s.pos + 4 ∧ s2.stack = s.stack := by
  obtain ⟨bs, s1, h1, h2⟩ := R.bind_inv h
  obtain ⟨hl, hr, hp, hs⟩ := R.take_inv h1
  obtain ⟨rfl, rfl⟩ := R.pure_inv h2
  refine ⟨?_, hp, hs⟩
  have hlt := leNat_lt bs
  rw [hr, u32B, UInt32.toNat_ofNat', Nat.mod_eq_of_lt (by rw [hl] at hlt; omega), leBytes_leNat' hl]

theorem readU64_inv {s s2 : RS} {x : UInt64} (h : readU64 s = (.ok x, s2)) :
    s.rest = u64B x ++ s2.rest ∧ s2.pos = s.pos + 8 ∧ s2.stack = s.stack := by
  obtain ⟨bs, s1, h1, h2⟩ := R.bind_inv h
  obtain ⟨hl, hr, hp, hs⟩ := R.take_inv h1
  obtain ⟨rfl, rfl⟩ := R.pure_inv h2
  refine ⟨?_, hp, hs⟩
  have hlt := leNat_lt bs
  rw [hr, u64B, UInt64.toNat_ofNat', Nat.mod_eq_of_lt (by rw [hl] at hlt; omega), leBytes_leNat' hl]

theorem readI8_inv {s s2 : RS} {x : Int8} (h : readI8 s = (.ok x, s2)) :
    s.rest = i8B x ++ s2.rest ∧ s2.pos = s.pos + 1 ∧ s2.stack = s.stack := by
  obtain ⟨v, s1, h1, h2⟩ := R.bind_inv h
  obtain ⟨rfl, rfl⟩ := R.pure_inv h2
  simpa [i8B] using readU8_inv h1

theorem readI16_inv {s s2 : RS} {x : Int16} (h : readI16 s = (.ok x, s2)) :
    s.rest = i16B x ++ s2.rest ∧ s2.pos = s.pos + 2 ∧ s2.stack = s.stack := by
  obtain ⟨v, s1, h1, h2⟩ := R.bind_inv h
  obtain ⟨rfl, rfl⟩ := R.pure_inv h2
  simpa [i16B] using readU16_inv h1

theorem readI32_inv {s s2 : RS} {x : Int32} (h : readI32 s = (.ok x, s2)) :
    s.rest = i32B x ++ s2.rest ∧ s2.pos = s.pos + 4 ∧ s2.stack = s.stack := by
  obtain ⟨v, s1, h1, h2⟩ := R.bind_inv h
  obtain ⟨rfl, rfl⟩ := R.pure_inv h2
  simpa [i32B] using readU32_inv h1

theorem readI64_inv {s s2 : RS} {x : Int64} (h : readI64 s = (.ok x, s2)) :
    s.rest = i64B x ++ s2.rest ∧ s2.pos = s.pos + 8 ∧ s2.stack = s.stack := by
  obtain ⟨v, s1, h1, h2⟩ := R.bind_inv h
  obtain ⟨rfl, rfl⟩ := R.pure_inv h2
  simpa [i64B] using readU64_inv h1

/-- A string as it may appear in a file: `UTF-8` with a positive length or
`UTF-16` with a negative one, each with a terminating zero. -/
theorem readFString_inv {s s2 : RS} {r : Option String} (h : readFString s = (.ok r, s2)) :
    s2.stack = s.stack ∧
    ((r = none ∧ s.rest = i32B 0 ++ s2.rest ∧ s2.pos = s.pos + 4) ∨
     (∃ t n, r = some t ∧ n + 1 ≤ 131072 ∧ (utf8Encode t.toList).length = n ∧
        s.rest = i32B (Int32.ofNat (n + 1)) ++ utf8Encode t.toList ++ [0] ++ s2.rest ∧
        s2.pos = s.pos + (n + 5)) ∨
     (∃ t n, r = some t ∧ n + 1 ≤ 131072 ∧ (utf16Encode t.toList).length = n ∧
        s.rest = i32B (-(Int32.ofNat (n + 1))) ++ u16sToBytes (utf16Encode t.toList) ++ u16B 0 ++
          s2.rest ∧
        s2.pos = s.pos + (2 * n + 6))) := by
  unfold readFString at h
  rbind h => start s1 h1
  obtain ⟨rfl, rfl⟩ := R.position_inv h1
  rbind h => len s3 h3
  obtain ⟨e3, p3, k3⟩ := readI32_inv h3
  rbind h => u s4 h4
  obtain ⟨hb, rfl⟩ := R.ensure_inv (fun _ _ _ => R.fail_ne) h4
  split at h
  · rename_i h0
    obtain ⟨rfl, rfl⟩ := R.pure_inv h
    have : len = 0 := Int32.toInt_inj.mp (by rw [h0]; rfl)
    subst this
    exact ⟨k3, .inl ⟨rfl, e3, p3⟩⟩
  split at h
  · rename_i h0 h1
    rbind h => buf s5 h5
    obtain ⟨l5, e5, p5, k5⟩ := R.take_inv h5
    rbind h => t s6 h6
    obtain ⟨e6, p6, k6⟩ := readU16_inv h6
    rbind h => u s7 h7
    obtain ⟨rfl, rfl⟩ := R.ensure_inv (fun _ _ _ => R.failPos_ne) h7
    match hcs : utf16Decode (bytesToU16 buf) with
    | some cs =>
      rw [hcs] at h
      obtain ⟨rfl, rfl⟩ := R.pure_inv h
      refine ⟨by simp [k6, k5, k3], .inr (.inr ⟨String.ofList cs, (-len.toInt).toNat - 1, rfl, ?_⟩)⟩
      have he := utf16Encode_decode _ _ hcs
      have hlen : len = -(Int32.ofNat ((-len.toInt).toNat - 1 + 1)) := by
        apply Int32.toInt_inj.mp
        rw [i32_neg_ofNat_toInt (by omega)]; omega
      rw [String.toList_ofList, he, bytesToU16_length, l5, u16sToBytes_bytesToU16 _ (by
        rw [l5]; exact Nat.dvd_mul_right _ _), ← hlen]
      refine ⟨by omega, by omega, ?_, by omega⟩
      simp only [e3, e5, e6, List.append_assoc]
    | none => rw [hcs] at h; exact absurd h R.fail_ne
  · rename_i h0 h1
    rbind h => buf s5 h5
    obtain ⟨l5, e5, p5, k5⟩ := R.take_inv h5
    rbind h => t s6 h6
    obtain ⟨e6, p6, k6⟩ := readU8_inv h6
    rbind h => u s7 h7
    obtain ⟨rfl, rfl⟩ := R.ensure_inv (fun _ _ _ => R.failPos_ne) h7
    match hcs : utf8Decode buf with
    | some cs =>
      rw [hcs] at h
      obtain ⟨rfl, rfl⟩ := R.pure_inv h
      refine ⟨by simp [k6, k5, k3], .inr (.inl ⟨String.ofList cs, len.toInt.toNat - 1, rfl, ?_⟩)⟩
      have he := utf8Encode_decode _ _ hcs
      have hlen : len = Int32.ofNat (len.toInt.toNat - 1 + 1) := by
        apply Int32.toInt_inj.mp
        rw [i32_ofNat_toInt (by omega)]; omega
      rw [String.toList_ofList, he, l5, ← hlen]
      refine ⟨by omega, rfl, ?_, by omega⟩
      simp only [e3, e5, e6, List.append_assoc]
      rfl
    | none => rw [hcs] at h; exact absurd h R.fail_ne

theorem readString_inv' {s s2 : RS} {r : String} (h : readString s = (.ok r, s2)) :
    readFString s = (.ok (some r), s2) := by
  unfold readString at h
  rbind h => start s1 h1
  obtain ⟨rfl, rfl⟩ := R.position_inv h1
  rbind h => o s3 h3
  split at h
  · obtain ⟨rfl, rfl⟩ := R.pure_inv h
    exact h3
  · exact absurd h R.fail_ne

end Gvas
