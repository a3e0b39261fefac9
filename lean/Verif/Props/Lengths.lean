import Verif.Lemmas.Instances
import Verif.Lemmas.Inv
import Verif.Lemmas.Parts
import Verif.Spec.Sample

/-!
# C31: the length a property declares is the length of its body
-/

namespace Gvas

namespace Spec

/-- A stored string: its length in units with the terminator, negative for two byte units, and as
many bytes. -/
def StoredString (b : Bytes) : Prop :=
  ∃ (n : Int32) (t : Bytes), b = i32B n ++ t ∧
    (t.length : Int) = if 0 ≤ n.toInt then n.toInt else -2 * n.toInt

/-- What the header of a property has between length and array index on the one hand, and the
terminator on the other. -/
def HeaderParts (ty : String) (b : Bytes) : Prop :=
  if ty = "BoolProperty" then b.length = 1
  else if ty ∈ ["EnumProperty", "ArrayProperty", "SetProperty", "ByteProperty"] then StoredString b
  else if ty = "StructProperty" then ∃ a g, b = a ++ g ∧ StoredString a ∧ g.length = 16
  else if ty = "MapProperty" then ∃ a c, b = a ++ c ∧ StoredString a ∧ StoredString c
  else b = []

end Spec

open Spec

private theorem storedString_inv {s s2 : RS} {r : String} (h : readString s = (.ok r, s2)) :
    ∃ b, s.rest = b ++ s2.rest ∧ StoredString b := by
  obtain ⟨-, h | h | h⟩ := readFString_inv (readString_inv' h)
  · exact absurd h.1 (by simp)
  · obtain ⟨t, n, -, h1, h2, h3, -⟩ := h
    refine ⟨_, h3, Int32.ofNat (n + 1), _, List.append_assoc .., ?_⟩
    rw [i32_ofNat_toInt (by omega), if_pos (by omega), List.length_append, h2]
    simp
  · obtain ⟨t, n, -, h1, h2, h3, -⟩ := h
    refine ⟨_, h3, -Int32.ofNat (n + 1), _, List.append_assoc .., ?_⟩
    rw [i32_neg_ofNat_toInt (by omega), if_neg (by omega), List.length_append, u16sToBytes_length,
      h2]
    simp [u16B]
    omega

/-- A reader that consumes a prefix of the input and counts it. -/
private def Eats {α : Type} (m : R α) : Prop :=
  ∀ s a s', m s = (.ok a, s') → ∃ b, s.rest = b ++ s'.rest ∧ s'.pos = s.pos + b.length

private theorem eats_of_good {α : Type} {m : R α} (h : ∀ s : RS, 0 ≤ s.pos → GoodAt 0 m s) :
    Eats m := by
  intro s a s' hm
  obtain ⟨pre, h1, h2, -⟩ := (h s (Nat.zero_le _)).consumes
  rw [hm] at h1 h2
  exact ⟨pre, h1, h2⟩

private theorem sized_inv {β : Type} {len : UInt32} {body : R β} (hb : Eats body) {s s' : RS}
    {r : β} (h : readSized len body s = (.ok r, s')) :
    ∃ b, s.rest = b ++ s'.rest ∧ b.length = len.toNat := by
  unfold readSized at h
  rbind h => p1 s1 h1
  obtain ⟨rfl, rfl⟩ := R.position_inv h1
  rbind h => x s2 h2
  rbind h => p2 s3 h3
  obtain ⟨rfl, rfl⟩ := R.position_inv h3
  rbind h => u s4 h4
  obtain ⟨hl, rfl⟩ := R.ensure_inv (fun _ _ _ => R.fail_ne) h4
  obtain ⟨rfl, rfl⟩ := R.pure_inv h
  obtain ⟨b, e1, e2⟩ := hb _ _ _ h2
  exact ⟨b, e1, by omega⟩

private theorem terminator_inv {s s' : RS} {u : Unit} (h : readTerminator s = (.ok u, s')) :
    s.rest = [0] ++ s'.rest := by
  unfold readTerminator at h
  rbind h => t s1 h1
  obtain ⟨rfl, rfl⟩ := R.ensure_inv (fun _ _ _ => R.failPos_ne) h
  exact (readU8_inv h1).1

private theorem separator_inv {s s' : RS} {u : Unit} (h : readSeparator s = (.ok u, s')) :
    s.rest = [0] ++ s'.rest := by
  unfold readSeparator at h
  rbind h => t s1 h1
  obtain ⟨rfl, rfl⟩ := R.ensure_inv (fun _ _ _ => R.panic_ne) h
  exact (readU8_inv h1).1

private theorem zeroIndex_inv {s s' : RS} {u : Unit} (h : readZeroIndex s = (.ok u, s')) :
    s.rest = u32B 0 ++ s'.rest := by
  unfold readZeroIndex at h
  rbind h => t s1 h1
  obtain ⟨rfl, rfl⟩ := R.ensure_inv (fun _ _ _ => R.failPos_ne) h
  exact (readU32_inv h1).1

private theorem assertedIndex_inv {s s' : RS} {u : Unit} (h : readAssertedIndex s = (.ok u, s')) :
    s.rest = u32B 0 ++ s'.rest := by
  unfold readAssertedIndex at h
  rbind h => t s1 h1
  obtain ⟨rfl, rfl⟩ := R.ensure_inv (fun _ _ _ => R.panic_ne) h
  exact (readU32_inv h1).1

private theorem checkSize_inv {n : Nat} {s s' : RS} {u : Unit} (hn : n < 2 ^ 32)
    (h : checkSize n s = (.ok u, s')) :
    s.rest = u32B (UInt32.ofNat n) ++ u32B 0 ++ s'.rest := by
  unfold checkSize at h
  rbind h => t s1 h1
  obtain ⟨rfl, rfl⟩ := R.ensure_inv (fun _ _ _ => R.failPos_ne) h
  rw [(readU64_inv h1).1]
  congr 1
  simp only [u64B, u32B, leBytes, UInt32.toNat_ofNat', Nat.mod_eq_of_lt hn, List.cons_append,
    List.nil_append, UInt32.toNat_zero]
  have h4 : t.toNat / 256 / 256 / 256 / 256 = 0 := by omega
  rw [h4]

/-- The conclusion of the theorem: the property occupies its header and as many bytes as that
declares. -/
private def Declared (ty : String) (s s' : RS) : Prop :=
  ∃ (len idx : UInt32) (parts body : Bytes),
    s.rest = u32B len ++ u32B idx ++ parts ++ [0] ++ body ++ s'.rest ∧ HeaderParts ty parts ∧
    body.length = len.toNat ∧ (ty ≠ "NameProperty" → idx = 0)

private theorem header_inv {α β : Type} {ty : String} {hdr : R α} {body : UInt32 → α → R β}
    {s s' : RS} {r : β} (h : readHeader hdr body s = (.ok r, s'))
    (hp : ∀ s a s', hdr s = (.ok a, s') → ∃ b, s.rest = b ++ s'.rest ∧ HeaderParts ty b)
    (hb : ∀ len a, Eats (body len a)) : Declared ty s s' := by
  unfold readHeader at h
  rbind h => len s1 h1
  rbind h => u s2 h2
  rbind h => a s3 h3
  rbind h => u' s4 h4
  obtain ⟨parts, e3, hparts⟩ := hp _ _ _ h3
  obtain ⟨b, e5, hl⟩ := sized_inv (hb _ _) h
  refine ⟨len, 0, parts, b, ?_, hparts, hl, fun _ => rfl⟩
  rw [(readU32_inv h1).1, zeroIndex_inv h2, e3, terminator_inv h4, e5]
  simp only [List.append_assoc]

private theorem fixed_inv {α : Type} {ty : String} {n : Nat} {m : R α} {s s' : RS} {r : α}
    (h : readFixed true n m s = (.ok r, s')) (hn : n < 2 ^ 32) (hty : HeaderParts ty [])
    (hm : ∀ s a s', m s = (.ok a, s') → ∃ b, s.rest = b ++ s'.rest ∧ b.length = n) :
    Declared ty s s' := by
  unfold readFixed R.onlyIf at h
  rbind h => u s1 h1
  simp only [if_true] at h1
  rbind h1 => u' s2 h2
  obtain ⟨b, e, hl⟩ := hm _ _ _ h
  refine ⟨UInt32.ofNat n, 0, [], b, ?_, hty, ?_, fun _ => rfl⟩
  · rw [checkSize_inv hn h2, separator_inv h1, e]
    simp only [List.append_assoc, List.nil_append]
  · rw [hl, UInt32.toNat_ofNat', Nat.mod_eq_of_lt hn]

private theorem plain_inv {β : Type} {ty : String} {m : R β} {s s' : RS} {r : β}
    (h : readPlain true m s = (.ok r, s')) (hty : HeaderParts ty [])
    (hm : Eats m) : Declared ty s s' := by
  unfold readPlain at h
  rw [if_pos rfl] at h
  exact header_inv h (fun s a s' h => by obtain ⟨rfl, rfl⟩ := R.rpure_inv h; exact ⟨[], rfl, hty⟩)
    fun _ _ => hm

private theorem oneString {ty : String}
    (hty : ty ∈ ["EnumProperty", "ArrayProperty", "SetProperty", "ByteProperty"]) :
    ∀ s a s', readString s = (.ok a, s') → ∃ b, s.rest = b ++ s'.rest ∧ HeaderParts ty b := by
  intro s a s' h
  obtain ⟨b, e, hb⟩ := storedString_inv h
  refine ⟨b, e, ?_⟩
  unfold HeaderParts
  rw [if_neg (by rintro rfl; revert hty; decide), if_pos hty]
  exact hb

private theorem entry_inv {α : Type} {nm : String} {m : R α} {s s2 : RS} {a : α}
    (h : R.withEntry nm m s = (.ok a, s2)) :
    ∃ s1, m { s with stack := s.stack ++ [nm] } = (.ok a, s1) ∧ s2.rest = s1.rest := by
  unfold R.withEntry at h
  match hm : m { s with stack := s.stack ++ [nm] } with
  | (r, s1) =>
    rw [hm] at h
    simp only [Prod.mk.injEq] at h
    obtain ⟨rfl, rfl⟩ := h
    exact ⟨s1, rfl, rfl⟩

private theorem map_inv {α β : Type} {m : R α} {f : α → β} {s s' : RS} {b : β}
    (h : (do return f (← m) : R β) s = (.ok b, s')) : ∃ a, m s = (.ok a, s') := by
  rbind h => a s1 h1
  obtain ⟨-, rfl⟩ := R.pure_inv h
  exact ⟨a, h1⟩

private theorem recOK (env : Env) (n : Nat) : Closed.RecOK
    (fun _ K d m _ => ∀ s : RS, K ≤ s.pos → GoodAt d m s) 0 (Property.read env n)
    (Property.read env n) :=
  fun _ ty hdr o _ s _ => property_good env n ty hdr o s

private theorem eats_map {α β : Type} {m : R α} {f : α → β} (h : Eats m) :
    Eats (do return f (← m) : R β) := by
  intro s a s' hm
  obtain ⟨x, hx⟩ := map_inv hm
  exact h _ _ _ hx

private theorem kind_declared (env : Env) (n : Nat) (o : Option UInt32) (k : Kind) (s s' : RS)
    (p : Property) (hk : k ≠ .byte)
    (h : readKind env (n + 1) (Property.read env n) true o k s = (.ok p, s')) :
    Declared k.typeName s s' := by
  have C := good_closed env.debug env.hints
  have hr := recOK env n
  cases k with
  | byte => exact absurd rfl hk
  | int8 =>
    obtain ⟨x, h⟩ := map_inv h
    exact fixed_inv h (by decide) (by simp [HeaderParts, Kind.typeName])
      fun s a s' h => ⟨_, (readI8_inv h).1, by simp [i8B, u8B, leBytes]⟩
  | int16 =>
    obtain ⟨x, h⟩ := map_inv h
    exact fixed_inv h (by decide) (by simp [HeaderParts, Kind.typeName])
      fun s a s' h => ⟨_, (readI16_inv h).1, by simp [i16B, u16B, leBytes]⟩
  | uint16 =>
    obtain ⟨x, h⟩ := map_inv h
    exact fixed_inv h (by decide) (by simp [HeaderParts, Kind.typeName])
      fun s a s' h => ⟨_, (readU16_inv h).1, by simp [u16B, u16B, leBytes]⟩
  | int =>
    obtain ⟨x, h⟩ := map_inv h
    exact fixed_inv h (by decide) (by simp [HeaderParts, Kind.typeName])
      fun s a s' h => ⟨_, (readI32_inv h).1, by simp [i32B, u32B, leBytes]⟩
  | uint32 =>
    obtain ⟨x, h⟩ := map_inv h
    exact fixed_inv h (by decide) (by simp [HeaderParts, Kind.typeName])
      fun s a s' h => ⟨_, (readU32_inv h).1, by simp [u32B, u32B, leBytes]⟩
  | int64 =>
    obtain ⟨x, h⟩ := map_inv h
    exact fixed_inv h (by decide) (by simp [HeaderParts, Kind.typeName])
      fun s a s' h => ⟨_, (readI64_inv h).1, by simp [i64B, u64B, leBytes]⟩
  | uint64 =>
    obtain ⟨x, h⟩ := map_inv h
    exact fixed_inv h (by decide) (by simp [HeaderParts, Kind.typeName])
      fun s a s' h => ⟨_, (readU64_inv h).1, by simp [u64B, u64B, leBytes]⟩
  | float =>
    obtain ⟨x, h⟩ := map_inv h
    refine fixed_inv h (by decide) (by simp [HeaderParts, Kind.typeName]) fun s a s' h => ?_
    obtain ⟨y, h⟩ := map_inv h
    exact ⟨_, (readU32_inv h).1, by simp [u32B, leBytes]⟩
  | double =>
    obtain ⟨x, h⟩ := map_inv h
    refine fixed_inv h (by decide) (by simp [HeaderParts, Kind.typeName]) fun s a s' h => ?_
    obtain ⟨y, h⟩ := map_inv h
    exact ⟨_, (readU64_inv h).1, by simp [u64B, leBytes]⟩
  | bool =>
    obtain ⟨x, h⟩ := map_inv h
    unfold readBoolProperty R.onlyIf at h
    simp only [if_true] at h
    rbind h => u s1 h1
    rbind h => v s2 h2
    rbind h => u s3 h3
    obtain ⟨rfl, rfl⟩ := R.pure_inv h
    have e1 := checkSize_inv (by decide) h1
    have e3 := separator_inv h3
    unfold readBool at h2
    rbind h2 => b s4 h4
    have e4 := (readU8_inv h4).1
    have e2 : s2 = s4 := by
      split at h2
      · exact (R.pure_inv h2).2
      · split at h2
        · exact (R.pure_inv h2).2
        · exact absurd h2 R.failPos_ne
    refine ⟨0, 0, u8B b, [], ?_, by simp [HeaderParts, Kind.typeName, u8B, leBytes], rfl,
      fun _ => rfl⟩
    rw [e1, e4, ← e2, e3]
    simp
  | enum =>
    simp only [readKind, readEnumProperty, if_true] at h
    exact header_inv h (oneString (by decide)) fun _ _ => eats_map (eats_of_good (C.zero (m' := readString) C.string))
  | str =>
    obtain ⟨x, h⟩ := map_inv h
    exact plain_inv h (by simp [HeaderParts, Kind.typeName]) (eats_of_good (C.zero (m' := readFString) C.fstring))
  | text =>
    obtain ⟨x, h⟩ := map_inv h
    exact plain_inv h (by simp [HeaderParts, Kind.typeName])
      (eats_of_good (C.text env.cv (Nat.le_refl _) trivial))
  | name =>
    simp only [readKind, readNameProperty, if_true] at h
    rbind h => len s1 h1
    rbind h => idx s2 h2
    rbind h => u s3 h3
    obtain ⟨b, e, hl⟩ := sized_inv (eats_map (eats_of_good (C.zero (m' := readFString) C.fstring))) h
    refine ⟨len, idx, [], b, ?_, by simp [HeaderParts, Kind.typeName], hl, fun h => absurd rfl h⟩
    rw [(readU32_inv h1).1, (readU32_inv h2).1, terminator_inv h3, e]
    simp
  | object =>
    obtain ⟨x, h⟩ := map_inv h
    exact plain_inv h (by simp [HeaderParts, Kind.typeName]) (eats_of_good (C.zero (m' := readString) C.string))
  | delegate =>
    obtain ⟨x, h⟩ := map_inv h
    exact plain_inv h (by simp [HeaderParts, Kind.typeName]) (eats_of_good (C.zero (m' := Delegate.read) C.delegate))
  | multicastInlineDelegate | multicastSparseDelegate =>
    obtain ⟨x, h⟩ := map_inv h
    exact plain_inv h (by simp [HeaderParts, Kind.typeName]) (eats_of_good (C.zero (m' := readMulticast) C.multicast))
  | fieldPath =>
    obtain ⟨x, h⟩ := map_inv h
    exact plain_inv h (by simp [HeaderParts, Kind.typeName]) (eats_of_good (C.zero (m' := FieldPath.read) C.fieldPath))
  | struct =>
    simp only [readKind, readStructProperty, if_true] at h
    refine header_inv h (fun s a s' h => ?_) fun _ _ =>
      eats_map (eats_of_good (C.structBody env.cv hr (Nat.le_refl _) trivial _))
    rbind h => t s1 h1
    rbind h => g s2 h2
    obtain ⟨rfl, rfl⟩ := R.pure_inv h
    obtain ⟨b, e1, hb⟩ := storedString_inv h1
    unfold readGuid at h2
    rbind h2 => bs s3 h3
    obtain ⟨hl, e3, -⟩ := R.take_inv h3
    rw [dif_pos hl] at h2
    obtain ⟨rfl, rfl⟩ := R.pure_inv h2
    refine ⟨b ++ bs, by rw [e1, e3, List.append_assoc], ?_⟩
    simp only [HeaderParts, Kind.typeName]
    exact ⟨b, bs, rfl, hb, hl⟩
  | array =>
    simp only [readKind, readArrayProperty, if_true] at h
    exact header_inv h (oneString (by decide)) fun _ _ =>
      eats_map (eats_of_good (C.arrayBody env.cv hr (Nat.le_refl _) trivial _ _))
  | set =>
    simp only [readKind, readSetProperty, if_true] at h
    exact header_inv h (oneString (by decide)) fun len ty => eats_of_good (C.setBody hr len ty)
  | map =>
    simp only [readKind, readMapProperty, if_true] at h
    refine header_inv h (fun s a s' h => ?_) fun _ _ => eats_of_good ?_
    · rbind h => t s1 h1
      rbind h => g s2 h2
      obtain ⟨rfl, rfl⟩ := R.pure_inv h
      obtain ⟨b, e1, hb⟩ := storedString_inv h1
      obtain ⟨b', e2, hb'⟩ := storedString_inv h2
      refine ⟨b ++ b', by rw [e1, e2, List.append_assoc], ?_⟩
      simp only [HeaderParts, Kind.typeName]
      exact ⟨b, b', rfl, hb, hb'⟩
    · exact C.mapBody hr _ _

/-- **C31**: whatever is read with a header, of any type but `ByteProperty`, occupies exactly the
header - length, array index, the parts of the type, terminator - and as many bytes as the length
says.  Missing from the full claim: `ByteProperty`, for which it is false
(`C31_byte_length_ignored`). -/
theorem C31_lengths_enforced_partial (env : Env) (n : Nat) (ty : String) (o : Option UInt32)
    (s s' : RS) (p : Property) (hty : ty ≠ "ByteProperty")
    (h : Property.read env n ty true o s = (.ok p, s')) :
    ∃ (len idx : UInt32) (parts body : Bytes),
      s.rest = u32B len ++ u32B idx ++ parts ++ [0] ++ body ++ s'.rest ∧ HeaderParts ty parts ∧
      body.length = len.toNat ∧ (ty ≠ "NameProperty" → idx = 0) := by
  cases n with
  | zero => simp [Property.read, R.outOfFuel] at h
  | succ n =>
    show Declared ty s s'
    unfold Property.read Property.readStep at h
    obtain ⟨s1, h, e⟩ := entry_inv h
    suffices hd : Declared ty { s with stack := s.stack ++ [ty] } s1 by
      obtain ⟨len, idx, parts, body, h1, h2⟩ := hd
      exact ⟨len, idx, parts, body, by rw [e]; exact h1, h2⟩
    generalize ({ s with stack := s.stack ++ [ty] } : RS) = t at h ⊢
    match hk : Kind.ofName ty with
    | some k =>
      rw [hk] at h
      rw [← kind_some hk] at hty ⊢
      exact kind_declared env n o k t s1 p (by rintro rfl; exact hty rfl) h
    | none =>
      rw [hk] at h
      simp only [readUnknown, if_true] at h
      rbind h => len s2 h2
      rbind h => u s3 h3
      rbind h => u s4 h4
      obtain ⟨x, h⟩ := map_inv h
      obtain ⟨hl, e5, -⟩ := R.take_inv h
      refine ⟨len, 0, [], x, ?_, ?_, hl, fun _ => rfl⟩
      · rw [(readU32_inv h2).1, assertedIndex_inv h3, separator_inv h4, e5]
        simp
      · have hu := kind_none_iff.mp hk
        unfold HeaderParts
        rw [if_neg (by rintro rfl; exact hu (by decide)), if_neg, if_neg (by rintro rfl; exact hu (by decide)), if_neg (by rintro rfl; exact hu (by decide))]
        simp only [List.mem_cons, List.not_mem_nil, or_false]
        rintro (rfl | rfl | rfl | rfl) <;> exact hu (by decide)

/-- Such a read. -/
example : ∃ p s', Property.read ⟨true, noHints, []⟩ 2 "IntProperty" true none
    (RS.init [4, 0, 0, 0, 0, 0, 0, 0, 0, 7, 0, 0, 0, 9]) = (.ok p, s') ∧ s'.rest = [9] :=
  ⟨_, _, rfl, rfl⟩

/-- A string whose length is off by one is refused. -/
example : failure (readData true noHints (saveBytes (ascii "a" ++ ascii "StrProperty" ++
    [7, 0, 0, 0, 0, 0, 0, 0, 0] ++ ascii "b"))).1 =
      some (.err (.invalidValueSize 7 6 80)) := by decide +kernel

/-- **C31** is false for byte properties: a length of 2 is accepted for a body of 1 byte, and a
length of 100 for a body of 6 bytes. -/
theorem C31_byte_length_ignored :
    namesRead (readData true noHints (saveBytes (ascii "a" ++ ascii "ByteProperty" ++
      [2, 0, 0, 0, 0, 0, 0, 0] ++ ascii "None" ++ [0] ++ [5] ++ intBytes))).1 = ["a"] ∧
    namesRead (readData true noHints (saveBytes (ascii "b" ++ ascii "ByteProperty" ++
      [100, 0, 0, 0, 0, 0, 0, 0] ++ ascii "E" ++ [0] ++ ascii "F" ++ intBytes))).1 = ["b", "a"] := by
  decide +kernel

/-- **C31**, what the length of a byte property does: 1 and 2 announce one byte, all others a
string, whatever its length; and 0 is accepted only without overflow checks.  Missing from the full
claim: that the body has the length declared, which is so exactly for a byte declared as 1 and for
strings of the declared size. -/
theorem C31_byte_layout_partial (env : Env) (n : Nat) (suggested : Option UInt32) (s s' : RS)
    (p : Property) (h : Property.read env n "ByteProperty" true suggested s = (.ok p, s')) :
    ∃ (len : UInt32) (parts body : Bytes),
      s.rest = u32B len ++ u32B 0 ++ parts ++ [0] ++ body ++ s'.rest ∧ StoredString parts ∧
      (len = 1 ∨ len = 2 → ∃ b name, body = [b] ∧ p = .byte (some name) (.byte b)) ∧
      (¬ (len = 1 ∨ len = 2) →
        StoredString body ∧ ∃ name v, p = .byte (some name) (.namespaced v)) ∧
      (len = 0 → env.debug = false) := by
  cases n with
  | zero => simp [Property.read, R.outOfFuel] at h
  | succ n =>
  unfold Property.read Property.readStep at h
  obtain ⟨s8, hr, e8⟩ := entry_inv h
  have e8 : s8.rest = s'.rest := by rw [e8]
  have e9 : s.rest = ({ s with stack := s.stack ++ ["ByteProperty"] } : RS).rest := rfl
  rw [← e8, e9]
  generalize ({ s with stack := s.stack ++ ["ByteProperty"] } : RS) = t at hr ⊢
  clear h e8 e9
  rw [show Kind.ofName "ByteProperty" = some .byte by decide] at hr
  simp only [readKind] at hr
  unfold readByteProperty at hr
  rw [if_pos rfl] at hr
  rbind hr => len s1 h1
  rbind hr => u s2 h2
  rbind hr => name s3 h3
  rbind hr => u' s4 h4
  rbind hr => k s5 h5
  rbind hr => v s6 h6
  obtain ⟨rfl, rfl⟩ := R.pure_inv hr
  obtain ⟨parts, e3, hp⟩ := storedString_inv h3
  have hk : k = len - 1 ∧ s5 = s4 ∧ (len = 0 → env.debug = false) := by
    simp only [byteLength, subU32] at h5
    split at h5
    · exact absurd h5 R.panic_ne
    · rename_i hc
      obtain ⟨rfl, rfl⟩ := R.rpure_inv h5
      refine ⟨rfl, rfl, ?_⟩
      rintro rfl
      cases hd : env.debug
      · rfl
      · exact absurd ⟨by decide, hd⟩ hc
  obtain ⟨rfl, rfl, hz⟩ := hk
  have hlen : (len - 1 = 1 ∨ len - 1 = 0) ↔ (len = 1 ∨ len = 2) := by
    constructor
    · rintro (h | h)
      · right; have := congrArg (· + 1) h; simpa using this
      · left; have := congrArg (· + 1) h; simpa using this
    · rintro (rfl | rfl) <;> decide
  unfold readByteValue at h6
  have e0 : t.rest = u32B len ++ u32B 0 ++ parts ++ [0] ++ s5.rest := by
    rw [(readU32_inv h1).1, assertedIndex_inv h2, e3, separator_inv h4]
    simp
  split at h6
  · rename_i hc
    rbind h6 => b s7 h7
    obtain ⟨rfl, rfl⟩ := R.pure_inv h6
    refine ⟨len, parts, [b], ?_, hp, fun _ => ⟨b, name, rfl, rfl⟩,
      fun hn => absurd (hlen.mp hc) hn, hz⟩
    rw [e0, (readU8_inv h7).1]
    simp [u8B, leBytes]
  · rename_i hc
    rbind h6 => t s7 h7
    obtain ⟨rfl, rfl⟩ := R.pure_inv h6
    obtain ⟨body, e7, hb⟩ := storedString_inv h7
    refine ⟨len, parts, body, ?_, hp, fun hn => absurd (hlen.mpr hn) hc,
      fun _ => ⟨hb, name, _, rfl⟩, hz⟩
    rw [e0, e7]
    simp

/-- A byte declared as two bytes, and a string declared as none in a build without checks. -/
example : (∃ p s', Property.read ⟨true, noHints, []⟩ 2 "ByteProperty" true none
      (RS.init ([2, 0, 0, 0, 0, 0, 0, 0] ++ ascii "None" ++ [0] ++ [5])) = (.ok p, s') ∧
      s'.rest = []) ∧
    (∃ p s', Property.read ⟨false, noHints, []⟩ 2 "ByteProperty" true none
      (RS.init ([0, 0, 0, 0, 0, 0, 0, 0] ++ ascii "E" ++ [0] ++ ascii "F")) = (.ok p, s') ∧
      s'.rest = []) :=
  ⟨⟨_, _, rfl, rfl⟩, ⟨_, _, rfl, rfl⟩⟩

end Gvas
