import Verif.Lemmas.Damage
import Verif.Spec.Terminator

/-! # Wrong bytes at the end of headers -/

namespace Gvas

open Spec Format

variable {env : Env}

theorem terminator_wrong {t : UInt8} {x : Bytes} {pos : Nat} {st : List String} (h : t ≠ 0) :
    readTerminator ⟨[t] ++ x, pos, st⟩ =
      (.bad (.err (.invalidTerminator t pos)), ⟨x, pos + 1, st⟩) := by
  unfold readTerminator
  rw [← u8B_eq, R.bind_ok (reads_u8 t _ _), R.ensure_false h]
  rfl

theorem separator_wrong {t : UInt8} {x : Bytes} {pos : Nat} {st : List String} (h : t ≠ 0) :
    readSeparator ⟨[t] ++ x, pos, st⟩ =
      (.bad (.panic "assertion `left == right` failed"), ⟨x, pos + 1, st⟩) := by
  unfold readSeparator
  rw [← u8B_eq, R.bind_ok (reads_u8 t _ _), R.ensure_false h]
  rfl

theorem headerEnd_wrong {α β : Type} {hdr : R α} {body : UInt32 → α → R β} {len : UInt32} {a : α}
    {t : UInt8} {b x : Bytes} {pos : Nat} {st : List String} (h1 : Reads st hdr b a) (h : t ≠ 0) :
    ∃ s', readHeader hdr body ⟨u32B len ++ ((u32B 0 ++ b) ++ ([t] ++ x)), pos, st⟩ =
      (.bad (.err (.invalidTerminator t (pos + 4 + (u32B 0 ++ b).length))), s') := by
  unfold readHeader
  rw [R.bind_ok (reads_u32 len _ _), List.append_assoc, R.bind_ok (reads_zeroIndex _ _),
    R.bind_ok (h1 _ _)]
  have e : pos + (u32B len).length + (u32B 0).length + b.length = pos + 4 + (u32B 0 ++ b).length := by
    simp only [List.length_append, u32B_length]
    omega
  rw [e]
  exact ⟨_, R.bind_bad (terminator_wrong h)⟩

theorem plainEnd_wrong {α : Type} {m : R α} {f : α → R Property} {len : UInt32} {t : UInt8} {x : Bytes}
    {pos : Nat} {st : List String} (h : t ≠ 0) : ∃ s',
    (readPlain true m >>= f) ⟨u32B len ++ (u32B 0 ++ ([t] ++ x)), pos, st⟩ =
      (.bad (.err (.invalidTerminator t (pos + 4 + (u32B 0).length))), s') := by
  obtain ⟨s', hs⟩ := headerEnd_wrong (hdr := R.pure ()) (body := fun _ _ => m) (len := len) (x := x)
    (pos := pos) (st := st) (Reads.rpure ()) h
  rw [List.append_nil] at hs
  exact ⟨s', R.bind_bad (by simpa only [readPlain, if_true] using hs)⟩

/-- A byte other than zero at the end of a header is refused, whatever follows. -/
theorem heading_wrong {n : Nat} {ty : String} {t : UInt8} {b x : Bytes} {pos : Nat}
    {st : List String} (hb : Heading ty b) (h : t ≠ 0) :
    ∃ s', Property.read env (n + 1) ty true none ⟨b ++ ([t] ++ x), pos, st⟩ =
      (.bad (.err (.invalidTerminator t (pos + b.length))), s') := by
  have e : ∀ (len : UInt32) (c : Bytes), pos + (u32B len ++ c).length = pos + 4 + c.length := by
    intro len c
    simp only [List.length_append, u32B_length]
    omega
  cases hb with
  | plain len ht =>
    rw [e, List.append_assoc]
    simp only [plainTypes, List.mem_cons, List.not_mem_nil, or_false] at ht
    rcases ht with rfl | rfl | rfl | rfl | rfl | rfl | rfl
    · exact read_of_kind (k := .str) rfl (plainEnd_wrong h)
    · exact read_of_kind (k := .text) rfl (plainEnd_wrong h)
    · exact read_of_kind (k := .object) rfl (plainEnd_wrong h)
    · exact read_of_kind (k := .delegate) rfl (plainEnd_wrong h)
    · exact read_of_kind (k := .multicastInlineDelegate) rfl (plainEnd_wrong h)
    · exact read_of_kind (k := .multicastSparseDelegate) rfl (plainEnd_wrong h)
    · exact read_of_kind (k := .fieldPath) rfl (plainEnd_wrong h)
  | name len idx =>
    rw [e, List.append_assoc]
    refine read_of_kind (k := .name) rfl ?_
    simp only [readKind, readNameProperty, if_true]
    rw [R.bind_ok (reads_u32 len _ _), R.bind_ok (reads_u32 idx _ _)]
    exact ⟨_, R.bind_bad (terminator_wrong h)⟩
  | one len ht hs =>
    rw [e, List.append_assoc]
    simp only [List.mem_cons, List.not_mem_nil, or_false] at ht
    rcases ht with rfl | rfl | rfl
    · refine read_of_kind (k := .enum) rfl ?_
      simp only [readKind, readEnumProperty, if_true]
      exact headerEnd_wrong (reads_str' hs) h
    · refine read_of_kind (k := .array) rfl ?_
      simp only [readKind, readArrayProperty, if_true]
      exact headerEnd_wrong (reads_str' hs) h
    · refine read_of_kind (k := .set) rfl ?_
      simp only [readKind, readSetProperty, if_true]
      exact headerEnd_wrong (reads_str' hs) h
  | two len h1 h2 =>
    rw [e, List.append_assoc]
    refine read_of_kind (k := .map) rfl ?_
    simp only [readKind, readMapProperty, if_true]
    exact headerEnd_wrong (a := (_, _)) ((reads_str' h1).bind (Reads.map (reads_str' h2))) h
  | struct len g hs =>
    rw [e, List.append_assoc]
    refine read_of_kind (k := .struct) rfl ?_
    simp only [readKind, readStructProperty, if_true]
    exact headerEnd_wrong (a := (_, _)) ((reads_str' hs).bind (Reads.map (reads_guid g))) h

theorem checkSize_right {w pos : Nat} {x : Bytes} {st : List String} (hw : w < 2 ^ 64) :
    checkSize w ⟨u64B (UInt64.ofNat w) ++ x, pos, st⟩ = (.ok (), ⟨x, pos + 8, st⟩) := by
  unfold checkSize
  have e : (UInt64.ofNat w).toNat = w := by simp [Nat.mod_eq_of_lt hw]
  rw [R.bind_ok (reads_u64 _ _ _), R.ensure_true e]
  rfl

theorem fixedEnd_wrong {α : Type} {m : R α} {f : α → R Property} {w pos : Nat} {t : UInt8} {x : Bytes}
    {st : List String} (hw : w < 2 ^ 64) (h : t ≠ 0) :
    ∃ s', (readFixed true w m >>= f) ⟨u64B (UInt64.ofNat w) ++ ([t] ++ x), pos, st⟩ =
      (.bad (.panic "assertion `left == right` failed"), s') := by
  unfold readFixed R.onlyIf
  rw [if_pos rfl]
  have e : (do checkSize w; readSeparator) ⟨u64B (UInt64.ofNat w) ++ ([t] ++ x), pos, st⟩ =
      (.bad (.panic "assertion `left == right` failed"), ⟨x, pos + 8 + 1, st⟩) := by
    rw [R.bind_ok (checkSize_right hw)]
    exact separator_wrong h
  exact ⟨_, R.bind_bad (R.bind_bad e)⟩

/-- Of the other types, reading does not return. -/
theorem assertedEnd_wrong {n : Nat} {ty : String} {t : UInt8} {b x : Bytes} {pos : Nat}
    {st : List String} (hb : Asserted ty b) (h : t ≠ 0) :
    ∃ s', Property.read env (n + 1) ty true none ⟨b ++ ([t] ++ x), pos, st⟩ =
      (.bad (.panic "assertion `left == right` failed"), s') := by
  cases hb with
  | byte len hs =>
    refine read_of_kind (k := .byte) rfl ?_
    simp only [readKind, readByteProperty, if_true]
    rw [List.append_assoc, R.bind_ok (reads_u32 len _ _), List.append_assoc,
      R.bind_ok (reads_assertedIndex _ _), R.bind_ok (reads_str' hs _ _)]
    exact ⟨_, R.bind_bad (separator_wrong h)⟩
  | unknown len ht =>
    have e : ∃ s', readUnknown ty true none ⟨u32B len ++ u32B 0 ++ ([t] ++ x), pos, st ++ [ty]⟩ =
        (.bad (.panic "assertion `left == right` failed"), s') := by
      simp only [readUnknown, if_true]
      rw [List.append_assoc, R.bind_ok (reads_u32 len _ _), R.bind_ok (reads_assertedIndex _ _)]
      exact ⟨_, R.bind_bad (separator_wrong h)⟩
    obtain ⟨s', e⟩ := e
    unfold Property.read Property.readStep R.withEntry
    rw [kind_none_iff.mpr ht]
    simp only [e]
    exact ⟨_, rfl⟩
  | number ht hne =>
    simp only [fixedWidths, List.mem_cons, Prod.mk.injEq, List.not_mem_nil, or_false] at ht
    rcases ht with ⟨rfl, rfl⟩ | ⟨rfl, rfl⟩ | ⟨rfl, rfl⟩ | ⟨rfl, rfl⟩ | ⟨rfl, rfl⟩ | ⟨rfl, rfl⟩ |
      ⟨rfl, rfl⟩ | ⟨rfl, rfl⟩ | ⟨rfl, rfl⟩ | ⟨rfl, rfl⟩
    · exact read_of_kind (k := .int8) rfl (fixedEnd_wrong (by decide) h)
    · exact read_of_kind (k := .int16) rfl (fixedEnd_wrong (by decide) h)
    · exact read_of_kind (k := .uint16) rfl (fixedEnd_wrong (by decide) h)
    · exact read_of_kind (k := .int) rfl (fixedEnd_wrong (by decide) h)
    · exact read_of_kind (k := .uint32) rfl (fixedEnd_wrong (by decide) h)
    · exact read_of_kind (k := .int64) rfl (fixedEnd_wrong (by decide) h)
    · exact read_of_kind (k := .uint64) rfl (fixedEnd_wrong (by decide) h)
    · exact read_of_kind (k := .float) rfl (fixedEnd_wrong (by decide) h)
    · exact read_of_kind (k := .double) rfl (fixedEnd_wrong (by decide) h)
    · exact absurd rfl hne
  | bool v =>
    refine read_of_kind (k := .bool) rfl ?_
    refine (fun ⟨s, hs⟩ => ⟨s, R.bind_bad hs⟩ : (∃ s', readBoolProperty true _ = (_, s')) → _) ?_
    unfold readBoolProperty R.onlyIf
    have e : ∀ x pos st, checkSize 0 ⟨u64B 0 ++ x, pos, st⟩ = (.ok (), ⟨x, pos + 8, st⟩) :=
      fun x pos st => checkSize_right (w := 0) (by decide)
    rw [if_pos rfl, List.append_assoc, R.bind_ok (e _ _ _), R.bind_ok (reads_boolByte v _ _)]
    exact ⟨_, R.bind_bad (separator_wrong h)⟩

theorem sized_split (parts body : Bytes) : sized parts body =
    (u32B (UInt32.ofNat body.length) ++ (u32B 0 ++ parts)) ++ [0] ++ body := by
  simp only [sized, List.append_assoc]

/-- Every header of a save is one of these, with a zero at its end. -/
theorem full_heading {st : List String} {ty : String} {c : Bytes} {q : Property}
    (h : Full env st ty c q) :
    ∃ hd tail, c = hd ++ [0] ++ tail ∧ (Heading ty hd ∨ Asserted ty hd) := by
  cases h with
  | number hm =>
    refine ⟨_, _, rfl, .inr (.number (number_width hm).1 ?_)⟩
    cases hm <;> decide
  | bool v => exact ⟨_, [], by simp, .inr (.bool v)⟩
  | byte n ht hd hv =>
    exact ⟨_, _, by simp only [List.append_assoc]; rfl, .inr (.byte n ht)⟩
  | plain hp hl =>
    refine ⟨_, _, by simp only [sized, List.append_nil]; rfl, .inl (.plain _ ?_)⟩
    cases hp <;> decide
  | enum ht hv => exact ⟨_, _, sized_split .., .inl (.one _ (by decide) ht)⟩
  | name idx hs => exact ⟨_, _, rfl, .inl (.name _ idx)⟩
  | struct g ht hv hl => exact ⟨_, _, sized_split .., .inl (.struct _ g ht)⟩
  | array ht => exact ⟨_, _, sized_split .., .inl (.one _ (by decide) ht)⟩
  | structs g ht => exact ⟨_, _, sized_split .., .inl (.one _ (by decide) ht)⟩
  | set fl ht => exact ⟨_, _, sized_split .., .inl (.one _ (by decide) ht)⟩
  | map fl h1 h2 => exact ⟨_, _, sized_split .., .inl (.two _ h1 h2)⟩
  | unknown b ht hl =>
    exact ⟨_, _, by simp only [sized, List.append_nil]; rfl, .inr (.unknown _ ht)⟩

end Gvas
