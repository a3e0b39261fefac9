import Verif.Lemmas.Count
import Verif.Model.Writers
import Verif.Lemmas.Header

/-!
# C06, C44: reported byte counts, and writers that take less than offered
-/

namespace Gvas

open Spec

/-! ## C06 -/

/-- **C06 is false**: the count `write_string` returns for an ASCII string is not the number of
bytes written: it is too large by the length of the string plus one. -/
theorem C06_ascii_count_wrong (s : String) (h : isAscii s.toList = true) :
    (writeString s).n = (writeString s).bytes.length + (s.toList.length + 1) ∧
      (writeString s).n ≠ (writeString s).bytes.length := by
  have e : (writeString s).n = (s.toList.length + 1) * 2 + 4 := by simp [writeString, h]
  have hl : (writeString s).bytes.length = s.toList.length + 5 := by
    rw [writeString_length, strBytes,
      if_pos (show s.toList.all (fun c => decide (c.toNat < 128)) = true from h), strUnits_ascii h]
  omega

/-- **C06 is false** for properties and headers too: the counts of an integer property, of a name
property and of a header. -/
theorem C06_counts_wrong :
    (∃ p o, Property.write [] true p = .ok o ∧ o.n > o.bytes.length) ∧
    (∃ p o, Property.write [] true p = .ok o ∧ o.n < o.bytes.length) ∧
    (∃ h : GvasHeader, h.write.n ≠ h.write.bytes.length) :=
  ⟨⟨.int 5, _, rfl, by decide⟩, ⟨.name 0 none, _, rfl, by decide⟩,
   ⟨.version2 0x205 ⟨4, 27, 0, 0, ""⟩ 3 [] "", by decide⟩⟩

/-- **C06, what does hold**: for the null string and for strings that are not ASCII the count is
right. Missing: ASCII strings and everything that contains one. -/
theorem C06_wide_count_partial (s : Option String)
    (h : ∀ t, s = some t → ¬ t.toList.all (fun c => decide (c.toNat < 128)) = true) :
    (writeFString s).n = (writeFString s).bytes.length := by
  cases s with
  | none => decide
  | some t =>
    have h := h t rfl
    rw [writeFString, writeString_length, strBytes, if_neg h, strUnits_wide h]
    simp only [writeString]
    rw [if_neg (show ¬ isAscii t.toList = true from h)]
    simp only []
    omega

/-- **C06, what does hold**: bodies without strings have the right count. Missing: as above. -/
theorem C06_scalar_body_partial :
    (∀ v, ∃ o, Property.write [] false (.int8 v) = .ok o ∧ o.n = o.bytes.length) ∧
    (∀ v, ∃ o, Property.write [] false (.int16 v) = .ok o ∧ o.n = o.bytes.length) ∧
    (∀ v, ∃ o, Property.write [] false (.uint16 v) = .ok o ∧ o.n = o.bytes.length) ∧
    (∀ v, ∃ o, Property.write [] false (.int v) = .ok o ∧ o.n = o.bytes.length) ∧
    (∀ v, ∃ o, Property.write [] false (.uint32 v) = .ok o ∧ o.n = o.bytes.length) ∧
    (∀ v, ∃ o, Property.write [] false (.int64 v) = .ok o ∧ o.n = o.bytes.length) ∧
    (∀ v, ∃ o, Property.write [] false (.uint64 v) = .ok o ∧ o.n = o.bytes.length) ∧
    (∀ v, ∃ o, Property.write [] false (.float v) = .ok o ∧ o.n = o.bytes.length) ∧
    (∀ v, ∃ o, Property.write [] false (.double v) = .ok o ∧ o.n = o.bytes.length) ∧
    (∀ v, ∃ o, Property.write [] false (.bool v) = .ok o ∧ o.n = o.bytes.length) := by
  refine ⟨fun v => ⟨_, by rw [Property.write], ?_⟩, fun v => ⟨_, by rw [Property.write], ?_⟩,
    fun v => ⟨_, by rw [Property.write], ?_⟩, fun v => ⟨_, by rw [Property.write], ?_⟩,
    fun v => ⟨_, by rw [Property.write], ?_⟩, fun v => ⟨_, by rw [Property.write], ?_⟩,
    fun v => ⟨_, by rw [Property.write], ?_⟩, fun v => ⟨_, by rw [Property.write], ?_⟩,
    fun v => ⟨_, by rw [Property.write], ?_⟩, fun v => ⟨_, by rw [Property.write], ?_⟩⟩ <;>
  first | rfl | simp [headed, writeBoolProperty, i8B_length, boolB_length]

example : ¬ "é".toList.all (fun c => decide (c.toNat < 128)) = true ∧
    (writeString "é").n = 8 ∧ (writeString "é").bytes.length = 8 := by decide

/-- **C06, what does hold**, for every property: how far the count is off.  Missing: the count
is the number of bytes, which is so exactly where `countOver` is zero. -/
theorem C06_property_count_partial (cv : List (Guid × UInt32)) (h : Bool) (p : Property) (o : Out)
    (hw : Property.write cv h p = .ok o) :
    (o.n : Int) = o.bytes.length + countOver (cultureInvariant cv) h p := by
  have := property_dev cv h p o hw
  rw [Out.dev] at this
  omega

/-- **C06, what does hold**, for every header: the count is off by its two strings; it is right
exactly if neither is ASCII.  Missing: headers with an ASCII string. -/
theorem C06_header_count_partial (h : GvasHeader) :
    (h.write.n : Int) = h.write.bytes.length + headerOver h := by
  have := header_dev h
  rw [Out.dev] at this
  omega

/-- A struct with two gameplay tags: 2 - 4 for the number of tags, and `a`, `bc` with their
terminators; with a header, `StructProperty` and the type name as well. -/
example : countOver false false (.struct ⟨List.replicate 16 0, rfl⟩ "T" (.gameplayTagContainer ["a", "bc"])) = 3 ∧
    countOver false true (.struct ⟨List.replicate 16 0, rfl⟩ "T" (.gameplayTagContainer ["a", "bc"])) = 20 ∧
    ∃ o, Property.write [] true (.struct ⟨List.replicate 16 0, rfl⟩ "T"
      (.gameplayTagContainer ["a", "bc"])) = .ok o ∧ o.n = o.bytes.length + 20 := by
  refine ⟨by decide +kernel, by decide +kernel, _, rfl, by decide +kernel⟩

/-- A header whose two strings are not ASCII is counted right. -/
example : headerOver (.version2 0x205 ⟨4, 27, 0, 0, "é"⟩ 3 [] "é") = 0 := by decide +kernel

/-! ## C44 -/

/-- **C44 is false**: a writer that takes at most four bytes per call (a pipe, say) gets a
truncated ASCII string and `Ok` is returned. -/
theorem C44_ok_but_not_delivered :
    ∃ (s : String) (w w' : ShortWriter), writeStringTo s w = (.ok (), w') ∧
      w'.data.length < w.data.length + (writeString s).bytes.length :=
  ⟨"hello", ⟨[], 4, 100⟩, _, rfl, by decide⟩

/-- `write_all` that returns `Ok` has delivered everything. -/
theorem writeAll_ok {w w' : ShortWriter} {bs : Bytes} (h : w.writeAll bs = (.ok (), w')) :
    w'.data = w.data ++ bs ∧ w'.chunk = w.chunk ∧ w'.room + bs.length = w.room := by
  have : ∀ n (w w' : ShortWriter) (bs : Bytes), ShortWriter.writeAllN n w bs = (.ok (), w') →
      w'.data = w.data ++ bs ∧ w'.chunk = w.chunk ∧ w'.room + bs.length = w.room := by
    intro n
    induction n with
    | zero =>
      intro w w' bs h
      cases bs with
      | nil => simp [ShortWriter.writeAllN] at h; subst h; simp
      | cons b bs => simp [ShortWriter.writeAllN] at h
    | succ n ih =>
      intro w w' bs h
      cases bs with
      | nil => simp [ShortWriter.writeAllN] at h; subst h; simp
      | cons b bs =>
        rw [ShortWriter.writeAllN] at h
        · split at h
          · simp at h
          · rename_i k w1 hk hw
            simp only [ShortWriter.write, Prod.mk.injEq] at hw
            obtain ⟨rfl, rfl⟩ := hw
            obtain ⟨h1, h2, h3⟩ := ih _ _ _ h
            refine ⟨?_, h2, ?_⟩
            · rw [h1]; simp [List.append_assoc, List.take_append_drop]
            · simp only [List.length_drop] at h3 ⊢
              omega
        · simp
  exact this _ _ _ _ h

/-- `write_all` succeeds when the writer takes at least a byte per call and has room. -/
theorem writeAll_room {w : ShortWriter} {bs : Bytes} (hc : 0 < w.chunk) (hr : bs.length ≤ w.room) :
    ∃ w', w.writeAll bs = (.ok (), w') := by
  have : ∀ n (w : ShortWriter) (bs : Bytes), 0 < w.chunk → bs.length ≤ w.room → bs.length ≤ n →
      ∃ w', ShortWriter.writeAllN n w bs = (.ok (), w') := by
    intro n
    induction n with
    | zero =>
      intro w bs hc hr hn
      cases bs with
      | nil => exact ⟨w, rfl⟩
      | cons => simp at hn
    | succ n ih =>
      intro w bs hc hr hn
      cases bs with
      | nil => exact ⟨w, rfl⟩
      | cons b bs =>
        rw [ShortWriter.writeAllN]
        · split
          · rename_i w1 hw
            simp only [ShortWriter.write, Prod.mk.injEq] at hw
            simp only [List.length_cons] at hw hr
            omega
          · rename_i k w1 hk hw
            simp only [ShortWriter.write, Prod.mk.injEq] at hw
            obtain ⟨rfl, rfl⟩ := hw
            apply ih
            · exact hc
            · simp only [List.length_drop]; omega
            · simp only [List.length_drop, List.length_cons] at *; omega
        · simp
  exact this _ _ _ hc hr (Nat.le_refl _)

private theorem andThen_ok {r : Res Unit × ShortWriter} {k : ShortWriter → Res Unit × ShortWriter}
    {w' : ShortWriter} (h : andThen r k = (.ok (), w')) :
    ∃ w1, r = (.ok (), w1) ∧ k w1 = (.ok (), w') := by
  obtain ⟨r, w1⟩ := r
  cases r with
  | ok u => exact ⟨w1, rfl, h⟩
  | bad f => simp [andThen] at h

private theorem fold_ok (ws : List UInt16) (r : Res Unit × ShortWriter) (w' : ShortWriter)
    (h : ws.foldl (fun r u => andThen r fun w => w.writeAll (u16B u)) r = (.ok (), w')) :
    ∃ w1, r = (.ok (), w1) ∧ w'.data = w1.data ++ u16sToBytes ws := by
  induction ws generalizing r with
  | nil => exact ⟨w', h, by simp [u16sToBytes]⟩
  | cons u ws ih =>
    rw [List.foldl_cons] at h
    obtain ⟨w2, h1, h2⟩ := ih _ h
    obtain ⟨w1, h3, h4⟩ := andThen_ok h1
    refine ⟨w1, h3, ?_⟩
    rw [h2, (writeAll_ok h4).1]
    simp [u16sToBytes, u16B]

/-- **C44, what does hold**: strings that are not ASCII, on every writer; and ASCII strings on a
writer that takes whatever fits (no limit per call) and has room.  Missing: ASCII strings on
writers that perform short writes or run full, where the claim is false. -/
theorem C44_delivered_partial (s : String) (w w' : ShortWriter)
    (h : writeStringTo s w = (.ok (), w'))
    (hs : ¬ s.toList.all (fun c => decide (c.toNat < 128)) = true ∨
      (s.toList.length + 5 ≤ w.chunk ∧ s.toList.length + 5 ≤ w.room)) :
    w'.data = w.data ++ (writeString s).bytes := by
  unfold writeStringTo at h
  by_cases ha : isAscii s.toList = true
  · rw [if_pos ha] at h
    rcases hs with hs | ⟨hc, hr⟩
    · exact absurd ha hs
    obtain ⟨w1, h1, h2⟩ := andThen_ok h
    obtain ⟨g1, g2, g3⟩ := writeAll_ok h1
    simp only [Prod.mk.injEq, true_and] at h2
    subst h2
    rw [i32B_length] at g3
    have hl := utf8Encode_ascii_length _ ha
    rw [writeString_ascii ha, strUnits_ascii ha]
    simp only [ShortWriter.write, g1, List.length_cons, List.length_nil]
    rw [List.take_of_length_le (by omega), List.take_of_length_le (by
      simp only [List.length_cons, List.length_nil]; omega)]
    simp only [List.append_assoc]
  · rw [if_neg ha] at h
    obtain ⟨w1, h1, h2⟩ := andThen_ok h
    obtain ⟨w2, h3, h4⟩ := andThen_ok h2
    obtain ⟨w3, h5, h6⟩ := fold_ok _ _ _ h3
    simp only [Prod.mk.injEq, true_and] at h5
    subst h5
    rw [(writeAll_ok h4).1, h6, (writeAll_ok h1).1, writeString_wide ha, strUnits_wide ha]
    simp only [List.append_assoc]

/-- `write_all` succeeds only if the writer has room, and takes bytes at all. -/
private theorem writeAll_iff {w : ShortWriter} {bs : Bytes} (hb : bs ≠ []) :
    (∃ w', w.writeAll bs = (.ok (), w')) ↔ 0 < w.chunk ∧ bs.length ≤ w.room := by
  constructor
  · rintro ⟨w', h⟩
    have h3 := (writeAll_ok h).2.2
    refine ⟨?_, by omega⟩
    refine Nat.pos_of_ne_zero fun hc => ?_
    obtain ⟨b, bs, rfl⟩ := List.exists_cons_of_ne_nil hb
    rw [ShortWriter.writeAll, List.length_cons, ShortWriter.writeAllN] at h
    · simp [ShortWriter.write, hc] at h
    · simp
  · rintro ⟨h1, h2⟩; exact writeAll_room h1 h2

/-- **C44**, exactly when an ASCII string is reported written: as soon as its length went out,
whatever became of the characters.  Missing: that the string has been delivered, which is false
(`C44_ok_but_not_delivered`). -/
theorem C44_ascii_ok_iff_partial (s : String) (w : ShortWriter)
    (hs : s.toList.all (fun c => decide (c.toNat < 128)) = true) :
    (∃ w', writeStringTo s w = (.ok (), w')) ↔ 1 ≤ w.chunk ∧ 4 ≤ w.room := by
  have hw : (∃ w', writeStringTo s w = (.ok (), w')) ↔
      ∃ w', w.writeAll (i32B (Int32.ofNat (s.toList.length + 1))) = (.ok (), w') := by
    unfold writeStringTo
    rw [if_pos (show isAscii s.toList = true from hs)]
    constructor
    · rintro ⟨w', h⟩
      obtain ⟨w1, h1, -⟩ := andThen_ok h
      exact ⟨w1, h1⟩
    · rintro ⟨w', h⟩
      rw [h]
      exact ⟨_, rfl⟩
  rw [hw, writeAll_iff (by intro h; have := congrArg List.length h; simp [i32B_length] at this),
    i32B_length]
  exact Iff.rfl

/-- **C44**, exactly when a string reported written has been delivered: always if it is not ASCII;
otherwise if the writer takes the characters in one call and has room for all of it.  Missing: the
other ASCII strings, for which the claim is false. -/
theorem C44_delivered_iff_partial (s : String) (w w' : ShortWriter)
    (h : writeStringTo s w = (.ok (), w')) :
    w'.data = w.data ++ (writeString s).bytes ↔
      ¬ s.toList.all (fun c => decide (c.toNat < 128)) = true ∨
        (s.toList.length ≤ w.chunk ∧ s.toList.length + 5 ≤ w.room) := by
  by_cases ha : s.toList.all (fun c => decide (c.toNat < 128)) = true
  · obtain ⟨hc1, -⟩ := (C44_ascii_ok_iff_partial s w ha).mp ⟨w', h⟩
    have ha' : isAscii s.toList = true := ha
    unfold writeStringTo at h
    rw [if_pos ha'] at h
    obtain ⟨w1, h1, h2⟩ := andThen_ok h
    obtain ⟨g1, g2, g3⟩ := writeAll_ok h1
    simp only [Prod.mk.injEq, true_and] at h2
    subst h2
    rw [i32B_length] at g3
    have hl := utf8Encode_ascii_length _ ha'
    rw [writeString_ascii ha', strUnits_ascii ha']
    simp only [ha, not_true_eq_false, false_or]
    constructor
    · intro hd
      have := congrArg List.length hd
      simp only [ShortWriter.write, g1, List.length_append, List.length_take, hl, i32B_length,
        List.length_cons, List.length_nil] at this
      omega
    · rintro ⟨hc, hr⟩
      simp only [ShortWriter.write, g1, List.length_cons, List.length_nil]
      rw [List.take_of_length_le (by omega), List.take_of_length_le (by
        simp only [List.length_cons, List.length_nil]; omega)]
      simp only [List.append_assoc]
  · exact iff_of_true (C44_delivered_partial s w w' h (.inl ha)) (.inl ha)

/-- Five bytes per call are enough for `hello`, four are not. -/
example : (∃ w', writeStringTo "hello" ⟨[], 5, 10⟩ = (.ok (), w') ∧
      w'.data = (writeString "hello").bytes) ∧
    (∃ w', writeStringTo "hello" ⟨[], 4, 10⟩ = (.ok (), w') ∧
      w'.data ≠ (writeString "hello").bytes) ∧
    ¬ ∃ w', writeStringTo "hello" ⟨[], 4, 3⟩ = (.ok (), w') := by
  refine ⟨⟨_, rfl, by decide⟩, ⟨_, rfl, by decide⟩, ?_⟩
  rw [C44_ascii_ok_iff_partial _ _ (by decide)]
  simp

/-- A writer that takes a byte at a time gets all of a string that is not ASCII. -/
example : ∃ w', writeStringTo "é" ⟨[], 1, 100⟩ = (.ok (), w') ∧
    w'.data = (writeString "é").bytes := ⟨_, rfl, by decide⟩

end Gvas
