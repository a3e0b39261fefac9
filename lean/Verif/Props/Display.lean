import Verif.Lemmas.Display
import Verif.Spec.Sample
import Verif.Props.Versions

/-!
# C74 (messages of errors), C75 (engine versions as text), C76 (the table of engine versions)
-/

namespace Gvas

open Spec

/-! ## C74 -/

private theorem read_error (debug : Bool) (hints : String → Option String) (data : Bytes) (e : Err)
    (h : (readData debug hints data).1 = .err e) :
    (∀ a b c, e = .missingHint a b c → a = "StructProperty") ∧
      (∀ msg, e ≠ .serializeInvalidValue msg) ∧ e ≠ .io := by
  have := ((fails_closed debug hints).contents (K := 0) (Nat.le_refl (data.length + 1)) trivial
    (RS.init data) (Nat.zero_le _)).fails _ h
  exact ⟨fun a b c h => (this.2.1 a b c h).1, this.2.2⟩

private theorem append_right {a b c : String} (h : a ++ c = b ++ c) : a = b := by
  have := congrArg String.toList h
  simp only [String.toList_append] at this
  exact String.toList_inj.mp (List.append_cancel_right this)

private theorem num {a : String} {n n' p p' : Nat}
    (h : a ++ dec n ++ " at position " ++ hex p = a ++ dec n' ++ " at position " ++ hex p') :
    n = n' ∧ p = p' := by
  obtain ⟨e1, e2⟩ := split_position h
  exact ⟨dec_inj (append_left e1), e2⟩

private theorem text {a s s' : String} {p p' : Nat}
    (h : a ++ s ++ " at position " ++ hex p = a ++ s' ++ " at position " ++ hex p') :
    s = s' ∧ p = p' := by
  obtain ⟨e1, e2⟩ := split_position h
  exact ⟨append_left e1, e2⟩

private theorem enum_value {name name' : String} {v v' : Int}
    (h : name ++ "` matches the value `" ++ decInt v = name' ++ "` matches the value `" ++ decInt v') :
    name = name' ∧ v = v' := by
  have h := congrArg String.toList h
  have e : ∀ (a : String) v, (a ++ "` matches the value `" ++ decInt v).toList =
      (a.toList ++ "` matches the value ".toList) ++ '`' :: (decInt v).toList := fun a v => by
    simp only [String.toList_append, List.append_assoc]
    rfl
  rw [e, e] at h
  obtain ⟨e1, e2⟩ := split_last (fun h => (digits_decInt v _ h).2.2.1 rfl)
    (fun h => (digits_decInt v' _ h).2.2.1 rfl) h
  exact ⟨String.toList_inj.mp (List.append_cancel_right e1), decInt_inj e2⟩

/-- **C74**: two errors of reading with the same message are the same, up to where the type of a
missing hint ends and the path begins. -/
theorem C74_messages {e e' : Err} {m : String} (h : e.display = some m) (h' : e'.display = some m)
    (h1 : ∀ msg, e ≠ .serializeInvalidValue msg) (h2 : ∀ msg, e' ≠ .serializeInvalidValue msg) :
    e = e' ∨ ∃ s p s' p' pos, e = .missingHint s p pos ∧ e' = .missingHint s' p' pos ∧
      s ++ " at path " ++ p = s' ++ " at path " ++ p' := by
  have hk := same_kind h h' h1 h2
  have hm : e.display = e'.display := by rw [h, h']
  have hs : e.display ≠ none := by rw [h]; simp
  clear h h'
  cases e <;> cases e' <;> first
    | (exfalso; simp [kind] at hk; done)
    | exact absurd rfl (h1 _)
    | exact absurd rfl hs
    | exact .inl rfl
    | skip
  all_goals simp only [Err.display, Option.some.injEq] at hm
  · exact .inl (by rw [append_left hm])
  · obtain ⟨e1, rfl⟩ := split_position hm
    simp only [String.append_assoc] at e1
    have e1 := append_left e1
    obtain ⟨rfl, e2⟩ := split_dec (fun n => no_dec.1) ⟨_, rfl⟩ e1
    rw [dec_inj e2]
    exact .inl rfl
  · obtain ⟨e1, rfl⟩ := text hm
    rw [Int32.toInt_inj.mp (decInt_inj (congrArg _ e1))]
    exact .inl rfl
  · obtain ⟨e1, rfl⟩ := num hm
    rw [UInt16.toNat_inj.mp e1]
    exact .inl rfl
  · obtain ⟨e1, rfl⟩ := num hm
    rw [UInt32.toNat_inj.mp e1]
    exact .inl rfl
  · obtain ⟨e1, rfl⟩ := split_position hm
    simp only [String.append_assoc] at e1
    have e1 := append_left e1
    rw [← String.append_assoc, ← String.append_assoc] at e1
    exact .inr ⟨_, _, _, _, _, rfl, rfl, e1⟩
  · obtain ⟨rfl, rfl⟩ := text hm
    exact .inl rfl
  · obtain ⟨rfl, rfl⟩ := text hm
    exact .inl rfl
  · rw [show "` at position " = "`" ++ " at position " from rfl] at hm
    simp only [← String.append_assoc] at hm
    obtain ⟨e1, rfl⟩ := split_position hm
    have e1 := append_right e1
    simp only [String.append_assoc] at e1
    have e1 := append_left e1
    rw [← String.append_assoc, ← String.append_assoc] at e1
    obtain ⟨rfl, e2⟩ := enum_value e1
    rw [Int8.toInt_inj.mp e2]
    exact .inl rfl
  · obtain ⟨e1, rfl⟩ := num hm
    rw [UInt32.toNat_inj.mp e1]
    exact .inl rfl
  · obtain ⟨e1, rfl⟩ := num hm
    rw [UInt8.toNat_inj.mp e1]
    exact .inl rfl
  · rw [hex_inj (append_left hm)]
    exact .inl rfl
  · rw [hex_inj (append_left hm)]
    exact .inl rfl

/-- **C74**: whenever reading fails with an error, the error has a message, and from the message
one knows the error: two reads, whatever their data, hints and build profiles, that fail with the same
message fail with the same error, at the same position and with the same details. -/
theorem C74_message_tells_error (debug debug' : Bool) (hints hints' : String → Option String)
    (data data' : Bytes) (e e' : Err) (h : (readData debug hints data).1 = .err e)
    (h' : (readData debug' hints' data').1 = .err e') :
    (∃ m, e.display = some m) ∧ (e.display = e'.display → e = e') := by
  obtain ⟨a1, a2, a3⟩ := read_error _ _ _ _ h
  obtain ⟨b1, b2, b3⟩ := read_error _ _ _ _ h'
  have hd : ∃ m, e.display = some m := by
    cases e <;> first | exact ⟨_, rfl⟩ | exact absurd rfl a3
  refine ⟨hd, fun he => ?_⟩
  obtain ⟨m, hm⟩ := hd
  rcases C74_messages hm (he ▸ hm) a2 b2 with rfl | ⟨s, p, s', p', pos, rfl, rfl, e1⟩
  · rfl
  · obtain rfl := a1 _ _ _ rfl
    obtain rfl := b1 _ _ _ rfl
    rw [append_left e1]

/-- **C74** does not hold of made-up errors: here the path of one is part of the type of the
other. -/
theorem C74_made_up_errors :
    (Err.missingHint "A at path B" "C" 0).display = (Err.missingHint "A" "B at path C" 0).display :=
  rfl

-- two messages as they appear
example : (Err.invalidValueSize 4 8 255).display =
    some "Invalid value size, expected 4 got 8 at position 0xff" ∧
    (Err.invalidEnumValue "E" (-3) 16).display =
    some "No discriminant in enum `E` matches the value `-3` at position 0x10" := by decide +kernel

example : ∃ e, (readData true noHints []).1 = .err e := ⟨.eof, by rfl⟩

/-! ## C75 -/

/-- **C75**: the text of an engine version determines it. -/
theorem C75_engine_version_text (v v' : FEngineVersion) (h : v.display = v'.display) : v = v' := by
  obtain ⟨a, b, c, d, e⟩ := v
  obtain ⟨a', b', c', d', e'⟩ := v'
  simp only [FEngineVersion.display, String.append_assoc] at h
  obtain ⟨h1, h⟩ := split_dec (fun n => no_dec.2.1) ⟨_, rfl⟩ h
  obtain ⟨h2, h⟩ := split_dec (fun n => no_dec.2.1) ⟨_, rfl⟩ h
  obtain ⟨h3, h⟩ := split_dec (fun n => no_dec.2.2.1) ⟨_, rfl⟩ h
  obtain ⟨h4, h⟩ := split_dec (fun n => no_dec.2.2.2) ⟨_, rfl⟩ h
  rw [UInt16.toNat_inj.mp h1, UInt16.toNat_inj.mp h2, UInt16.toNat_inj.mp h3,
    UInt32.toNat_inj.mp h4, h]

example : (FEngineVersion.mk 4 27 2 18319896 "++UE4+Release-4.27").display =
    "4.27.2-18319896+++++UE4+Release-4.27" := by decide +kernel

/-! ## C76 -/

/-- **C76 is false**: the table gives the version after the newest one a smaller number than the
newest one. -/
theorem C76_false : ∃ a b x y, (a, x) ∈ FEditorObjectVersion.versionMappings ∧
    (b, y) ∈ FEditorObjectVersion.versionMappings ∧ a.ctorIdx < b.ctorIdx ∧ y < x :=
  ⟨.VER_UE4_AUTOMATIC_VERSION, .VER_UE4_AUTOMATIC_VERSION_PLUS_ONE, 42, 41, by decide, by decide,
    by decide, by decide⟩

/-- **C76, what does hold**: the table has every engine version at most once, and apart from that
one pair a later engine version has a larger number.  Missing: that pair. -/
theorem C76_table_partial :
    (FEditorObjectVersion.versionMappings.map Prod.fst).Nodup ∧
    ∀ e ∈ FEditorObjectVersion.versionMappings, ∀ e' ∈ FEditorObjectVersion.versionMappings,
      (e.1.ctorIdx < e'.1.ctorIdx ↔ e.2 < e'.2) ∨
      ([e.1, e'.1] ⊆
        [.VER_UE4_AUTOMATIC_VERSION, .VER_UE4_AUTOMATIC_VERSION_PLUS_ONE]) := by
  decide +kernel

/-- **C76**: the numbers, as counted in the declaration of the enum in `src/custom_version.rs`:
no other engine version has an entry. -/
theorem C76_numbers (v : EngineVersion) (n : Nat) :
    (v, n) ∈ FEditorObjectVersion.versionMappings ↔
      (v, n) ∈ [(.VER_UE4_OLDEST_LOADABLE_PACKAGE, 0), (.VER_UE4_12, 2), (.VER_UE4_13, 6),
        (.VER_UE4_14, 9), (.VER_UE4_15, 14), (.VER_UE4_16, 17), (.VER_UE4_17, 20),
        (.VER_UE4_19, 23), (.VER_UE4_20, 24), (.VER_UE4_21, 26), (.VER_UE4_22, 30),
        (.VER_UE4_23, 34), (.VER_UE4_24, 37), (.VER_UE4_25, 38), (.VER_UE4_26, 40),
        (.VER_UE4_AUTOMATIC_VERSION_PLUS_ONE, 41), (.VER_UE4_AUTOMATIC_VERSION, 42)] := by
  rw [← List.mem_reverse]
  exact Iff.rfl

example : (EngineVersion.VER_UE4_20, 24) ∈ FEditorObjectVersion.versionMappings ∧
    (EngineVersion.VER_UE4_18, 23) ∉ FEditorObjectVersion.versionMappings := by decide

end Gvas
