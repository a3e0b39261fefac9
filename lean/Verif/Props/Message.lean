import Verif.Spec.Message
import Verif.Props.Display

/-!
# C74 and C75: messages and engine versions, letter by letter
-/

namespace Gvas

open Spec

theorem hexadecimal (n : Nat) : Hexadecimal (Nat.toDigits 16 n) n := by
  have digit : ∀ d < 16, "0123456789abcdef".toList[d]? = some (Nat.digitChar d) := by decide
  induction n using Nat.strongRecOn with
  | _ n ih =>
    rw [Nat.toDigits_eq_if (by omega)]
    split
    · exact .one (digit n (by assumption))
    · have := Hexadecimal.more (ih (n / 16) (by omega)) (by omega) (digit (n % 16) (by omega))
      rwa [show 16 * (n / 16) + n % 16 = n by omega] at this

private theorem shown_dec (n : Nat) : (Argument.number n).Shown (dec n).toList := by
  obtain ⟨t, h, e⟩ := decInt_numeral n
  have : decInt n = dec n := by simp [decInt]
  rw [← this, e, String.toList_ofList]
  exact .number h

private theorem shown_int (v : Int) : (Argument.number v).Shown (decInt v).toList := by
  obtain ⟨t, h, e⟩ := decInt_numeral v
  rw [e, String.toList_ofList]
  exact .number h

private theorem filled_text {args : List Argument} {l t m : List Char} (hl : '{' ∉ l)
    (h : Filled args t m) : Filled args (l ++ t) (l ++ m) := by
  induction l with
  | nil => exact h
  | cons c l ih =>
    simp only [List.mem_cons, not_or] at hl
    exact .letter (fun e => hl.1 e.symm) (ih hl.2)

private theorem filled_end {args : List Argument} {l : List Char} (hl : '{' ∉ l) :
    Filled args l l := by
  simpa using filled_text hl (.done (args := args))

private theorem filled_hex {args : List Argument} {c : Char} {n p : Nat}
    (hc : "01234".toList[n]? = some c) (ha : args[n]? = some (.number p)) :
    Filled args ['{', c, ':', '#', 'x', '}'] (hex p).toList := by
  have := Filled.hexadecimal hc ha (hexadecimal p) .done
  rw [hex, String.toList_append, String.toList_ofList]
  simpa using this

/-- **C74**: the messages are those of the source, with the details of the error filled in where the
template says: texts as they are, numbers in decimal, positions in hexadecimal. -/
theorem C74_texts (e : Err) :
    match message e with
    | some (template, args) => ∃ m, e.display = some m ∧ Filled args template.toList m.toList
    | none => e.display = none := by
  cases e with
  | io => rfl
  | eof => exact ⟨_, rfl, filled_end (by decide)⟩
  | invalidHeader s =>
    refine ⟨_, rfl, ?_⟩
    rw [String.toList_append]
    have := Filled.shown (args := [.text s]) (n := 0) (c := '0') rfl rfl (.text s) .done
    rw [List.append_nil] at this
    exact filled_text (l := "Invalid header: ".toList) (by decide) this
  | serializeInvalidValue s =>
    refine ⟨_, rfl, ?_⟩
    rw [String.toList_append]
    have := Filled.shown (args := [.text s]) (n := 0) (c := '0') rfl rfl (.text s) .done
    rw [List.append_nil] at this
    exact filled_text (l := "Invalid value ".toList) (by decide) this
  | fromUtf16 p =>
    refine ⟨_, rfl, ?_⟩
    rw [String.toList_append]
    exact filled_text (l := "Invalid UTF-16 string at position ".toList) (by decide)
      (filled_hex (n := 1) (c := '1') rfl rfl)
  | fromUtf8 p =>
    refine ⟨_, rfl, ?_⟩
    rw [String.toList_append]
    exact filled_text (l := "Invalid UTF-8 string at position ".toList) (by decide)
      (filled_hex (n := 1) (c := '1') rfl rfl)
  | invalidValueSize a b p =>
    refine ⟨_, rfl, ?_⟩
    simp only [String.toList_append, List.append_assoc]
    exact filled_text (l := "Invalid value size, expected ".toList) (by decide)
      (.shown (n := 0) (c := '0') rfl rfl (shown_dec a)
        (filled_text (l := " got ".toList) (by decide)
          (.shown (n := 1) (c := '1') rfl rfl (shown_dec b)
            (filled_text (l := " at position ".toList) (by decide)
              (filled_hex (n := 2) (c := '2') rfl rfl)))))
  | missingHint s h p =>
    refine ⟨_, rfl, ?_⟩
    simp only [String.toList_append, List.append_assoc]
    exact filled_text (l := "Missing hint for struct ".toList) (by decide)
      (.shown (n := 0) (c := '0') rfl rfl (.text s)
        (filled_text (l := " at path ".toList) (by decide)
          (.shown (n := 1) (c := '1') rfl rfl (.text h)
            (filled_text (l := " at position ".toList) (by decide)
              (filled_hex (n := 2) (c := '2') rfl rfl)))))
  | invalidEnumValue s v p =>
    refine ⟨_, rfl, ?_⟩
    simp only [String.toList_append, List.append_assoc]
    exact filled_text (l := "No discriminant in enum `".toList) (by decide)
      (.shown (n := 0) (c := '0') rfl rfl (.text s)
        (filled_text (l := "` matches the value `".toList) (by decide)
          (.shown (n := 1) (c := '1') rfl rfl (shown_int _)
            (filled_text (l := "` at position ".toList) (by decide)
              (filled_hex (n := 2) (c := '2') rfl rfl)))))
  | invalidString v p =>
    refine ⟨_, rfl, ?_⟩
    simp only [String.toList_append, List.append_assoc]
    exact filled_text (l := "Invalid string size ".toList) (by decide)
      (.shown (n := 0) (c := '0') rfl rfl (shown_int _)
        (filled_text (l := " at position ".toList) (by decide)
          (filled_hex (n := 1) (c := '1') rfl rfl)))
  | invalidStringTerminator v p =>
    refine ⟨_, rfl, ?_⟩
    simp only [String.toList_append, List.append_assoc]
    exact filled_text (l := "Invalid string terminator ".toList) (by decide)
      (.shown (n := 0) (c := '0') rfl rfl (shown_dec _)
        (filled_text (l := " at position ".toList) (by decide)
          (filled_hex (n := 1) (c := '1') rfl rfl)))
  | invalidBoolean v p =>
    refine ⟨_, rfl, ?_⟩
    simp only [String.toList_append, List.append_assoc]
    exact filled_text (l := "Invalid boolean value ".toList) (by decide)
      (.shown (n := 0) (c := '0') rfl rfl (shown_dec _)
        (filled_text (l := " at position ".toList) (by decide)
          (filled_hex (n := 1) (c := '1') rfl rfl)))
  | missingArgument s p =>
    refine ⟨_, rfl, ?_⟩
    simp only [String.toList_append, List.append_assoc]
    exact filled_text (l := "Missing argument: ".toList) (by decide)
      (.shown (n := 0) (c := '0') rfl rfl (.text s)
        (filled_text (l := " at position ".toList) (by decide)
          (filled_hex (n := 1) (c := '1') rfl rfl)))
  | invalidProperty s p =>
    refine ⟨_, rfl, ?_⟩
    simp only [String.toList_append, List.append_assoc]
    exact filled_text (l := "Invalid property ".toList) (by decide)
      (.shown (n := 0) (c := '0') rfl rfl (.text s)
        (filled_text (l := " at position ".toList) (by decide)
          (filled_hex (n := 1) (c := '1') rfl rfl)))
  | invalidArrayIndex v p =>
    refine ⟨_, rfl, ?_⟩
    simp only [String.toList_append, List.append_assoc]
    exact filled_text (l := "Unexpected array_index value ".toList) (by decide)
      (.shown (n := 0) (c := '0') rfl rfl (shown_dec _)
        (filled_text (l := " at position ".toList) (by decide)
          (filled_hex (n := 1) (c := '1') rfl rfl)))
  | invalidTerminator v p =>
    refine ⟨_, rfl, ?_⟩
    simp only [String.toList_append, List.append_assoc]
    exact filled_text (l := "Unexpected terminator value ".toList) (by decide)
      (.shown (n := 0) (c := '0') rfl rfl (shown_dec _)
        (filled_text (l := " at position ".toList) (by decide)
          (filled_hex (n := 1) (c := '1') rfl rfl)))

/-- **C75**: the text of an engine version is its numbers and its branch in this order
(`src/engine_version.rs` 29). -/
theorem C75_engine_version_letters (v : FEngineVersion) :
    Filled [.number v.major.toNat, .number v.minor.toNat, .number v.patch.toNat,
        .number v.changeList.toNat, .text v.branch] "{0}.{1}.{2}-{3}+++{4}".toList
      v.display.toList := by
  simp only [FEngineVersion.display, String.toList_append, List.append_assoc]
  have := Filled.shown (args := [.number v.major.toNat, .number v.minor.toNat, .number v.patch.toNat,
        .number v.changeList.toNat, .text v.branch]) (n := 4) (c := '4') rfl rfl (.text v.branch) .done
  rw [List.append_nil] at this
  exact .shown (n := 0) (c := '0') rfl rfl (shown_dec _)
    (filled_text (l := ".".toList) (by decide)
      (.shown (n := 1) (c := '1') rfl rfl (shown_dec _)
        (filled_text (l := ".".toList) (by decide)
          (.shown (n := 2) (c := '2') rfl rfl (shown_dec _)
            (filled_text (l := "-".toList) (by decide)
              (.shown (n := 3) (c := '3') rfl rfl (shown_dec _)
                (filled_text (l := "+++".toList) (by decide) this)))))))

/-! ## Concrete cases -/

/-- A missing hint. -/
example : ∃ m, (Err.missingHint "StructProperty" "A.B" 255).display = some m ∧
    m = "Missing hint for struct StructProperty at path A.B at position 0xff" ∧
    Filled [.text "StructProperty", .text "A.B", .number 255]
      "Missing hint for struct {0} at path {1} at position {2:#x}".toList m.toList := by
  obtain ⟨m, h1, h2⟩ := C74_texts (.missingHint "StructProperty" "A.B" 255)
  exact ⟨m, h1, Option.some.inj (h1.symm.trans (by decide +kernel)), h2⟩

/-- The relation fixes the text: with the arguments the other way round the message does not fit. -/
example : ¬ Filled [.text "a", .text "b"] "{0} {1}".toList "b a".toList := by
  intro h
  have h : Filled [.text "a", .text "b"] ['{', '0', '}', ' ', '{', '1', '}'] ['b', ' ', 'a'] := h
  generalize hm : ['b', ' ', 'a'] = m at h
  cases h with
  | letter hc _ => exact hc rfl
  | @shown _ n _ _ _ _ h1 h2 h3 _ =>
    have hn : n = 0 := by
      rcases n with _ | _ | n
      · rfl
      · exact absurd (Option.some.inj h1) (by decide)
      · simp at h2
    subst hn
    cases h2
    cases h3
    exact absurd (List.cons.inj hm).1 (by decide)

end Gvas
