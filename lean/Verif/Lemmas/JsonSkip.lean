import Verif.Lemmas.JsonText
import Verif.Spec.JsonDirect

/-!
# Lemmas: skipped values and the outermost value in JSON text
-/

namespace Gvas.Text

open Spec Spec.Rfc8259

/-! ## Strings -/

theorem escape_mem (e : Char) :
    e ∈ ['"', '\\', '/', 'b', 'f', 'n', 'r', 't'] ↔ ∃ c, (e, c) ∈ escapes := by
  simp only [escapes, List.mem_cons, Prod.mk.injEq, List.not_mem_nil, or_false]
  constructor
  · rintro (h | h | h | h | h | h | h | h) <;> subst h <;> simp
  · rintro ⟨c, h | h | h | h | h | h | h | h⟩ <;> simp [h.1]

theorem skipChars_sound : ∀ (n : Nat) {cs r : List Char}, skipChars n cs = some r →
    ∃ t, cs = t ++ '"' :: r ∧ CharsForm t := by
  intro n
  induction n with
  | zero => intro cs r h; cases h
  | succ n ih =>
    intro cs r h
    cases cs with
    | nil => cases h
    | cons c cs =>
      unfold skipChars at h
      split at h
      · rename_i hc
        subst hc
        cases h
        exact ⟨[], rfl, .nil⟩
      · rename_i hq
        split at h
        · rename_i hc
          subst hc
          split at h
          · cases h
          · rename_i e r'
            split at h
            · rename_i he
              subst he
              simp only [Option.bind_eq_bind, Option.bind_eq_some_iff, Prod.exists] at h
              obtain ⟨m, r1, h1, h2⟩ := h
              obtain ⟨t, rfl, ht⟩ := hex4_sound h1
              obtain ⟨u, rfl, hu⟩ := ih h2
              exact ⟨('\\' :: 'u' :: t) ++ u, by simp, .cons (.unicode ht) hu⟩
            · split at h
              · rename_i he
                obtain ⟨c, hc⟩ := (escape_mem e).mp he
                obtain ⟨u, rfl, hu⟩ := ih h
                exact ⟨['\\', e] ++ u, by simp, .cons (.escape hc) hu⟩
              · cases h
        · rename_i hb
          split at h
          · cases h
          · obtain ⟨u, rfl, hu⟩ := ih h
            exact ⟨[c] ++ u, by simp, .cons (.plain hq hb (by omega)) hu⟩

theorem charForm_step {t : List Char} (h : CharForm t) (n : Nat) (r : List Char) :
    0 < t.length ∧ skipChars (n + 1) (t ++ r) = skipChars n r := by
  cases h with
  | plain h1 h2 h3 =>
    refine ⟨by simp, ?_⟩
    simp only [List.cons_append, List.nil_append, skipChars]
    rw [if_neg h1, if_neg h2, if_neg (by omega)]
  | @escape e _ h =>
    refine ⟨by simp, ?_⟩
    have he := (escape_mem e).mpr ⟨_, h⟩
    have hu : e ≠ 'u' := by rintro rfl; exact absurd he (by decide)
    simp only [List.cons_append, List.nil_append, skipChars]
    rw [if_neg (by decide), if_pos trivial, if_neg hu, if_pos he]
  | @unicode l _ h =>
    refine ⟨by simp, ?_⟩
    simp only [List.cons_append, skipChars]
    rw [if_neg (by decide), if_pos trivial, if_pos trivial, hex4_complete h]
    rfl

theorem skipChars_complete {t : List Char} (h : CharsForm t) : ∀ (n : Nat) (r : List Char),
    t.length < n → skipChars n (t ++ '"' :: r) = some r := by
  induction h with
  | nil =>
    intro n r hn
    cases n with
    | zero => omega
    | succ n => rfl
  | cons hc _ ih =>
    intro n r hn
    cases n with
    | zero => omega
    | succ n =>
      have h1 := (charForm_step hc n []).1
      rw [List.append_assoc, (charForm_step hc n _).2, ih n r (by simp at hn; omega)]

theorem skipString_sound {cs r : List Char} (h : skipString cs = some r) :
    ∃ t, cs = t ++ r ∧ StrForm t := by
  unfold skipString at h
  split at h
  · obtain ⟨t, rfl, ht⟩ := skipChars_sound _ h
    exact ⟨'"' :: t ++ ['"'], by simp, t, rfl, ht⟩
  · cases h

theorem skipString_complete {t : List Char} (h : StrForm t) (r : List Char) :
    skipString (t ++ r) = some r := by
  obtain ⟨l, rfl, hl⟩ := h
  have e : '"' :: l ++ ['"'] ++ r = '"' :: (l ++ '"' :: r) := by simp
  rw [e, skipString]
  exact skipChars_complete hl _ r (by simp)

theorem strForm_start {t : List Char} (h : StrForm t) : ∃ l, t = '"' :: l := by
  obtain ⟨l, rfl, _⟩ := h
  exact ⟨_, rfl⟩

/-! ## Values -/

theorem skipScalar_sound {cs r : List Char} (h : skipScalar cs = some r) :
    ∃ t, cs = t ++ r ∧ Form t := by
  unfold skipScalar at h
  split at h
  · cases h; exact ⟨_, rfl, .null⟩
  · cases h; exact ⟨_, rfl, .true⟩
  · cases h; exact ⟨_, rfl, .false⟩
  · obtain ⟨t, e, ht⟩ := skipString_sound h
    exact ⟨t, e, .str ht⟩
  · obtain ⟨⟨d, r'⟩, h1, rfl⟩ := Option.map_eq_some_iff.mp h
    obtain ⟨t, e, ht⟩ := signed_sound h1
    exact ⟨t, e, .number ht⟩

theorem skipScalar_str {t : List Char} (h : StrForm t) (r : List Char) :
    skipScalar (t ++ r) = some r := by
  have h1 := skipString_complete h r
  obtain ⟨l, rfl⟩ := strForm_start h
  simp only [List.cons_append] at *
  simp only [skipScalar, h1]

theorem skipScalar_number {t : List Char} {d : Decimal} (h : Number t d) {r : List Char}
    (hr : Stop r) : skipScalar (t ++ r) = some r := by
  have h1 := signed_complete h hr
  have h2 : (signed (t ++ r)).map Prod.snd = some r := by rw [h1]; rfl
  obtain ⟨c, l, rfl, hc⟩ := number_start h
  rw [← h2]
  unfold skipScalar
  split
  all_goals first
    | rfl
    | (rename_i e
       rw [List.cons_append, List.cons.injEq] at e
       obtain ⟨rfl, _⟩ := e
       rcases hc with hc | hc
       · exact absurd hc (by decide)
       · exact absurd hc (by decide))

theorem skipItems_sound {v : List Char → Option (List Char)}
    (hv : ∀ {cs r}, v cs = some r → ∃ t, cs = t ++ r ∧ Form t) :
    ∀ (n : Nat) {cs r}, skipItems v n cs = some r → ∃ t, cs = t ++ ']' :: r ∧ ItemsForm t := by
  intro n
  induction n with
  | zero => intro cs r h; cases h
  | succ n ih =>
    intro cs r h
    simp only [skipItems, Option.bind_eq_bind, Option.bind_eq_some_iff] at h
    obtain ⟨c1, h1, h⟩ := h
    obtain ⟨w, hw, sw⟩ := skip_spec cs
    obtain ⟨t, ht, vt⟩ := hv h1
    obtain ⟨x, hx, sx⟩ := skip_spec c1
    split at h
    · rename_i r' e
      cases h
      refine ⟨w ++ t ++ x, ?_, .one sw vt sx⟩
      rw [hw, ht, hx, e]; simp
    · rename_i r' e
      obtain ⟨u, rfl, hu⟩ := ih h
      refine ⟨w ++ t ++ x ++ ',' :: u, ?_, .cons sw vt sx hu⟩
      rw [hw, ht, hx, e]; simp
    · cases h

theorem skipMembers_sound {v : List Char → Option (List Char)}
    (hv : ∀ {cs r}, v cs = some r → ∃ t, cs = t ++ r ∧ Form t) :
    ∀ (n : Nat) {cs r}, skipMembers v n cs = some r → ∃ t, cs = t ++ '}' :: r ∧ MembersForm t := by
  intro n
  induction n with
  | zero => intro cs r h; cases h
  | succ n ih =>
    intro cs r h
    simp only [skipMembers, Option.bind_eq_bind, Option.bind_eq_some_iff] at h
    obtain ⟨c0, h0, h⟩ := h
    obtain ⟨w, hw, sw⟩ := skip_spec cs
    obtain ⟨tk, hk, vk⟩ := skipString_sound h0
    obtain ⟨y, hy, sy⟩ := skip_spec c0
    split at h
    · rename_i c2 e2
      simp only [Option.bind_eq_some_iff] at h
      obtain ⟨c1, h1, h⟩ := h
      obtain ⟨z, hz, sz⟩ := skip_spec c2
      obtain ⟨t, ht, vt⟩ := hv h1
      obtain ⟨x, hx, sx⟩ := skip_spec c1
      split at h
      · rename_i r' e
        cases h
        refine ⟨w ++ tk ++ y ++ ':' :: (z ++ t ++ x), ?_, .one sw vk sy sz vt sx⟩
        rw [hw, hk, hy, e2, hz, ht, hx, e]; simp
      · rename_i r' e
        obtain ⟨u, rfl, hu⟩ := ih h
        refine ⟨w ++ tk ++ y ++ ':' :: (z ++ t ++ x ++ ',' :: u), ?_, .cons sw vk sy sz vt sx hu⟩
        rw [hw, hk, hy, e2, hz, ht, hx, e]; simp
      · cases h
    · cases h

theorem skipValue_sound : ∀ (d : Nat) {cs r}, skipValue d cs = some r →
    ∃ t, cs = t ++ r ∧ Form t := by
  intro d
  induction d with
  | zero => intro cs r h; exact skipScalar_sound h
  | succ d ih =>
    intro cs r h
    unfold skipValue at h
    split at h
    · rename_i cs
      split at h
      · rename_i r' e
        cases h
        obtain ⟨w, hw, sw⟩ := skip_spec cs
        exact ⟨'[' :: w ++ [']'], by rw [hw, e]; simp, .emptyArray sw⟩
      · obtain ⟨t, rfl, ht⟩ := skipItems_sound (fun h => ih h) _ h
        exact ⟨'[' :: t ++ [']'], by simp, .array ht⟩
    · rename_i cs
      split at h
      · rename_i r' e
        cases h
        obtain ⟨w, hw, sw⟩ := skip_spec cs
        exact ⟨'{' :: w ++ ['}'], by rw [hw, e]; simp, .emptyObject sw⟩
      · obtain ⟨t, rfl, ht⟩ := skipMembers_sound (fun h => ih h) _ h
        exact ⟨'{' :: t ++ ['}'], by simp, .object ht⟩
    · exact skipScalar_sound h

theorem form_start {t : List Char} (h : Form t) :
    ∃ c l, t = c :: l ∧ isSpace c = false ∧ c ≠ ']' := by
  cases h with
  | null => exact ⟨_, _, rfl, by decide, by decide⟩
  | true => exact ⟨_, _, rfl, by decide, by decide⟩
  | false => exact ⟨_, _, rfl, by decide, by decide⟩
  | number h =>
    obtain ⟨c, l, rfl, hc⟩ := number_start h
    refine ⟨c, l, rfl, ?_, ?_⟩
    · rcases hc with rfl | hc
      · decide
      · cases hs : isSpace c with
        | false => rfl
        | true => rcases (isSpace_iff c).mp hs with rfl | rfl | rfl | rfl <;> simp [isDigit] at hc
    · rintro rfl
      rcases hc with hc | hc
      · cases hc
      · simp [isDigit] at hc
  | str h =>
    obtain ⟨l, rfl⟩ := strForm_start h
    exact ⟨_, _, rfl, by decide, by decide⟩
  | emptyArray => exact ⟨_, _, rfl, by decide, by decide⟩
  | array => exact ⟨_, _, rfl, by decide, by decide⟩
  | emptyObject => exact ⟨_, _, rfl, by decide, by decide⟩
  | object => exact ⟨_, _, rfl, by decide, by decide⟩

theorem skip_form {w t : List Char} (hw : Space w) (h : Form t) (r : List Char) :
    skip (w ++ (t ++ r)) = t ++ r := by
  obtain ⟨c, l, rfl, hc, _⟩ := form_start h
  exact skip_cons hw hc _

theorem skip_strForm {w t : List Char} (hw : Space w) (h : StrForm t) (r : List Char) :
    skip (w ++ (t ++ r)) = t ++ r := by
  obtain ⟨l, rfl⟩ := strForm_start h
  exact skip_cons hw (by decide) _

theorem skipItems_complete {v : List Char → Option (List Char)} {d : Nat}
    (hv : ∀ {t}, Form t → t.length ≤ d → ∀ {r}, Stop r → v (t ++ r) = some r) :
    ∀ (n : Nat) {t : List Char}, ItemsForm t → t.length ≤ d → ∀ (r : List Char),
      t.length < n → skipItems v n (t ++ ']' :: r) = some r := by
  intro n
  induction n with
  | zero => intro t _ _ r hn; omega
  | succ n ih =>
    intro t h hd r hn
    cases h with
    | @one w t x sw vt sx =>
      have e : w ++ t ++ x ++ ']' :: r = w ++ (t ++ (x ++ ']' :: r)) := by simp
      have hs : Stop (x ++ ']' :: r) := stop_space sx (stop_cons (by decide) r)
      have hl : t.length ≤ d := by simp at hd; omega
      simp only [skipItems, e, skip_form sw vt, hv vt hl hs, Option.bind_eq_bind,
        Option.bind_some, skip_cons sx (c := ']') (by decide), Option.pure_def]
    | @cons w t x u sw vt sx hu =>
      have e : w ++ t ++ x ++ ',' :: u ++ ']' :: r = w ++ (t ++ (x ++ ',' :: (u ++ ']' :: r))) := by
        simp
      have hs : Stop (x ++ ',' :: (u ++ ']' :: r)) := stop_space sx (stop_cons (by decide) _)
      have hl : t.length ≤ d := by simp at hd; omega
      have hu' : u.length ≤ d := by simp at hd; omega
      have hn' : u.length < n := by simp at hn; omega
      simp only [skipItems, e, skip_form sw vt, hv vt hl hs, Option.bind_eq_bind,
        Option.bind_some, skip_cons sx (c := ',') (by decide), ih hu hu' r hn']

theorem skipMembers_complete {v : List Char → Option (List Char)} {d : Nat}
    (hv : ∀ {t}, Form t → t.length ≤ d → ∀ {r}, Stop r → v (t ++ r) = some r) :
    ∀ (n : Nat) {t : List Char}, MembersForm t → t.length ≤ d → ∀ (r : List Char),
      t.length < n → skipMembers v n (t ++ '}' :: r) = some r := by
  intro n
  induction n with
  | zero => intro t _ _ r hn; omega
  | succ n ih =>
    intro t h hd r hn
    cases h with
    | @one w tk y z t x sw vk sy sz vt sx =>
      have e : w ++ tk ++ y ++ ':' :: (z ++ t ++ x) ++ '}' :: r =
          w ++ (tk ++ (y ++ ':' :: (z ++ (t ++ (x ++ '}' :: r))))) := by simp
      have hs : Stop (x ++ '}' :: r) := stop_space sx (stop_cons (by decide) r)
      have hl : t.length ≤ d := by simp at hd; omega
      simp only [skipMembers, e, skip_strForm sw vk, skipString_complete vk, skip_form sz vt,
        hv vt hl hs, Option.bind_eq_bind, Option.bind_some, skip_cons sy (c := ':') (by decide),
        skip_cons sx (c := '}') (by decide), Option.pure_def]
    | @cons w tk y z t x u sw vk sy sz vt sx hu =>
      have e : w ++ tk ++ y ++ ':' :: (z ++ t ++ x ++ ',' :: u) ++ '}' :: r =
          w ++ (tk ++ (y ++ ':' :: (z ++ (t ++ (x ++ ',' :: (u ++ '}' :: r)))))) := by simp
      have hs : Stop (x ++ ',' :: (u ++ '}' :: r)) := stop_space sx (stop_cons (by decide) _)
      have hl : t.length ≤ d := by simp at hd; omega
      have hu' : u.length ≤ d := by simp at hd; omega
      have hn' : u.length < n := by simp at hn; omega
      simp only [skipMembers, e, skip_strForm sw vk, skipString_complete vk, skip_form sz vt,
        hv vt hl hs, Option.bind_eq_bind, Option.bind_some, skip_cons sy (c := ':') (by decide),
        skip_cons sx (c := ',') (by decide), ih hu hu' r hn']

theorem itemsForm_start {t : List Char} (h : ItemsForm t) (r : List Char) :
    ∃ c u, skip (t ++ r) = c :: u ∧ c ≠ ']' := by
  cases h with
  | @one w t x sw vt sx =>
    obtain ⟨c, l, rfl, hc, hn⟩ := form_start vt
    refine ⟨c, l ++ (x ++ r), ?_, hn⟩
    rw [show w ++ c :: l ++ x ++ r = w ++ c :: (l ++ (x ++ r)) by simp]
    exact skip_cons sw hc _
  | @cons w t x u sw vt sx hu =>
    obtain ⟨c, l, rfl, hc, hn⟩ := form_start vt
    refine ⟨c, l ++ (x ++ ',' :: (u ++ r)), ?_, hn⟩
    rw [show w ++ c :: l ++ x ++ ',' :: u ++ r = w ++ c :: (l ++ (x ++ ',' :: (u ++ r))) by simp]
    exact skip_cons sw hc _

theorem membersForm_start {t : List Char} (h : MembersForm t) (r : List Char) :
    ∃ u, skip (t ++ r) = '"' :: u := by
  cases h with
  | @one w tk y z t x sw vk sy sz vt sx =>
    obtain ⟨l, rfl⟩ := strForm_start vk
    refine ⟨l ++ (y ++ ':' :: (z ++ t ++ x) ++ r), ?_⟩
    rw [show w ++ '"' :: l ++ y ++ ':' :: (z ++ t ++ x) ++ r =
      w ++ '"' :: (l ++ (y ++ ':' :: (z ++ t ++ x) ++ r)) by simp]
    exact skip_cons sw (by decide) _
  | @cons w tk y z t x u sw vk sy sz vt sx hu =>
    obtain ⟨l, rfl⟩ := strForm_start vk
    refine ⟨l ++ (y ++ ':' :: (z ++ t ++ x ++ ',' :: u) ++ r), ?_⟩
    rw [show w ++ '"' :: l ++ y ++ ':' :: (z ++ t ++ x ++ ',' :: u) ++ r =
      w ++ '"' :: (l ++ (y ++ ':' :: (z ++ t ++ x ++ ',' :: u) ++ r)) by simp]
    exact skip_cons sw (by decide) _

theorem skipValue_scalar {d : Nat} {cs : List Char}
    (h : ∀ c, cs.head? = some c → c ≠ '[' ∧ c ≠ '{') : skipValue d cs = skipScalar cs := by
  cases d with
  | zero => rfl
  | succ d =>
    unfold skipValue
    split
    · exact absurd rfl (h '[' rfl).1
    · exact absurd rfl (h '{' rfl).2
    · rfl

theorem skipValue_complete : ∀ (d : Nat) {t : List Char}, Form t → t.length ≤ d →
    ∀ {r : List Char}, Stop r → skipValue d (t ++ r) = some r := by
  intro d
  induction d with
  | zero =>
    intro t h hd r hr
    obtain ⟨c, l, rfl, _⟩ := form_start h
    simp at hd
  | succ d ih =>
    intro t h hd r hr
    cases h with
    | null | true | false => rfl
    | number h1 =>
      rw [skipValue_scalar]
      · exact skipScalar_number h1 hr
      · obtain ⟨c, l, rfl, hc⟩ := number_start h1
        intro c' e
        simp at e; subst e
        constructor <;>
        · rintro rfl
          rcases hc with hc | hc
          · cases hc
          · simp [isDigit] at hc
    | str h =>
      rw [skipValue_scalar]
      · exact skipScalar_str h r
      · obtain ⟨l, rfl⟩ := strForm_start h
        intro c' e
        simp at e; subst e
        decide
    | @emptyArray w sw =>
      simp only [List.cons_append, List.append_assoc, List.nil_append, skipValue,
        skip_cons sw (c := ']') (by decide)]
    | @array t h =>
      have h1 := skipItems_complete (d := d) ih (t ++ ']' :: r).length h (by simp at hd; omega) r
        (by simp)
      obtain ⟨c, u, e, hc⟩ := itemsForm_start h (']' :: r)
      simp only [List.cons_append, List.append_assoc, List.nil_append, skipValue]
      split
      · rename_i e'; rw [e] at e'; cases e'; exact absurd rfl hc
      · exact h1
    | @emptyObject w sw =>
      simp only [List.cons_append, List.append_assoc, List.nil_append, skipValue,
        skip_cons sw (c := '}') (by decide)]
    | @object t h =>
      have h1 := skipMembers_complete (d := d) ih (t ++ '}' :: r).length h (by simp at hd; omega) r
        (by simp)
      obtain ⟨u, e⟩ := membersForm_start h ('}' :: r)
      simp only [List.cons_append, List.append_assoc, List.nil_append, skipValue]
      split
      · rename_i e'; rw [e] at e'; cases e'
      · exact h1

/-! ## Values have the form of values -/

theorem charsForm_append {a b : List Char} (ha : CharsForm a) (hb : CharsForm b) :
    CharsForm (a ++ b) := by
  induction ha with
  | nil => exact hb
  | cons h _ ih => rw [List.append_assoc]; exact .cons h ih

theorem character_form {t : List Char} {c : Char} (h : Character t c) : CharsForm t := by
  have one : ∀ {t}, CharForm t → CharsForm t := fun h => by simpa using CharsForm.cons h .nil
  cases h with
  | plain h1 h2 h3 => exact one (.plain h1 h2 h3)
  | escape h => exact one (.escape h)
  | unicode h => exact one (.unicode h)
  | @pair l m _ _ _ h1 h2 => exact charsForm_append (one (.unicode h1)) (one (.unicode h2))

theorem characters_form {t l : List Char} (h : Characters t l) : CharsForm t := by
  induction h with
  | nil => exact .nil
  | cons h _ ih => exact charsForm_append (character_form h) ih

theorem str_form {t : List Char} {s : String} (h : Str t s) : StrForm t := by
  obtain ⟨l, e, hl⟩ := h
  exact ⟨l, e, characters_form hl⟩

mutual
theorem value_form {t : List Char} {j : J} : Value t j → Form t
  | .null => .null
  | .true => .true
  | .false => .false
  | .number h _ => .number h
  | .str h => .str (str_form h)
  | .emptyArray h => .emptyArray h
  | .array h => .array (items_form h)
  | .emptyObject h => .emptyObject h
  | .object h => .object (members_form h)
theorem items_form {t : List Char} {l : List J} : Items t l → ItemsForm t
  | .one a b c => .one a (value_form b) c
  | .cons a b c d => .cons a (value_form b) c (items_form d)
theorem members_form {t : List Char} {l : List (String × J)} : Members t l → MembersForm t
  | .one a b c d e f => .one a (str_form b) c d (value_form e) f
  | .cons a b c d e f g => .cons a (str_form b) c d (value_form e) f (members_form g)
end

/-! ## Files -/

theorem mem_fileFields (k : String) : k ∈ fileFields ↔
    k = "deserialized_game_version" ∨ k = "header" ∨ k = "properties" := by
  simp [fileFields]

theorem fileEntry_form {d : Nat} {k : String} {t : List Char} {e : List (String × J)}
    (h : FileEntry d k t e) : Form t := by
  cases h with
  | field _ h => exact value_form h
  | other _ _ _ h => exact h

theorem fileEntry_sound {d : Nat} {k : String} {cs r : List Char} {e : List (String × J)}
    (h : fileEntry d k cs = some (e, r)) : ∃ t, cs = t ++ r ∧ FileEntry d k t e := by
  unfold fileEntry at h
  split at h
  · rename_i hk
    obtain ⟨⟨j, r'⟩, h1, h2⟩ := Option.map_eq_some_iff.mp h
    cases h2
    obtain ⟨t, ht, vt, dt⟩ := value_sound d h1
    exact ⟨t, ht, .field ((mem_fileFields k).mp hk) vt dt⟩
  · rename_i hk
    obtain ⟨r', h1, h2⟩ := Option.map_eq_some_iff.mp h
    cases h2
    obtain ⟨t, ht, vt⟩ := skipValue_sound _ h1
    simp only [mem_fileFields, not_or] at hk
    exact ⟨t, ht, .other hk.1 hk.2.1 hk.2.2 vt⟩

theorem fileEntry_complete {d : Nat} {k : String} {t r : List Char} {e : List (String × J)}
    (h : FileEntry d k t e) (hr : Stop r) : fileEntry d k (t ++ r) = some (e, r) := by
  unfold fileEntry
  cases h with
  | field hk vt dt =>
    rw [if_pos ((mem_fileFields k).mpr hk), value_complete d vt dt hr]
    rfl
  | other h1 h2 h3 vt =>
    rw [if_neg (by rw [mem_fileFields]; simp [h1, h2, h3]),
      skipValue_complete _ vt (by simp) hr]
    rfl

theorem fileMembers_succ (d n : Nat) (cs : List Char) : fileMembers d (n + 1) cs = (do
    let (k, cs) ← string (skip cs)
    match skip cs with
    | ':' :: cs => do
      let (e, cs) ← fileEntry d k (skip cs)
      match skip cs with
      | '}' :: r => return (e, r)
      | ',' :: r => do
        let (l, r) ← fileMembers d n r
        return (e ++ l, r)
      | _ => none
    | _ => none) := rfl

theorem fileMembers_sound {d : Nat} : ∀ (n : Nat) {cs r l}, fileMembers d n cs = some (l, r) →
    ∃ t, cs = t ++ '}' :: r ∧ FileMembers d t l := by
  intro n
  induction n with
  | zero => intro cs r l h; cases h
  | succ n ih =>
    intro cs r l h
    simp only [fileMembers_succ, Option.bind_eq_bind, Option.bind_eq_some_iff, Prod.exists] at h
    obtain ⟨k, c0, h0, h⟩ := h
    obtain ⟨w, hw, sw⟩ := skip_spec cs
    obtain ⟨tk, hk, vk⟩ := string_sound h0
    obtain ⟨y, hy, sy⟩ := skip_spec c0
    split at h
    · rename_i c2 e2
      simp only [Option.bind_eq_some_iff, Prod.exists] at h
      obtain ⟨j, c1, h1, h⟩ := h
      obtain ⟨z, hz, sz⟩ := skip_spec c2
      obtain ⟨t, ht, vt⟩ := fileEntry_sound h1
      obtain ⟨x, hx, sx⟩ := skip_spec c1
      split at h
      · rename_i r' e
        cases h
        refine ⟨w ++ tk ++ y ++ ':' :: (z ++ t ++ x), ?_, .one sw vk sy sz vt sx⟩
        rw [hw, hk, hy, e2, hz, ht, hx, e]; simp
      · rename_i r' e
        simp only [Option.bind_eq_some_iff, Prod.exists, Option.pure_def, Option.some.injEq,
          Prod.mk.injEq] at h
        obtain ⟨l', r'', h2, rfl, rfl⟩ := h
        obtain ⟨u, rfl, hu⟩ := ih h2
        refine ⟨w ++ tk ++ y ++ ':' :: (z ++ t ++ x ++ ',' :: u), ?_, .cons sw vk sy sz vt sx hu⟩
        rw [hw, hk, hy, e2, hz, ht, hx, e]; simp
      · cases h
    · cases h

theorem fileMembers_complete {d : Nat} : ∀ (n : Nat) {t : List Char} {l : List (String × J)},
    FileMembers d t l → ∀ (r : List Char), t.length < n →
      fileMembers d n (t ++ '}' :: r) = some (l, r) := by
  intro n
  induction n with
  | zero => intro t l _ r hn; omega
  | succ n ih =>
    intro t l h r hn
    cases h with
    | @one w tk _ y z t _ x sw vk sy sz vt sx =>
      have e : w ++ tk ++ y ++ ':' :: (z ++ t ++ x) ++ '}' :: r =
          w ++ (tk ++ (y ++ ':' :: (z ++ (t ++ (x ++ '}' :: r))))) := by simp
      have hs : Stop (x ++ '}' :: r) := stop_space sx (stop_cons (by decide) r)
      simp only [fileMembers_succ, e, skip_str sw vk, string_complete vk,
        skip_form sz (fileEntry_form vt), fileEntry_complete vt hs, Option.bind_eq_bind,
        Option.bind_some, skip_cons sy (c := ':') (by decide),
        skip_cons sx (c := '}') (by decide), Option.pure_def]
    | @cons w tk _ y z t _ x u _ sw vk sy sz vt sx hu =>
      have e : w ++ tk ++ y ++ ':' :: (z ++ t ++ x ++ ',' :: u) ++ '}' :: r =
          w ++ (tk ++ (y ++ ':' :: (z ++ (t ++ (x ++ ',' :: (u ++ '}' :: r)))))) := by simp
      have hs : Stop (x ++ ',' :: (u ++ '}' :: r)) := stop_space sx (stop_cons (by decide) _)
      have hn' : u.length < n := by simp at hn; omega
      simp only [fileMembers_succ, e, skip_str sw vk, string_complete vk,
        skip_form sz (fileEntry_form vt), fileEntry_complete vt hs, Option.bind_eq_bind,
        Option.bind_some, skip_cons sy (c := ':') (by decide),
        skip_cons sx (c := ',') (by decide), ih hu r hn', Option.pure_def]

theorem fileMembers_start {d : Nat} {t : List Char} {l : List (String × J)} (h : FileMembers d t l)
    (r : List Char) : ∃ u, skip (t ++ r) = '"' :: u := by
  have : MembersForm t := by
    induction h with
    | one a b c d e f => exact .one a (str_form b) c d (fileEntry_form e) f
    | cons a b c d e f _ ih => exact .cons a (str_form b) c d (fileEntry_form e) f ih
  exact membersForm_start this r

theorem fileValue_sound {d : Nat} {cs r : List Char} {j : J} (h : fileValue d cs = some (j, r)) :
    ∃ t, cs = t ++ r ∧ FileValue d t j := by
  unfold fileValue at h
  split at h
  · rename_i cs
    unfold array at h
    split at h
    · rename_i r' e
      cases h
      obtain ⟨w, hw, sw⟩ := skip_spec cs
      exact ⟨'[' :: w ++ [']'], by rw [hw, e]; simp, .emptyArray sw⟩
    · simp only [Option.bind_eq_bind, Option.bind_eq_some_iff, Prod.exists, Option.pure_def,
        Option.some.injEq, Prod.mk.injEq] at h
      obtain ⟨l, r', h1, rfl, rfl⟩ := h
      obtain ⟨t, rfl, ht, dt⟩ := items_sound (value_sound d) _ h1
      exact ⟨'[' :: t ++ [']'], by simp, .array ht dt⟩
  · rename_i cs
    split at h
    · rename_i r' e
      cases h
      obtain ⟨w, hw, sw⟩ := skip_spec cs
      exact ⟨'{' :: w ++ ['}'], by rw [hw, e]; simp, .emptyObject sw⟩
    · simp only [Option.bind_eq_bind, Option.bind_eq_some_iff, Prod.exists, Option.pure_def,
        Option.some.injEq, Prod.mk.injEq] at h
      obtain ⟨l, r', h1, rfl, rfl⟩ := h
      obtain ⟨t, rfl, ht⟩ := fileMembers_sound _ h1
      exact ⟨'{' :: t ++ ['}'], by simp, .object ht⟩
  · cases h

theorem fileValue_complete {d : Nat} {t : List Char} {j : J} (h : FileValue d t j) (r : List Char) :
    fileValue d (t ++ r) = some (j, r) := by
  cases h with
  | @emptyArray w sw =>
    simp only [List.cons_append, List.append_assoc, List.nil_append, fileValue, array,
      skip_cons sw (c := ']') (by decide)]
  | @array t l h hd =>
    have h1 := items_complete (d := d) (value_complete d) l h hd (t ++ ']' :: r).length r
      (by simp)
    obtain ⟨c, u, e, hc⟩ := items_start h (']' :: r)
    simp only [List.cons_append, List.append_assoc, List.nil_append, fileValue, array, h1,
      Option.bind_eq_bind, Option.bind_some, Option.pure_def]
    split
    · rename_i e'; rw [e] at e'; cases e'; exact absurd rfl hc
    · rfl
  | @emptyObject w sw =>
    simp only [List.cons_append, List.append_assoc, List.nil_append, fileValue,
      skip_cons sw (c := '}') (by decide)]
  | @object t l h =>
    have h1 := fileMembers_complete (t ++ '}' :: r).length h r (by simp)
    obtain ⟨u, e⟩ := fileMembers_start h ('}' :: r)
    simp only [List.cons_append, List.append_assoc, List.nil_append, fileValue, h1,
      Option.bind_eq_bind, Option.bind_some, Option.pure_def]
    split
    · rename_i e'; rw [e] at e'; cases e'
    · rfl

theorem skip_file {d : Nat} {w t : List Char} {j : J} (hw : Space w) (h : FileValue d t j)
    (r : List Char) : skip (w ++ (t ++ r)) = t ++ r := by
  cases h <;> exact skip_cons hw (by decide) _

/-- What text a file is loaded from directly. -/
theorem ofStr_iff (s : String) (f : GvasFile) : GvasFile.ofStr s = some f ↔
    ∃ j, FileDocument s.toList j ∧ GvasFile.ofRaw j = some f := by
  unfold GvasFile.ofStr
  simp only [Option.bind_eq_bind, Option.bind_eq_some_iff, Prod.exists]
  constructor
  · rintro ⟨v, r, h, h'⟩
    split at h'
    · rename_i he
      obtain ⟨w, hw, sw⟩ := skip_spec s.toList
      obtain ⟨t, ht, vt⟩ := fileValue_sound h
      obtain ⟨u, hu, su⟩ := skip_spec r
      rw [List.isEmpty_iff] at he
      refine ⟨v, ⟨w, t, u, ?_, sw, vt, su⟩, h'⟩
      rw [hw, ht, hu, he]; simp
    · cases h'
  · rintro ⟨v, ⟨w, t, u, e, sw, vt, su⟩, hf⟩
    refine ⟨v, u, ?_, ?_⟩
    · rw [e, List.append_assoc, skip_file sw vt]
      exact fileValue_complete vt u
    · rw [skip_all su]; exact hf

/-- Text stands for one outermost value at most. -/
theorem fileValue_unique {d : Nat} {t : List Char} {j k : J} (hj : FileValue d t j)
    (hk : FileValue d t k) : j = k := by
  have h1 := fileValue_complete hj []
  rw [fileValue_complete hk []] at h1
  cases h1; rfl

/-! ## Text that stands for a value -/

/-- The entries that are fields. -/
def known (l : List (String × J)) : List (String × J) := l.filter fun e => e.1 ∈ fileFields

theorem fileEntry_value {d : Nat} {k : String} {t : List Char} {j : J} (h : Value t j)
    (hd : depthEntries (known [(k, j)]) ≤ d) : FileEntry d k t (known [(k, j)]) := by
  unfold known at *
  by_cases hk : k ∈ fileFields
  · rw [List.filter_cons_of_pos (by simpa using hk)] at *
    simp only [List.filter_nil, depthEntries] at hd
    exact .field ((mem_fileFields k).mp hk) h (by omega)
  · rw [List.filter_cons_of_neg (by simpa using hk)]
    simp only [mem_fileFields, not_or] at hk
    exact .other hk.1 hk.2.1 hk.2.2 (value_form h)

theorem depthEntries_append (a b : List (String × J)) :
    depthEntries (a ++ b) = max (depthEntries a) (depthEntries b) := by
  induction a with
  | nil => simp [depthEntries]
  | cons e a ih =>
    obtain ⟨k, j⟩ := e
    simp only [List.cons_append, depthEntries, ih]
    omega

theorem known_cons (k : String) (j : J) (l : List (String × J)) :
    known ((k, j) :: l) = known [(k, j)] ++ known l := by
  rw [known, known, known, ← List.filter_append]; rfl

theorem fileMembers_members {d : Nat} {t : List Char} {l : List (String × J)} :
    Members t l → depthEntries (known l) ≤ d → FileMembers d t (known l)
  | .one a b c e f g, hd => .one a b c e (fileEntry_value f hd) g
  | .cons a b c e f g h, hd => by
    rw [known_cons, depthEntries_append] at hd
    rw [known_cons]
    exact .cons a b c e (fileEntry_value f (by omega)) g (fileMembers_members h (by omega))

theorem fileMembers_mono {d d' : Nat} {t : List Char} {l : List (String × J)}
    (h : FileMembers d t l) (hd : depthEntries l ≤ d') : FileMembers d' t l := by
  induction h with
  | one a b c e f g =>
    cases f with
    | field hk v _ =>
      simp only [depthEntries] at hd
      exact .one a b c e (.field hk v (by omega)) g
    | other x y z w => exact .one a b c e (.other x y z w) g
  | cons a b c e f g _ ih =>
    rw [depthEntries_append] at hd
    have ih := ih (by omega)
    cases f with
    | field hk v _ =>
      simp only [depthEntries] at hd
      exact .cons a b c e (.field hk v (by omega)) g ih
    | other x y z w => exact .cons a b c e (.other x y z w) g ih

theorem fileMembers_depth {d : Nat} {t : List Char} {l : List (String × J)}
    (h : FileMembers d t l) : depthEntries l ≤ d := by
  have key : ∀ {k t e}, FileEntry d k t e → depthEntries e ≤ d := by
    intro k t e h
    cases h with
    | field _ _ h => simp only [depthEntries]; omega
    | other => simp [depthEntries]
  induction h with
  | one _ _ _ _ f _ => exact key f
  | cons _ _ _ _ f _ _ ih => rw [depthEntries_append]; have := key f; omega

/-- A value without the entries that are no fields. -/
def knownJ : J → J
  | .obj l => .obj (known l)
  | j => j

theorem fileValue_value {d : Nat} {v : List Char} {r : J} (hv : Value v r)
    (hd : (knownJ r).depth ≤ d + 1) (hr : 0 < r.depth) : FileValue d v (knownJ r) := by
  cases hv with
  | null => simp [J.depth] at hr
  | true => simp [J.depth] at hr
  | false => simp [J.depth] at hr
  | number _ h => cases h <;> simp [J.depth] at hr
  | str => simp [J.depth] at hr
  | emptyArray h => exact .emptyArray h
  | array h => simp only [knownJ, J.depth] at hd; exact .array h (by omega)
  | emptyObject h => exact .emptyObject h
  | object h =>
    simp only [knownJ, J.depth] at hd
    exact .object (fileMembers_members h (by omega))

theorem fileValue_mono {d d' : Nat} {v : List Char} {j : J} (h : FileValue d v j)
    (hd : j.depth ≤ d' + 1) : FileValue d' v j := by
  cases h with
  | emptyArray h => exact .emptyArray h
  | array h _ => simp only [J.depth] at hd; exact .array h (by omega)
  | emptyObject h => exact .emptyObject h
  | object h => simp only [J.depth] at hd; exact .object (fileMembers_mono h (by omega))

theorem fileValue_depth {d : Nat} {v : List Char} {j : J} (h : FileValue d v j) :
    j.depth ≤ d + 1 := by
  cases h with
  | emptyArray h => simp [J.depth, depthList]
  | array h hd => simp only [J.depth]; omega
  | emptyObject h => simp [J.depth, depthEntries]
  | object h => simp only [J.depth]; have := fileMembers_depth h; omega

theorem fileValue_start {d : Nat} {v : List Char} {j : J} (h : FileValue d v j) :
    ∃ c l, v = c :: l ∧ (c = '[' ∨ c = '{') := by
  cases h <;> simp

theorem scalar_start {v : List Char} {r : J} (hv : Value v r) (hr : r.depth = 0) :
    ∃ c l, v = c :: l ∧ c ≠ '[' ∧ c ≠ '{' := by
  cases hv with
  | null => exact ⟨_, _, rfl, by decide, by decide⟩
  | true => exact ⟨_, _, rfl, by decide, by decide⟩
  | false => exact ⟨_, _, rfl, by decide, by decide⟩
  | number h _ =>
    obtain ⟨c, l, rfl, hc⟩ := number_start h
    refine ⟨c, l, rfl, ?_, ?_⟩ <;>
    · rintro rfl
      rcases hc with hc | hc
      · cases hc
      · simp [isDigit] at hc
  | str h =>
    obtain ⟨l, rfl⟩ := strForm_start (str_form h)
    exact ⟨_, _, rfl, by decide, by decide⟩
  | emptyArray => simp [J.depth] at hr
  | array => simp [J.depth] at hr
  | emptyObject => simp [J.depth] at hr
  | object => simp [J.depth] at hr

/-- The same text as the text of a file and as the text of any value. -/
theorem fileDocument_iff {t : List Char} {r : J} (h : Document t r) (j : J) :
    FileDocument t j ↔ (j = knownJ r ∧ j.depth ≤ 127 ∧ 0 < r.depth) := by
  obtain ⟨w, v, u, rfl, sw, hv, su⟩ := h
  constructor
  · rintro ⟨w', v', u', e, sw', hv', su'⟩
    have hs : v ++ u = v' ++ u' := by
      have := skip_value sw hv u
      rw [← List.append_assoc, e, List.append_assoc, skip_file sw' hv'] at this
      exact this.symm
    have hr : 0 < r.depth := by
      rcases Nat.eq_zero_or_pos r.depth with h0 | h0
      · obtain ⟨c, l, rfl, h1, h2⟩ := scalar_start hv h0
        obtain ⟨c', l', rfl, h3⟩ := fileValue_start hv'
        simp only [List.cons_append, List.cons.injEq] at hs
        rw [hs.1] at h1 h2
        rcases h3 with h3 | h3
        · exact absurd h3 h1
        · exact absurd h3 h2
      · exact h0
    have hd := fileValue_depth hv'
    refine ⟨?_, hd, hr⟩
    have h1 := fileValue_complete (fileValue_mono hv' (d' := max 126 (knownJ r).depth) (by omega)) u'
    have h2 := fileValue_complete (fileValue_value (d := max 126 (knownJ r).depth) hv (by omega) hr) u
    rw [hs, h1] at h2
    cases h2; rfl
  · rintro ⟨rfl, hd, hr⟩
    exact ⟨w, v, u, rfl, sw, fileValue_value hv hd hr, su⟩

end Gvas.Text
