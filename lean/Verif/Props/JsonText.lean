import Verif.Lemmas.JsonKept
import Verif.Props.Json

/-!
# C88: JSON text

Files saved as JSON text and loaded again (`tests/serde_tests/serde_json_round_trip.rs` 10-11).
-/

namespace Gvas

open Spec Spec.Rfc8259 Text Sd

/-! ## Which texts are accepted -/

/-- **C88**: text is accepted if and only if it is JSON (RFC 8259, with the numbers that fit) nested
at most 127 deep, and the value is the one it stands for, with repeated names merged. -/
theorem C88_text_accepted (s : String) (j : J) : J.ofText s = some j ↔
    ∃ r, Document s.toList r ∧ r.depth ≤ 127 ∧ j = r.merge :=
  ofText_iff s j

/-- Text stands for one value at most. -/
theorem C88_text_unambiguous (t : List Char) (j k : J) (hj : Document t j) (hk : Document t k) :
    j = k := document_unique hj hk

example : (match J.ofText " {\"a\" : [1, -0, 2.5e3, \"x\\n\\u00e9\\ud83d\\ude00\"], \"b\":null } " with
    | some (.obj [(a, .arr [.int n, .float x, .float y, .str s]), (b, .null)]) =>
      decide ((a, n, x.bits, y.bits, s, b) =
        ("a", 1, 0x8000000000000000, 0x40A3880000000000, "x\né😀", "b"))
    | _ => false) = true := by decide +kernel
/-- A name that is repeated. -/
example : (match J.ofText "{\"a\":1,\"b\":2,\"a\":3}" with
    | some (.obj [(a, .int n), (b, .int m)]) => decide ((a, n, b, m) = ("a", 3, "b", 2))
    | _ => false) = true := by decide +kernel
/-- A leading zero, a missing digit, a trailing comma, a lone surrogate, a number that is too large. -/
example : ["01", "1.", "-", "[1,]", "\"\\ud800\"", "1e400", "nul", "[1] 2", "\"\n\"", "'a'", "+1"].all
    (fun s => (J.ofText s).isNone) = true := by decide +kernel

theorem imInsert_lookup (k k' : String) (v : J) (m : List (String × J)) :
    (imInsert (· == ·) k v m).lookup k' = if k' = k then some v else m.lookup k' := by
  induction m with
  | nil => simp only [imInsert, List.lookup]; split <;> simp_all
  | cons e m ih =>
    obtain ⟨a, b⟩ := e
    simp only [imInsert]
    by_cases h : a = k
    · subst h
      simp only [beq_self_eq_true, if_true, List.lookup]
      split <;> simp_all
    · rw [if_neg (by simpa using h)]
      simp only [List.lookup, ih]
      split
      · rename_i h2; rw [beq_iff_eq] at h2; subst h2; simp [h]
      · rfl

theorem imExtend_spec (es : List (String × J)) :
    ((imExtend (· == ·) [] es).map Prod.fst = (es.map Prod.fst).eraseDups) ∧
    ∀ k, (imExtend (· == ·) [] es).lookup k = es.reverse.lookup k := by
  suffices h : ∀ n (es : List (String × J)), es.length = n →
      ((imExtend (· == ·) [] es).map Prod.fst = (es.map Prod.fst).eraseDups) ∧
      ∀ k, (imExtend (· == ·) [] es).lookup k = es.reverse.lookup k from h _ es rfl
  intro n
  induction n with
  | zero => intro es h; obtain rfl := List.length_eq_zero_iff.mp h; exact ⟨rfl, fun _ => rfl⟩
  | succ n ih =>
    intro es h
    have hne : es ≠ [] := by rintro rfl; simp at h
    have hs := List.dropLast_concat_getLast hne
    obtain ⟨i1, i2⟩ := ih es.dropLast (by simp [h])
    generalize es.dropLast = fs at *
    generalize es.getLast hne = e at *
    obtain ⟨k, v⟩ := e
    subst hs
    have e : imExtend (· == ·) [] (fs ++ [(k, v)]) =
        imInsert (· == ·) k v (imExtend (· == ·) [] fs) := by simp [imExtend]
    rw [e]
    constructor
    · rw [imInsert_keys, List.map_append, List.eraseDups_append, i1]
      have hm : ((imExtend (· == ·) [] fs).any fun e => e.1 == k) = true ↔
          k ∈ fs.map Prod.fst := by
        rw [← List.mem_eraseDups, ← i1]
        simp
      split
      · rename_i h; rw [hm] at h
        simp only [List.map_cons, List.map_nil]
        rw [List.removeAll, List.filter_cons_of_neg (by simpa using h)]
        simp
      · rename_i h
        rw [hm] at h
        simp only [List.map_cons, List.map_nil]
        rw [List.removeAll, List.filter_cons_of_pos (by simpa using h)]
        simp [List.eraseDups_cons]
    · intro k'
      rw [imInsert_lookup, i2, List.reverse_append]
      simp only [List.reverse_cons, List.reverse_nil, List.nil_append, List.cons_append,
        List.lookup]
      split <;> split <;> simp_all

theorem mergeEntries_map (l : List (String × J)) :
    mergeEntries l = l.map fun e => (e.1, e.2.merge) := by
  induction l with
  | nil => rfl
  | cons e l ih => obtain ⟨k, j⟩ := e; simp [mergeEntries, ih]

theorem lookup_map_merge (l : List (String × J)) (k : String) :
    (l.map fun e => (e.1, e.2.merge)).lookup k = (l.lookup k).map J.merge := by
  induction l with
  | nil => rfl
  | cons e l ih =>
    obtain ⟨a, j⟩ := e
    simp only [List.map_cons, List.lookup]
    split
    · rfl
    · exact ih

/-- **C88**: of values with the same name the last is kept, in the place of the first. -/
theorem C88_repeated_names (l : List (String × J)) : ∃ m, (J.obj l).merge = .obj m ∧
    m.map Prod.fst = (l.map Prod.fst).eraseDups ∧
    ∀ k, m.lookup k = (l.reverse.lookup k).map J.merge := by
  refine ⟨_, rfl, ?_, fun k => ?_⟩
  · rw [(imExtend_spec _).1, mergeEntries_map, List.map_map]; rfl
  · rw [(imExtend_spec _).2, mergeEntries_map, ← List.map_reverse, lookup_map_merge]

/-! ## Saved files -/

/-- **C88**: the text and the value of a file are made from the same calls to a serializer; the
value has `f32` numbers widened. -/
theorem C88_same_value (f : GvasFile) : f.toSerde.toJ F32.toF64 = f.toJson := file_toJ f

/-- The text of a file stands for its value, with the numbers that the texts of its `f32` numbers
stand for. -/
theorem file_document {t : FloatText} (ht : FloatsOf t) (f : GvasFile) (hm : FileMaps f)
    (num : F32 → F64) (hn : EveryF32 (fun f => f.isFinite = true →
      ∃ d, Number (t.f32 f) d ∧ NumberIs d (.float (num f))) f.toSerde) :
    Document (f.toText t).toList (f.toSerde.toJ num) := by
  have := text_value t num (double_text ht) _ (file_fine f hm) hn
  rw [GvasFile.toText, String.toList_ofList]
  exact value_document this

open Classical in
/-- **C88**: a file saved as text is loaded as it was if all floats in it are finite, and refused if
one is not, provided that it is nested at most 127 deep and that rounding its `f32` numbers twice
does no harm.  Without these conditions it is false: `C88_deep_refused`, `C88_float_changes`. -/
theorem C88_text_roundtrip_partial (t : FloatText) (ht : FloatsOf t) (f : GvasFile)
    (hm : FileMaps f) (hd : f.toJson.depth ≤ 127) (hk : EveryF32 (Kept t) f.toSerde) :
    GvasFile.ofText (f.toText t) = if fileFinite f then some f else none := by
  let num : F32 → F64 := fun x =>
    if h : x.isFinite = true ∧ Kept t x then choose (float_text ht x h.1) else x.toF64
  have hnum : ∀ x, Kept t x → x.isFinite = true →
      ∃ d, Number (t.f32 x) d ∧ NumberIs d (.float (num x)) := by
    intro x hx hf
    have := choose_spec (float_text ht x hf)
    simp only [num, dif_pos (And.intro hf hx)]
    exact this
  have hdoc := file_document ht f hm num (every_imp hnum _ hk)
  letI inst : FloatJ := ⟨num⟩
  haveI : Js.FloatBack := ⟨fun x hf => by
    by_cases hx : Kept t x
    · obtain ⟨d, h1, h2⟩ := hnum x hx hf
      cases h2 with
      | float _ h3 => exact hx hf d _ h1 h3
    · change (num x).toF32 = x
      simp only [num]
      rw [dif_neg fun h => hx h.2]
      exact toF32_toF64 x hf⟩
  have e : f.toSerde.toJ num = @GvasFile.toJson inst f := file_toJ f
  have hd' : (f.toSerde.toJ num).depth ≤ 127 := by
    rw [toJ_depth num F32.toF64, C88_same_value]
    exact hd
  have h1 : J.ofText (f.toText t) = some (f.toSerde.toJ num) :=
    (C88_text_accepted _ _).mpr ⟨_, hdoc, hd', (toJ_merge num _ (file_fine f hm)).symm⟩
  rw [GvasFile.ofText, h1, Option.bind_some, e, Js.file_back f hm, Js.keep]

open Classical in
/-- **C88**: a file nested deeper than 127 is saved, but its text is refused. -/
theorem C88_deep_refused (t : FloatText) (ht : FloatsOf t) (f : GvasFile) (hm : FileMaps f)
    (hd : 127 < f.toJson.depth) : GvasFile.ofText (f.toText t) = none := by
  let num : F32 → F64 := fun x =>
    if h : x.isFinite = true then choose (float_text ht x h) else x.toF64
  have hnum : ∀ x, x.isFinite = true → ∃ d, Number (t.f32 x) d ∧ NumberIs d (.float (num x)) := by
    intro x hf
    have := choose_spec (float_text ht x hf)
    simp only [num, dif_pos hf]
    exact this
  have hdoc := file_document ht f hm num (every_all hnum _)
  cases h : J.ofText (f.toText t) with
  | none => rw [GvasFile.ofText, h]; rfl
  | some j =>
    obtain ⟨r, h1, h2, _⟩ := (C88_text_accepted _ _).mp h
    rw [document_unique h1 hdoc, toJ_depth num F32.toF64, C88_same_value] at h2
    omega

theorem f64_ext {a b : F64} (hs : sign64 a = sign64 b) (hm : abs64 a = abs64 b) : a = b := by
  have h1 : sign64 b < 2 := by have := b.bits.toNat_lt; unfold sign64; omega
  have h2 : abs64 b < 2 ^ 63 := by unfold abs64; omega
  rw [(f64_parts h1 h2).mp ⟨hs, hm⟩]
  exact ((f64_parts h1 h2).mp ⟨rfl, rfl⟩).symm

theorem near64_unique {d : Decimal} {a b : F64} (ha : Near64 d a) (hb : Near64 d b) : a = b :=
  f64_ext (ha.1.trans hb.1.symm) (nearest_unique (Nat.pow_pos (by omega)) ha.2 hb.2)

open Classical in
/-- **C88**: a file saved as text is loaded as it was if and only if all floats in it are finite, it
is nested at most 127 deep, and rounding its `f32` numbers twice does no harm. -/
theorem C88_text_iff_partial (t : FloatText) (ht : FloatsOf t) (f : GvasFile) (hm : FileMaps f) :
    GvasFile.ofText (f.toText t) = some f ↔
      fileFinite f = true ∧ f.toJson.depth ≤ 127 ∧ EveryF32 (Kept t) f.toSerde := by
  constructor
  · intro h
    have hd : f.toJson.depth ≤ 127 := by
      rcases Nat.lt_or_ge 127 f.toJson.depth with h1 | h1
      · rw [C88_deep_refused t ht f hm h1] at h; cases h
      · exact h1
    let num : F32 → F64 := fun x =>
      if h : x.isFinite = true then choose (float_text ht x h) else x.toF64
    have hnum : ∀ x, x.isFinite = true →
        ∃ d, Number (t.f32 x) d ∧ NumberIs d (.float (num x)) := by
      intro x hf
      have := choose_spec (float_text ht x hf)
      simp only [num, dif_pos hf]
      exact this
    have hdoc := file_document ht f hm num (every_all hnum _)
    letI inst : FloatJ := ⟨num⟩
    have e : f.toSerde.toJ num = @GvasFile.toJson inst f := file_toJ f
    have hd' : (f.toSerde.toJ num).depth ≤ 127 := by
      rw [toJ_depth num F32.toF64, C88_same_value]
      exact hd
    have h1 : J.ofText (f.toText t) = some (f.toSerde.toJ num) :=
      (C88_text_accepted _ _).mpr ⟨_, hdoc, hd', (toJ_merge num _ (file_fine f hm)).symm⟩
    have h2 : GvasFile.ofJson (@GvasFile.toJson inst f) = some f := by
      rw [GvasFile.ofText, h1, Option.bind_some, e] at h
      exact h
    have h3 := Kept.file_floats f ((Layout.file_iff _ _).mp h2)
    have h4 : EveryF32 (Kept t) f.toSerde := every_imp (fun x hx hf d y h5 h6 => by
      obtain ⟨d', h7, h8⟩ := hnum x hf
      obtain rfl := number_unique h5 h7
      cases h8 with
      | float _ h8 => rw [near64_unique h6 h8]; exact hx.2) _ h3
    refine ⟨?_, hd, h4⟩
    rw [C88_text_roundtrip_partial t ht f hm hd h4] at h
    split at h
    · assumption
    · cases h
  · rintro ⟨h1, h2, h3⟩
    rw [C88_text_roundtrip_partial t ht f hm h2 h3, if_pos h1]

/-- **C88**: the same for the contents of a save. -/
theorem C88_saves_partial (t : FloatText) (ht : FloatsOf t) (debug : Bool)
    (hints : String → Option String) (input : Bytes) (h : GvasHeader)
    (ps : List (String × Property)) (hr : (readData debug hints input).1 = .ok (h, ps))
    (gv : DeserializedGameVersion) :
    GvasFile.ofText (GvasFile.toText t ⟨gv, h, ps⟩) = some ⟨gv, h, ps⟩ ↔
      (∀ e ∈ ps, allFinite e.2 = true) ∧ (GvasFile.toJson ⟨gv, h, ps⟩).depth ≤ 127 ∧
        EveryF32 (Kept t) (GvasFile.toSerde ⟨gv, h, ps⟩) := by
  rw [C88_text_iff_partial t ht _ (Js.fileOK_maps (accept_data hr gv).1)]
  simp [fileFinite]

/-! ## Exact digits -/

/-- Floats with all their digits. -/
def exactText : FloatText where
  f32 f := (if sign32 f = 1 then ['-'] else []) ++
    (Nat.toDigits 10 (magnitude 23 (abs32 f) * 5 ^ 149) ++ "e-149".toList)
  f64 f := (if sign64 f = 1 then ['-'] else []) ++
    (Nat.toDigits 10 (magnitude 52 (abs64 f) * 5 ^ 1074) ++ "e-1074".toList)

theorem exact_number (neg : Bool) (n k : Nat) {l : List Char} (hl : Digits l k) :
    Number ((if neg then ['-'] else []) ++ (Nat.toDigits 10 n ++ 'e' :: '-' :: l))
      ⟨neg, n, -(k : Int), false⟩ := by
  have hm := Magnitude.mk (toDigits_digits n) .absent (.minus (.inl rfl) hl)
  have hm' : Rfc8259.Magnitude (Nat.toDigits 10 n ++ 'e' :: '-' :: l) n (-(k : Int)) false := by
    simpa using hm
  cases neg
  · exact .plus hm'
  · exact .minus hm'

theorem digits149 : Digits "149".toList 149 := (digits_iff _ _).mpr (by decide)
theorem digits1074 : Digits "1074".toList 1074 := (digits_iff _ _).mpr (by decide)

theorem exact_number32 (f : F32) : Number (exactText.f32 f)
    ⟨decide (sign32 f = 1), magnitude 23 (abs32 f) * 5 ^ 149, -149, false⟩ := by
  have := exact_number (decide (sign32 f = 1)) (magnitude 23 (abs32 f) * 5 ^ 149) 149 digits149
  simp only [decide_eq_true_eq] at this
  exact this

theorem exact_number64 (f : F64) : Number (exactText.f64 f)
    ⟨decide (sign64 f = 1), magnitude 52 (abs64 f) * 5 ^ 1074, -1074, false⟩ := by
  have := exact_number (decide (sign64 f = 1)) (magnitude 52 (abs64 f) * 5 ^ 1074) 1074 digits1074
  simp only [decide_eq_true_eq] at this
  exact this

theorem sign32_cases (f : F32) : sign32 f = (if decide (sign32 f = 1) then 1 else 0) := by
  have := f.bits.toNat_lt
  unfold sign32
  simp only [decide_eq_true_eq]
  split <;> omega

theorem sign64_cases (f : F64) : sign64 f = (if decide (sign64 f = 1) then 1 else 0) := by
  have := f.bits.toNat_lt
  unfold sign64
  simp only [decide_eq_true_eq]
  split <;> omega

theorem five_two (m k : Nat) : m * 5 ^ k * 10 ^ 0 * 2 ^ k = m * 10 ^ k := by
  rw [Nat.pow_zero, Nat.mul_one, Nat.mul_assoc, ← Nat.mul_pow]

/-- The assumptions on the texts of floats can be met. -/
theorem exactText_floats : FloatsOf exactText where
  f32 f hf := by
    refine ⟨_, exact_number32 f, rfl, sign32_cases f, ?_⟩
    have hb := Nat.le_of_lt ((finite_abs32 f).mp hf)
    exact nearest_exact (Nat.pow_pos (by omega)) (five_two _ 149) hb
  f64 f hf := by
    refine ⟨_, exact_number64 f, rfl, sign64_cases f, ?_⟩
    have hb := Nat.le_of_lt ((finite_abs64 f).mp hf)
    exact nearest_exact (Nat.pow_pos (by omega)) (five_two _ 1074) hb

/-- Exact digits are not harmed by rounding twice. -/
theorem exactText_kept (f : F32) : Kept exactText f := by
  intro hf d e h1 h2
  obtain rfl := number_unique h1 (exact_number32 f)
  obtain ⟨hs, hm⟩ := C70_f32_to_f64_exact f hf
  have hfin : abs64 f.toF64 < inf64 := by
    rcases Nat.lt_or_ge (abs64 f.toF64) inf64 with h | h
    · exact h
    · exfalso
      have h3 := magnitude_mono 52 h
      have h4 : magnitude 23 (abs32 f) < magnitude 23 inf32 :=
        magnitude_strict 23 ((finite_abs32 f).mp hf)
      rw [hm] at h3
      have h5 : magnitude 23 inf32 * 2 ^ 925 ≤ magnitude 52 inf64 := by decide +kernel
      have h6 := Nat.mul_lt_mul_of_pos_right h4 (Nat.pow_pos (n := 925) (show 0 < 2 by omega))
      exact absurd (Nat.lt_of_lt_of_le h6 (Nat.le_trans h5 h3)) (Nat.lt_irrefl _)
  have hu : 0 < 10 ^ 149 := Nat.pow_pos (by omega)
  have he : abs64 e = abs64 f.toF64 := by
    have e1 : 2 ^ 1074 = 2 ^ 149 * 2 ^ 925 := by rw [← Nat.pow_add]
    have h3 : Nearest 52 inf64 (10 ^ 149) (magnitude 23 (abs32 f) * 5 ^ 149 * 10 ^ 0 * 2 ^ 1074)
        (abs64 e) := h2.2
    rw [e1, ← Nat.mul_assoc, five_two, Nat.mul_right_comm, ← hm] at h3
    exact nearest_unique hu h3 (nearest_exact hu rfl (Nat.le_of_lt hfin))
  have hs' : sign64 e = sign64 f.toF64 := by
    rw [hs, h2.1]; exact (sign32_cases f).symm
  rw [f64_ext hs' he]
  exact toF32_toF64 f hf

/-- **C88**: with all digits of every float, files of finite floats nested at most 127 deep are
loaded as they were saved: it is the shortest digits that do the harm. -/
theorem C88_exact_digits (f : GvasFile) (hm : FileMaps f) (hf : fileFinite f = true)
    (hd : f.toJson.depth ≤ 127) : GvasFile.ofText (f.toText exactText) = some f := by
  rw [C88_text_roundtrip_partial exactText exactText_floats f hm hd (every_all exactText_kept _),
    if_pos hf]

/-! ## A float that changes -/

/-- A header. -/
def textHeader : GvasHeader := .version2 522 ⟨4, 27, 2, 0, "a"⟩ 3 [] "b"

/-- A file with one float. -/
def oneFloat (x : F32) : GvasFile := ⟨.default, textHeader, [("x", .float x)]⟩

theorem oneFloat_maps (x : F32) : FileMaps (oneFloat x) := by
  refine ⟨by simp [oneFloat, textHeader, GvasHeader.customVersions], ?_, ?_⟩
  · simp [oneFloat, KeysDistinct]
  · simp [oneFloat, MapsDistinct]

open Classical in
/-- The file is loaded with the float that the text of its float is rounded to by way of `f64`. -/
theorem oneFloat_loaded {t : FloatText} (ht : FloatsOf t) {x : F32} {d : Decimal} {e : F64}
    (hx : x.isFinite = true) (h1 : Number (t.f32 x) d) (h2 : d.whole = false) (h3 : Near64 d e)
    (h4 : abs64 e < inf64) (h5 : e.toF32.isFinite = true) :
    GvasFile.ofText ((oneFloat x).toText t) = some (oneFloat e.toF32) := by
  have hdoc := file_document ht (oneFloat x) (oneFloat_maps x) (fun _ => e)
    ⟨by simp [GvasHeader.toS, textHeader, oneFloat, EveryF32, EveryF32Members, FEngineVersion.toS,
      customVersionsS], ⟨⟨trivial, fun _ => ⟨d, h1, .float (no_fit h2) h3 h4⟩, trivial⟩, trivial⟩,
      trivial⟩
  let num : F32 → F64 := fun y => if y = e.toF32 then e else y.toF64
  letI inst : FloatJ := ⟨num⟩
  haveI : Js.FloatBack := ⟨fun y hy => by
    change (num y).toF32 = y
    simp only [num]
    split
    · rename_i h; exact h.symm
    · exact toF32_toF64 y hy⟩
  have e1 : (oneFloat x).toSerde.toJ (fun _ => e) = @GvasFile.toJson inst (oneFloat e.toF32) := by
    rw [← file_toJ]
    change _ = (oneFloat e.toF32).toSerde.toJ num
    have hn : num e.toF32 = e := by simp [num]
    simp only [oneFloat, textHeader, GvasFile.toSerde, GvasHeader.toS, customVersionsS, FEngineVersion.toS,
      List.nil_append, Ser.toJ, serEntries, strPropsS, Property.toS, F32.toS, hx, h5, hn, if_true,
      List.map_nil]
  have e2 : J.ofText ((oneFloat x).toText t) = some ((oneFloat x).toSerde.toJ fun _ => e) :=
    (C88_text_accepted _ _).mpr ⟨_, hdoc, by
      simp only [oneFloat, textHeader, GvasFile.toSerde, GvasHeader.toS, customVersionsS, FEngineVersion.toS,
        List.nil_append, Ser.toJ, serEntries, strPropsS, Property.toS, F32.toS, hx, if_true,
        List.map_nil]
      simp [J.depth, depthEntries], (toJ_merge _ _ (file_fine _ (oneFloat_maps x))).symm⟩
  rw [GvasFile.ofText, e2, Option.bind_some, e1, Js.file_back _ (oneFloat_maps _)]
  have : fileFinite (oneFloat e.toF32) = true := by
    simp [fileFinite, oneFloat, allFinite, Js.finite32_eq, h5]
  rw [this]
  rfl

/-- The number has at most seven digits that are not zeros at its end. -/
def SevenDigits (d : Decimal) : Prop := ∃ (n : Nat) (e : Int), n < 10 ^ 7 ∧
  d.mantissa * 10 ^ d.exponent.toNat * 10 ^ (-e).toNat =
    n * 10 ^ e.toNat * 10 ^ (-d.exponent).toNat

theorem seven_bounds {v X w : Nat} (hw : w = 2 ^ 42 * v) (hv : 0 < v)
    (lo : distance (11420669 * 2 ^ 42 * v) X ≤ distance (11420668 * 2 ^ 42 * v) X)
    (hi : distance (11420669 * 2 ^ 42 * v) X ≤ distance (11420670 * 2 ^ 42 * v) X) :
    22841337 * w ≤ 2 * X ∧ 2 * X ≤ 22841339 * w := by
  rw [Nat.mul_assoc, Nat.mul_assoc, ← hw] at lo hi
  have hp : 0 < w := by omega
  clear hw hv
  have h1 : 11420669 * w = 11420668 * w + w := Nat.succ_mul _ _
  have h2 : 11420670 * w = 11420668 * w + w + w := by rw [← h1]; exact Nat.succ_mul _ _
  have h3 : 2 * (11420668 * w) = 22841336 * w := by rw [← Nat.mul_assoc]
  rw [h1] at lo hi
  rw [h2] at hi
  clear h1 h2
  unfold distance at lo hi
  have : 2 * (11420668 * w) + w ≤ 2 * X ∧ 2 * X ≤ 2 * (11420668 * w) + 3 * w := by
    generalize 11420668 * w = A at *
    omega
  omega

/-- A number of at most seven digits next to the float `0x15AE43FD` is 7038531e-32. -/
theorem seven_digits {d : Decimal} (h7 : SevenDigits d) (h : Near32 d ⟨0x15AE43FD⟩) :
    d.mantissa * 10 ^ d.exponent.toNat * 10 ^ 32 = 7038531 * 10 ^ (-d.exponent).toNat := by
  obtain ⟨n, e, hn, he⟩ := h7
  obtain ⟨_, h⟩ := h
  have hu : 0 < 10 ^ (-d.exponent).toNat := Nat.pow_pos (by omega)
  generalize 10 ^ (-d.exponent).toNat = u at *
  generalize d.mantissa * 10 ^ d.exponent.toNat = x at *
  have hv : 0 < 10 ^ (-e).toNat := Nat.pow_pos (by omega)
  -- in other units
  have hs : Nearest 23 inf32 (10 ^ (-e).toNat) (n * 10 ^ e.toNat * 2 ^ 149) 0x15AE43FD := by
    rw [← nearest_scale hv, Nat.mul_right_comm, he] at h
    rw [← nearest_scale hu]
    have e1 : n * 10 ^ e.toNat * 2 ^ 149 * u = n * 10 ^ e.toNat * u * 2 ^ 149 := by
      rw [Nat.mul_right_comm]
    rw [e1, Nat.mul_comm _ u]
    exact h
  -- the bounds
  have lo := (hs.2 0x15AE43FC (by decide)).1
  have hi := (hs.2 0x15AE43FE (by decide)).1
  have m0 : magnitude 23 0x15AE43FC = 11420668 * 2 ^ 42 := by decide
  have m1 : magnitude 23 0x15AE43FD = 11420669 * 2 ^ 42 := by decide
  have m2 : magnitude 23 0x15AE43FE = 11420670 * 2 ^ 42 := by decide
  rw [m0, m1] at lo
  rw [m1, m2] at hi
  obtain ⟨b1, b2⟩ := seven_bounds rfl hv lo hi
  clear hs lo hi m0 m1 m2 h
  by_cases hneg : 0 ≤ e
  · have e0 : (-e).toNat = 0 := by omega
    rw [e0] at b1 b2
    clear he hv
    generalize n * 10 ^ e.toNat = N at *
    omega
  · have e0 : e.toNat = 0 := by omega
    rw [e0, Nat.pow_zero, Nat.mul_one] at b1 b2 he
    generalize hq : (-e).toNat = q at *
    by_cases hq32 : q ≤ 32
    · have e32 : 10 ^ q * 10 ^ (32 - q) = 10 ^ 32 := by rw [← Nat.pow_add]; congr 1; omega
      generalize 10 ^ q = v at *
      generalize 10 ^ (32 - q) = p at *
      have c1 := Nat.mul_le_mul_right p b1
      have c2 := Nat.mul_le_mul_right p b2
      have e1 : 2 * (n * 2 ^ 149) * p = 2 ^ 150 * (n * p) := by
        rw [Nat.mul_assoc, Nat.mul_right_comm n, Nat.mul_left_comm, Nat.mul_comm]
      have e2 : ∀ c, c * (2 ^ 42 * v) * p = c * 2 ^ 42 * 10 ^ 32 := by
        intro c
        rw [← e32, Nat.mul_assoc, Nat.mul_assoc, Nat.mul_assoc]
      rw [e1, e2] at c1 c2
      rw [← e32, ← Nat.mul_assoc, he, Nat.mul_right_comm]
      generalize n * p = N at *
      clear e1 e2 e32 he b1 b2 hv
      have hN : N = 7038531 := by omega
      rw [hN]
    · have h33 : 10 ^ 33 ≤ 10 ^ q := Nat.pow_le_pow_right (by omega) (by omega)
      generalize 10 ^ q = v at *
      clear he hv b2
      omega

/-- What `0x15AE43FD` becomes. -/
theorem seven_digits_f64 {d : Decimal} (h7 : SevenDigits d) (h : Near32 d ⟨0x15AE43FD⟩) :
    Near64 d ⟨0x3AB5C87FB0000000⟩ := by
  have hx := seven_digits h7 h
  obtain ⟨hs, _⟩ := h
  refine ⟨by rw [← hs]; decide, ?_⟩
  have hu : 0 < 10 ^ (-d.exponent).toNat := Nat.pow_pos (by omega)
  generalize 10 ^ (-d.exponent).toNat = u at *
  generalize d.mantissa * 10 ^ d.exponent.toNat = x at *
  have key : Nearest 52 inf64 (10 ^ 32) (7038531 * 2 ^ 1074) (abs64 ⟨0x3AB5C87FB0000000⟩) := by
    have h0 := nearestBits_spec (u := 10 ^ 32) (x := 7038531 * 2 ^ 1074) (by decide)
    have e0 : min (nearestBits (10 ^ 32) (7038531 * 2 ^ 1074)) inf64 =
        abs64 ⟨0x3AB5C87FB0000000⟩ := by decide +kernel
    rw [e0] at h0
    exact h0
  generalize 2 ^ 1074 = p at *
  rw [← nearest_scale (k := 10 ^ 32) (by decide), Nat.mul_right_comm, hx]
  rw [← nearest_scale hu] at key
  rw [Nat.mul_right_comm, Nat.mul_comm u]
  exact key

/-- **C88**: the float `0x15AE43FD` (7.038531e-26) is changed by saving and loading, for all texts of
floats that name it with at most seven digits: ryu does so, as it uses as few as possible. -/
theorem C88_float_changes (t : FloatText) (ht : FloatsOf t) (d : Decimal)
    (hd : Number (t.f32 ⟨0x15AE43FD⟩) d) (h7 : SevenDigits d) :
    GvasFile.ofText ((oneFloat ⟨0x15AE43FD⟩).toText t) = some (oneFloat ⟨0x15AE43FE⟩) := by
  obtain ⟨d', h1, h2, h3⟩ := ht.f32 ⟨0x15AE43FD⟩ (by decide)
  obtain rfl := number_unique h1 hd
  have h4 := seven_digits_f64 h7 h3
  have e : (⟨0x3AB5C87FB0000000⟩ : F64).toF32 = ⟨0x15AE43FE⟩ := by decide
  have := oneFloat_loaded ht (by decide) h1 h2 h4 (by decide) (by rw [e]; decide)
  rw [e] at this
  exact this

/-- Exact digits, but for one float. -/
def shortText : FloatText where
  f32 f := if f = ⟨0x15AE43FD⟩ then "7.038531e-26".toList else exactText.f32 f
  f64 := exactText.f64

theorem short_number : Number "7.038531e-26".toList ⟨false, 7038531, -32, false⟩ := by
  obtain ⟨t, e, h⟩ := signed_sound (cs := "7.038531e-26".toList) (r := [])
    (d := ⟨false, 7038531, -32, false⟩) (by decide +kernel)
  rw [List.append_nil] at e
  rw [e]
  exact h

theorem short_near : Near32 ⟨false, 7038531, -32, false⟩ ⟨0x15AE43FD⟩ := by
  refine ⟨by decide, ?_⟩
  exact nearest_between (q := 0x15AE43FD) (by decide +kernel) (by decide +kernel) (by decide)
    (by decide +kernel)

theorem short_text : shortText.f32 ⟨0x15AE43FD⟩ = "7.038531e-26".toList := by
  rw [shortText]
  simp only [if_true]

theorem shortText_floats : FloatsOf shortText where
  f32 f hf := by
    by_cases h : f = ⟨0x15AE43FD⟩
    · subst h
      exact ⟨_, short_text ▸ short_number, rfl, short_near⟩
    · have e : shortText.f32 f = exactText.f32 f := if_neg h
      rw [e]
      exact exactText_floats.f32 f hf
  f64 := exactText_floats.f64

/-- The float with the short text is the one that is not kept. -/
example : ¬ EveryF32 (Kept shortText) (oneFloat ⟨0x15AE43FD⟩).toSerde := fun h => by
  have := (C88_text_iff_partial shortText shortText_floats _ (oneFloat_maps _)).mpr
    ⟨by decide +kernel, by decide +kernel, h⟩
  rw [C88_float_changes shortText shortText_floats _ (short_text ▸ short_number)
    ⟨7038531, -32, by decide, rfl⟩] at this
  simp [oneFloat] at this

/-- Texts that meet the assumptions, with the digits that ryu prints. -/
example : GvasFile.ofText ((oneFloat ⟨0x15AE43FD⟩).toText shortText) =
    some (oneFloat ⟨0x15AE43FE⟩) :=
  C88_float_changes shortText shortText_floats _ (short_text ▸ short_number)
    ⟨7038531, -32, by decide, rfl⟩

/-! ## A file that is too deep -/

/-- Structs in structs. -/
def nested : Nat → Property
  | 0 => .bool true
  | n + 1 => .struct (Guid.fromU32 0 0 0 0) "S" (.customStruct [("f", [nested n])])

/-- A file with structs in structs. -/
def structsIn (n : Nat) : GvasFile := ⟨.default, textHeader, [("x", nested n)]⟩

theorem nested_maps (n : Nat) : MapsDistinct (nested n) := by
  induction n with
  | zero => simp [nested, MapsDistinct]
  | succ n ih => simp [nested, MapsDistinct, StructMaps, KeysDistinct, FieldsMaps, PropsMaps, ih]

theorem nested_depth (n : Nat) : 3 * n ≤ (nested n).toJ.depth := by
  induction n with
  | zero => exact Nat.zero_le _
  | succ n ih =>
    simp only [nested, Property.toJ, StructPropertyValue.entry, fieldsJ, propsJ, J.depth]
    have : ∀ (g : List (String × J)) (e : String × J) (l : List (String × J)),
        e.2.depth ≤ depthEntries (g ++ e :: l) := by
      intro g e l
      induction g with
      | nil => exact Nat.le_max_left _ _
      | cons a g ih => exact Nat.le_trans ih (Nat.le_max_right _ _)
    have h := this (("type", .str "StructProperty") :: (guidE (Guid.fromU32 0 0 0 0) ++
      [("type_name", .str "S")])) ("CustomStruct", .obj [("f", .arr [(nested n).toJ])]) []
    simp only [J.depth, depthEntries, depthList, List.cons_append, List.append_assoc,
      List.nil_append, Nat.max_zero] at h ⊢
    omega

theorem structsIn_maps (n : Nat) : FileMaps (structsIn n) := by
  refine ⟨by simp [structsIn, textHeader, GvasHeader.customVersions], ?_, ?_⟩
  · simp [structsIn, KeysDistinct]
  · simp [structsIn, nested_maps]

/-- 43 structs in each other, saved but not loaded. -/
example : GvasFile.ofText ((structsIn 43).toText exactText) = none :=
  C88_deep_refused exactText exactText_floats _ (structsIn_maps 43) (by
    have := nested_depth 43
    simp only [GvasFile.toJson, structsIn, strPropsJ, J.depth, depthEntries, List.nil_append]
    omega)

/-- The bytes of a save. -/
def bytesOf (f : GvasFile) : Bytes :=
  match f.encode with
  | .ok d => d
  | .bad _ => []

/-- **C88**: there is a save of 3 KB that is read, but the text it is turned into is refused. -/
theorem C88_save_refused (t : FloatText) (ht : FloatsOf t) : ∃ input h ps,
    (readData true noHints input).1 = .ok (h, ps) ∧ input.length ≤ 3000 ∧
      GvasFile.ofText (GvasFile.toText t ⟨.default, h, ps⟩) = none := by
  have hk : (match (readData true noHints (bytesOf (structsIn 43))).1 with
      | .ok (h, ps) => decide (127 < (GvasFile.toJson ⟨.default, h, ps⟩).depth)
      | .bad _ => false) = true := by decide +kernel
  revert hk
  rcases hr : (readData true noHints (bytesOf (structsIn 43))).1 with ⟨h, ps⟩ | f
  · intro hk
    exact ⟨_, h, ps, hr, by decide +kernel, C88_deep_refused t ht _
      (Js.fileOK_maps (accept_data hr .default).1) (of_decide_eq_true hk)⟩
  · intro hk; cases hk

theorem oneFloat_read : (readData true noHints (bytesOf (oneFloat ⟨0x15AE43FD⟩))).1 =
    .ok (textHeader, [("x", .float ⟨0x15AE43FD⟩)]) := by
  have hk : (match (readData true noHints (bytesOf (oneFloat ⟨0x15AE43FD⟩))).1 with
      | .ok (h, [(n, .float x)]) => decide (h = textHeader ∧ n = "x" ∧ x = ⟨0x15AE43FD⟩)
      | _ => false) = true := by decide +kernel
  split at hk
  · rename_i he
    obtain ⟨rfl, rfl, rfl⟩ := of_decide_eq_true hk
    exact he
  · cases hk

/-- **C88**: there is a save that is read, turned into text, loaded and written again as other
bytes, for all texts of floats that name `0x15AE43FD` with at most seven digits. -/
theorem C88_save_changes (t : FloatText) (ht : FloatsOf t) (d : Decimal)
    (hd : Number (t.f32 ⟨0x15AE43FD⟩) d) (h7 : SevenDigits d) : ∃ input h ps f output,
    (readData true noHints input).1 = .ok (h, ps) ∧
      GvasFile.ofText (GvasFile.toText t ⟨.default, h, ps⟩) = some f ∧ f.encode = .ok output ∧
        input.length = output.length ∧ input ≠ output :=
  ⟨bytesOf (oneFloat ⟨0x15AE43FD⟩), _, _, _, bytesOf (oneFloat ⟨0x15AE43FE⟩), oneFloat_read,
    C88_float_changes t ht d hd h7, by rfl, by rfl, by decide +kernel⟩

example : SevenDigits ⟨false, 7038531, -32, false⟩ := ⟨7038531, -32, by decide, by decide⟩

/-! ## A file that comes back -/

/-- A file with text, numbers and a struct in a struct. -/
def mixedFile : GvasFile := ⟨.default, textHeader,
  [("a\"\n\u0007é", .str (some "x\\y")), ("n", .int64 (-3)), ("f", .float ⟨0x3DCCCCCD⟩),
    ("d", .double ⟨0x7FEFFFFFFFFFFFFF⟩), ("s", nested 2)]⟩

theorem mixedFile_maps : FileMaps mixedFile := by
  refine ⟨by simp [mixedFile, textHeader, GvasHeader.customVersions], ?_, ?_⟩
  · unfold KeysDistinct; decide +kernel
  · simp [mixedFile, nested_maps, MapsDistinct]

example : GvasFile.ofText (mixedFile.toText exactText) = some mixedFile :=
  C88_exact_digits mixedFile mixedFile_maps (by decide +kernel) (by decide +kernel)

/-- Infinity is saved as `null`, which is refused. -/
example : GvasFile.ofText ((oneFloat ⟨0x7F800000⟩).toText exactText) = none := by
  rw [C88_text_roundtrip_partial exactText exactText_floats _ (oneFloat_maps _) (by decide +kernel)
    (every_all exactText_kept _)]
  exact if_neg (by decide +kernel)

example : mixedFile.toSerde.toJ F32.toF64 = mixedFile.toJson := C88_same_value mixedFile

end Gvas
