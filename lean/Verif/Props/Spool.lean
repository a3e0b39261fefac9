import Verif.Lemmas.Spool
import Verif.Props.Depth

/-!
# C92: what saving copies and holds
-/

namespace Gvas

open Spec

/-! ## The metered writers are the writers -/

/-- **C92**: the metered writer of properties writes what `write` writes, and fails as it does. -/
theorem C92_same_property (cv : List (Guid × UInt32)) (hd : Bool) (p : Property) :
    (match Property.spool cv hd p with
      | .ok s => Res.ok s.out
      | .bad f => .bad f) = Property.write cv hd p := by
  rw [← property_unmetered]
  cases Property.spool cv hd p with
  | ok s => rfl
  | bad e => rfl

/-- **C92**: the metered writer of files fills the buffer with what `write` fills it with, and fails
as it does. -/
theorem C92_same_file (f : GvasFile) :
    (match f.spool with
      | .ok s => Res.ok s.out.bytes
      | .bad e => .bad e) = f.encode := by
  unfold GvasFile.spool GvasFile.encode
  rw [← top_unmetered]
  cases spoolTop f.header.customVersions f.properties with
  | ok s => rfl
  | bad e => rfl

/-- Both kinds of outcome occur: a vector of doubles is not written for a version without them. -/
example : (Property.spool [] true (.bool true)).unmetered = .ok (writeBoolProperty true true) ∧
    (Property.spool [] false (.structValue (.vector2D ⟨0⟩ ⟨0⟩))).unmetered =
      .err (.serializeInvalidValue "Vector2D not supported when LWC is disabled, use Vector2F") :=
  ⟨rfl, by decide +kernel⟩

/-! ## What is copied and held -/

/-- **C92**: what writing a property takes.  Every byte is written once at least, and at most once
per level of nesting and buffer; in all there are no more bytes written than the square of the size
divided by a hundred, and twice the size; and what the destination and the buffers hold at any time
is at most twice the size. -/
theorem C92_property (cv : List (Guid × UInt32)) (hd : Bool) (p : Property) (s : Spool)
    (h : Property.spool cv hd p = .ok s) :
    s.size ≤ s.copied ∧ s.copied ≤ (2 * depth p + 1) * s.size ∧
    100 * s.copied ≤ s.size ^ 2 + 200 * s.size ∧ s.peak ≤ 2 * s.size := by
  have w := (property_within cv hd p s h).mono (Nat.zero_le _) (Nat.le_refl _)
  exact ⟨w.low, w.deep, w.square, w.room⟩

/-- What the meter says of a result: size, bytes written, bytes held. -/
def Res.measures (r : Res Spool) : Option (Nat × Nat × Nat) :=
  match r with
  | .ok s => some (s.size, s.copied, s.peak)
  | .bad _ => none

/-- An array of two structs, one with a flag and a number: 192 bytes, of which some are copied three
times. -/
example : (Property.spool [] true (.array (.structs "a" "b" ⟨List.replicate 16 0, rfl⟩
    [.customStruct [("c", [.bool true, .int 3])], .customStruct []]))).measures =
    some (192, 428, 338) := by decide +kernel

theorem top_within (cv : List (Guid × UInt32)) (d : Nat) (l : List (String × Property))
    (hd : ∀ x ∈ l, depth x.2 ≤ d) (s : Spool) (h : spoolTop cv l = .ok s) :
    Within 0 (2 * d + 1) s := by
  induction l generalizing s with
  | nil => cases h; exact within_put _ _ _
  | cons x l ih =>
    obtain ⟨k, p⟩ := x
    rw [spoolTop] at h
    obtain ⟨a, h1, h⟩ := Res.bind_inv h
    obtain ⟨b, h2, h⟩ := Res.bind_inv h
    dev_tac h
    have hp := hd (k, p) (List.mem_cons_self ..)
    exact ((within_put _ _ _).app ((property_within cv true p a h1).mono (Nat.le_refl _)
      (by simp only at hp; omega))).app (ih (fun x hx => hd x (List.mem_cons_of_mem _ hx)) b h2)

/-- **C92**: what filling the buffer for a file takes, likewise; `d` is a bound of the depth of its
properties. -/
theorem C92_file (f : GvasFile) (s : Spool) (h : f.spool = .ok s) (d : Nat)
    (hd : ∀ x ∈ f.properties, depth x.2 ≤ d) :
    s.size ≤ s.copied ∧ s.copied ≤ (2 * d + 1) * s.size ∧
    100 * s.copied ≤ s.size ^ 2 + 200 * s.size ∧ s.peak ≤ 2 * s.size := by
  obtain ⟨a, h1, h⟩ := Res.bind_inv h
  dev_tac h
  have w := (((within_put f.header.write 0 (2 * d)).app (top_within _ d _ hd a h1)).app
    (within_put (writeString "None") 0 (2 * d))).app (within_put ⟨i32B 0, 4⟩ 0 (2 * d))
  exact ⟨w.low, w.deep, w.square, w.room⟩

/-- A file with two properties. -/
example : (GvasFile.spool ⟨.default, .version2 522 ⟨0, 0, 0, 0, ""⟩ 3 [] "",
    [("a", .bool true), ("b", .str (some "text"))]⟩).measures = some (126, 135, 126) := by decide +kernel

/-! ## The bounds are reached -/

/-- An unknown property with `n` bytes is held twice, but for its header of 14 bytes. -/
theorem C92_room_reached (cv : List (Guid × UInt32)) (raw : Bytes) :
    ∃ s, Property.spool cv true (.unknown "" raw) = .ok s ∧ s.size = raw.length + 14 ∧
      s.peak + 14 = 2 * s.size := by
  have l1 : (writeString "").bytes.length = 5 := by decide +kernel
  have hl := headed_true_length "" Out.nil ⟨raw, raw.length⟩
  rw [l1] at hl
  simp only [Out.nil_bytes, List.length_nil, Nat.add_zero] at hl
  rw [Property.spool]
  refine ⟨_, rfl, ?_, ?_⟩
  · show (headed true "" Out.nil ⟨raw, raw.length⟩).bytes.length = _
    omega
  · show max (0 + raw.length) (raw.length +
      (headed true "" Out.nil ⟨raw, raw.length⟩).bytes.length) + 14 =
      2 * (headed true "" Out.nil ⟨raw, raw.length⟩).bytes.length
    omega

/-- Arrays of structs with one field, which is such an array, `n` levels. -/
def arrayTower : Nat → Property
  | 0 => .array (.properties "" [])
  | n + 1 => .array (.properties "" [.structValue (.customStruct [("", [arrayTower n])])])

theorem arrayTower_spool (cv : List (Guid × UInt32)) (n : Nat) :
    ∃ s, Property.spool cv true (arrayTower n) = .ok s ∧ s.size = 36 + 50 * n ∧
      s.copied = 40 + 79 * n + 25 * (n * n) := by
  have l1 : (writeString "ArrayProperty").bytes.length = 18 := by decide +kernel
  have l2 : (writeString "").bytes.length = 5 := by decide +kernel
  have l3 : (writeString "None").bytes.length = 9 := by decide +kernel
  induction n with
  | zero => exact ⟨_, rfl, by decide +kernel, by decide +kernel⟩
  | succ n ih =>
    obtain ⟨s, h1, h2, h3⟩ := ih
    simp only [arrayTower, Property.spool, ArrayProperty.spoolBody, spoolList,
      StructPropertyValue.spoolBody, spoolFields, spoolFieldVals, h1]
    refine ⟨_, rfl, ?_, ?_⟩
    · simp only [headed_size, app_size, put_size, l1, l2, l3, ArrayProperty.propertyType, h2,
        u32O_bytes, u32B_length, Out.nil_bytes, List.length_nil]
      omega
    · simp only [headed_copied, app_copied, put_copied, app_size, put_size, l1, l2, l3,
        ArrayProperty.propertyType, h2, h3, u32O_bytes, u32B_length, Out.nil_bytes,
        List.length_nil, Nat.add_mul, Nat.mul_add]
      omega

/-- **C92**: the square is reached, with the same divisor of a hundred: what is copied grows with
the square of the size. -/
theorem C92_square_reached (cv : List (Guid × UInt32)) (n : Nat) :
    ∃ p s, Property.spool cv true p = .ok s ∧ s.size = 36 + 50 * n ∧
      s.size ^ 2 ≤ 100 * s.copied := by
  obtain ⟨s, h1, h2, h3⟩ := arrayTower_spool cv n
  refine ⟨_, s, h1, h2, ?_⟩
  rw [h2, h3]
  simp only [Nat.pow_two, Nat.add_mul, Nat.mul_add]
  have : 50 * n * (50 * n) = 2500 * (n * n) := by
    rw [Nat.mul_mul_mul_comm]
  omega

/-! ## Saves that are slow to save -/

/-- Structs with one field, which is such a struct, `n` levels. -/
def structTower : Nat → Property
  | 0 => .struct ⟨List.replicate 16 0, rfl⟩ "a" (.customStruct [])
  | n + 1 => .struct ⟨List.replicate 16 0, rfl⟩ "a" (.customStruct [("a", [structTower n])])

/-- A save holding them. -/
def towerFile (n : Nat) : GvasFile :=
  { gameVersion := .default
    header := .version2 522 ⟨0, 0, 0, 0, ""⟩ 3 [] ""
    properties := [("a", structTower n)] }

theorem structTower_spool (cv : List (Guid × UInt32)) (n : Nat) :
    ∃ s, Property.spool cv true (structTower n) = .ok s ∧ s.size = 59 + 65 * n ∧
      2 * s.copied = 136 + 213 * n + 65 * (n * n) := by
  have l1 : (writeString "StructProperty").bytes.length = 19 := by decide +kernel
  have l2 : (writeString "a").bytes.length = 6 := by decide +kernel
  have l3 : (writeString "None").bytes.length = 9 := by decide +kernel
  induction n with
  | zero => exact ⟨_, rfl, by decide +kernel, by decide +kernel⟩
  | succ n ih =>
    obtain ⟨s, h1, h2, h3⟩ := ih
    simp only [structTower, Property.spool, StructPropertyValue.spoolBody, spoolFields,
      spoolFieldVals, h1]
    refine ⟨_, rfl, ?_, ?_⟩
    · simp only [headed_size, app_size, put_size, l1, l2, l3, h2, Out.nil_bytes, Out.app_bytes,
        List.length_append, guidB_length, List.length_nil]
      omega
    · simp only [headed_copied, app_copied, put_copied, app_size, put_size, l1, l2, l3,
        Out.app_bytes, List.length_append, guidB_length, h2, Out.nil_bytes,
        List.length_nil, Nat.add_mul, Nat.mul_add]
      omega

theorem structTower_head (env : Env) (st : List String) (n : Nat) :
    HeadOK env st (structTower n) := by
  induction n generalizing st with
  | zero =>
    simp only [structTower, HeadOK, StructOK, FieldsOK]
    exact ⟨by decide, by decide, by simp, trivial⟩
  | succ n ih =>
    have hi : storedIndex (structTower n) = 0 := by cases n <;> rfl
    simp only [structTower, HeadOK, StructOK, FieldsOK, ValsOK]
    exact ⟨by decide, by decide, by simp, ⟨by decide, by decide, by simp,
      ⟨fun _ => by rw [hi]; rfl, ih _, trivial⟩, trivial⟩⟩

theorem tower_ok (debug : Bool) (n : Nat) : FileOK debug noHints (towerFile n) := by
  refine ⟨?_, by simp [towerFile], ?_⟩
  · simp only [towerFile, HeaderOK]
    exact ⟨by decide, by decide, by decide, by decide, by decide, by decide, by decide⟩
  · simp only [towerFile, List.forall_mem_cons]
    exact ⟨⟨by decide, by decide, structTower_head _ _ n⟩, by simp⟩

/-- **C92**: such saves are loaded as well.  For every `n` there is a save of `65 n + 118` bytes
(less than 4 GiB) that is loaded, and saving the loaded file again writes, with the last copy to the
output, more bytes than the square of its size divided by 130. -/
theorem C92_slow_saves (debug : Bool) (n : Nat) (hn : 65 * n + 118 < 2 ^ 32) :
    ∃ data h ps s, data.length = 65 * n + 118 ∧ (readData debug noHints data).1 = .ok (h, ps) ∧
      GvasFile.spool ⟨.default, h, ps⟩ = .ok s ∧ s.out.bytes = data ∧
      data.length ^ 2 ≤ 130 * (s.copied + data.length) := by
  obtain ⟨data, he⟩ := fileOK_encodes (tower_ok debug n)
  obtain ⟨a, h1, h2, h3⟩ := structTower_spool [] n
  have l1 : (GvasHeader.version2 522 ⟨0, 0, 0, 0, ""⟩ 3 [] "").write.bytes.length = 40 := by
    decide +kernel
  have l2 : (writeString "a").bytes.length = 6 := by decide +kernel
  have l3 : (writeString "None").bytes.length = 9 := by decide +kernel
  have hs : ∃ s, (towerFile n).spool = .ok s ∧ s.size = 65 * n + 118 ∧
      s.copied = a.copied + 59 := by
    simp only [GvasFile.spool, towerFile, spoolTop, GvasHeader.customVersions, h1]
    refine ⟨_, rfl, ?_, ?_⟩
    · simp only [app_size, put_size, l1, l2, l3, h2, i32B_length, Out.nil_bytes, List.length_nil]
      omega
    · simp only [app_copied, put_copied, l1, l2, l3, i32B_length, Out.nil_bytes, List.length_nil]
      omega
  obtain ⟨s, e1, e2, e3⟩ := hs
  have e4 : s.out.bytes = data := by
    have := C92_same_file (towerFile n)
    rw [e1, he] at this
    cases this; rfl
  have hl : data.length = 65 * n + 118 := by rw [← e4]; exact e2
  have hr := fileOK_reads (tower_ok debug n) he (by omega) []
  rw [List.append_nil] at hr
  refine ⟨data, _, _, s, hl, hr, e1, e4, ?_⟩
  rw [hl, e3]
  simp only [Nat.pow_two, Nat.add_mul, Nat.mul_add]
  have : 65 * n * (65 * n) = 4225 * (n * n) := by
    rw [Nat.mul_mul_mul_comm]
  omega

/-- A save of 65 kilobytes for which more than 32 megabytes are written. -/
example : ∃ data h ps s, data.length = 65118 ∧ (readData true noHints data).1 = .ok (h, ps) ∧
    GvasFile.spool ⟨.default, h, ps⟩ = .ok s ∧ 32000000 < s.copied := by
  obtain ⟨data, h, ps, s, h1, h2, h3, -, h5⟩ := C92_slow_saves true 1000 (by decide)
  refine ⟨data, h, ps, s, h1, h2, h3, ?_⟩
  rw [h1] at h5
  omega

end Gvas
