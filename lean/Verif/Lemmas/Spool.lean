import Verif.Lemmas.Depth
import Verif.Model.Spool

/-! # Saving with a meter: nothing changes, and the meter is bounded -/

namespace Gvas

open Spec

/-! ## The meter changes nothing -/

/-- Without the meter. -/
def Res.unmetered (r : Res Spool) : Res Out := r >>= fun s => .ok s.out

theorem unmetered_leaf (r : Res Out) : (Spool.leaf r).unmetered = r := by
  cases r <;> rfl

theorem unmetered_map {r : Res Spool} {w : Res Out} (h : r.unmetered = w) {f : Spool → Spool}
    {g : Out → Out} (hf : ∀ s, (f s).out = g s.out) :
    (r >>= fun a => Pure.pure (f a)).unmetered = (w >>= fun a => Pure.pure (g a)) := by
  subst h
  cases r with
  | ok a => show Res.ok (f a).out = Res.ok (g a.out); rw [hf]
  | bad e => rfl

theorem unmetered_map2 {r r' : Res Spool} {w w' : Res Out} (h : r.unmetered = w)
    (h' : r'.unmetered = w') {f : Spool → Spool → Spool}
    {g : Out → Out → Out} (hf : ∀ s t, (f s t).out = g s.out t.out) :
    (r >>= fun a => r' >>= fun b => Pure.pure (f a b)).unmetered =
      (w >>= fun a => w' >>= fun b => Pure.pure (g a b)) := by
  subst h h'
  cases r with
  | ok a =>
    cases r' with
    | ok b => show Res.ok (f a b).out = Res.ok (g a.out b.out); rw [hf]
    | bad e => rfl
  | bad e => rfl

theorem unmetered_map3 {r r' r'' : Res Spool} {w w' w'' : Res Out} (h : r.unmetered = w)
    (h' : r'.unmetered = w') (h'' : r''.unmetered = w'') {f : Spool → Spool → Spool → Spool}
    {g : Out → Out → Out → Out} (hf : ∀ s t u, (f s t u).out = g s.out t.out u.out) :
    (r >>= fun a => r' >>= fun b => r'' >>= fun c => Pure.pure (f a b c)).unmetered =
      (w >>= fun a => w' >>= fun b => w'' >>= fun c => Pure.pure (g a b c)) := by
  subst h h' h''
  cases r with
  | ok a =>
    cases r' with
    | ok b =>
      cases r'' with
      | ok c => show Res.ok (f a b c).out = Res.ok (g a.out b.out c.out); rw [hf]
      | bad e => rfl
    | bad e => rfl
  | bad e => rfl

theorem headed_out (h : Bool) (ty : String) (parts : Out) (s : Spool) :
    (Spool.headed h ty parts s).out = headed h ty parts s.out := by
  cases h <;> rfl

mutual
theorem property_unmetered (cv : List (Guid × UInt32)) (hd : Bool) (p : Property) :
    (Property.spool cv hd p).unmetered = Property.write cv hd p := by
  match p with
  | .array v =>
    rw [Property.spool, Property.write]
    exact unmetered_map (array_unmetered cv v) fun s => headed_out ..
  | .map v =>
    rw [Property.spool, Property.write]
    exact unmetered_map (map_unmetered cv v) fun s => headed_out ..
  | .set ty fl ps =>
    rw [Property.spool, Property.write]
    exact unmetered_map (list_unmetered cv ps) fun s => headed_out ..
  | .struct guid ty v =>
    rw [Property.spool, Property.write]
    exact unmetered_map (struct_unmetered cv v) fun s => headed_out ..
  | .structValue v =>
    rw [Property.spool, Property.write]
    cases hd with
    | true => rfl
    | false => exact struct_unmetered cv v
  | .text v =>
    rw [Property.spool, Property.write]
    exact unmetered_map (unmetered_leaf _) fun s => headed_out ..
  | .byte name v => rw [Property.spool, Property.write]; cases hd <;> rfl
  | .name idx v => rw [Property.spool, Property.write]; cases hd <;> rfl
  | .bool _ => rw [Property.spool, Property.write]; rfl
  | .double _ => rw [Property.spool, Property.write]; exact congrArg Res.ok (headed_out ..)
  | .enum _ _ => rw [Property.spool, Property.write]; exact congrArg Res.ok (headed_out ..)
  | .float _ => rw [Property.spool, Property.write]; exact congrArg Res.ok (headed_out ..)
  | .int16 _ => rw [Property.spool, Property.write]; exact congrArg Res.ok (headed_out ..)
  | .int64 _ => rw [Property.spool, Property.write]; exact congrArg Res.ok (headed_out ..)
  | .int8 _ => rw [Property.spool, Property.write]; exact congrArg Res.ok (headed_out ..)
  | .int _ => rw [Property.spool, Property.write]; exact congrArg Res.ok (headed_out ..)
  | .object _ => rw [Property.spool, Property.write]; exact congrArg Res.ok (headed_out ..)
  | .delegate _ => rw [Property.spool, Property.write]; exact congrArg Res.ok (headed_out ..)
  | .multicastInlineDelegate _ =>
    rw [Property.spool, Property.write]; exact congrArg Res.ok (headed_out ..)
  | .multicastSparseDelegate _ =>
    rw [Property.spool, Property.write]; exact congrArg Res.ok (headed_out ..)
  | .fieldPath _ => rw [Property.spool, Property.write]; exact congrArg Res.ok (headed_out ..)
  | .str _ => rw [Property.spool, Property.write]; exact congrArg Res.ok (headed_out ..)
  | .uint16 _ => rw [Property.spool, Property.write]; exact congrArg Res.ok (headed_out ..)
  | .uint32 _ => rw [Property.spool, Property.write]; exact congrArg Res.ok (headed_out ..)
  | .uint64 _ => rw [Property.spool, Property.write]; exact congrArg Res.ok (headed_out ..)
  | .unknown _ _ => rw [Property.spool, Property.write]; exact congrArg Res.ok (headed_out ..)
theorem array_unmetered (cv : List (Guid × UInt32)) (v : ArrayProperty) :
    (ArrayProperty.spoolBody cv v).unmetered = ArrayProperty.writeBody cv v := by
  match v with
  | .structs field ty guid v =>
    rw [ArrayProperty.spoolBody, ArrayProperty.writeBody]
    exact unmetered_map (structs_unmetered cv v) fun s => rfl
  | .properties ty v =>
    rw [ArrayProperty.spoolBody, ArrayProperty.writeBody]
    exact unmetered_map (list_unmetered cv v) fun s => rfl
  | .bools _ => exact unmetered_leaf _
  | .bytes _ => exact unmetered_leaf _
  | .enums _ => exact unmetered_leaf _
  | .floats _ => exact unmetered_leaf _
  | .ints _ => exact unmetered_leaf _
  | .names _ => exact unmetered_leaf _
  | .strings _ => exact unmetered_leaf _
theorem map_unmetered (cv : List (Guid × UInt32)) (v : MapProperty) :
    (MapProperty.spoolBody cv v).unmetered = MapProperty.writeBody cv v := by
  match v with
  | .enumProperty ty v =>
    rw [MapProperty.spoolBody, MapProperty.writeBody]
    exact unmetered_map (values_unmetered cv v) fun s => rfl
  | .nameProperty ty v =>
    rw [MapProperty.spoolBody, MapProperty.writeBody]
    exact unmetered_map (values_unmetered cv v) fun s => rfl
  | .strProperty ty v =>
    rw [MapProperty.spoolBody, MapProperty.writeBody]
    exact unmetered_map (values_unmetered cv v) fun s => rfl
  | .properties kt vt fl v =>
    rw [MapProperty.spoolBody, MapProperty.writeBody]
    exact unmetered_map (entries_unmetered cv v) fun s => rfl
  | .enumBool _ => exact unmetered_leaf _
  | .enumInt _ => exact unmetered_leaf _
  | .nameBool _ => exact unmetered_leaf _
  | .nameInt _ => exact unmetered_leaf _
  | .strBool _ => exact unmetered_leaf _
  | .strInt _ => exact unmetered_leaf _
  | .strStr _ => exact unmetered_leaf _
theorem struct_unmetered (cv : List (Guid × UInt32)) (v : StructPropertyValue) :
    (StructPropertyValue.spoolBody cv v).unmetered = StructPropertyValue.writeBody cv v := by
  match v with
  | .customStruct fs =>
    rw [StructPropertyValue.spoolBody, StructPropertyValue.writeBody]
    exact unmetered_map (fields_unmetered cv fs) fun s => rfl
  | .vector2F _ _ => exact unmetered_leaf _
  | .vector2D _ _ => exact unmetered_leaf _
  | .vectorF _ _ _ => exact unmetered_leaf _
  | .vectorD _ _ _ => exact unmetered_leaf _
  | .rotatorF _ _ _ => exact unmetered_leaf _
  | .rotatorD _ _ _ => exact unmetered_leaf _
  | .quatF _ _ _ _ => exact unmetered_leaf _
  | .quatD _ _ _ _ => exact unmetered_leaf _
  | .dateTime _ => exact unmetered_leaf _
  | .timespan _ => exact unmetered_leaf _
  | .linearColor _ _ _ _ => exact unmetered_leaf _
  | .intPoint _ _ => exact unmetered_leaf _
  | .guid _ => exact unmetered_leaf _
  | .gameplayTagContainer _ => exact unmetered_leaf _
theorem list_unmetered (cv : List (Guid × UInt32)) (l : List Property) :
    (spoolList cv l).unmetered = writeList cv l := by
  match l with
  | [] => rfl
  | p :: l =>
    rw [spoolList, writeList]
    exact unmetered_map2 (property_unmetered cv false p) (list_unmetered cv l) fun s t => rfl
theorem structs_unmetered (cv : List (Guid × UInt32)) (l : List StructPropertyValue) :
    (spoolStructs cv l).unmetered = writeStructs cv l := by
  match l with
  | [] => rfl
  | p :: l =>
    rw [spoolStructs, writeStructs]
    exact unmetered_map2 (struct_unmetered cv p) (structs_unmetered cv l) fun s t => rfl
theorem values_unmetered (cv : List (Guid × UInt32)) (l : List (String × Property)) :
    (spoolStrProps cv l).unmetered = writeStrProps cv l := by
  match l with
  | [] => rfl
  | (k, p) :: l =>
    rw [spoolStrProps, writeStrProps]
    exact unmetered_map2 (property_unmetered cv false p) (values_unmetered cv l) fun s t => rfl
theorem entries_unmetered (cv : List (Guid × UInt32)) (l : List (Property × Property)) :
    (spoolPairs cv l).unmetered = writePairs cv l := by
  match l with
  | [] => rfl
  | (k, p) :: l =>
    rw [spoolPairs, writePairs]
    exact unmetered_map3 (property_unmetered cv false k) (property_unmetered cv false p)
      (entries_unmetered cv l) fun s t u => rfl
theorem fields_unmetered (cv : List (Guid × UInt32)) (l : List (String × List Property)) :
    (spoolFields cv l).unmetered = writeFields cv l := by
  match l with
  | [] => rfl
  | (k, ps) :: l =>
    rw [spoolFields, writeFields]
    exact unmetered_map2 (fieldVals_unmetered cv k ps) (fields_unmetered cv l) fun s t => rfl
theorem fieldVals_unmetered (cv : List (Guid × UInt32)) (k : String) (l : List Property) :
    (spoolFieldVals cv k l).unmetered = writeFieldVals cv k l := by
  match l with
  | [] => rfl
  | p :: l =>
    rw [spoolFieldVals, writeFieldVals]
    exact unmetered_map2 (property_unmetered cv true p) (fieldVals_unmetered cv k l) fun s t => rfl
end

theorem top_unmetered (cv : List (Guid × UInt32)) (l : List (String × Property)) :
    (spoolTop cv l).unmetered = writeTop cv l := by
  induction l with
  | nil => rfl
  | cons x l ih =>
    obtain ⟨k, p⟩ := x
    rw [spoolTop, writeTop]
    exact unmetered_map2 (property_unmetered cv true p) ih fun s t => rfl

/-! ## The meter is bounded -/

/-- What is shown of everything written: `o` bytes of it are in no deeper buffer, and no byte is
copied more than `c` times. -/
structure Within (o c : Nat) (s : Spool) : Prop where
  low : s.size ≤ s.copied
  room : s.peak ≤ 2 * s.size
  square : 100 * s.copied ≤ (s.size - o) ^ 2 + 200 * s.size
  deep : s.copied ≤ c * s.size

theorem Within.mono {o c o' c' : Nat} {s : Spool} (h : Within o c s) (ho : o' ≤ o) (hc : c ≤ c') :
    Within o' c' s := by
  refine ⟨h.low, h.room, ?_, ?_⟩
  · have := h.square
    have h2 : (s.size - o) ^ 2 ≤ (s.size - o') ^ 2 := Nat.pow_le_pow_left (by omega) 2
    omega
  · exact Nat.le_trans h.deep (Nat.mul_le_mul_right _ hc)

theorem within_put (o : Out) (k c : Nat) : Within k (c + 1) (Spool.put o) := by
  refine ⟨Nat.le_refl _, ?_, ?_, ?_⟩
  · show o.bytes.length ≤ 2 * o.bytes.length; omega
  · show 100 * o.bytes.length ≤ (o.bytes.length - k) ^ 2 + 200 * o.bytes.length; omega
  · show o.bytes.length ≤ (c + 1) * o.bytes.length
    exact Nat.le_mul_of_pos_left _ (by omega)

theorem app_size (a b : Spool) : (a ++ b).size = a.size + b.size := by
  show (a.out.bytes ++ b.out.bytes).length = _
  rw [List.length_append]; rfl

theorem app_copied (a b : Spool) : (a ++ b).copied = a.copied + b.copied := rfl

theorem app_peak (a b : Spool) : (a ++ b).peak = max a.peak (a.size + b.peak) := rfl

theorem put_size (o : Out) : (Spool.put o).size = o.bytes.length := rfl

theorem put_copied (o : Out) : (Spool.put o).copied = o.bytes.length := rfl

theorem headed_size (ty : String) (parts : Out) (b : Spool) :
    (Spool.headed true ty parts b).size =
      (writeString ty).bytes.length + 9 + parts.bytes.length + b.size :=
  headed_true_length ty parts b.out

theorem headed_copied (ty : String) (parts : Out) (b : Spool) :
    (Spool.headed true ty parts b).copied = b.copied +
      ((writeString ty).bytes.length + 9 + parts.bytes.length + b.size) := by
  show b.copied + (headed true ty parts b.out).bytes.length = _
  rw [headed_true_length]; rfl

theorem squares (a b o : Nat) : (a - o) ^ 2 + (b - o) ^ 2 ≤ (a + b - o) ^ 2 := by
  rcases Nat.le_total a o with h | h
  · rw [Nat.sub_eq_zero_of_le h]
    have : (b - o) ^ 2 ≤ (a + b - o) ^ 2 := Nat.pow_le_pow_left (by omega) 2
    omega
  · rcases Nat.le_total b o with h' | h'
    · rw [Nat.sub_eq_zero_of_le h']
      have : (a - o) ^ 2 ≤ (a + b - o) ^ 2 := Nat.pow_le_pow_left (by omega) 2
      omega
    · obtain ⟨x, rfl⟩ := Nat.exists_eq_add_of_le h
      obtain ⟨y, rfl⟩ := Nat.exists_eq_add_of_le h'
      rw [show o + x - o = x by omega, show o + y - o = y by omega,
        show o + x + (o + y) - o = x + y + o by omega]
      have : x ^ 2 + y ^ 2 ≤ (x + y) ^ 2 := by
        rw [Nat.pow_two, Nat.pow_two, Nat.pow_two, Nat.add_mul, Nat.mul_add, Nat.mul_add]; omega
      exact Nat.le_trans this (Nat.pow_le_pow_left (by omega) 2)

theorem Within.app {o c : Nat} {a b : Spool} (ha : Within o c a) (hb : Within o c b) :
    Within o c (a ++ b) := by
  have := ha.low; have := hb.low; have := ha.room; have := hb.room
  have := ha.square; have := hb.square; have := ha.deep; have := hb.deep
  have := squares a.size b.size o
  refine ⟨?_, ?_, ?_, ?_⟩ <;> rw [app_size] <;> simp only [app_copied, app_peak]
  · omega
  · omega
  · omega
  · rw [Nat.mul_add]; omega

/-- Bytes written directly in front. -/
theorem Within.after {o c : Nat} {x : Out} {b : Spool} (hb : Within o (c + 1) b) {k : Nat}
    (hk : k ≤ x.bytes.length) : Within (o + k) (c + 1) (Spool.put x ++ b) := by
  have hs : (Spool.put x).size = x.bytes.length := rfl
  have hc : (Spool.put x).copied = x.bytes.length := rfl
  have hp : (Spool.put x).peak = x.bytes.length := rfl
  have h1 := hb.low; have h2 := hb.room; have h3 := hb.square
  have h4 : (b.size - o) ^ 2 ≤ (x.bytes.length + b.size - (o + k)) ^ 2 :=
    Nat.pow_le_pow_left (by omega) 2
  refine ⟨?_, ?_, ?_, ?_⟩ <;> rw [app_size] <;> simp only [app_copied, app_peak, hs, hc, hp]
  · omega
  · omega
  · omega
  · have := ((within_put x 0 c).app (hb.mono (Nat.zero_le _) (Nat.le_refl _))).deep
    rwa [app_size, app_copied] at this

/-- Bytes written directly behind. -/
theorem Within.before {o c : Nat} {x : Out} {b : Spool} (hb : Within o (c + 1) b) {k : Nat}
    (hk : k ≤ x.bytes.length) : Within (o + k) (c + 1) (b ++ Spool.put x) := by
  have hs : (Spool.put x).size = x.bytes.length := rfl
  have hc : (Spool.put x).copied = x.bytes.length := rfl
  have hp : (Spool.put x).peak = x.bytes.length := rfl
  have h1 := hb.low; have h2 := hb.room; have h3 := hb.square
  have h4 : (b.size - o) ^ 2 ≤ (b.size + x.bytes.length - (o + k)) ^ 2 :=
    Nat.pow_le_pow_left (by omega) 2
  refine ⟨?_, ?_, ?_, ?_⟩ <;> rw [app_size] <;> simp only [app_copied, app_peak, hs, hc, hp]
  · omega
  · omega
  · omega
  · have := ((hb.mono (Nat.zero_le _) (Nat.le_refl _)).app (within_put x 0 c)).deep
    rwa [app_size, app_copied] at this

theorem via_common {o c : Nat} {pre : Bytes} {b : Spool} {all : Out} (hb : Within o c b) {H : Nat}
    (hl : all.bytes.length = H + b.size) (hp : pre.length ≤ H) :
    (Spool.via pre b all).size ≤ (Spool.via pre b all).copied ∧
    (Spool.via pre b all).peak ≤ 2 * (Spool.via pre b all).size ∧
    (Spool.via pre b all).copied ≤ (c + 1) * (Spool.via pre b all).size := by
  have h1 := hb.low; have h2 := hb.room; have h3 := hb.deep
  have hs : (Spool.via pre b all).size = H + b.size := hl
  have hc : (Spool.via pre b all).copied = b.copied + (H + b.size) := by
    show b.copied + all.bytes.length = _; rw [hl]
  have hk : (Spool.via pre b all).peak = max (pre.length + b.peak) (b.size + (H + b.size)) := by
    show max _ (b.size + all.bytes.length) = _; rw [hl]
  rw [hs, hc, hk]
  refine ⟨by omega, by omega, ?_⟩
  rw [Nat.add_mul, Nat.one_mul, Nat.mul_add]
  omega

theorem fifty (n : Nat) : (n - 50) ^ 2 + 100 * n ≤ n ^ 2 + 2500 := by
  rcases Nat.le_total n 50 with h | h
  · obtain ⟨x, hx⟩ := Nat.exists_eq_add_of_le h
    have h1 : n * n + n * x = n * 50 := by rw [← Nat.mul_add, ← hx]
    have h2 : x * n + x * x = x * 50 := by rw [← Nat.mul_add, ← hx]
    have h3 := Nat.mul_comm x n
    rw [Nat.sub_eq_zero_of_le h, Nat.pow_two n]
    omega
  · obtain ⟨x, rfl⟩ := Nat.exists_eq_add_of_le h
    rw [show 50 + x - 50 = x by omega]
    simp only [Nat.pow_two, Nat.add_mul, Nat.mul_add]
    omega

theorem seventy (n : Nat) : (n - 72) ^ 2 + 100 * n ≤ (n - 18) ^ 2 + 7200 := by
  rcases Nat.le_total n 72 with h | h
  · rw [Nat.sub_eq_zero_of_le h]; omega
  · obtain ⟨x, rfl⟩ := Nat.exists_eq_add_of_le h
    rw [show 72 + x - 72 = x by omega, show 72 + x - 18 = 54 + x by omega]
    simp only [Nat.pow_two, Nat.add_mul, Nat.mul_add]
    omega

/-- A body copied behind a header. -/
theorem Within.via {o c : Nat} {pre : Bytes} {b : Spool} {all : Out} (hb : Within o c b) {H : Nat}
    (hl : all.bytes.length = H + b.size) (hp : pre.length ≤ H) (h13 : 13 ≤ H) (h50 : 50 ≤ H + o) :
    Within 0 (c + 1) (Spool.via pre b all) := by
  obtain ⟨h1, h2, h3⟩ := via_common hb hl hp
  refine ⟨h1, h2, ?_, h3⟩
  have hs : (Spool.via pre b all).size = H + b.size := hl
  have hc : (Spool.via pre b all).copied = b.copied + (H + b.size) := by
    show b.copied + all.bytes.length = _; rw [hl]
  rw [hs, hc, Nat.sub_zero]
  have h4 := hb.square
  have h5 : (b.size - o) ^ 2 ≤ (H + b.size - 50) ^ 2 := Nat.pow_le_pow_left (by omega) 2
  have h6 := fifty (H + b.size)
  omega

/-- The elements of a struct array copied behind its description. -/
theorem Within.elements {o c : Nat} {pre : Bytes} {b : Spool} {all : Out} (hb : Within o c b)
    {H : Nat} (hl : all.bytes.length = H + b.size) (hp : pre.length ≤ H) (h58 : 58 ≤ H)
    (ho : 14 ≤ o) : Within 18 (c + 1) (Spool.via pre b all) := by
  obtain ⟨h1, h2, h3⟩ := via_common hb hl hp
  refine ⟨h1, h2, ?_, h3⟩
  have hs : (Spool.via pre b all).size = H + b.size := hl
  have hc : (Spool.via pre b all).copied = b.copied + (H + b.size) := by
    show b.copied + all.bytes.length = _; rw [hl]
  rw [hs, hc]
  have h4 := hb.square
  have h5 : (b.size - o) ^ 2 ≤ (H + b.size - 72) ^ 2 := Nat.pow_le_pow_left (by omega) 2
  have h6 := seventy (H + b.size)
  omega

/-- How much is known to be in no deeper buffer, with a header and without. -/
def off (hd : Bool) : Nat := if hd then 0 else 14

theorem headed_within (hd : Bool) (ty : String) (parts : Out) {b : Spool} {o c : Nat}
    (hb : Within o c b) (h14 : 14 ≤ o)
    (h50 : 36 ≤ (writeString ty).bytes.length + parts.bytes.length + (o - 5)) :
    Within (off hd) (c + 1) (Spool.headed hd ty parts b) := by
  cases hd with
  | false => exact hb.mono h14 (by omega)
  | true =>
    have hl := headed_true_length ty parts b.out
    have := writeString_pos ty
    refine hb.via (H := (writeString ty).bytes.length + 9 + parts.bytes.length) ?_ ?_ ?_ ?_
    · exact hl
    · exact Nat.zero_le _
    · omega
    · omega

theorem headed_put (hd : Bool) (ty : String) (parts x : Out) :
    Within (off hd) 2 (Spool.headed hd ty parts (Spool.put x)) :=
  headed_within hd ty parts (within_put x 50 0) (by omega) (by omega)

theorem leaf_within {r : Res Out} {s : Spool} (h : Spool.leaf r = .ok s) (o : Nat) :
    Within o 1 s := by
  obtain ⟨a, -, h⟩ := Res.bind_inv h
  cases h
  exact within_put a o 0

theorem guid_sixteen (guid : Guid) : (guidB guid).length = 16 := guidB_length guid

mutual
theorem property_within (cv : List (Guid × UInt32)) (hd : Bool) (p : Property) (s : Spool)
    (h : Property.spool cv hd p = .ok s) : Within (off hd) (2 * depth p + 1) s := by
  match p with
  | .array v =>
    rw [Property.spool] at h
    obtain ⟨a, h1, h⟩ := Res.bind_inv h
    dev_tac h
    have l1 : (writeString "ArrayProperty").bytes.length = 18 := by decide +kernel
    have l2 := writeString_pos v.propertyType
    exact headed_within hd _ _ (array_within cv v a h1) (by omega) (by omega)
  | .map v =>
    rw [Property.spool] at h
    obtain ⟨a, h1, h⟩ := Res.bind_inv h
    dev_tac h
    have l1 : (writeString "MapProperty").bytes.length = 16 := by decide +kernel
    have l2 := writeString_pos v.keyType
    have := headed_within hd "MapProperty" (writeString v.keyType ++ writeString v.valueType)
      (map_within cv v a h1) (by omega)
      (by simp only [Out.app_bytes, List.length_append]; omega)
    exact this.mono (Nat.le_refl _) (by simp only [depth]; omega)
  | .set ty fl ps =>
    rw [Property.spool] at h
    obtain ⟨a, h1, h⟩ := Res.bind_inv h
    dev_tac h
    have l1 : (writeString "SetProperty").bytes.length = 16 := by decide +kernel
    have l2 := writeString_pos ty
    have hb := (list_within cv ps a h1).after (x := u32O fl ++ u32O (UInt32.ofNat ps.length))
      (k := 8) (by simp only [Out.app_bytes, List.length_append, u32O_bytes, u32B_length]; omega)
    have := headed_within hd "SetProperty" (writeString ty) hb (by omega) (by omega)
    exact this.mono (Nat.le_refl _) (by simp only [depth]; omega)
  | .struct guid ty v =>
    rw [Property.spool] at h
    obtain ⟨a, h1, h⟩ := Res.bind_inv h
    dev_tac h
    have l1 : (writeString "StructProperty").bytes.length = 19 := by decide +kernel
    have l2 := writeString_pos ty
    have := headed_within hd "StructProperty" (writeString ty ++ ⟨guidB guid, 16⟩)
      (struct_within cv v a h1) (by omega)
      (by simp only [Out.app_bytes, List.length_append, guid_sixteen]; omega)
    exact this.mono (Nat.le_refl _) (by simp only [depth]; omega)
  | .structValue v =>
    rw [Property.spool] at h
    cases hd with
    | true => cases h
    | false => exact (struct_within cv v s h).mono (Nat.le_refl _) (by simp only [depth]; omega)
  | .text v =>
    rw [Property.spool] at h
    obtain ⟨a, h1, h⟩ := Res.bind_inv h
    dev_tac h
    have := headed_within hd "TextProperty" Out.nil (leaf_within h1 50) (by omega) (by omega)
    exact this.mono (Nat.le_refl _) (by simp only [depth]; omega)
  | .bool v =>
    rw [Property.spool] at h
    dev_tac h
    exact within_put _ _ _
  | .byte name v =>
    rw [Property.spool] at h
    dev_tac h
    cases hd with
    | false => exact within_put _ _ _
    | true =>
      have l1 : (writeString "ByteProperty").bytes.length = 17 := by decide +kernel
      refine ((within_put v.write 50 0).via
        (H := 26 + (writeFString name).bytes.length) ?_ ?_ ?_ ?_).mono (Nat.le_refl _)
        (by simp only [depth]; omega)
      · show (byteHeader name v.write).bytes.length = _ + v.write.bytes.length
        simp only [byteHeader, List.length_append, u64B_length, List.length_cons, List.length_nil,
          l1]
        omega
      · rw [l1]; omega
      · omega
      · omega
  | .name idx v =>
    rw [Property.spool] at h
    dev_tac h
    cases hd with
    | false => exact within_put _ _ _
    | true =>
      have l1 : (writeString "NameProperty").bytes.length = 17 := by decide +kernel
      refine ((within_put (writeFString v) 50 0).via (H := 26) ?_ ?_ ?_ ?_).mono (Nat.le_refl _)
        (by simp only [depth]; omega)
      · show (withHeaderIndex "NameProperty" idx (writeFString v)).bytes.length =
          _ + (writeFString v).bytes.length
        simp only [withHeaderIndex, List.length_append, u32B_length, List.length_cons,
          List.length_nil, l1]
      · exact Nat.zero_le _
      · omega
      · omega
  | .double _ =>
    rw [Property.spool] at h
    dev_tac h
    exact (headed_put hd _ _ _).mono (Nat.le_refl _) (by simp only [depth]; omega)
  | .enum _ _ =>
    rw [Property.spool] at h
    dev_tac h
    exact (headed_put hd _ _ _).mono (Nat.le_refl _) (by simp only [depth]; omega)
  | .float _ =>
    rw [Property.spool] at h
    dev_tac h
    exact (headed_put hd _ _ _).mono (Nat.le_refl _) (by simp only [depth]; omega)
  | .int16 _ =>
    rw [Property.spool] at h
    dev_tac h
    exact (headed_put hd _ _ _).mono (Nat.le_refl _) (by simp only [depth]; omega)
  | .int64 _ =>
    rw [Property.spool] at h
    dev_tac h
    exact (headed_put hd _ _ _).mono (Nat.le_refl _) (by simp only [depth]; omega)
  | .int8 _ =>
    rw [Property.spool] at h
    dev_tac h
    exact (headed_put hd _ _ _).mono (Nat.le_refl _) (by simp only [depth]; omega)
  | .int _ =>
    rw [Property.spool] at h
    dev_tac h
    exact (headed_put hd _ _ _).mono (Nat.le_refl _) (by simp only [depth]; omega)
  | .object _ =>
    rw [Property.spool] at h
    dev_tac h
    exact (headed_put hd _ _ _).mono (Nat.le_refl _) (by simp only [depth]; omega)
  | .delegate _ =>
    rw [Property.spool] at h
    dev_tac h
    exact (headed_put hd _ _ _).mono (Nat.le_refl _) (by simp only [depth]; omega)
  | .multicastInlineDelegate _ =>
    rw [Property.spool] at h
    dev_tac h
    exact (headed_put hd _ _ _).mono (Nat.le_refl _) (by simp only [depth]; omega)
  | .multicastSparseDelegate _ =>
    rw [Property.spool] at h
    dev_tac h
    exact (headed_put hd _ _ _).mono (Nat.le_refl _) (by simp only [depth]; omega)
  | .fieldPath _ =>
    rw [Property.spool] at h
    dev_tac h
    exact (headed_put hd _ _ _).mono (Nat.le_refl _) (by simp only [depth]; omega)
  | .str _ =>
    rw [Property.spool] at h
    dev_tac h
    exact (headed_put hd _ _ _).mono (Nat.le_refl _) (by simp only [depth]; omega)
  | .uint16 _ =>
    rw [Property.spool] at h
    dev_tac h
    exact (headed_put hd _ _ _).mono (Nat.le_refl _) (by simp only [depth]; omega)
  | .uint32 _ =>
    rw [Property.spool] at h
    dev_tac h
    exact (headed_put hd _ _ _).mono (Nat.le_refl _) (by simp only [depth]; omega)
  | .uint64 _ =>
    rw [Property.spool] at h
    dev_tac h
    exact (headed_put hd _ _ _).mono (Nat.le_refl _) (by simp only [depth]; omega)
  | .unknown _ _ =>
    rw [Property.spool] at h
    dev_tac h
    exact (headed_put hd _ _ _).mono (Nat.le_refl _) (by simp only [depth]; omega)
theorem array_within (cv : List (Guid × UInt32)) (v : ArrayProperty) (s : Spool)
    (h : ArrayProperty.spoolBody cv v = .ok s) : Within 18 (2 * arrayDepth v + 2) s := by
  match v with
  | .structs field ty guid v =>
    rw [ArrayProperty.spoolBody] at h
    obtain ⟨a, h1, h⟩ := Res.bind_inv h
    dev_tac h
    have l1 : (writeString "StructProperty").bytes.length = 19 := by decide +kernel
    have l2 := writeString_pos field
    have l3 := writeString_pos ty
    refine (structs_within cv v a h1).elements
      (H := 48 + (writeString field).bytes.length + (writeString ty).bytes.length) ?_ ?_ ?_ ?_
    · show (structArrayBody v.length field ty guid a.out).bytes.length = _ + a.out.bytes.length
      simp only [structArrayBody, List.length_append, u32B_length, u64B_length, u8B_length,
        guid_sixteen, l1]
      omega
    · simp only [List.length_append, u32B_length, l1]; omega
    · omega
    · omega
  | .properties ty v =>
    rw [ArrayProperty.spoolBody] at h
    obtain ⟨a, h1, h⟩ := Res.bind_inv h
    dev_tac h
    have := (list_within cv v a h1).after (x := u32O (UInt32.ofNat v.length)) (k := 4)
      (by simp only [u32O_bytes, u32B_length]; omega)
    exact this.mono (Nat.le_refl _) (by simp only [arrayDepth]; omega)
  | .bools _ => exact (leaf_within h 18).mono (Nat.le_refl _) (by omega)
  | .bytes _ => exact (leaf_within h 18).mono (Nat.le_refl _) (by omega)
  | .enums _ => exact (leaf_within h 18).mono (Nat.le_refl _) (by omega)
  | .floats _ => exact (leaf_within h 18).mono (Nat.le_refl _) (by omega)
  | .ints _ => exact (leaf_within h 18).mono (Nat.le_refl _) (by omega)
  | .names _ => exact (leaf_within h 18).mono (Nat.le_refl _) (by omega)
  | .strings _ => exact (leaf_within h 18).mono (Nat.le_refl _) (by omega)
theorem map_within (cv : List (Guid × UInt32)) (v : MapProperty) (s : Spool)
    (h : MapProperty.spoolBody cv v = .ok s) : Within 22 (2 * mapDepth v + 1) s := by
  match v with
  | .enumProperty ty v =>
    rw [MapProperty.spoolBody] at h
    obtain ⟨a, h1, h⟩ := Res.bind_inv h
    dev_tac h
    have hl : 8 ≤ (mapHead 0 v.length).bytes.length := by
      simp only [mapHead, Out.app_bytes, List.length_append, u32O_bytes, u32B_length]; omega
    exact (values_within cv v a h1).after hl
  | .nameProperty ty v =>
    rw [MapProperty.spoolBody] at h
    obtain ⟨a, h1, h⟩ := Res.bind_inv h
    dev_tac h
    have hl : 8 ≤ (mapHead 0 v.length).bytes.length := by
      simp only [mapHead, Out.app_bytes, List.length_append, u32O_bytes, u32B_length]; omega
    exact (values_within cv v a h1).after hl
  | .strProperty ty v =>
    rw [MapProperty.spoolBody] at h
    obtain ⟨a, h1, h⟩ := Res.bind_inv h
    dev_tac h
    have hl : 8 ≤ (mapHead 0 v.length).bytes.length := by
      simp only [mapHead, Out.app_bytes, List.length_append, u32O_bytes, u32B_length]; omega
    exact (values_within cv v a h1).after hl
  | .properties kt vt fl v =>
    rw [MapProperty.spoolBody] at h
    obtain ⟨a, h1, h⟩ := Res.bind_inv h
    dev_tac h
    have hl : 8 ≤ (mapHead fl v.length).bytes.length := by
      simp only [mapHead, Out.app_bytes, List.length_append, u32O_bytes, u32B_length]; omega
    exact (entries_within cv v a h1).after hl
  | .enumBool _ => exact (leaf_within h 22).mono (Nat.le_refl _) (by omega)
  | .enumInt _ => exact (leaf_within h 22).mono (Nat.le_refl _) (by omega)
  | .nameBool _ => exact (leaf_within h 22).mono (Nat.le_refl _) (by omega)
  | .nameInt _ => exact (leaf_within h 22).mono (Nat.le_refl _) (by omega)
  | .strBool _ => exact (leaf_within h 22).mono (Nat.le_refl _) (by omega)
  | .strInt _ => exact (leaf_within h 22).mono (Nat.le_refl _) (by omega)
  | .strStr _ => exact (leaf_within h 22).mono (Nat.le_refl _) (by omega)
theorem struct_within (cv : List (Guid × UInt32)) (v : StructPropertyValue) (s : Spool)
    (h : StructPropertyValue.spoolBody cv v = .ok s) : Within 14 (2 * structDepth v + 1) s := by
  match v with
  | .customStruct fs =>
    rw [StructPropertyValue.spoolBody] at h
    obtain ⟨a, h1, h⟩ := Res.bind_inv h
    dev_tac h
    have l1 : 9 ≤ (writeString "None").bytes.length := by decide +kernel
    exact (fields_within cv fs a h1).before l1
  | .vector2F _ _ => exact (leaf_within h 14).mono (Nat.le_refl _) (by omega)
  | .vector2D _ _ => exact (leaf_within h 14).mono (Nat.le_refl _) (by omega)
  | .vectorF _ _ _ => exact (leaf_within h 14).mono (Nat.le_refl _) (by omega)
  | .vectorD _ _ _ => exact (leaf_within h 14).mono (Nat.le_refl _) (by omega)
  | .rotatorF _ _ _ => exact (leaf_within h 14).mono (Nat.le_refl _) (by omega)
  | .rotatorD _ _ _ => exact (leaf_within h 14).mono (Nat.le_refl _) (by omega)
  | .quatF _ _ _ _ => exact (leaf_within h 14).mono (Nat.le_refl _) (by omega)
  | .quatD _ _ _ _ => exact (leaf_within h 14).mono (Nat.le_refl _) (by omega)
  | .dateTime _ => exact (leaf_within h 14).mono (Nat.le_refl _) (by omega)
  | .timespan _ => exact (leaf_within h 14).mono (Nat.le_refl _) (by omega)
  | .linearColor _ _ _ _ => exact (leaf_within h 14).mono (Nat.le_refl _) (by omega)
  | .intPoint _ _ => exact (leaf_within h 14).mono (Nat.le_refl _) (by omega)
  | .guid _ => exact (leaf_within h 14).mono (Nat.le_refl _) (by omega)
  | .gameplayTagContainer _ => exact (leaf_within h 14).mono (Nat.le_refl _) (by omega)
theorem list_within (cv : List (Guid × UInt32)) (l : List Property) (s : Spool)
    (h : spoolList cv l = .ok s) : Within 14 (2 * propsDepth l + 1) s := by
  match l with
  | [] => cases h; exact within_put _ _ _
  | p :: l =>
    rw [spoolList] at h
    obtain ⟨a, h1, h⟩ := Res.bind_inv h
    obtain ⟨b, h2, h⟩ := Res.bind_inv h
    dev_tac h
    exact ((property_within cv false p a h1).mono (Nat.le_refl _)
        (by simp only [propsDepth]; omega)).app
      ((list_within cv l b h2).mono (Nat.le_refl _) (by simp only [propsDepth]; omega))
theorem structs_within (cv : List (Guid × UInt32)) (l : List StructPropertyValue) (s : Spool)
    (h : spoolStructs cv l = .ok s) : Within 14 (2 * structsDepth l + 1) s := by
  match l with
  | [] => cases h; exact within_put _ _ _
  | p :: l =>
    rw [spoolStructs] at h
    obtain ⟨a, h1, h⟩ := Res.bind_inv h
    obtain ⟨b, h2, h⟩ := Res.bind_inv h
    dev_tac h
    exact ((struct_within cv p a h1).mono (Nat.le_refl _)
        (by simp only [structsDepth]; omega)).app
      ((structs_within cv l b h2).mono (Nat.le_refl _) (by simp only [structsDepth]; omega))
theorem values_within (cv : List (Guid × UInt32)) (l : List (String × Property)) (s : Spool)
    (h : spoolStrProps cv l = .ok s) : Within 14 (2 * valuesDepth l + 1) s := by
  match l with
  | [] => cases h; exact within_put _ _ _
  | (k, p) :: l =>
    rw [spoolStrProps] at h
    obtain ⟨a, h1, h⟩ := Res.bind_inv h
    obtain ⟨b, h2, h⟩ := Res.bind_inv h
    dev_tac h
    exact ((within_put _ _ _).app ((property_within cv false p a h1).mono (Nat.le_refl _)
        (by simp only [valuesDepth]; omega))).app
      ((values_within cv l b h2).mono (Nat.le_refl _) (by simp only [valuesDepth]; omega))
theorem entries_within (cv : List (Guid × UInt32)) (l : List (Property × Property)) (s : Spool)
    (h : spoolPairs cv l = .ok s) : Within 14 (2 * entriesDepth l + 1) s := by
  match l with
  | [] => cases h; exact within_put _ _ _
  | (k, p) :: l =>
    rw [spoolPairs] at h
    obtain ⟨a, h1, h⟩ := Res.bind_inv h
    obtain ⟨b, h2, h⟩ := Res.bind_inv h
    obtain ⟨c, h3, h⟩ := Res.bind_inv h
    dev_tac h
    exact (((property_within cv false k a h1).mono (Nat.le_refl _)
        (by simp only [entriesDepth]; omega)).app
        ((property_within cv false p b h2).mono (Nat.le_refl _)
        (by simp only [entriesDepth]; omega))).app
      ((entries_within cv l c h3).mono (Nat.le_refl _) (by simp only [entriesDepth]; omega))
theorem fields_within (cv : List (Guid × UInt32)) (l : List (String × List Property)) (s : Spool)
    (h : spoolFields cv l = .ok s) : Within 5 (2 * fieldsDepth l + 1) s := by
  match l with
  | [] => cases h; exact within_put _ _ _
  | (k, ps) :: l =>
    rw [spoolFields] at h
    obtain ⟨a, h1, h⟩ := Res.bind_inv h
    obtain ⟨b, h2, h⟩ := Res.bind_inv h
    dev_tac h
    exact ((fieldVals_within cv k ps a h1).mono (Nat.le_refl _)
        (by simp only [fieldsDepth]; omega)).app
      ((fields_within cv l b h2).mono (Nat.le_refl _) (by simp only [fieldsDepth]; omega))
theorem fieldVals_within (cv : List (Guid × UInt32)) (k : String) (l : List Property) (s : Spool)
    (h : spoolFieldVals cv k l = .ok s) : Within 5 (2 * propsDepth l + 1) s := by
  match l with
  | [] => cases h; exact within_put _ _ _
  | p :: l =>
    rw [spoolFieldVals] at h
    obtain ⟨a, h1, h⟩ := Res.bind_inv h
    obtain ⟨b, h2, h⟩ := Res.bind_inv h
    dev_tac h
    exact (((property_within cv true p a h1).after (writeString_pos k)).mono (Nat.le_refl _)
        (by simp only [propsDepth]; omega)).app
      ((fieldVals_within cv k l b h2).mono (Nat.le_refl _) (by simp only [propsDepth]; omega))
end

end Gvas
