import Verif.Model.File
import Verif.Lemmas.Parts
import Verif.Lemmas.Count
import Verif.Spec.Place

/-!
# Replacing a property inside another: what happens to the bytes
-/

namespace Gvas

open Spec

/-! ## Stored lengths -/

theorem Spec.Grown.refl (m n : Nat) (a : Bytes) : Grown m n a a := by
  induction a with
  | nil => exact .nil
  | cons x a ih => exact .same x ih

theorem Spec.Grown.append {m n : Nat} {a b c d : Bytes} (h : Grown m n a b) (h' : Grown m n c d) :
    Grown m n (a ++ c) (b ++ d) := by
  induction h with
  | nil => exact h'
  | same x _ ih => exact .same x ih
  | length k _ ih => rw [List.append_assoc, List.append_assoc]; exact .length k ih
  | longLength k _ ih => rw [List.append_assoc, List.append_assoc]; exact .longLength k ih

theorem Spec.Grown.length_eq {m n : Nat} {a b : Bytes} (h : Grown m n a b) : b.length = a.length := by
  induction h with
  | nil => rfl
  | same x _ ih => simp only [List.length_cons, ih]
  | length k _ ih => simp only [List.length_append, ih, u32B_length]
  | longLength k _ ih => simp only [List.length_append, ih, u64B_length]

theorem Spec.Grown.eq {m n : Nat} {a b : Bytes} (h : Grown m n a b) (e : n = m) : b = a := by
  subst e
  induction h with
  | nil => rfl
  | same x _ ih => rw [ih]
  | length k _ ih => rw [ih]
  | longLength k _ ih => rw [ih]

theorem Spec.Grown.more {m n : Nat} {a b : Bytes} (k : Nat) (h : Grown (k + m) (k + n) a b) :
    Grown m n a b := by
  induction h with
  | nil => exact .nil
  | same x _ ih => exact .same x ih
  | length j _ ih => rw [← Nat.add_assoc, ← Nat.add_assoc]; exact .length (j + k) ih
  | longLength j _ ih => rw [← Nat.add_assoc, ← Nat.add_assoc]; exact .longLength (j + k) ih

theorem Spec.Grown.count (m n j k : Nat) :
    Grown m n (u32B (UInt32.ofNat (j + m + k))) (u32B (UInt32.ofNat (j + n + k))) := by
  have := Grown.length (m := m) (n := n) (j + k) .nil
  simp only [List.append_nil] at this
  rwa [show j + k + m = j + m + k by omega, show j + k + n = j + n + k by omega] at this

/-- What is around the place is of the same size. -/
theorem Spec.Grown.around {x y pre pre' post : Bytes} {a b : Bytes}
    (hp : Grown x.length y.length pre pre')
    (h : Grown (pre ++ x ++ post).length (pre' ++ y ++ post).length a b) :
    Grown x.length y.length a b := by
  have e := hp.length_eq
  have h1 : (pre ++ x ++ post).length = pre.length + post.length + x.length := by
    simp only [List.length_append]; omega
  have h2 : (pre' ++ y ++ post).length = pre.length + post.length + y.length := by
    simp only [List.length_append]; omega
  rw [h1, h2] at h
  exact h.more _

/-- The property given to `w` is stored in one piece of what `w` writes; what is behind does not
depend on it, what is in front depends on its size only, which is counted in the lengths stored there. -/
def Fits (cv : List (Guid × UInt32)) (b : Bool) (w : Property → Res Out) : Prop :=
  ∀ p o, w p = .ok o → ∃ pre a post, Property.write cv b p = .ok a ∧
    o.bytes = pre ++ a.bytes ++ post ∧
    ∀ q c, Property.write cv b q = .ok c → ∃ pre' o', w q = .ok o' ∧
      o'.bytes = pre' ++ c.bytes ++ post ∧ Grown a.bytes.length c.bytes.length pre pre'

/-- Putting something around what is written, in front of it depending on the size only. -/
theorem Fits.around {cv : List (Guid × UInt32)} {b : Bool} {w : Property → Res Out}
    (hw : Fits cv b w) (f : Out → Out) (front : Nat → Bytes) (back : Bytes)
    (hf : ∀ o, (f o).bytes = front o.bytes.length ++ o.bytes ++ back)
    (hl : ∀ m n, Grown m n (front m) (front n)) :
    Fits cv b fun p => do let o ← w p; return f o := by
  intro p o h
  obtain ⟨x, hx, h⟩ := Res.bind_inv h
  cases h
  obtain ⟨pre, a, post, h1, h2, h3⟩ := hw p x hx
  refine ⟨front x.bytes.length ++ pre, a, post ++ back, h1, ?_, ?_⟩
  · rw [hf, h2]
    simp only [List.append_assoc]
  · intro q c hq
    obtain ⟨pre', o', h4, h5, h6⟩ := h3 q c hq
    refine ⟨front o'.bytes.length ++ pre', f o', by simp only [h4]; rfl, ?_, ?_⟩
    · rw [hf]
      simp only [h5, List.append_assoc]
    · refine (Grown.around (post := post) h6 ?_).append h6
      rw [← h2, ← h5]
      exact hl _ _

theorem Fits.self (cv : List (Guid × UInt32)) (b : Bool) : Fits cv b (Property.write cv b) := by
  intro p o h
  exact ⟨[], o, [], h, by simp, fun q c hq => ⟨[], c, hq, by simp, .nil⟩⟩

/-- A step: something fixed in front of what `w` writes. -/
theorem Fits.after {cv : List (Guid × UInt32)} {b : Bool} {w : Property → Res Out}
    (hw : Fits cv b w) (x : Res Out) (f : Out → Out → Out) (front : Out → Bytes)
    (hf : ∀ u o, (f u o).bytes = front u ++ o.bytes) :
    Fits cv b fun p => do
      let u ← x
      let o ← w p
      return f u o := by
  intro p o h
  obtain ⟨u, hu, h⟩ := Res.bind_inv h
  obtain ⟨m, hm, h⟩ := Res.bind_inv h
  cases h
  obtain ⟨pre, a, post, h1, h2, h3⟩ := hw p m hm
  refine ⟨front u ++ pre, a, post, h1, ?_, ?_⟩
  · rw [hf, h2]
    simp only [List.append_assoc]
  · intro q c hq
    obtain ⟨pre', o', h4, h5, h6⟩ := h3 q c hq
    refine ⟨front u ++ pre', f u o', by simp only [hu, h4]; rfl, ?_, (Grown.refl _ _ _).append h6⟩
    rw [hf, h5]
    simp only [List.append_assoc]

/-- A step: something fixed behind what `w` writes, and perhaps in front. -/
theorem Fits.before {cv : List (Guid × UInt32)} {b : Bool} {w : Property → Res Out}
    (hw : Fits cv b w) (x : Res Out) (f : Out → Out → Out) (front : Bytes)
    (hf : ∀ u o, (f o u).bytes = front ++ o.bytes ++ u.bytes) :
    Fits cv b fun p => do
      let o ← w p
      let u ← x
      return f o u := by
  intro p o h
  obtain ⟨m, hm, h⟩ := Res.bind_inv h
  obtain ⟨u, hu, h⟩ := Res.bind_inv h
  cases h
  obtain ⟨pre, a, post, h1, h2, h3⟩ := hw p m hm
  refine ⟨front ++ pre, a, post ++ u.bytes, h1, ?_, ?_⟩
  · rw [hf, h2]
    simp only [List.append_assoc]
  · intro q c hq
    obtain ⟨pre', o', h4, h5, h6⟩ := h3 q c hq
    refine ⟨front ++ pre', f o' u, by simp only [hu, h4]; rfl, ?_, (Grown.refl _ _ _).append h6⟩
    rw [hf, h5]
    simp only [List.append_assoc]

theorem fits_list (cv : List (Guid × UInt32)) (l r : List Property) :
    Fits cv false fun p => writeList cv (l ++ p :: r) := by
  induction l with
  | nil =>
    simp only [List.nil_append, writeList]
    exact (Fits.self cv false).before _ _ [] (by intro u o; simp [Out.app_bytes])
  | cons x l ih =>
    simp only [List.cons_append, writeList]
    exact ih.after _ _ (fun u => u.bytes) (by intro u o; simp [Out.app_bytes])

theorem fits_vals (cv : List (Guid × UInt32)) (k : String) (l r : List Property) :
    Fits cv true fun p => writeFieldVals cv k (l ++ p :: r) := by
  induction l with
  | nil =>
    simp only [List.nil_append, writeFieldVals]
    exact (Fits.self cv true).before _ _ (writeString k).bytes
      (by intro u o; simp [Out.app_bytes])
  | cons x l ih =>
    simp only [List.cons_append, writeFieldVals]
    exact ih.after _ _ (fun u => (writeString k).bytes ++ u.bytes)
      (by intro u o; simp [Out.app_bytes])

theorem fits_fields (cv : List (Guid × UInt32)) (k : String) (l r : List Property)
    (fs gs : List (String × List Property)) :
    Fits cv true fun p => writeFields cv (fs ++ (k, l ++ p :: r) :: gs) := by
  induction fs with
  | nil =>
    simp only [List.nil_append, writeFields]
    exact (fits_vals cv k l r).before _ _ [] (by intro u o; simp [Out.app_bytes])
  | cons x fs ih =>
    obtain ⟨x, xs⟩ := x
    simp only [List.cons_append, writeFields]
    exact ih.after _ _ (fun u => u.bytes) (by intro u o; simp [Out.app_bytes])

theorem fits_struct (cv : List (Guid × UInt32)) (k : String) (l r : List Property)
    (fs gs : List (String × List Property)) :
    Fits cv true fun p => StructPropertyValue.writeBody cv (structWith fs k l p r gs) := by
  simp only [structWith, StructPropertyValue.writeBody]
  exact (fits_fields cv k l r fs gs).around _ (fun _ => []) (writeString "None").bytes
    (by intro o; simp [Out.app_bytes]) (fun _ _ => Grown.refl _ _ _)

theorem fits_structs (cv : List (Guid × UInt32)) (vs ws : List StructPropertyValue) (k : String)
    (l r : List Property) (fs gs : List (String × List Property)) :
    Fits cv true fun p => writeStructs cv (vs ++ structWith fs k l p r gs :: ws) := by
  induction vs with
  | nil =>
    simp only [List.nil_append, writeStructs]
    exact (fits_struct cv k l r fs gs).before _ _ [] (by intro u o; simp [Out.app_bytes])
  | cons x vs ih =>
    simp only [List.cons_append, writeStructs]
    exact ih.after _ _ (fun u => u.bytes) (by intro u o; simp [Out.app_bytes])

theorem fits_strProps (cv : List (Guid × UInt32)) (k : String) (l r : List (String × Property)) :
    Fits cv false fun p => writeStrProps cv (l ++ (k, p) :: r) := by
  induction l with
  | nil =>
    simp only [List.nil_append, writeStrProps]
    exact (Fits.self cv false).before _ _ (writeString k).bytes
      (by intro u o; simp [Out.app_bytes])
  | cons x l ih =>
    obtain ⟨x, xs⟩ := x
    simp only [List.cons_append, writeStrProps]
    exact ih.after _ _ (fun u => (writeString x).bytes ++ u.bytes)
      (by intro u o; simp [Out.app_bytes])

/-- A step with several writes, one of which is that of `w`. -/
theorem Fits.step {cv : List (Guid × UInt32)} {b : Bool} {w w' : Property → Res Out}
    (hw : Fits cv b w)
    (hf : ∀ p o, w' p = .ok o → ∃ m front back, w p = .ok m ∧ o.bytes = front ++ m.bytes ++ back ∧
      ∀ q n, w q = .ok n → ∃ o', w' q = .ok o' ∧ o'.bytes = front ++ n.bytes ++ back) :
    Fits cv b w' := by
  intro p o h
  obtain ⟨m, front, back, hm, e, hq⟩ := hf p o h
  obtain ⟨pre, a, post, h1, h2, h3⟩ := hw p m hm
  refine ⟨front ++ pre, a, post ++ back, h1, ?_, ?_⟩
  · rw [e, h2]
    simp only [List.append_assoc]
  · intro q c hc
    obtain ⟨pre', n, h4, h5, h6⟩ := h3 q c hc
    obtain ⟨o', h8, h9⟩ := hq q n h4
    refine ⟨front ++ pre', o', h8, ?_, (Grown.refl _ _ _).append h6⟩
    rw [h9, h5]
    simp only [List.append_assoc]

theorem fits_key (cv : List (Guid × UInt32)) (v : Property) (l r : List (Property × Property)) :
    Fits cv false fun p => writePairs cv (l ++ (p, v) :: r) := by
  induction l with
  | nil =>
    refine (Fits.self cv false).step fun p o h => ?_
    simp only [List.nil_append, writePairs] at h
    obtain ⟨a, ha, h⟩ := Res.bind_inv h
    obtain ⟨c, hc, h⟩ := Res.bind_inv h
    obtain ⟨d, hd, h⟩ := Res.bind_inv h
    cases h
    refine ⟨a, [], c.bytes ++ d.bytes, ha, by simp [Out.app_bytes], fun q n hn => ?_⟩
    exact ⟨n ++ c ++ d, by simp only [List.nil_append, writePairs, hn, hc, hd]; rfl,
      by simp [Out.app_bytes]⟩
  | cons x l ih =>
    obtain ⟨x, xs⟩ := x
    refine ih.step fun p o h => ?_
    simp only [List.cons_append, writePairs] at h
    obtain ⟨a, ha, h⟩ := Res.bind_inv h
    obtain ⟨c, hc, h⟩ := Res.bind_inv h
    obtain ⟨d, hd, h⟩ := Res.bind_inv h
    cases h
    refine ⟨d, a.bytes ++ c.bytes, [], hd, by simp [Out.app_bytes], fun q n hn => ?_⟩
    exact ⟨a ++ c ++ n, by simp only [List.cons_append, writePairs, ha, hc, hn]; rfl,
      by simp [Out.app_bytes]⟩

theorem fits_value (cv : List (Guid × UInt32)) (k : Property) (l r : List (Property × Property)) :
    Fits cv false fun p => writePairs cv (l ++ (k, p) :: r) := by
  induction l with
  | nil =>
    refine (Fits.self cv false).step fun p o h => ?_
    simp only [List.nil_append, writePairs] at h
    obtain ⟨a, ha, h⟩ := Res.bind_inv h
    obtain ⟨c, hc, h⟩ := Res.bind_inv h
    obtain ⟨d, hd, h⟩ := Res.bind_inv h
    cases h
    refine ⟨c, a.bytes, d.bytes, hc, by simp [Out.app_bytes], fun q n hn => ?_⟩
    exact ⟨a ++ n ++ d, by simp only [List.nil_append, writePairs, ha, hn, hd]; rfl,
      by simp [Out.app_bytes]⟩
  | cons x l ih =>
    obtain ⟨x, xs⟩ := x
    refine ih.step fun p o h => ?_
    simp only [List.cons_append, writePairs] at h
    obtain ⟨a, ha, h⟩ := Res.bind_inv h
    obtain ⟨c, hc, h⟩ := Res.bind_inv h
    obtain ⟨d, hd, h⟩ := Res.bind_inv h
    cases h
    refine ⟨d, a.bytes ++ c.bytes, [], hd, by simp [Out.app_bytes], fun q n hn => ?_⟩
    exact ⟨a ++ c ++ n, by simp only [List.cons_append, writePairs, ha, hc, hn]; rfl,
      by simp [Out.app_bytes]⟩

/-! ## Headers -/

theorem Fits.headed {cv : List (Guid × UInt32)} {b : Bool} {w : Property → Res Out}
    (hw : Fits cv b w) (h : Bool) (ty : String) (parts : Out) (g : Out → Out)
    (front : Nat → Bytes) (back : Bytes)
    (hf : ∀ o, (g o).bytes = front o.bytes.length ++ o.bytes ++ back)
    (hl : ∀ m n, Grown m n (front m) (front n)) :
    Fits cv b fun p => do let o ← w p; return Gvas.headed h ty parts (g o) := by
  cases h with
  | false => exact hw.around _ front back (by intro o; exact hf o) hl
  | true =>
    refine hw.around _ (fun n => (writeString ty).bytes ++
      u32B (UInt32.ofNat ((front n).length + n + back.length)) ++ u32B 0 ++ parts.bytes ++ [0] ++
      front n) back ?_ ?_
    · intro o
      simp only [Gvas.headed, withHeader, if_true, hf, List.length_append, List.append_assoc,
        Nat.add_assoc]
    · intro m n
      refine Grown.append (Grown.append (Grown.append (Grown.append (Grown.append (Grown.refl _ _ _) ?_)
        (Grown.refl _ _ _)) (Grown.refl _ _ _)) (Grown.refl _ _ _)) (hl m n)
      rw [(hl m n).length_eq]
      exact Grown.count _ _ _ _

theorem Fits.congr {cv : List (Guid × UInt32)} {b : Bool} {w w' : Property → Res Out}
    (hw : Fits cv b w) (h : ∀ p, w' p = w p) : Fits cv b w' := by
  have : w' = w := funext h
  exact this ▸ hw

/-- Two binds into one. -/
private theorem bind2 (m : Res Out) (f g : Out → Out) :
    (do let b ← (do let e ← m; return f e : Res Out)
        return g b : Res Out) = (do let e ← m; return g (f e)) := by
  cases m <;> rfl

private theorem len (l r : List α) (a : α) :
    (l ++ a :: r).length = l.length + r.length + 1 := by
  simp only [List.length_append, List.length_cons]
  omega

theorem fits_array (cv : List (Guid × UInt32)) (h : Bool) (ty : String) (l r : List Property) :
    Fits cv false fun p => Property.write cv h (.array (.properties ty (l ++ p :: r))) :=
  ((fits_list cv l r).headed h "ArrayProperty" (writeString ty)
    (fun es => u32O (UInt32.ofNat (l.length + r.length + 1)) ++ es)
    (fun _ => u32B (UInt32.ofNat (l.length + r.length + 1))) []
    (by intro o; simp [Out.app_bytes, u32O]) (fun _ _ => Grown.refl _ _ _)).congr fun p => by
      simp only [Property.write, ArrayProperty.writeBody, ArrayProperty.propertyType, len, bind2]

theorem fits_set (cv : List (Guid × UInt32)) (h : Bool) (ty : String) (fl : UInt32)
    (l r : List Property) :
    Fits cv false fun p => Property.write cv h (.set ty fl (l ++ p :: r)) :=
  ((fits_list cv l r).headed h "SetProperty" (writeString ty)
    (fun es => u32O fl ++ u32O (UInt32.ofNat (l.length + r.length + 1)) ++ es)
    (fun _ => u32B fl ++ u32B (UInt32.ofNat (l.length + r.length + 1))) []
    (by intro o; simp [Out.app_bytes, u32O]) (fun _ _ => Grown.refl _ _ _)).congr fun p => by
      simp only [Property.write, len]

theorem fits_structProp (cv : List (Guid × UInt32)) (h : Bool) (g : Guid) (ty : String)
    (fs gs : List (String × List Property)) (k : String) (l r : List Property) :
    Fits cv true fun p => Property.write cv h (.struct g ty (structWith fs k l p r gs)) :=
  ((fits_struct cv k l r fs gs).headed h "StructProperty" (writeString ty ++ ⟨guidB g, 16⟩)
    (fun o => o) (fun _ => []) [] (by intro o; simp) (fun _ _ => Grown.refl _ _ _)).congr fun p => by
      simp only [Property.write]

theorem fits_structValue (cv : List (Guid × UInt32)) (fs gs : List (String × List Property))
    (k : String) (l r : List Property) :
    Fits cv true fun p => Property.write cv false (.structValue (structWith fs k l p r gs)) :=
  (fits_struct cv k l r fs gs).congr fun p => by
    simp only [Property.write, Bool.false_eq_true, if_false]

theorem structHead_grown (m n : Nat) (a b c d e : Bytes) :
    Grown m n (a ++ b ++ c ++ u64B (UInt64.ofNat m) ++ d ++ e ++ u8B 0)
      (a ++ b ++ c ++ u64B (UInt64.ofNat n) ++ d ++ e ++ u8B 0) := by
  refine Grown.append (Grown.append (Grown.append (Grown.append (Grown.refl _ _ _) ?_)
    (Grown.refl _ _ _)) (Grown.refl _ _ _)) (Grown.refl _ _ _)
  have := Grown.longLength (m := m) (n := n) 0 .nil
  simpa only [List.append_nil, Nat.zero_add] using this

theorem fits_structArray (cv : List (Guid × UInt32)) (h : Bool) (f ty : String) (g : Guid)
    (vs ws : List StructPropertyValue) (fs gs : List (String × List Property)) (k : String)
    (l r : List Property) :
    Fits cv true fun p => Property.write cv h
      (.array (.structs f ty g (vs ++ structWith fs k l p r gs :: ws))) :=
  ((fits_structs cv vs ws k l r fs gs).headed h "ArrayProperty" (writeString "StructProperty")
    (fun es => structArrayBody (vs.length + ws.length + 1) f ty g es)
    (fun n => u32B (UInt32.ofNat (vs.length + ws.length + 1)) ++ (writeString f).bytes ++
      (writeString "StructProperty").bytes ++ u64B (UInt64.ofNat n) ++ (writeString ty).bytes ++
      guidB g ++ u8B 0) []
    (by intro o; simp [structArrayBody]) (fun m n => structHead_grown m n _ _ _ _ _)).congr fun p => by
      simp only [Property.write, ArrayProperty.writeBody, ArrayProperty.propertyType, len, bind2]

private theorem fits_strMap (cv : List (Guid × UInt32)) (h : Bool) (k : String) (kt vt : String)
    (l r : List (String × Property)) :
    Fits cv false fun p => do
      let es ← writeStrProps cv (l ++ (k, p) :: r)
      return headed h "MapProperty" (writeString kt ++ writeString vt)
        (mapHead 0 (l.length + r.length + 1) ++ es) :=
  (fits_strProps cv k l r).headed h "MapProperty" (writeString kt ++ writeString vt)
    (fun es => mapHead 0 (l.length + r.length + 1) ++ es)
    (fun _ => (mapHead 0 (l.length + r.length + 1)).bytes) []
    (by intro o; simp [Out.app_bytes]) (fun _ _ => Grown.refl _ _ _)

theorem fits_enumMap (cv : List (Guid × UInt32)) (h : Bool) (ty k : String)
    (l r : List (String × Property)) :
    Fits cv false fun p => Property.write cv h (.map (.enumProperty ty (l ++ (k, p) :: r))) :=
  (fits_strMap cv h k "EnumProperty" ty l r).congr fun p => by
    simp only [Property.write, MapProperty.writeBody, MapProperty.keyType, MapProperty.valueType,
      len, bind2]

theorem fits_nameMap (cv : List (Guid × UInt32)) (h : Bool) (ty k : String)
    (l r : List (String × Property)) :
    Fits cv false fun p => Property.write cv h (.map (.nameProperty ty (l ++ (k, p) :: r))) :=
  (fits_strMap cv h k "NameProperty" ty l r).congr fun p => by
    simp only [Property.write, MapProperty.writeBody, MapProperty.keyType, MapProperty.valueType,
      len, bind2]

theorem fits_strKeyMap (cv : List (Guid × UInt32)) (h : Bool) (ty k : String)
    (l r : List (String × Property)) :
    Fits cv false fun p => Property.write cv h (.map (.strProperty ty (l ++ (k, p) :: r))) :=
  (fits_strMap cv h k "StrProperty" ty l r).congr fun p => by
    simp only [Property.write, MapProperty.writeBody, MapProperty.keyType, MapProperty.valueType,
      len, bind2]

theorem fits_mapKey (cv : List (Guid × UInt32)) (h : Bool) (kt vt : String) (fl : UInt32)
    (v : Property) (l r : List (Property × Property)) :
    Fits cv false fun p => Property.write cv h (.map (.properties kt vt fl (l ++ (p, v) :: r))) :=
  ((fits_key cv v l r).headed h "MapProperty" (writeString kt ++ writeString vt)
    (fun es => mapHead fl (l.length + r.length + 1) ++ es)
    (fun _ => (mapHead fl (l.length + r.length + 1)).bytes) []
    (by intro o; simp [Out.app_bytes]) (fun _ _ => Grown.refl _ _ _)).congr fun p => by
    simp only [Property.write, MapProperty.writeBody, MapProperty.keyType, MapProperty.valueType,
      len, bind2]

theorem fits_mapValue (cv : List (Guid × UInt32)) (h : Bool) (kt vt : String) (fl : UInt32)
    (k : Property) (l r : List (Property × Property)) :
    Fits cv false fun p => Property.write cv h (.map (.properties kt vt fl (l ++ (k, p) :: r))) :=
  ((fits_value cv k l r).headed h "MapProperty" (writeString kt ++ writeString vt)
    (fun es => mapHead fl (l.length + r.length + 1) ++ es)
    (fun _ => (mapHead fl (l.length + r.length + 1)).bytes) []
    (by intro o; simp [Out.app_bytes]) (fun _ _ => Grown.refl _ _ _)).congr fun p => by
    simp only [Property.write, MapProperty.writeBody, MapProperty.keyType, MapProperty.valueType,
      len, bind2]

/-! ## At any depth -/

/-- What is said of the two writings of properties that differ in one place. -/
def Replaced (cv : List (Guid × UInt32)) (b h : Bool) (p q s t : Property) : Prop :=
  ∀ o, Property.write cv h s = .ok o → ∃ pre a post, Property.write cv b p = .ok a ∧
    o.bytes = pre ++ a.bytes ++ post ∧
    ∀ c, Property.write cv b q = .ok c → ∃ pre' o', Property.write cv h t = .ok o' ∧
      o'.bytes = pre' ++ c.bytes ++ post ∧ Grown a.bytes.length c.bytes.length pre pre'

theorem Replaced.inside {cv : List (Guid × UInt32)} {b m h : Bool} {p q s t : Property}
    {w : Property → Property} (hw : Fits cv m fun p => Property.write cv h (w p))
    (ih : Replaced cv b m p q s t) : Replaced cv b h p q (w s) (w t) := by
  intro o ho
  obtain ⟨pre, a, post, h1, h2, h3⟩ := hw s o ho
  obtain ⟨pre1, a1, post1, g1, g2, g3⟩ := ih a h1
  refine ⟨pre ++ pre1, a1, post1 ++ post, g1, by rw [h2, g2]; simp only [List.append_assoc], ?_⟩
  intro c hc
  obtain ⟨pre2, o2, e1, e2, e3⟩ := g3 c hc
  obtain ⟨pre3, o3, f1, f2, f3⟩ := h3 t o2 e1
  refine ⟨pre3 ++ pre2, o3, f1, by rw [f2, e2]; simp only [List.append_assoc],
    Grown.append ?_ e3⟩
  rw [g2, e2] at f3
  exact Grown.around e3 f3

theorem differ_replaced {cv : List (Guid × UInt32)} {keys b h : Bool} {p q s t : Property}
    (hd : Differ keys b p q h s t) : Replaced cv b h p q s t := by
  induction hd with
  | here =>
    intro o ho
    exact ⟨[], o, [], ho, by simp, fun c hc => ⟨[], c, hc, by simp, .nil⟩⟩
  | array ty l r _ ih => exact Replaced.inside (fits_array cv _ ty l r) ih
  | set ty fl l r _ ih => exact Replaced.inside (fits_set cv _ ty fl l r) ih
  | struct g ty fs gs k l r _ ih => exact Replaced.inside (fits_structProp cv _ g ty fs gs k l r) ih
  | structValue fs gs k l r _ ih => exact Replaced.inside (fits_structValue cv fs gs k l r) ih
  | structs f ty g vs ws fs gs k l r _ ih =>
    exact Replaced.inside (fits_structArray cv _ f ty g vs ws fs gs k l r) ih
  | enumMap ty k l r _ ih => exact Replaced.inside (fits_enumMap cv _ ty k l r) ih
  | nameMap ty k l r _ ih => exact Replaced.inside (fits_nameMap cv _ ty k l r) ih
  | strMap ty k l r _ ih => exact Replaced.inside (fits_strKeyMap cv _ ty k l r) ih
  | mapKey kt vt fl v l r _ _ ih => exact Replaced.inside (fits_mapKey cv _ kt vt fl v l r) ih
  | mapValue kt vt fl k l r _ ih => exact Replaced.inside (fits_mapValue cv _ kt vt fl k l r) ih

/-! ## Values of the same kind can be exchanged -/

/-- What the surroundings of a property look at. -/
structure Similar (env : Env) (s t : Property) : Prop where
  head : ∀ st, HeadOK env st s → HeadOK env st t
  bare : ∀ st ty, BareOK env st ty s → BareOK env st ty t
  index : storedIndex t = storedIndex s
  size : sizeClass t = sizeClass s
  free : SizeFree s → SizeFree t
  spaced : isNamespaced s → isNamespaced t

theorem Alike.similar {p q : Property} (h : Alike p q) (env : Env) : Similar env p q := by
  cases h <;>
  constructor <;>
  simp +contextual only [HeadOK, BareOK, storedIndex, sizeClass, SizeFree, isNamespaced, ByteOK,
    FStrOK, implies_true, and_true, true_and, and_self, *]
  all_goals
    intros
    simp_all

theorem similar_uniform {env : Env} {s t : Property} (h : Similar env s t) (l r : List Property)
    (hu : Uniform (l ++ s :: r)) : Uniform (l ++ t :: r) := by
  have hs : ∀ p ∈ l ++ t :: r, sizeClass p = sizeClass s := by
    intro p hp
    simp only [List.mem_append, List.mem_cons] at hp
    rcases hp with hp | hp | hp
    · exact hu p (by simp [hp]) s (by simp)
    · rw [hp]; exact h.size
    · exact hu p (by simp [hp]) s (by simp)
  intro p hp q hq
  rw [hs p hp, hs q hq]

theorem similar_bares {env : Env} {s t : Property} (h : Similar env s t) {st : List String}
    {ty : String} (l r : List Property) (hb : BaresOK env st ty (l ++ s :: r)) :
    BaresOK env st ty (l ++ t :: r) := by
  rw [baresOK_iff] at hb ⊢
  intro p hp
  simp only [List.mem_append, List.mem_cons] at hp
  rcases hp with hp | hp | hp
  · exact hb p (by simp [hp])
  · subst hp; exact h.bare _ _ (hb s (by simp))
  · exact hb p (by simp [hp])

theorem similar_values {env : Env} {s t : Property} (h : Similar env s t) {st : List String}
    {ty k : String} (l r : List (String × Property)) (hb : ValuesOK env st ty (l ++ (k, s) :: r)) :
    ValuesOK env st ty (l ++ (k, t) :: r) := by
  rw [valuesOK_iff] at hb ⊢
  intro e he
  simp only [List.mem_append, List.mem_cons] at he
  rcases he with he | he | he
  · exact hb e (by simp [he])
  · subst he
    have := hb (k, s) (by simp)
    exact ⟨h.free this.1, h.bare _ _ this.2⟩
  · exact hb e (by simp [he])

theorem similar_keys {α : Type} {k : String} {s t : α} {l r : List (String × α)}
    (h : KeysOK (l ++ (k, s) :: r)) : KeysOK (l ++ (k, t) :: r) := by
  obtain ⟨h1, h2, h3⟩ := h
  refine ⟨by simpa using h1, by simpa using h2, fun e he => ?_⟩
  simp only [List.mem_append, List.mem_cons] at he
  rcases he with he | he | he
  · exact h3 e (by simp [he])
  · subst he; exact h3 (k, s) (by simp)
  · exact h3 e (by simp [he])

theorem similar_vals {env : Env} {s t : Property} (h : Similar env s t) {st : List String}
    (l r : List Property) (i : Nat) (hb : ValsOK env st i (l ++ s :: r)) :
    ValsOK env st i (l ++ t :: r) := by
  induction l generalizing i with
  | nil =>
    simp only [List.nil_append, ValsOK] at hb ⊢
    rw [h.index]
    exact ⟨hb.1, h.head _ hb.2.1, hb.2.2⟩
  | cons p l ih =>
    simp only [List.cons_append, ValsOK] at hb ⊢
    exact ⟨hb.1, hb.2.1, ih _ hb.2.2⟩

theorem similar_fields {env : Env} {s t : Property} (h : Similar env s t) {st : List String}
    (k : String) (l r : List Property) (fs gs : List (String × List Property))
    (hb : FieldsOK env st (fs ++ (k, l ++ s :: r) :: gs)) :
    FieldsOK env st (fs ++ (k, l ++ t :: r) :: gs) := by
  induction fs with
  | nil =>
    simp only [List.nil_append, FieldsOK] at hb ⊢
    exact ⟨hb.1, hb.2.1, by simp, similar_vals h l r 0 hb.2.2.2.1, hb.2.2.2.2⟩
  | cons e fs ih =>
    obtain ⟨e, es⟩ := e
    simp only [List.cons_append, FieldsOK] at hb ⊢
    exact ⟨hb.1, hb.2.1, hb.2.2.1, hb.2.2.2.1, ih hb.2.2.2.2⟩

theorem similar_struct {env : Env} {s t : Property} (h : Similar env s t) {st : List String}
    {ty : String} (k : String) (l r : List Property) (fs gs : List (String × List Property))
    (hb : StructOK env st ty (structWith fs k l s r gs)) :
    StructOK env st ty (structWith fs k l t r gs) := by
  simp only [structWith, StructOK] at hb ⊢
  exact ⟨hb.1, by simpa using hb.2.1, similar_fields h k l r fs gs hb.2.2⟩

theorem similar_structs {env : Env} {s t : Property} (h : Similar env s t) {st : List String}
    {ty : String} (vs ws : List StructPropertyValue) (k : String) (l r : List Property)
    (fs gs : List (String × List Property))
    (hb : StructsOK env st ty (vs ++ structWith fs k l s r gs :: ws)) :
    StructsOK env st ty (vs ++ structWith fs k l t r gs :: ws) := by
  rw [structsOK_iff] at hb ⊢
  intro p hp
  simp only [List.mem_append, List.mem_cons] at hp
  rcases hp with hp | hp | hp
  · exact hb p (by simp [hp])
  · subst hp; exact similar_struct h k l r fs gs (hb _ (by simp))
  · exact hb p (by simp [hp])

/-- Containers: nothing but being representable is looked at. -/
theorem similar_of_head {env : Env} {s t : Property}
    (head : ∀ st, HeadOK env st s → HeadOK env st t) (bare : ∀ st ty, BareOK env st ty s → BareOK env st ty t)
    (hs : storedIndex s = 0 ∧ sizeClass s = none ∧ ¬ isNamespaced s)
    (ht : storedIndex t = 0 ∧ sizeClass t = none ∧ SizeFree t) : Similar env s t :=
  ⟨head, bare, by rw [hs.1, ht.1], by rw [hs.2.1, ht.2.1], fun _ => ht.2.2,
    fun h => absurd h hs.2.2⟩

theorem differ_similar_of {b h : Bool} {p q s t : Property} (env : Env)
    (hd : Differ false b p q h s t) (ha : Similar env p q) : Similar env s t := by
  induction hd with
  | here => exact ha
  | array ty l r _ ih =>
    refine similar_of_head ?_ (by simp [BareOK]) (by simp [storedIndex, sizeClass, isNamespaced])
      (by simp [storedIndex, sizeClass, SizeFree])
    intro st
    simp only [HeadOK, ArrayOK]
    rintro ⟨h1, h2, h3, h4, h5, h6, h7⟩
    refine ⟨h1, h2, h3, ?_, by simpa using h5, similar_uniform ih l r h6, similar_bares ih l r h7⟩
    intro hty
    obtain ⟨p, hp, hn⟩ := h4 hty
    simp only [List.mem_append, List.mem_cons] at hp
    rcases hp with hp | hp | hp
    · exact ⟨p, by simp [hp], hn⟩
    · subst hp; exact ⟨_, by simp, ih.spaced hn⟩
    · exact ⟨p, by simp [hp], hn⟩
  | set ty fl l r _ ih =>
    refine similar_of_head ?_ (by simp [BareOK]) (by simp [storedIndex, sizeClass, isNamespaced])
      (by simp [storedIndex, sizeClass, SizeFree])
    intro st
    simp only [HeadOK]
    rintro ⟨h1, h5, h6, h7⟩
    exact ⟨h1, by simpa using h5, similar_uniform ih l r h6, similar_bares ih l r h7⟩
  | struct g ty fs gs k l r _ ih =>
    refine similar_of_head ?_ (by simp [BareOK]) (by simp [storedIndex, sizeClass, isNamespaced])
      (by simp [storedIndex, sizeClass, SizeFree])
    intro st
    simp only [HeadOK]
    exact fun ⟨h1, h2⟩ => ⟨h1, similar_struct ih k l r fs gs h2⟩
  | structValue fs gs k l r _ ih =>
    refine similar_of_head (by simp [HeadOK]) ?_ (by simp [storedIndex, sizeClass, isNamespaced])
      (by simp [storedIndex, sizeClass, SizeFree])
    intro st ty
    simp only [BareOK]
    exact fun ⟨h1, hint, h2, h3⟩ => ⟨h1, hint, h2, similar_struct ih k l r fs gs h3⟩
  | structs f ty g vs ws fs gs k l r _ ih =>
    refine similar_of_head ?_ (by simp [BareOK]) (by simp [storedIndex, sizeClass, isNamespaced])
      (by simp [storedIndex, sizeClass, SizeFree])
    intro st
    simp only [HeadOK, ArrayOK]
    exact fun ⟨h1, h2, h3, h4⟩ => ⟨h1, h2, by simpa using h3, similar_structs ih vs ws k l r fs gs h4⟩
  | enumMap ty k l r _ ih =>
    refine similar_of_head ?_ (by simp [BareOK]) (by simp [storedIndex, sizeClass, isNamespaced])
      (by simp [storedIndex, sizeClass, SizeFree])
    intro st
    simp only [HeadOK, MapOK]
    exact fun ⟨h1, h2, h3, h4⟩ => ⟨h1, h2, similar_keys h3, similar_values ih l r h4⟩
  | nameMap ty k l r _ ih =>
    refine similar_of_head ?_ (by simp [BareOK]) (by simp [storedIndex, sizeClass, isNamespaced])
      (by simp [storedIndex, sizeClass, SizeFree])
    intro st
    simp only [HeadOK, MapOK]
    exact fun ⟨h1, h2, h3, h4⟩ => ⟨h1, h2, similar_keys h3, similar_values ih l r h4⟩
  | strMap ty k l r _ ih =>
    refine similar_of_head ?_ (by simp [BareOK]) (by simp [storedIndex, sizeClass, isNamespaced])
      (by simp [storedIndex, sizeClass, SizeFree])
    intro st
    simp only [HeadOK, MapOK]
    exact fun ⟨h1, h2, h3, h4⟩ => ⟨h1, h2, similar_keys h3, similar_values ih l r h4⟩
  | mapKey kt vt fl v l r hk => cases hk
  | mapValue kt vt fl k l r _ ih =>
    refine similar_of_head ?_ (by simp [BareOK]) (by simp [storedIndex, sizeClass, isNamespaced])
      (by simp [storedIndex, sizeClass, SizeFree])
    intro st
    simp only [HeadOK, MapOK]
    rintro ⟨h1, h2, h3, h4, h5, h6, h7⟩
    refine ⟨h1, h2, by simpa using h3, by simpa using h4, h5, ?_, ?_⟩
    · intro hf hk
      obtain ⟨e, he, hn⟩ := h6 hf hk
      simp only [List.mem_append, List.mem_cons] at he
      rcases he with he | he | he
      · exact ⟨e, by simp [he], hn⟩
      · subst he; exact ⟨_, List.mem_append_right _ List.mem_cons_self, hn⟩
      · exact ⟨e, by simp [he], hn⟩
    · rw [entriesOK_iff] at h7 ⊢
      intro e he
      simp only [List.mem_append, List.mem_cons] at he
      rcases he with he | he | he
      · exact h7 e (by simp [he])
      · subst he
        have := h7 (k, _) (List.mem_append_right _ List.mem_cons_self)
        exact ⟨this.1, ih.free this.2.1, ih.bare _ _ this.2.2⟩
      · exact h7 e (by simp [he])

theorem differ_similar {b h : Bool} {p q s t : Property} (env : Env)
    (hd : Differ false b p q h s t) (ha : Alike p q) : Similar env s t :=
  differ_similar_of env hd (Alike.similar ha env)

/-! ## In a file -/

theorem fits_top (cv : List (Guid × UInt32)) (k : String) (l r : List (String × Property)) :
    Fits cv true fun p => writeTop cv (l ++ (k, p) :: r) := by
  induction l with
  | nil =>
    simp only [List.nil_append, writeTop]
    exact (Fits.self cv true).before _ _ (writeString k).bytes
      (by intro u o; simp [Out.app_bytes])
  | cons x l ih =>
    obtain ⟨x, xs⟩ := x
    simp only [List.cons_append, writeTop]
    exact ih.after _ _ (fun u => (writeString x).bytes ++ u.bytes)
      (by intro u o; simp [Out.app_bytes])

end Gvas
