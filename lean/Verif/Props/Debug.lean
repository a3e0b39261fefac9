import Verif.Model.Debug
import Verif.Lemmas.Display
import Verif.Props.Guid

/-!
# C82: the texts of values tell the values
-/

namespace Gvas

namespace Spec

/-- Two struct values of one type whose integers are equal and whose floats have the same texts,
component by component. -/
def SameShown (f32 : F32 → String) (f64 : F64 → String) :
    StructPropertyValue → StructPropertyValue → Prop
  | .vector2F x y, .vector2F x' y' => f32 x = f32 x' ∧ f32 y = f32 y'
  | .vector2D x y, .vector2D x' y' => f64 x = f64 x' ∧ f64 y = f64 y'
  | .vectorF x y z, .vectorF x' y' z' => f32 x = f32 x' ∧ f32 y = f32 y' ∧ f32 z = f32 z'
  | .vectorD x y z, .vectorD x' y' z' => f64 x = f64 x' ∧ f64 y = f64 y' ∧ f64 z = f64 z'
  | .rotatorF x y z, .rotatorF x' y' z' => f32 x = f32 x' ∧ f32 y = f32 y' ∧ f32 z = f32 z'
  | .rotatorD x y z, .rotatorD x' y' z' => f64 x = f64 x' ∧ f64 y = f64 y' ∧ f64 z = f64 z'
  | .quatF x y z w, .quatF x' y' z' w' =>
    f32 x = f32 x' ∧ f32 y = f32 y' ∧ f32 z = f32 z' ∧ f32 w = f32 w'
  | .quatD x y z w, .quatD x' y' z' w' =>
    f64 x = f64 x' ∧ f64 y = f64 y' ∧ f64 z = f64 z' ∧ f64 w = f64 w'
  | .linearColor x y z w, .linearColor x' y' z' w' =>
    f32 x = f32 x' ∧ f32 y = f32 y' ∧ f32 z = f32 z' ∧ f32 w = f32 w'
  | .dateTime t, .dateTime t' => t = t'
  | .timespan t, .timespan t' => t = t'
  | .intPoint x y, .intPoint x' y' => x = x' ∧ y = y'
  | _, _ => False

end Spec

open Spec

/-- Only decimal digits and a minus sign. -/
private theorem decInt_chars (v : Int) : ∀ c ∈ (decInt v).toList, c.isDigit = true ∨ c = '-' := by
  have hd : ∀ d : Fin 10, (Nat.digitChar d.val).isDigit = true := by decide
  have : ∀ c ∈ Nat.toDigits 10 v.natAbs, c.isDigit = true := fun c hc => by
    obtain ⟨d, h, rfl⟩ := mem_toDigits (by omega) _ hc
    exact hd ⟨d, h⟩
  intro c hc
  rw [decInt_toList] at hc
  split at hc
  · rcases List.mem_cons.mp hc with rfl | hc
    · exact .inr rfl
    · exact .inl (this c hc)
  · exact .inl (this c hc)

private theorem not_mem_decInt {c : Char} (h1 : c.isDigit = false) (h2 : c ≠ '-') (v : Int) :
    c ∉ (decInt v).toList := fun h => by
  rcases decInt_chars v c h with e | e
  · rw [h1] at e; cases e
  · exact h2 e

/-- The number and the type after it. -/
private theorem split_suffix {v w : Int} {s t : String} {c d : Char} {l k : List Char}
    (hs : s.toList = c :: l) (ht : t.toList = d :: k) (hc : c.isDigit = false ∧ c ≠ '-')
    (hd : d.isDigit = false ∧ d ≠ '-') (h : decInt v ++ s = decInt w ++ t) : v = w ∧ s = t := by
  have h := congrArg String.toList h
  simp only [String.toList_append] at h
  have key : ∀ (a b : List Char) (x y : List Char), (∀ e ∈ a, e.isDigit = true ∨ e = '-') →
      (∀ e ∈ b, e.isDigit = true ∨ e = '-') → a ++ c :: x = b ++ d :: y → a = b ∧ c :: x = d :: y := by
    intro a
    induction a with
    | nil =>
      intro b x y _ hb e
      cases b with
      | nil => exact ⟨rfl, e⟩
      | cons e1 b =>
        simp only [List.nil_append, List.cons_append, List.cons.injEq] at e
        have := hb e1 (by simp)
        rw [← e.1] at this
        simp_all
    | cons e1 a ih =>
      intro b x y ha hb e
      cases b with
      | nil =>
        simp only [List.nil_append, List.cons_append, List.cons.injEq] at e
        have := ha e1 (by simp)
        rw [e.1] at this
        simp_all
      | cons e2 b =>
        simp only [List.cons_append, List.cons.injEq] at e
        obtain ⟨r1, r2⟩ := ih b x y (fun z hz => ha z (by simp [hz])) (fun z hz => hb z (by simp [hz])) e.2
        exact ⟨by rw [e.1, r1], r2⟩
  rw [hs, ht] at h
  obtain ⟨e1, e2⟩ := key _ _ _ _ (decInt_chars v) (decInt_chars w) h
  exact ⟨decInt_inj e1, String.toList_inj.mp (by rw [hs, ht, e2])⟩

private theorem bool_ne {b : Bool} {v : Int} {s : String} (hs : ∃ c ∈ s.toList, c.isDigit = true)
    (h : decInt v ++ s = if b then "true" else "false") : False := by
  obtain ⟨c, hc, hd⟩ := hs
  have : c ∈ (decInt v ++ s).toList := by simp [hc]
  rw [h] at this
  have hb : ∀ c ∈ (if b then "true" else "false" : String).toList, c.isDigit = false := by
    cases b <;> decide
  rw [hb c this] at hd
  cases hd

/-- **C82**: the text of an integer or boolean property tells its type and its value. -/
theorem C82_numbers (p q : Property) (t : String) (hp : p.debugNumber = some t)
    (hq : q.debugNumber = some t) : p = q := by
  have h : p.debugNumber = q.debugNumber := by rw [hp, hq]
  have hs : p.debugNumber ≠ none := by rw [hp]; simp
  clear hp hq
  cases p <;> simp only [Property.debugNumber, ne_eq, not_true_eq_false] at hs h <;>
    cases q <;> simp only [Option.some.injEq, reduceCtorEq] at h
  all_goals first
    | exact absurd h (fun h => bool_ne (by decide) h)
    | exact absurd h.symm (fun h => bool_ne (by decide) h)
    | (obtain ⟨e, e'⟩ := split_suffix rfl rfl (by decide) (by decide) h
       first
         | (exfalso; revert e'; decide)
         | (congr 1; first
             | exact Int8.toInt_inj.mp e | exact Int16.toInt_inj.mp e | exact Int32.toInt_inj.mp e
             | exact Int64.toInt_inj.mp e
             | exact UInt16.toNat_inj.mp (Int.ofNat.inj e) | exact UInt32.toNat_inj.mp (Int.ofNat.inj e)
             | exact UInt64.toNat_inj.mp (Int.ofNat.inj e)))
    | (congr 1
       revert h
       rename_i a b
       revert a b
       decide)

/-- **C82**: the debug text of a GUID tells the GUID. -/
theorem C82_guids (g g' : Guid) (h : g.debug = g'.debug) : g = g' := by
  have h := congrArg String.toList h
  simp only [Guid.debug, String.toList_append, String.toList_ofList, List.append_assoc] at h
  have h := List.append_cancel_left h
  exact C10_guid_display_injective _ _ (List.append_cancel_right h)

private theorem split_field {name text text' : String} {l l' : List (String × String)}
    (h1 : ' ' ∉ text.toList) (h2 : ' ' ∉ text'.toList)
    (h : displayFields ((name, text) :: l) = displayFields ((name, text') :: l')) :
    text = text' ∧ displayFields l = displayFields l' := by
  have h := congrArg String.toList h
  simp only [displayFields, String.toList_append, List.append_assoc] at h
  have h := List.append_cancel_left (List.append_cancel_left h)
  obtain ⟨e1, e2⟩ := split_first (c := ' ') h1 h2 (by simpa using h)
  exact ⟨String.toList_inj.mp e1, String.toList_inj.mp e2⟩

private theorem no_space (v : Int) : ' ' ∉ (decInt v).toList := not_mem_decInt (by decide) (by decide) v

private theorem fields_eq : ∀ l l' : List (String × String), l.map Prod.fst = l'.map Prod.fst →
    (∀ e ∈ l, ' ' ∉ e.2.toList) → (∀ e ∈ l', ' ' ∉ e.2.toList) →
    displayFields l = displayFields l' → l.map Prod.snd = l'.map Prod.snd
  | [], [], _, _, _, _ => rfl
  | [], _ :: _, h, _, _, _ => by simp at h
  | _ :: _, [], h, _, _, _ => by simp at h
  | (a, t) :: l, (b, t') :: l', hn, h1, h2, h => by
    simp only [List.map_cons, List.cons.injEq] at hn
    obtain ⟨rfl, hn⟩ := hn
    obtain ⟨e1, e2⟩ := split_field (h1 (a, t) (by simp)) (h2 (a, t') (by simp)) h
    simp only [List.map_cons]
    rw [show t = t' from e1, fields_eq l l' hn (fun e he => h1 e (by simp [he])) (fun e he => h2 e (by simp [he])) e2]

private theorem shown {l l' : List (String × String)} {t : String} (h1 : some (displayFields l) = some t)
    (h2 : some (displayFields l') = some t) (hn : l.map Prod.fst = l'.map Prod.fst)
    (hl : ∀ e ∈ l, ' ' ∉ e.2.toList) (hl' : ∀ e ∈ l', ' ' ∉ e.2.toList) :
    l.map Prod.snd = l'.map Prod.snd :=
  fields_eq l l' hn hl hl' (by rw [Option.some.inj h1, Option.some.inj h2])

private theorem ticks_inj {a b : UInt64} (h : decInt a.toNat = decInt b.toNat) : a = b := by
  have e : (a.toNat : Int) = b.toNat := decInt_inj (congrArg String.toList h)
  exact UInt64.toNat_inj.mp (by omega)

private theorem int_inj {a b : Int32} (h : decInt a.toInt = decInt b.toInt) : a = b :=
  Int32.toInt_inj.mp (decInt_inj (congrArg String.toList h))

private theorem shown_ticks {x x' : UInt64} {t : String}
    (h : some (displayFields [("ticks", decInt x.toNat)]) = some t)
    (h' : some (displayFields [("ticks", decInt x'.toNat)]) = some t) : x = x' := by
  have e := shown (l := [("ticks", decInt x.toNat)]) (l' := [("ticks", decInt x'.toNat)]) h h' rfl
    (by simp [no_space]) (by simp [no_space])
  simp only [List.map_cons, List.map_nil, List.cons.injEq, and_true] at e
  exact ticks_inj e

private theorem shown_point {x y x' y' : Int32} {t : String}
    (h : some (displayFields [("x", decInt x.toInt), ("y", decInt y.toInt)]) = some t)
    (h' : some (displayFields [("x", decInt x'.toInt), ("y", decInt y'.toInt)]) = some t) :
    x = x' ∧ y = y' := by
  have e := shown (l := [("x", decInt x.toInt), ("y", decInt y.toInt)])
    (l' := [("x", decInt x'.toInt), ("y", decInt y'.toInt)]) h h'
    (by simp only [List.map_cons, List.map_nil])
    (by simp [no_space]) (by simp [no_space])
  simp only [List.map_cons, List.map_nil, List.cons.injEq, and_true] at e
  obtain ⟨e1, e2⟩ := e
  exact ⟨int_inj e1, int_inj e2⟩

/-- **C82**: the text of a struct tells the text of every component and, of integers, the value;
all that is asked of the texts of floats is that they have no spaces. -/
theorem C82_structs (f32 : F32 → String) (f64 : F64 → String) (h32 : ∀ f, ' ' ∉ (f32 f).toList)
    (h64 : ∀ f, ' ' ∉ (f64 f).toList) (v v' : StructPropertyValue) (t : String)
    (hk : v.ctorIdx = v'.ctorIdx) (hv : v.display f32 f64 = some t)
    (hv' : v'.display f32 f64 = some t) : SameShown f32 f64 v v' := by
  have no : ∀ {P : Prop} {n m : Nat}, n = m → Nat.beq n m = false → P := fun h h' => by
    rw [h] at h'; simp at h'
  cases v with
  | vector2F x y =>
    cases v' with
    | vector2F x' y' =>
      have e := shown hv hv' rfl (by simp [h32]) (by simp [h32])
      simpa [SameShown] using e
    | _ => exact no hk rfl
  | vector2D x y =>
    cases v' with
    | vector2D x' y' =>
      have e := shown hv hv' rfl (by simp [h64]) (by simp [h64])
      simpa [SameShown] using e
    | _ => exact no hk rfl
  | vectorF x y z =>
    cases v' with
    | vectorF x' y' z' =>
      have e := shown hv hv' rfl (by simp [h32]) (by simp [h32])
      simpa [SameShown] using e
    | _ => exact no hk rfl
  | vectorD x y z =>
    cases v' with
    | vectorD x' y' z' =>
      have e := shown hv hv' rfl (by simp [h64]) (by simp [h64])
      simpa [SameShown] using e
    | _ => exact no hk rfl
  | rotatorF x y z =>
    cases v' with
    | rotatorF x' y' z' =>
      have e := shown hv hv' rfl (by simp [h32]) (by simp [h32])
      simpa [SameShown] using e
    | _ => exact no hk rfl
  | rotatorD x y z =>
    cases v' with
    | rotatorD x' y' z' =>
      have e := shown hv hv' rfl (by simp [h64]) (by simp [h64])
      simpa [SameShown] using e
    | _ => exact no hk rfl
  | quatF x y z w =>
    cases v' with
    | quatF x' y' z' w' =>
      have e := shown hv hv' rfl (by simp [h32]) (by simp [h32])
      simpa [SameShown] using e
    | _ => exact no hk rfl
  | quatD x y z w =>
    cases v' with
    | quatD x' y' z' w' =>
      have e := shown hv hv' rfl (by simp [h64]) (by simp [h64])
      simpa [SameShown] using e
    | _ => exact no hk rfl
  | linearColor x y z w =>
    cases v' with
    | linearColor x' y' z' w' =>
      have e := shown hv hv' rfl (by simp [h32]) (by simp [h32])
      simpa [SameShown] using e
    | _ => exact no hk rfl
  | intPoint x y =>
    cases v' with
    | intPoint x' y' => exact shown_point hv hv'
    | _ => exact no hk rfl
  | dateTime x =>
    cases v' with
    | dateTime x' => exact shown_ticks hv hv'
    | _ => exact no hk rfl
  | timespan x =>
    cases v' with
    | timespan x' => exact shown_ticks hv hv'
    | _ => exact no hk rfl
  | guid g => cases hv
  | gameplayTagContainer l => cases hv
  | customStruct l => cases hv

/-! ## Cases -/

example : (Property.int (-5)).debugNumber = some "-5i32" ∧
    (Property.uint16 5).debugNumber = some "5u16" ∧ (Property.bool true).debugNumber = some "true" ∧
    (Guid.fromU128 0).debug = "Guid(0)" := by decide +kernel

/-- A formatter without spaces, and a text with it. -/
example : (∀ f : F32, ' ' ∉ ((fun f => decInt f.bits.toNat) f : String).toList) ∧
    (StructPropertyValue.intPoint 3 (-4)).display (fun _ => "") (fun _ => "") = some "x: 3 y: -4 " ∧
    (StructPropertyValue.vectorF ⟨1⟩ ⟨2⟩ ⟨3⟩).display (fun f => decInt f.bits.toNat) (fun _ => "") =
      some "x: 1 y: 2 z: 3 " :=
  ⟨fun f => no_space _, by decide +kernel, by decide +kernel⟩

/-- The type is not told: a time and a duration have the same text. -/
example : (StructPropertyValue.dateTime 7).display (fun _ => "") (fun _ => "") =
    (StructPropertyValue.timespan 7).display (fun _ => "") (fun _ => "") := rfl

end Gvas
