import Verif.Model.Versions

/-!
# C46 (custom version checks) and C47 (engine version mapping)
-/

namespace Gvas

namespace Spec

/-- `v` is the number the table has for `g`: the stored one, or 0 when there is no entry. -/
def VersionOf (cv : List (Guid × UInt32)) (g : Guid) (v : Nat) : Prop :=
  (∃ w, (g, w) ∈ cv ∧ w.toNat = v) ∨ ((∀ w, (g, w) ∉ cv) ∧ v = 0)

/-- A table with distinct keys, as every `IndexMap` has. -/
def DistinctKeys {κ ν : Type} (m : List (κ × ν)) : Prop := (m.map Prod.fst).Nodup

end Spec

open Spec

private theorem lookup_mem {cv : List (Guid × UInt32)} {g : Guid} {w : UInt32}
    (hd : DistinctKeys cv) (h : (g, w) ∈ cv) : cv.lookup g = some w := by
  induction cv with
  | nil => simp at h
  | cons e l ih =>
    obtain ⟨k, x⟩ := e
    simp only [DistinctKeys, List.map_cons, List.nodup_cons] at hd
    rw [List.lookup_cons]
    rcases List.mem_cons.mp h with h0 | hl
    · cases h0; simp
    · have : g ≠ k := by
        rintro rfl
        exact hd.1 (List.mem_map.mpr ⟨(g, w), hl, rfl⟩)
      rw [show (g == k) = false by simpa using this]
      exact ih hd.2 hl

private theorem lookup_none {cv : List (Guid × UInt32)} {g : Guid}
    (h : ∀ w, (g, w) ∉ cv) : cv.lookup g = none := by
  induction cv with
  | nil => rfl
  | cons e l ih =>
    obtain ⟨k, x⟩ := e
    rw [List.lookup_cons]
    have : g ≠ k := by rintro rfl; exact h x (by simp)
    rw [show (g == k) = false by simpa using this]
    exact ih fun w hw => h w (by simp [hw])

private theorem lookup_filter (cv : List (Guid × UInt32)) (g : Guid) :
    (cv.filter fun e => e.1 = g).lookup g = cv.lookup g := by
  induction cv with
  | nil => rfl
  | cons e l ih =>
    obtain ⟨k, x⟩ := e
    by_cases h : k = g
    · subst h; simp
    · have : (g == k) = false := by simpa using fun h' => h h'.symm
      simp [List.lookup_cons, h, this, ih]

/-- **C46**: a version is supported exactly when the table's entry for the type (0 when absent)
reaches the required number. -/
theorem C46_supports_iff (cv : List (Guid × UInt32)) (hd : DistinctKeys cv) (g : Guid) (v : Nat)
    (hv : VersionOf cv g v) (required : Nat) :
    supportsVersion cv g required = true ↔ required ≤ v := by
  unfold supportsVersion getCustomVersion
  rcases hv with ⟨w, hw, rfl⟩ | ⟨h, rfl⟩
  · rw [lookup_mem hd hw]; simp
  · rw [lookup_none h]; simp

/-- **C46**: a smaller requirement is supported whenever a larger one is. -/
theorem C46_antitone (cv : List (Guid × UInt32)) (g : Guid) (r r' : Nat) (h : r ≤ r')
    (hs : supportsVersion cv g r' = true) : supportsVersion cv g r = true := by
  simp only [supportsVersion, decide_eq_true_eq] at *
  omega

/-- **C46**: entries of other types have no influence. -/
theorem C46_ignores_others (cv cv' : List (Guid × UInt32)) (g : Guid)
    (h : cv.filter (fun e => e.1 = g) = cv'.filter (fun e => e.1 = g)) (r : Nat) :
    supportsVersion cv g r = supportsVersion cv' g r := by
  have : getCustomVersion cv g = getCustomVersion cv' g := by
    unfold getCustomVersion
    rw [← lookup_filter cv, ← lookup_filter cv', h]
  unfold supportsVersion
  rw [this]

/-- **C46**: the three checks the format depends on, with the types' GUIDs and numbers written
out: culture invariant texts (editor version 32), 64 bit text arguments (UE5 release version 12)
and large world coordinates (UE5 release version 28). -/
theorem C46_gates (cv : List (Guid × UInt32)) (hd : DistinctKeys cv) (e u : Nat)
    (he : VersionOf cv (Guid.fromU32 0xE4B068ED 0xF49442E9 0xA231DA0B 0x2E46BB41) e)
    (hu : VersionOf cv (Guid.fromU32 0xD89B5E42 0x24BD4D46 0x8412ACA8 0xDF641779) u) :
    (cultureInvariant cv = true ↔ 32 ≤ e) ∧ (text64 cv = true ↔ 12 ≤ u) ∧
      (lwc cv = true ↔ 28 ≤ u) :=
  ⟨C46_supports_iff cv hd _ _ he _, C46_supports_iff cv hd _ _ hu _,
   C46_supports_iff cv hd _ _ hu _⟩

/-- A table with the UE5 release entry at 20: 64 bit arguments but no large world coordinates,
and, lacking an editor entry, no culture invariant texts. -/
example : ∃ cv : List (Guid × UInt32), DistinctKeys cv ∧
    VersionOf cv (Guid.fromU32 0xE4B068ED 0xF49442E9 0xA231DA0B 0x2E46BB41) 0 ∧
    VersionOf cv (Guid.fromU32 0xD89B5E42 0x24BD4D46 0x8412ACA8 0xDF641779) 20 ∧
    text64 cv = true ∧ lwc cv = false ∧ cultureInvariant cv = false := by
  refine ⟨[(Guid.fromU32 1 2 3 4, 99), (ue5ReleaseGuid, 20)], by unfold DistinctKeys; decide, .inr ⟨?_, rfl⟩,
    .inl ⟨20, by decide, rfl⟩, by decide, by decide, by decide⟩
  intro w h
  have : editorGuid ∉ [Guid.fromU32 1 2 3 4, ue5ReleaseGuid] := by decide
  exact this (List.mem_map_of_mem (f := Prod.fst) h)

/-! ## C47 -/

/-- The version names of the engine releases the library knows, by minor number. -/
def Spec.ue4 : List EngineVersion :=
  [.VER_UE4_0, .VER_UE4_1, .VER_UE4_2, .VER_UE4_3, .VER_UE4_4, .VER_UE4_5, .VER_UE4_6, .VER_UE4_7,
   .VER_UE4_8, .VER_UE4_9, .VER_UE4_10, .VER_UE4_11, .VER_UE4_12, .VER_UE4_13, .VER_UE4_14,
   .VER_UE4_15, .VER_UE4_16, .VER_UE4_17, .VER_UE4_18, .VER_UE4_19, .VER_UE4_20, .VER_UE4_21,
   .VER_UE4_22, .VER_UE4_23, .VER_UE4_24, .VER_UE4_25, .VER_UE4_26, .VER_UE4_27]

/-- The UE5 releases. -/
def Spec.ue5 : List EngineVersion := [.VER_UE5_0, .VER_UE5_1, .VER_UE5_2]

/-- The documented mapping. -/
def Spec.engineVersion (major minor : Nat) : EngineVersion :=
  if major = 4 then Spec.ue4[minor]?.getD .UNKNOWN
  else if major = 5 then Spec.ue5[minor]?.getD .UNKNOWN
  else .UNKNOWN

/-- **C47**: the version depends on major and minor number only, as documented. -/
theorem C47_get_version (v : FEngineVersion) :
    v.getVersion = Spec.engineVersion v.major.toNat v.minor.toNat := by
  unfold FEngineVersion.getVersion Spec.engineVersion
  generalize v.major.toNat = a
  generalize v.minor.toNat = b
  by_cases h4 : a = 4
  · subst h4
    by_cases hb : b < 28
    · have : ∀ b : Fin 28, (match 4, b.val with
        | 4, 0 => EngineVersion.VER_UE4_0 | 4, 1 => .VER_UE4_1 | 4, 2 => .VER_UE4_2
        | 4, 3 => .VER_UE4_3 | 4, 4 => .VER_UE4_4 | 4, 5 => .VER_UE4_5 | 4, 6 => .VER_UE4_6
        | 4, 7 => .VER_UE4_7 | 4, 8 => .VER_UE4_8 | 4, 9 => .VER_UE4_9 | 4, 10 => .VER_UE4_10
        | 4, 11 => .VER_UE4_11 | 4, 12 => .VER_UE4_12 | 4, 13 => .VER_UE4_13
        | 4, 14 => .VER_UE4_14 | 4, 15 => .VER_UE4_15 | 4, 16 => .VER_UE4_16
        | 4, 17 => .VER_UE4_17 | 4, 18 => .VER_UE4_18 | 4, 19 => .VER_UE4_19
        | 4, 20 => .VER_UE4_20 | 4, 21 => .VER_UE4_21 | 4, 22 => .VER_UE4_22
        | 4, 23 => .VER_UE4_23 | 4, 24 => .VER_UE4_24 | 4, 25 => .VER_UE4_25
        | 4, 26 => .VER_UE4_26 | 4, 27 => .VER_UE4_27 | 5, 0 => .VER_UE5_0 | 5, 1 => .VER_UE5_1
        | 5, 2 => .VER_UE5_2 | _, _ => .UNKNOWN) = Spec.ue4[b.val]?.getD .UNKNOWN := by decide
      exact this ⟨b, hb⟩
    · rw [if_pos rfl, List.getElem?_eq_none (by simp [Spec.ue4]; omega)]
      split <;> first | rfl | omega
  · rw [if_neg h4]
    by_cases h5 : a = 5
    · subst h5
      rw [if_pos rfl]
      by_cases hb : b < 3
      · have : b = 0 ∨ b = 1 ∨ b = 2 := by omega
        rcases this with rfl | rfl | rfl <;> rfl
      · rw [List.getElem?_eq_none (by simp [Spec.ue5]; omega)]
        split <;> first | rfl | omega
    · rw [if_neg h5]
      split <;> first | rfl | omega

/-- **C47**: known releases have versions of their own, none of them `UNKNOWN`. -/
theorem C47_distinct :
    (EngineVersion.UNKNOWN :: (Spec.ue4 ++ Spec.ue5)).Nodup ∧ Spec.ue4.length = 28 ∧
      Spec.ue5.length = 3 := by decide

example (p : UInt16) (c : UInt32) (b : String) :
    FEngineVersion.getVersion ⟨4, 27, p, c, b⟩ = .VER_UE4_27 ∧
    FEngineVersion.getVersion ⟨5, 2, p, c, b⟩ = .VER_UE5_2 ∧
    FEngineVersion.getVersion ⟨5, 3, p, c, b⟩ = .UNKNOWN ∧
    FEngineVersion.getVersion ⟨4, 28, p, c, b⟩ = .UNKNOWN := ⟨rfl, rfl, rfl, rfl⟩

end Gvas
