import Verif.Spec.Hints

/-! # How being representable depends on the hints -/

namespace Gvas

open Spec

section
variable {env : Env} {hints : String → Option String}

private theorem all_append {l r : List (String × Option String)} :
    (∀ n ∈ l ++ r, Suits hints n) ↔ (∀ n ∈ l, Suits hints n) ∧ ∀ n ∈ r, Suits hints n := by
  simp only [List.mem_append]
  exact ⟨fun h => ⟨fun n hn => h n (.inl hn), fun n hn => h n (.inr hn)⟩,
    fun h n hn => hn.elim (h.1 n) (h.2 n)⟩

private theorem all_nil : (∀ n ∈ ([] : List (String × Option String)), Suits hints n) ↔ True := by
  simp

private theorem both {a b : Prop} (h : a) : (a ∧ b) ↔ b := ⟨And.right, fun hb => ⟨h, hb⟩⟩

mutual
theorem head_hints (st st' : List String) : ∀ p : Property, HeadOK env st p →
    (HeadOK { env with hints := hints } st' p ↔ ∀ n ∈ needs st' p, Suits hints n)
  | .array v, h => by
    simp only [HeadOK, needs] at *; exact array_hints _ _ v h
  | .map v, h => by simp only [HeadOK, needs] at *; exact map_hints _ _ v h
  | .set ty _ ps, h => by
    simp only [HeadOK, needs] at *
    rw [both h.1, both h.2.1, both h.2.2.1]
    exact bares_hints _ _ _ ps h.2.2.2
  | .struct _ ty v, h => by
    simp only [HeadOK, needs] at *
    rw [both h.1, struct_hints _ _ ty ty v h.2]
    exact both (struct_fits _ ty v h.2)
  | .structValue _, h => by simp only [HeadOK] at h
  | .text _, h => by simp only [HeadOK, needs] at *; simpa using h
  | .bool _, h => by simp only [HeadOK, needs]; simp
  | .byte _ _, h => by simp only [HeadOK, needs] at *; simpa using h
  | .double _, h => by simp only [HeadOK, needs]; simp
  | .enum _ _, h => by simp only [HeadOK, needs] at *; simpa using h
  | .float _, h => by simp only [HeadOK, needs]; simp
  | .int16 _, h => by simp only [HeadOK, needs]; simp
  | .int64 _, h => by simp only [HeadOK, needs]; simp
  | .int8 _, h => by simp only [HeadOK, needs]; simp
  | .int _, h => by simp only [HeadOK, needs]; simp
  | .name _ _, h => by simp only [HeadOK, needs] at *; simpa using h
  | .object _, h => by simp only [HeadOK, needs] at *; simpa using h
  | .delegate _, h => by simp only [HeadOK, needs] at *; simpa using h
  | .multicastInlineDelegate _, h => by simp only [HeadOK, needs] at *; simpa using h
  | .multicastSparseDelegate _, h => by simp only [HeadOK, needs] at *; simpa using h
  | .fieldPath _, h => by simp only [HeadOK, needs] at *; simpa using h
  | .str _, h => by simp only [HeadOK, needs] at *; simpa using h
  | .uint16 _, h => by simp only [HeadOK, needs]; simp
  | .uint32 _, h => by simp only [HeadOK, needs]; simp
  | .uint64 _, h => by simp only [HeadOK, needs]; simp
  | .unknown _ _, h => by simp only [HeadOK, needs] at *; simpa using h
theorem bare_hints (st st' : List String) (ty : String) : ∀ p : Property, BareOK env st ty p →
    (BareOK { env with hints := hints } st' ty p ↔ ∀ n ∈ needs st' p, Suits hints n)
  | .array _, h => by simp only [BareOK] at h
  | .map _, h => by simp only [BareOK] at h
  | .set _ _ _, h => by simp only [BareOK] at h
  | .struct _ _ _, h => by simp only [BareOK] at h
  | .structValue v, h => by
    simp only [BareOK, needs, List.forall_mem_cons] at *
    obtain ⟨hty, hint, hh, hs⟩ := h
    rw [both hty]
    constructor
    · rintro ⟨hint', hh', hs'⟩
      rw [struct_hints _ _ hint hint' v hs] at hs'
      exact ⟨⟨hint', hh', hs'.1⟩, hs'.2⟩
    · rintro ⟨⟨hint', hh', hf⟩, hn⟩
      exact ⟨hint', hh', (struct_hints _ _ hint hint' v hs).mpr ⟨hf, hn⟩⟩
  | .text _, h => by simp only [BareOK, needs] at *; simpa using h
  | .bool _, h => by simp only [BareOK, needs] at *; simpa using h
  | .byte _ _, h => by simp only [BareOK, needs] at *; simpa using h
  | .double _, h => by simp only [BareOK, needs] at *; simpa using h
  | .enum _ _, h => by simp only [BareOK, needs] at *; simpa using h
  | .float _, h => by simp only [BareOK, needs] at *; simpa using h
  | .int16 _, h => by simp only [BareOK, needs] at *; simpa using h
  | .int64 _, h => by simp only [BareOK, needs] at *; simpa using h
  | .int8 _, h => by simp only [BareOK, needs] at *; simpa using h
  | .int _, h => by simp only [BareOK, needs] at *; simpa using h
  | .name _ _, h => by simp only [BareOK, needs] at *; simpa using h
  | .object _, h => by simp only [BareOK, needs] at *; simpa using h
  | .delegate _, h => by simp only [BareOK, needs] at *; simpa using h
  | .multicastInlineDelegate _, h => by simp only [BareOK, needs] at *; simpa using h
  | .multicastSparseDelegate _, h => by simp only [BareOK, needs] at *; simpa using h
  | .fieldPath _, h => by simp only [BareOK, needs] at *; simpa using h
  | .str _, h => by simp only [BareOK, needs] at *; simpa using h
  | .uint16 _, h => by simp only [BareOK, needs] at *; simpa using h
  | .uint32 _, h => by simp only [BareOK, needs] at *; simpa using h
  | .uint64 _, h => by simp only [BareOK, needs] at *; simpa using h
  | .unknown _ _, h => by simp only [BareOK, needs] at *; simpa using h
theorem array_hints (st st' : List String) : ∀ v : ArrayProperty, ArrayOK env st v →
    (ArrayOK { env with hints := hints } st' v ↔ ∀ n ∈ arrayNeeds st' v, Suits hints n)
  | .bools _, h => by simp only [ArrayOK, arrayNeeds] at *; simpa using h
  | .bytes _, h => by simp only [ArrayOK, arrayNeeds] at *; simpa using h
  | .enums _, h => by simp only [ArrayOK, arrayNeeds] at *; rw [all_nil]; exact iff_true_intro h
  | .floats _, h => by simp only [ArrayOK, arrayNeeds] at *; simpa using h
  | .ints _, h => by simp only [ArrayOK, arrayNeeds] at *; simpa using h
  | .names _, h => by simp only [ArrayOK, arrayNeeds] at *; rw [all_nil]; exact iff_true_intro h
  | .strings _, h => by simp only [ArrayOK, arrayNeeds] at *; rw [all_nil]; exact iff_true_intro h
  | .structs _ ty _ v, h => by
    simp only [ArrayOK, arrayNeeds] at *
    rw [both h.1, both h.2.1, both h.2.2.1]
    exact structs_hints _ _ ty v h.2.2.2
  | .properties _ ps, h => by
    simp only [ArrayOK, arrayNeeds] at *
    rw [both h.1, both h.2.1, both h.2.2.1, both h.2.2.2.1, both h.2.2.2.2.1, both h.2.2.2.2.2.1]
    exact bares_hints _ _ _ ps h.2.2.2.2.2.2
theorem map_hints (st st' : List String) : ∀ v : MapProperty, MapOK env st v →
    (MapOK { env with hints := hints } st' v ↔ ∀ n ∈ mapNeeds st' v, Suits hints n)
  | .enumBool _, h => by simp only [MapOK, mapNeeds] at *; rw [all_nil]; exact iff_true_intro h
  | .enumInt _, h => by simp only [MapOK, mapNeeds] at *; rw [all_nil]; exact iff_true_intro h
  | .nameBool _, h => by simp only [MapOK, mapNeeds] at *; rw [all_nil]; exact iff_true_intro h
  | .nameInt _, h => by simp only [MapOK, mapNeeds] at *; rw [all_nil]; exact iff_true_intro h
  | .strBool _, h => by simp only [MapOK, mapNeeds] at *; rw [all_nil]; exact iff_true_intro h
  | .strInt _, h => by simp only [MapOK, mapNeeds] at *; rw [all_nil]; exact iff_true_intro h
  | .strStr _, h => by simp only [MapOK, mapNeeds] at *; rw [all_nil]; exact iff_true_intro h
  | .enumProperty _ v, h => by
    simp only [MapOK, mapNeeds] at *
    rw [both h.1, both h.2.1, both h.2.2.1]
    exact values_hints _ _ _ v h.2.2.2
  | .nameProperty _ v, h => by
    simp only [MapOK, mapNeeds] at *
    rw [both h.1, both h.2.1, both h.2.2.1]
    exact values_hints _ _ _ v h.2.2.2
  | .strProperty _ v, h => by
    simp only [MapOK, mapNeeds] at *
    rw [both h.1, both h.2.1, both h.2.2.1]
    exact values_hints _ _ _ v h.2.2.2
  | .properties _ _ _ m, h => by
    simp only [MapOK, mapNeeds] at *
    rw [both h.1, both h.2.1, both h.2.2.1, both h.2.2.2.1, both h.2.2.2.2.1, both h.2.2.2.2.2.1]
    exact entries_hints _ _ _ _ m h.2.2.2.2.2.2
theorem struct_hints (st st' : List String) (ty ty' : String) : ∀ v : StructPropertyValue,
    StructOK env st ty v → (StructOK { env with hints := hints } st' ty' v ↔
      NameFits ty' (structName v) ∧ ∀ n ∈ structNeeds st' v, Suits hints n)
  | .vector2F _ _, h => by
    simp only [StructOK, NameFits, structName, structNeeds, all_nil, and_true] at *
    exact ⟨And.left, fun e => ⟨e, h.2⟩⟩
  | .vector2D _ _, h => by
    simp only [StructOK, NameFits, structName, structNeeds, all_nil, and_true] at *
    exact ⟨And.left, fun e => ⟨e, h.2⟩⟩
  | .vectorF _ _ _, h => by
    simp only [StructOK, NameFits, structName, structNeeds, all_nil, and_true] at *
    exact ⟨And.left, fun e => ⟨e, h.2⟩⟩
  | .vectorD _ _ _, h => by
    simp only [StructOK, NameFits, structName, structNeeds, all_nil, and_true] at *
    exact ⟨And.left, fun e => ⟨e, h.2⟩⟩
  | .rotatorF _ _ _, h => by
    simp only [StructOK, NameFits, structName, structNeeds, all_nil, and_true] at *
    exact ⟨And.left, fun e => ⟨e, h.2⟩⟩
  | .rotatorD _ _ _, h => by
    simp only [StructOK, NameFits, structName, structNeeds, all_nil, and_true] at *
    exact ⟨And.left, fun e => ⟨e, h.2⟩⟩
  | .quatF _ _ _ _, h => by
    simp only [StructOK, NameFits, structName, structNeeds, all_nil, and_true] at *
    exact ⟨And.left, fun e => ⟨e, h.2⟩⟩
  | .quatD _ _ _ _, h => by
    simp only [StructOK, NameFits, structName, structNeeds, all_nil, and_true] at *
    exact ⟨And.left, fun e => ⟨e, h.2⟩⟩
  | .dateTime _, h => by simp [StructOK, NameFits, structName, structNeeds]
  | .timespan _, h => by simp [StructOK, NameFits, structName, structNeeds]
  | .guid _, h => by simp [StructOK, NameFits, structName, structNeeds]
  | .linearColor _ _ _ _, h => by simp [StructOK, NameFits, structName, structNeeds]
  | .intPoint _ _, h => by simp [StructOK, NameFits, structName, structNeeds]
  | .gameplayTagContainer _, h => by
    simp only [StructOK, NameFits, structName, structNeeds, all_nil, and_true] at *
    exact ⟨And.left, fun e => ⟨e, h.2⟩⟩
  | .customStruct fs, h => by
    simp only [StructOK, NameFits, structName, structNeeds] at *
    rw [both h.2.1, fields_hints st st' fs h.2.2]
theorem bares_hints (st st' : List String) (ty : String) : ∀ l : List Property, BaresOK env st ty l →
    (BaresOK { env with hints := hints } st' ty l ↔ ∀ n ∈ elemsNeeds st' l, Suits hints n)
  | [], _ => by simp only [BaresOK, elemsNeeds]; simp
  | p :: l, h => by
    simp only [BaresOK, elemsNeeds, all_append] at *
    rw [bare_hints st st' ty p h.1, bares_hints st st' ty l h.2]
theorem structs_hints (st st' : List String) (ty : String) : ∀ l : List StructPropertyValue,
    StructsOK env st ty l →
    (StructsOK { env with hints := hints } st' ty l ↔ ∀ n ∈ structsNeeds st' l, Suits hints n)
  | [], _ => by simp only [StructsOK, structsNeeds]; simp
  | v :: l, h => by
    simp only [StructsOK, structsNeeds, all_append] at *
    rw [struct_hints st st' ty ty v h.1, structs_hints st st' ty l h.2, both (struct_fits st ty v h.1)]
theorem values_hints (st st' : List String) (ty : String) : ∀ l : List (String × Property),
    ValuesOK env st ty l →
    (ValuesOK { env with hints := hints } st' ty l ↔ ∀ n ∈ valuesNeeds st' l, Suits hints n)
  | [], _ => by simp only [ValuesOK, valuesNeeds]; simp
  | (_, p) :: l, h => by
    simp only [ValuesOK, valuesNeeds, all_append] at *
    rw [both h.1, bare_hints st st' ty p h.2.1, values_hints st st' ty l h.2.2]
theorem entries_hints (st st' : List String) (kt vt : String) : ∀ l : List (Property × Property),
    EntriesOK env st kt vt l →
    (EntriesOK { env with hints := hints } st' kt vt l ↔ ∀ n ∈ entriesNeeds st' l, Suits hints n)
  | [], _ => by simp only [EntriesOK, entriesNeeds]; simp
  | (k, p) :: l, h => by
    simp only [EntriesOK, entriesNeeds, all_append] at *
    rw [both h.1, bare_hints _ _ kt k h.2.1, both h.2.2.1, bare_hints _ _ vt p h.2.2.2.1,
      entries_hints st st' kt vt l h.2.2.2.2, and_assoc]
theorem fields_hints (st st' : List String) : ∀ l : List (String × List Property), FieldsOK env st l →
    (FieldsOK { env with hints := hints } st' l ↔ ∀ n ∈ fieldsNeeds st' l, Suits hints n)
  | [], _ => by simp only [FieldsOK, fieldsNeeds]; simp
  | (k, ps) :: l, h => by
    simp only [FieldsOK, fieldsNeeds, all_append] at *
    rw [both h.1, both h.2.1, both h.2.2.1, vals_hints _ _ 0 ps h.2.2.2.1,
      fields_hints st st' l h.2.2.2.2]
theorem vals_hints (st st' : List String) (i : Nat) : ∀ l : List Property, ValsOK env st i l →
    (ValsOK { env with hints := hints } st' i l ↔ ∀ n ∈ elemsNeeds st' l, Suits hints n)
  | [], _ => by simp only [ValsOK, elemsNeeds]; simp
  | p :: l, h => by
    simp only [ValsOK, elemsNeeds, all_append] at *
    rw [both h.1, head_hints st st' p h.2.1, vals_hints st st' (i + 1) l h.2.2]
theorem struct_fits (st : List String) (ty : String) : ∀ v : StructPropertyValue,
    StructOK env st ty v → NameFits ty (structName v)
  | .vector2F _ _, h => by simp only [StructOK] at h; exact h.1
  | .vector2D _ _, h => by simp only [StructOK] at h; exact h.1
  | .vectorF _ _ _, h => by simp only [StructOK] at h; exact h.1
  | .vectorD _ _ _, h => by simp only [StructOK] at h; exact h.1
  | .rotatorF _ _ _, h => by simp only [StructOK] at h; exact h.1
  | .rotatorD _ _ _, h => by simp only [StructOK] at h; exact h.1
  | .quatF _ _ _ _, h => by simp only [StructOK] at h; exact h.1
  | .quatD _ _ _ _, h => by simp only [StructOK] at h; exact h.1
  | .dateTime _, h => by simp only [StructOK] at h; exact h
  | .timespan _, h => by simp only [StructOK] at h; exact h
  | .guid _, h => by simp only [StructOK] at h; exact h
  | .linearColor _ _ _ _, h => by simp only [StructOK] at h; exact h
  | .intPoint _ _, h => by simp only [StructOK] at h; exact h
  | .gameplayTagContainer _, h => by simp only [StructOK] at h; exact h.1
  | .customStruct _, h => by simp only [StructOK] at h; exact h.1
end

end

/-- Whether a representable file is representable with other hints. -/
theorem file_hints {debug : Bool} {hints hints' : String → Option String} {f : GvasFile}
    (h : FileOK debug hints f) :
    FileOK debug hints' f ↔ ∀ n ∈ fileNeeds f, Suits hints' n := by
  obtain ⟨hh, hn, hp⟩ := h
  unfold FileOK fileNeeds
  rw [both hh, both hn]
  simp only [List.mem_flatMap]
  constructor
  · rintro h n ⟨e, he, hne⟩
    exact (head_hints [e.1] [e.1] e.2 (hp e he).2.2).mp (h e he).2.2 n hne
  · intro h e he
    refine ⟨(hp e he).1, (hp e he).2.1, ?_⟩
    exact (head_hints (env := fileEnv debug hints f.header) (hints := hints') [e.1] [e.1] e.2
      (hp e he).2.2).mpr fun n hn => h n ⟨e, he, hn⟩

end Gvas
