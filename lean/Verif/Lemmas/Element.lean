import Verif.Lemmas.Place
import Verif.Spec.Element
import Verif.Lemmas.TextElement

/-!
# Replacing a value inside a compact array, map or struct: what happens to the bytes
-/

namespace Gvas

open Spec

/-- What is written with `x` in one piece, and what is written with `y` instead. -/
def Swapped (a b : Bytes) (x y : Bytes) : Prop :=
  ∃ pre pre' post, a = pre ++ x ++ post ∧ b = pre' ++ y ++ post ∧
    Grown x.length y.length pre pre'

theorem Swapped.self (x y : Bytes) : Swapped x y x y := ⟨[], [], [], by simp, by simp, .nil⟩

theorem Swapped.around {a b x y : Bytes} (h : Swapped a b x y) (front : Nat → Bytes) (back : Bytes)
    (hl : ∀ m n, Grown m n (front m) (front n)) :
    Swapped (front a.length ++ a ++ back) (front b.length ++ b ++ back) x y := by
  obtain ⟨pre, pre', post, rfl, rfl, h3⟩ := h
  exact ⟨front (pre ++ x ++ post).length ++ pre, front (pre' ++ y ++ post).length ++ pre',
    post ++ back, by simp only [List.append_assoc], by simp only [List.append_assoc],
    (Grown.around h3 (hl _ _)).append h3⟩

theorem Swapped.within {a b x y : Bytes} (h : Swapped a b x y) (front back : Bytes) :
    Swapped (front ++ a ++ back) (front ++ b ++ back) x y :=
  h.around (fun _ => front) back fun _ _ => Grown.refl _ _ _

theorem Swapped.behind {a b x y : Bytes} (h : Swapped a b x y) (front : Bytes) :
    Swapped (front ++ a) (front ++ b) x y := by
  simpa using h.within front []

theorem Swapped.headed {o o' : Out} {x y : Bytes} (hs : Swapped o.bytes o'.bytes x y) (h : Bool)
    (ty : String) (parts : Out) :
    Swapped (headed h ty parts o).bytes (headed h ty parts o').bytes x y := by
  cases h with
  | false => exact hs
  | true =>
    have := hs.around (fun n => (writeString ty).bytes ++ u32B (UInt32.ofNat n) ++ u32B 0 ++
      parts.bytes ++ [0]) [] (by
        intro m n
        refine Grown.append (Grown.append (Grown.append (Grown.append (Grown.refl _ _ _) ?_)
          (Grown.refl _ _ _)) (Grown.refl _ _ _)) (Grown.refl _ _ _)
        simpa only [Nat.zero_add, Nat.add_zero] using Grown.count m n 0 0)
    simpa [Gvas.headed, withHeader, List.append_assoc] using this

theorem Inside.swapped {a b x y : Bytes} (h : Inside a b x y) : Swapped a b x y := by
  obtain ⟨pre, post, h1, h2⟩ := h
  exact ⟨pre, pre, post, h1, h2, Grown.refl _ _ _⟩

theorem swapped_concat {α : Type} (f : α → Out) (l r : List α) (a b : α) {x y : Bytes}
    (h : Swapped (f a).bytes (f b).bytes x y) :
    Swapped (concatOut f (l ++ a :: r)).bytes (concatOut f (l ++ b :: r)).bytes x y := by
  induction l with
  | nil =>
    simp only [List.nil_append, concatOut, Out.app_bytes]
    simpa using h.within [] (concatOut f r).bytes
  | cons c l ih =>
    simp only [List.cons_append, concatOut, Out.app_bytes]
    exact ih.behind _

theorem layouts_write {cv : List (Guid × UInt32)} {v w : StructPropertyValue} {x y : Bytes}
    (h : Layouts v w x y) {o : Out} (ho : StructPropertyValue.writeBody cv v = .ok o) :
    ∃ o', StructPropertyValue.writeBody cv w = .ok o' ∧ Swapped o.bytes o'.bytes x y := by
  cases h
  case tag l r a b _ =>
    simp only [StructPropertyValue.writeBody] at ho ⊢
    cases ho
    refine ⟨_, rfl, ?_⟩
    simp only [Out.app_bytes]
    have : (l ++ b :: r).length = (l ++ a :: r).length := by simp
    rw [this]
    exact (swapped_concat writeString l r a b (Swapped.self _ _)).behind _
  all_goals
    simp only [StructPropertyValue.writeBody, writeIf] at ho ⊢
    first
    | (cases ho; exact ⟨_, rfl, Swapped.self _ _⟩)
    | (split at ho
       · rename_i hc
         cases ho
         exact ⟨_, if_pos hc, Swapped.self _ _⟩
       · cases ho)

theorem structs_write {cv : List (Guid × UInt32)} {v w : StructPropertyValue} {x y : Bytes}
    (h : Layouts v w x y) (l r : List StructPropertyValue) {o : Out}
    (ho : writeStructs cv (l ++ v :: r) = .ok o) :
    ∃ o', writeStructs cv (l ++ w :: r) = .ok o' ∧ Swapped o.bytes o'.bytes x y := by
  induction l generalizing o with
  | nil =>
    simp only [List.nil_append, writeStructs] at ho ⊢
    obtain ⟨a, h1, ho⟩ := Res.bind_inv ho
    obtain ⟨c, h2, ho⟩ := Res.bind_inv ho
    cases ho
    obtain ⟨a', h3, h4⟩ := layouts_write h h1
    refine ⟨a' ++ c, by simp only [h3, h2]; rfl, ?_⟩
    simp only [Out.app_bytes]
    simpa using h4.within [] c.bytes
  | cons u l ih =>
    simp only [List.cons_append, writeStructs] at ho ⊢
    obtain ⟨a, h1, ho⟩ := Res.bind_inv ho
    obtain ⟨c, h2, ho⟩ := Res.bind_inv ho
    cases ho
    obtain ⟨c', h3, h4⟩ := ih h2
    refine ⟨a ++ c', by simp only [h1, h3]; rfl, ?_⟩
    simp only [Out.app_bytes]
    exact h4.behind _

private theorem len {α : Type} (l r : List α) (a b : α) : (l ++ b :: r).length = (l ++ a :: r).length := by
  simp

theorem element_write {cv : List (Guid × UInt32)} {h : Bool} {s t : Property} {x y : Bytes}
    (he : Element cv s t x y) {o : Out} (ho : Property.write cv h s = .ok o) :
    ∃ o', Property.write cv h t = .ok o' ∧ Swapped o.bytes o'.bytes x y := by
  cases he
  case struct g ty v w hl =>
    simp only [Property.write] at ho ⊢
    obtain ⟨b, h1, ho⟩ := Res.bind_inv ho
    cases ho
    obtain ⟨b', h2, h3⟩ := layouts_write hl h1
    exact ⟨_, by simp only [h2]; rfl, h3.headed _ _ _⟩
  case structValue v w hl =>
    simp only [Property.write] at ho ⊢
    cases h with
    | true => cases ho
    | false => exact layouts_write hl ho
  case structs f ty g l r v w hl =>
    simp only [Property.write, ArrayProperty.writeBody] at ho ⊢
    obtain ⟨b, h1, ho⟩ := Res.bind_inv ho
    cases ho
    obtain ⟨es, h2, h1⟩ := Res.bind_inv h1
    cases h1
    obtain ⟨es', h3, h4⟩ := structs_write hl l r h2
    refine ⟨_, by simp only [h3]; rfl, Swapped.headed ?_ _ _ _⟩
    have := h4.around (fun n => u32B (UInt32.ofNat (l ++ v :: r).length) ++ (writeString f).bytes ++
      (writeString "StructProperty").bytes ++ u64B (UInt64.ofNat n) ++ (writeString ty).bytes ++
      guidB g ++ u8B 0) [] (fun m n => structHead_grown m n _ _ _ _ _)
    simpa [structArrayBody, List.append_assoc] using this
  case text hp =>
    simp only [Property.write] at ho ⊢
    obtain ⟨b, h1, ho⟩ := Res.bind_inv ho
    cases ho
    obtain ⟨b', h2, h3⟩ := textPart_write hp b h1
    exact ⟨_, by simp only [h2]; rfl, h3.swapped.headed _ _ _⟩
  case delegate hp =>
    simp only [Property.write] at ho ⊢
    cases ho
    exact ⟨_, rfl, (delegatePart_write hp).swapped.headed _ _ _⟩
  case inlineDelegate l r a b hp | sparseDelegate l r a b hp =>
    simp only [Property.write] at ho ⊢
    cases ho
    refine ⟨_, rfl, Swapped.headed (Inside.swapped ?_) _ _ _⟩
    simp only [writeMulticast, Out.app_bytes]
    rw [len l r a b]
    exact (inside_concat _ _ _ _ _ (delegatePart_write hp)).right _
  case fieldPathStep l r a b owner hb =>
    simp only [Property.write] at ho ⊢
    cases ho
    refine ⟨_, rfl, Swapped.headed (Inside.swapped ?_) _ _ _⟩
    simp only [FieldPath.write, Out.app_bytes]
    rw [len]
    exact ((inside_concat _ _ _ _ _ (Inside.self _ _)).right _).left _
  case fieldPathOwner path a b hb =>
    simp only [Property.write] at ho ⊢
    cases ho
    refine ⟨_, rfl, Swapped.headed (Inside.swapped ?_) _ _ _⟩
    simp only [FieldPath.write, Out.app_bytes]
    exact (Inside.self _ _).right _
  all_goals
    simp only [Property.write, ArrayProperty.writeBody, MapProperty.writeBody,
      ArrayProperty.propertyType, MapProperty.keyType, MapProperty.valueType] at ho ⊢
    cases ho
    refine ⟨_, rfl, Swapped.headed ?_ _ _ _⟩
    simp only [Out.app_bytes]
    first
    | rw [len]
    refine Swapped.behind ?_ _
    refine swapped_concat _ _ _ _ _ ?_
    first
    | exact Swapped.self _ _
    | (simp only [Out.app_bytes]; exact (Swapped.self _ _).behind _)

theorem layouts_ok {env : Env} {st : List String} {ty : String} {v w : StructPropertyValue}
    {x y : Bytes} (h : Layouts v w x y) (hv : StructOK env st ty v) : StructOK env st ty w := by
  cases h <;> simp only [StructOK] at hv ⊢
  case tag l r a b hb =>
    refine ⟨hv.1, by simpa using hv.2.1, ?_⟩
    intro s hs
    simp only [List.mem_append, List.mem_cons] at hs
    rcases hs with hs | rfl | hs
    · exact hv.2.2 s (by simp [hs])
    · exact hb
    · exact hv.2.2 s (by simp [hs])
  all_goals exact hv

theorem layouts_oks {env : Env} {st : List String} {ty : String} {v w : StructPropertyValue}
    {x y : Bytes} (h : Layouts v w x y) (l r : List StructPropertyValue)
    (hv : StructsOK env st ty (l ++ v :: r)) : StructsOK env st ty (l ++ w :: r) := by
  induction l with
  | nil => exact ⟨layouts_ok h hv.1, hv.2⟩
  | cons u l ih => exact ⟨hv.1, ih hv.2⟩

private theorem all_swap {α : Type} {P : α → Prop} {l r : List α} {a b : α} (hb : P b)
    (h : ∀ s ∈ l ++ a :: r, P s) : ∀ s ∈ l ++ b :: r, P s := by
  intro s hs
  simp only [List.mem_append, List.mem_cons] at hs
  rcases hs with hs | rfl | hs
  · exact h s (by simp [hs])
  · exact hb
  · exact h s (by simp [hs])

theorem element_similar {cv : List (Guid × UInt32)} {s t : Property} {x y : Bytes}
    (he : Element cv s t x y) (env : Env) :
    Similar env s t := by
  cases he
  case struct g ty v w hl =>
    refine similar_of_head ?_ (by simp [BareOK]) (by simp [storedIndex, sizeClass, isNamespaced])
      (by simp [storedIndex, sizeClass, SizeFree])
    intro st
    simp only [HeadOK]
    exact fun h => ⟨h.1, layouts_ok hl h.2⟩
  case structValue v w hl =>
    refine similar_of_head (by simp [HeadOK]) ?_ (by simp [storedIndex, sizeClass, isNamespaced])
      (by simp [storedIndex, sizeClass, SizeFree])
    intro st ty
    simp only [BareOK]
    exact fun ⟨h1, hint, h2, h3⟩ => ⟨h1, hint, h2, layouts_ok hl h3⟩
  case structs f ty g l r v w hl =>
    refine similar_of_head ?_ (by simp [BareOK]) (by simp [storedIndex, sizeClass, isNamespaced])
      (by simp [storedIndex, sizeClass, SizeFree])
    intro st
    simp only [HeadOK, ArrayOK]
    exact fun ⟨h1, h2, h3, h4⟩ => ⟨h1, h2, by simpa using h3, layouts_oks hl l r h4⟩
  case text hp =>
    have := textPart_ok hp env.cv
    refine similar_of_head ?_ ?_ (by simp [storedIndex, sizeClass, isNamespaced])
      (by simp [storedIndex, sizeClass, SizeFree])
    · intro st
      simp only [HeadOK]
      exact fun h => ⟨this.1 h.1, this.2 h.2⟩
    · intro st ty
      simp only [BareOK]
      exact fun h => ⟨h.1, this.1 h.2.1, this.2 h.2.2⟩
  case delegate hp =>
    have := delegatePart_ok hp
    refine similar_of_head ?_ ?_ (by simp [storedIndex, sizeClass, isNamespaced])
      (by simp [storedIndex, sizeClass, SizeFree])
    · intro st
      simp only [HeadOK]
      exact this
    · intro st ty
      simp only [BareOK]
      exact fun h => ⟨h.1, this h.2⟩
  case inlineDelegate l r a b hp | sparseDelegate l r a b hp =>
    have := fun h : MulticastOK (l ++ a :: r) => (⟨by simpa using h.1,
      all_swap (P := DelegateOK) (delegatePart_ok hp (h.2 a (by simp))) h.2⟩ :
      MulticastOK (l ++ b :: r))
    refine similar_of_head ?_ ?_ (by simp [storedIndex, sizeClass, isNamespaced])
      (by simp [storedIndex, sizeClass, SizeFree])
    · intro st
      simp only [HeadOK]
      exact this
    · intro st ty
      simp only [BareOK]
      exact fun h => ⟨h.1, this h.2⟩
  case fieldPathStep l r a b owner hb =>
    have := fun h : FieldPathOK ⟨l ++ a :: r, owner⟩ => (⟨by simpa using h.1,
      all_swap (P := StrOK) hb h.2.1, h.2.2⟩ : FieldPathOK ⟨l ++ b :: r, owner⟩)
    refine similar_of_head ?_ ?_ (by simp [storedIndex, sizeClass, isNamespaced])
      (by simp [storedIndex, sizeClass, SizeFree])
    · intro st
      simp only [HeadOK]
      exact this
    · intro st ty
      simp only [BareOK]
      exact fun h => ⟨h.1, this h.2⟩
  case fieldPathOwner path a b hb =>
    have := fun h : FieldPathOK ⟨path, a⟩ => (⟨h.1, h.2.1, hb⟩ : FieldPathOK ⟨path, b⟩)
    refine similar_of_head ?_ ?_ (by simp [storedIndex, sizeClass, isNamespaced])
      (by simp [storedIndex, sizeClass, SizeFree])
    · intro st
      simp only [HeadOK]
      exact this
    · intro st ty
      simp only [BareOK]
      exact fun h => ⟨h.1, this h.2⟩
  all_goals
    refine similar_of_head ?_ (by simp [BareOK]) (by simp [storedIndex, sizeClass, isNamespaced])
      (by simp [storedIndex, sizeClass, SizeFree])
    intro st
    simp only [HeadOK, ArrayOK, MapOK]
    intro h
    first
    | exact similar_keys h
    | exact ⟨similar_keys h.1, all_swap (P := fun e : String × Option String => FStrOK e.2) (by assumption) h.2⟩
    | exact ⟨by simpa using h.1, all_swap (by assumption) h.2⟩
    | (simpa using h)

end Gvas
