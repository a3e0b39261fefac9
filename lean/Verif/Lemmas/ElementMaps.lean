import Verif.Spec.Element
import Verif.Lemmas.Pointer

/-!
# The keys of maps stay when a value that is not a property changes
-/

namespace Gvas

open Spec

theorem namedArgs_kept {l r : List (String × FormatArgumentValue)} {k : String}
    {a b : FormatArgumentValue} (h : NamedArgsMaps (l ++ (k, a) :: r))
    (hb : ArgMaps a → ArgMaps b) : NamedArgsMaps (l ++ (k, b) :: r) := by
  induction l with
  | nil => exact ⟨hb h.1, h.2⟩
  | cons e l ih => exact ⟨h.1, ih h.2⟩

theorem args_kept {l r : List FormatArgumentValue} {a b : FormatArgumentValue}
    (h : ArgsMaps (l ++ a :: r)) (hb : ArgMaps a → ArgMaps b) : ArgsMaps (l ++ b :: r) := by
  induction l with
  | nil => exact ⟨hb h.1, h.2⟩
  | cons e l ih => exact ⟨h.1, ih h.2⟩

theorem textPart_maps {cv : List (Guid × UInt32)} {s t : FText} {x y : Bytes}
    (h : TextPart cv s t x y) : TextMaps s → TextMaps t := by
  induction h using TextPart.rec
    (motive_2 := fun s t _ _ _ => HistoryMaps s → HistoryMaps t)
    (motive_3 := fun s t _ _ _ => ArgMaps s → ArgMaps t)
  case history this => exact this
  case namedSource this h | orderedSource this h | argumentSource this h =>
    exact ⟨this h.1, h.2⟩
  case namedArgument this h | argumentArgument this h =>
    exact ⟨h.1, keys_kept h.2.1, namedArgs_kept h.2.2 this⟩
  case orderedArgument this h => exact ⟨h.1, args_kept h.2 this⟩
  case numberValue this h | percentValue this h | currencyValue this h => exact this h
  case transformSource this h => exact this h
  case text this h => exact this h
  all_goals first | assumption | exact id

theorem layouts_maps {v w : StructPropertyValue} {x y : Bytes} (h : Layouts v w x y) :
    StructMaps w := by
  cases h <;> exact trivial

theorem element_maps {cv : List (Guid × UInt32)} {p q : Property} {x y : Bytes}
    (h : Element cv p q x y) (hm : MapsDistinct p) : MapsDistinct q := by
  cases h with
  | struct g ty h => exact layouts_maps h
  | structValue h => exact layouts_maps h
  | structs f ty g l r h =>
    simp only [MapsDistinct, ArrayMaps, structsMaps_iff] at hm ⊢
    exact all_replaced hm (layouts_maps h)
  | enumBool l r k a b => exact keys_kept hm
  | nameBool l r k a b => exact keys_kept hm
  | strBool l r k a b => exact keys_kept hm
  | enumInt l r k a b => exact keys_kept hm
  | nameInt l r k a b => exact keys_kept hm
  | strInt l r k a b => exact keys_kept hm
  | strStr l r k a b => exact keys_kept hm
  | text h => exact textPart_maps h hm
  | _ => simp [MapsDistinct, ArrayMaps]

end Gvas
