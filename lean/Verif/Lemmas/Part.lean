import Verif.Spec.Part
import Verif.Lemmas.Pointer

/-!
# Places of values that are not properties in JSON
-/

namespace Gvas

open Spec

/-- The pointer leads to `u` in `s`, and with `v` there `s` becomes `t`. -/
def PointsTo (w : List Step) (u v s t : J) : Prop := follow w s = some u ∧ replace v w s = t

theorem points_here (u v : J) : PointsTo [] u v u v := ⟨rfl, rfl⟩

theorem points_field {w : List Step} {u v a b : J} (h : PointsTo w u v a b) (l r : List (String × J))
    (k : String) (hl : k ∉ l.map Prod.fst) (hr : k ∉ r.map Prod.fst) :
    PointsTo (.field k :: w) u v (.obj (l ++ (k, a) :: r)) (.obj (l ++ (k, b) :: r)) := by
  obtain ⟨h1, h2⟩ := h
  refine ⟨?_, ?_⟩
  · simp only [follow, lookup_middle l r k a hl, Option.bind_some, h1]
  · simp only [replace, List.map_append, List.map_cons, if_true, map_apart _ hl,
      map_apart _ hr, h2]

theorem points_index {w : List Step} {u v a b : J} (h : PointsTo w u v a b) (l r : List J) {n : Nat}
    (hn : l.length = n) :
    PointsTo (.index n :: w) u v (.arr (l ++ a :: r)) (.arr (l ++ b :: r)) := by
  obtain ⟨h1, h2⟩ := h
  subst hn
  refine ⟨?_, ?_⟩
  · simp [follow, h1]
  · simp only [replace]
    congr 1
    induction l with
    | nil => simp [h2]
    | cons x l ih => simpa using ih

theorem points_map {α : Type} {w : List Step} {u v : J} (f : α → J) {a b : α}
    (h : PointsTo w u v (f a) (f b)) (l r : List α) :
    PointsTo (.index l.length :: w) u v (.arr ((l ++ a :: r).map f)) (.arr ((l ++ b :: r).map f)) := by
  simp only [List.map_append, List.map_cons]
  exact points_index h _ _ (by simp)

theorem points_entry {α : Type} (f : α → J) (a b : α) (k : String) (l r : List (String × α))
    (hk : KeysDistinct (l ++ (k, a) :: r)) :
    PointsTo [.field k] (f a) (f b) (.obj ((l ++ (k, a) :: r).map fun e => (e.1, f e.2)))
      (.obj ((l ++ (k, b) :: r).map fun e => (e.1, f e.2))) := by
  simp only [List.map_append, List.map_cons]
  obtain ⟨h1, h2⟩ := keys_apart hk
  refine points_field (points_here _ _) _ _ _ ?_ ?_
  · simpa using h1
  · simpa using h2

theorem points_append {w e : List Step} {u s p : J} (h1 : follow w s = some p)
    (h2 : follow e p = some u) : follow (w ++ e) s = some u := by
  induction w generalizing s with
  | nil => simp only [follow, Option.some.injEq] at h1; subst h1; simpa using h2
  | cons x w ih =>
    cases x with
    | field k =>
      cases s with
      | obj l =>
        simp only [follow, Option.bind_eq_some_iff] at h1
        obtain ⟨a, e1, e2⟩ := h1
        simp only [List.cons_append, follow, e1, Option.bind_some]
        exact ih e2
      | _ => simp [follow] at h1
    | index n =>
      cases s with
      | arr l =>
        simp only [follow, Option.bind_eq_some_iff] at h1
        obtain ⟨a, e1, e2⟩ := h1
        simp only [List.cons_append, follow, e1, Option.bind_some]
        exact ih e2
      | _ => simp [follow] at h1

/-! ## Structs -/

/-- A struct of a fixed layout is one entry. -/
theorem structAt_points {s t : StructPropertyValue} {w : List Step} {u v : J}
    (h : StructPartAt s t w u v) : ∃ k w', w = .field k :: w' ∧ s.entry.1 = k ∧ t.entry.1 = k ∧
      PointsTo w' u v s.entry.2 t.entry.2 ∧ k ≠ "type" ∧ k ≠ "guid" ∧ k ≠ "type_name" := by
  cases h
  case tag l r a b =>
    exact ⟨_, _, rfl, rfl, rfl, points_map J.str (points_here _ _) l r, by decide, by decide, by decide⟩
  all_goals
    refine ⟨_, _, rfl, rfl, rfl, ⟨rfl, ?_⟩, by decide, by decide, by decide⟩
    first
    | rfl
    | simp [replace, StructPropertyValue.entry, ticksJ]; try rfl

/-! ## Texts -/

theorem argsJ_append (l r : List FormatArgumentValue) : argsJ (l ++ r) = argsJ l ++ argsJ r := by
  induction l with
  | nil => rfl
  | cons p l ih => simp [argsJ, ih]

theorem argsJ_length (l : List FormatArgumentValue) : (argsJ l).length = l.length := by
  induction l with
  | nil => rfl
  | cons p l ih => simp [argsJ, ih]

theorem namedArgsJ_append (l r : List (String × FormatArgumentValue)) :
    namedArgsJ (l ++ r) = namedArgsJ l ++ namedArgsJ r := by
  induction l with
  | nil => rfl
  | cons p l ih => simp [namedArgsJ, ih]

theorem namedArgsJ_names (l : List (String × FormatArgumentValue)) :
    (namedArgsJ l).map Prod.fst = l.map Prod.fst := by
  induction l with
  | nil => rfl
  | cons p l ih => simp [namedArgsJ, ih]

theorem namedArgs_map {l r : List (String × FormatArgumentValue)} {k : String}
    {a : FormatArgumentValue} (h : NamedArgsMaps (l ++ (k, a) :: r)) : ArgMaps a := by
  induction l with
  | nil => exact h.1
  | cons e l ih => exact ih h.2

theorem args_map {l r : List FormatArgumentValue} {a : FormatArgumentValue}
    (h : ArgsMaps (l ++ a :: r)) : ArgMaps a := by
  induction l with
  | nil => exact h.1
  | cons e l ih => exact ih h.2

theorem points_args {w : List Step} {u v : J} {a b : FormatArgumentValue}
    (h : PointsTo w u v a.toJ b.toJ) (l r : List FormatArgumentValue) :
    PointsTo (.index l.length :: w) u v (.arr (argsJ (l ++ a :: r))) (.arr (argsJ (l ++ b :: r))) := by
  simp only [argsJ_append, argsJ]
  exact points_index h _ _ (argsJ_length l)

theorem points_named {w : List Step} {u v : J} {a b : FormatArgumentValue}
    (h : PointsTo w u v a.toJ b.toJ) (k : String) (l r : List (String × FormatArgumentValue))
    (hk : KeysDistinct (l ++ (k, a) :: r)) :
    PointsTo (.field k :: w) u v (.obj (namedArgsJ (l ++ (k, a) :: r)))
      (.obj (namedArgsJ (l ++ (k, b) :: r))) := by
  simp only [namedArgsJ_append, namedArgsJ]
  obtain ⟨h1, h2⟩ := keys_apart hk
  exact points_field h _ _ _ (by rwa [namedArgsJ_names]) (by rwa [namedArgsJ_names])

/-- Texts and their histories are entries of an object, perhaps among other entries. -/
def PointsIn (ns : List String) (w : List Step) (u v : J) (s t : List (String × J)) : Prop :=
  ∃ k w' l r a b, w = .field k :: w' ∧ s = l ++ (k, a) :: r ∧ t = l ++ (k, b) :: r ∧
    PointsTo w' u v a b ∧ k ∉ l.map Prod.fst ∧ k ∉ r.map Prod.fst ∧ k ∉ ns

theorem PointsIn.obj {ns : List String} {w : List Step} {u v : J} {s t : List (String × J)}
    (h : PointsIn ns w u v s t) : PointsTo w u v (.obj s) (.obj t) := by
  obtain ⟨k, w', l, r, a, b, rfl, rfl, rfl, h, hl, hr, -⟩ := h
  exact points_field h l r k hl hr

theorem PointsIn.cons {ns : List String} {w : List Step} {u v : J} {s t : List (String × J)} {n : String}
    (h : PointsIn (n :: ns) w u v s t) (j : J) : PointsIn ns w u v ((n, j) :: s) ((n, j) :: t) := by
  obtain ⟨k, w', l, r, a, b, rfl, rfl, rfl, h, hl, hr, ht⟩ := h
  simp only [List.mem_cons, not_or] at ht
  exact ⟨k, w', (n, j) :: l, r, a, b, rfl, rfl, rfl, h, by simpa using ⟨ht.1, by simpa using hl⟩,
    hr, ht.2⟩

theorem PointsIn.fewer {ns ms : List String} {w : List Step} {u v : J} {s t : List (String × J)}
    (h : PointsIn ns w u v s t) (hm : ∀ n ∈ ms, n ∈ ns) : PointsIn ms w u v s t := by
  obtain ⟨k, w', l, r, a, b, rfl, rfl, rfl, h, hl, hr, ht⟩ := h
  exact ⟨k, w', l, r, a, b, rfl, rfl, rfl, h, hl, hr, fun hk => ht (hm _ hk)⟩

theorem pointsIn {w : List Step} {u v a b : J} (h : PointsTo w u v a b) (k : String)
    (l r : List (String × J)) (hl : k ∉ l.map Prod.fst) (hr : k ∉ r.map Prod.fst)
    {ns : List String} (ht : k ∉ ns) :
    PointsIn ns (.field k :: w) u v (l ++ (k, a) :: r) (l ++ (k, b) :: r) :=
  ⟨k, w, l, r, a, b, rfl, rfl, rfl, h, hl, hr, ht⟩

theorem flags_named {ns : List String} {w : List Step} {u v : J} {s t : List (String × J)}
    (fl : UInt32) (h : PointsIn ("flags" :: ns) w u v s t) :
    PointsIn ns w u v (nonzeroE "flags" fl ++ s) (nonzeroE "flags" fl ++ t) := by
  unfold nonzeroE
  split
  · exact h.fewer (by simp +contextual)
  · exact h.cons _

mutual
theorem historyAt_points {s t : FTextHistory} {w : List Step} {u v : J}
    (h : HistoryPartAt s t w u v) (hm : HistoryMaps s) :
    PointsIn ["flags", "type"] w u v s.entries t.entries := by
  cases h with
  | none a b =>
    exact pointsIn (points_here _ _) "culture_invariant_string" [("history", _)] [] (by simp) (by simp)
      (by decide)
  | baseNamespace a b k s =>
    exact pointsIn (points_here _ _) "namespace" [("history", _)] (optE "key" k ++ optE "source_string" s)
      (by simp) (by cases k <;> cases s <;> simp [optE]) (by decide)
  | baseKey a b n s =>
    have := pointsIn (points_here (.str a) (.str b)) "key"
      (("history", .str "Base") :: optE "namespace" n) (optE "source_string" s)
      (by cases n <;> simp [optE]) (by cases s <;> simp [optE]) (ns := ["flags", "type"]) (by decide)
    simpa [FTextHistory.entries, optE] using this
  | baseSource a b n k =>
    have := pointsIn (points_here (.str a) (.str b)) "source_string"
      (("history", .str "Base") :: (optE "namespace" n ++ optE "key" k)) []
      (by cases n <;> cases k <;> simp [optE]) (by simp) (ns := ["flags", "type"]) (by decide)
    simpa [FTextHistory.entries, optE] using this
  | namedSource args h =>
    exact pointsIn (textAt_points h hm.1).obj "source_format" [("history", _)] [("arguments", _)]
      (by simp) (by simp) (by decide)
  | namedArgument x l r k h =>
    exact pointsIn (points_named (argumentAt_points h (namedArgs_map hm.2.2)) k l r hm.2.1) "arguments"
      [("history", _), ("source_format", _)] [] (by simp) (by simp) (by decide)
  | orderedSource args h =>
    exact pointsIn (textAt_points h hm.1).obj "source_format" [("history", _)] [("arguments", _)]
      (by simp) (by simp) (by decide)
  | orderedArgument x l r h =>
    exact pointsIn (points_args (argumentAt_points h (args_map hm.2)) l r) "arguments"
      [("history", _), ("source_format", _)] [] (by simp) (by simp) (by decide)
  | argumentSource args h =>
    exact pointsIn (textAt_points h hm.1).obj "source_format" [("history", _)] [("arguments", _)]
      (by simp) (by simp) (by decide)
  | argumentArgument x l r k h =>
    exact pointsIn (points_named (argumentAt_points h (namedArgs_map hm.2.2)) k l r hm.2.1) "arguments"
      [("history", _), ("source_format", _)] [] (by simp) (by simp) (by decide)
  | numberValue o c h =>
    exact pointsIn (argumentAt_points h hm) "source_value" [("history", _)]
      (optionsE o ++ optE "target_culture" c)
      (by simp) (by cases o <;> cases c <;> simp [optionsE, optE]) (by decide)
  | numberOptions x a b c =>
    exact pointsIn (points_here _ _) "format_options" [("history", _), ("source_value", _)]
      (optE "target_culture" c) (by simp) (by cases c <;> simp [optE]) (by decide)
  | numberCulture x o a b =>
    have := pointsIn (points_here (.str a) (.str b)) "target_culture"
      (("history", .str "AsNumber") :: ("source_value", x.toJ) :: optionsE o) []
      (by cases o <;> simp [optionsE]) (by simp) (ns := ["flags", "type"]) (by decide)
    simpa [FTextHistory.entries, optE] using this
  | percentValue o c h =>
    exact pointsIn (argumentAt_points h hm) "source_value" [("history", _)]
      (optionsE o ++ optE "target_culture" c)
      (by simp) (by cases o <;> cases c <;> simp [optionsE, optE]) (by decide)
  | percentOptions x a b c =>
    exact pointsIn (points_here _ _) "format_options" [("history", _), ("source_value", _)]
      (optE "target_culture" c) (by simp) (by cases c <;> simp [optE]) (by decide)
  | percentCulture x o a b =>
    have := pointsIn (points_here (.str a) (.str b)) "target_culture"
      (("history", .str "AsPercent") :: ("source_value", x.toJ) :: optionsE o) []
      (by cases o <;> simp [optionsE]) (by simp) (ns := ["flags", "type"]) (by decide)
    simpa [FTextHistory.entries, optE] using this
  | currencyValue d o c h =>
    have := pointsIn (argumentAt_points h hm) "source_value"
      (("history", .str "AsCurrency") :: optE "currency_code" d)
      (optionsE o ++ optE "target_culture" c) (by cases d <;> simp [optE])
      (by cases o <;> cases c <;> simp [optionsE, optE]) (ns := ["flags", "type"]) (by decide)
    simpa [FTextHistory.entries] using this
  | currencyOptions d x a b c =>
    have := pointsIn (points_here a.toJ b.toJ) "format_options"
      (("history", .str "AsCurrency") :: (optE "currency_code" d ++ [("source_value", x.toJ)]))
      (optE "target_culture" c) (by cases d <;> simp [optE]) (by cases c <;> simp [optE])
      (ns := ["flags", "type"]) (by decide)
    simpa [FTextHistory.entries, optionsE] using this
  | currencyCulture d x o a b =>
    have := pointsIn (points_here (.str a) (.str b)) "target_culture"
      (("history", .str "AsCurrency") :: (optE "currency_code" d ++
        (("source_value", x.toJ) :: optionsE o))) []
      (by cases d <;> cases o <;> simp [optionsE, optE]) (by simp) (ns := ["flags", "type"])
      (by decide)
    simpa [FTextHistory.entries, optE] using this
  | currencyCode a b x o c =>
    exact pointsIn (points_here _ _) "currency_code" [("history", _)]
      (("source_value", x.toJ) :: (optionsE o ++ optE "target_culture" c))
      (by simp) (by cases o <;> cases c <;> simp [optionsE, optE]) (by decide)
  | dateTicks a b st c =>
    exact pointsIn (points_field (points_here _ _) [] [] "ticks" (by simp) (by simp)) "date_time"
      [("history", _)] [("date_style", _), ("target_culture", _)] (by simp) (by simp) (by decide)
  | dateStyle x a b c =>
    exact pointsIn (points_here _ _) "date_style" [("history", _), ("date_time", _)]
      [("target_culture", _)] (by simp) (by simp) (by decide)
  | dateCulture x st a b =>
    exact pointsIn (points_here _ _) "target_culture" [("history", _), ("date_time", _),
      ("date_style", _)] [] (by simp) (by simp) (by decide)
  | timeTicks a b st z c =>
    exact pointsIn (points_field (points_here _ _) [] [] "ticks" (by simp) (by simp)) "source_date_time"
      [("history", _)] [("time_style", _), ("time_zone", _), ("target_culture", _)] (by simp) (by simp)
      (by decide)
  | timeStyle x a b z c =>
    exact pointsIn (points_here _ _) "time_style" [("history", _), ("source_date_time", _)]
      [("time_zone", _), ("target_culture", _)] (by simp) (by simp) (by decide)
  | timeZone x st a b c =>
    exact pointsIn (points_here _ _) "time_zone" [("history", _), ("source_date_time", _),
      ("time_style", _)] [("target_culture", _)] (by simp) (by simp) (by decide)
  | timeCulture x st z a b =>
    exact pointsIn (points_here _ _) "target_culture" [("history", _), ("source_date_time", _),
      ("time_style", _), ("time_zone", _)] [] (by simp) (by simp) (by decide)
  | dateTimeTicks a b ds ts z c =>
    exact pointsIn (points_field (points_here _ _) [] [] "ticks" (by simp) (by simp)) "source_date_time"
      [("history", _)] [("date_style", _), ("time_style", _), ("time_zone", _), ("target_culture", _)]
      (by simp) (by simp) (by decide)
  | dateTimeDate x a b ts z c =>
    exact pointsIn (points_here _ _) "date_style" [("history", _), ("source_date_time", _)]
      [("time_style", _), ("time_zone", _), ("target_culture", _)] (by simp) (by simp) (by decide)
  | dateTimeTime x ds a b z c =>
    exact pointsIn (points_here _ _) "time_style" [("history", _), ("source_date_time", _),
      ("date_style", _)] [("time_zone", _), ("target_culture", _)] (by simp) (by simp) (by decide)
  | dateTimeZone x ds ts a b c =>
    exact pointsIn (points_here _ _) "time_zone" [("history", _), ("source_date_time", _),
      ("date_style", _), ("time_style", _)] [("target_culture", _)] (by simp) (by simp) (by decide)
  | dateTimeCulture x ds ts z a b =>
    exact pointsIn (points_here _ _) "target_culture" [("history", _), ("source_date_time", _),
      ("date_style", _), ("time_style", _), ("time_zone", _)] [] (by simp) (by simp) (by decide)
  | transformSource tt h =>
    exact pointsIn (textAt_points h hm).obj "source_text" [("history", _)] [("transform", _)]
      (by simp) (by simp) (by decide)
  | transformType x a b =>
    exact pointsIn (points_here _ _) "transform" [("history", _), ("source_text", _)] []
      (by simp) (by simp) (by decide)
  | tableId a b k =>
    exact pointsIn (points_here _ _) "table_id" [("history", _)] [("key", _)]
      (by simp) (by simp) (by decide)
  | tableKey i a b =>
    exact pointsIn (points_here _ _) "key" [("history", _), ("table_id", _)] []
      (by simp) (by simp) (by decide)
theorem textAt_points {s t : FText} {w : List Step} {u v : J} (h : TextPartAt s t w u v)
    (hm : TextMaps s) : PointsIn ["type"] w u v s.entries t.entries := by
  cases h with
  | flags a b x ha hb =>
    have hx : "flags" ∉ (FTextHistory.entries x).map Prod.fst := by
      cases x with
      | none s => cases s <;> simp [FTextHistory.entries, optE]
      | base n k s => cases n <;> cases k <;> cases s <;> simp [FTextHistory.entries, optE]
      | asNumber v o c => cases o <;> cases c <;> simp [FTextHistory.entries, optE, optionsE]
      | asPercent v o c => cases o <;> cases c <;> simp [FTextHistory.entries, optE, optionsE]
      | asCurrency d v o c =>
        cases d <;> cases o <;> cases c <;> simp [FTextHistory.entries, optE, optionsE]
      | _ => simp [FTextHistory.entries]
    have := pointsIn (points_here (.int a.toNat) (.int b.toNat)) "flags" [] x.entries (by simp) hx
      (ns := ["type"]) (by decide)
    simpa [FText.entries, nonzeroE, ha, hb] using this
  | history fl h => exact flags_named fl (historyAt_points h hm)
theorem argumentAt_points {s t : FormatArgumentValue} {w : List Step} {u v : J}
    (h : ArgumentPartAt s t w u v) (hm : ArgMaps s) : PointsTo w u v s.toJ t.toJ := by
  cases h with
  | text h => exact points_field (textAt_points h hm).obj [] [] "Text" (by simp) (by simp)
  | _ => exact points_field (points_here _ _) [] [] _ (by simp) (by simp)
end

/-! ## Delegates and properties -/

theorem delegateAt_points {s t : Delegate} {w : List Step} {u v : J} (h : DelegatePartAt s t w u v) :
    PointsTo w u v s.toJ t.toJ := by
  cases h with
  | object a b f => exact points_field (points_here _ _) [] [("function_name", _)] _ (by simp) (by simp)
  | functionName o a b => exact points_field (points_here _ _) [("object", _)] [] _ (by simp) (by simp)

theorem points_structs {w : List Step} {u v : J} {s t : StructPropertyValue}
    (h : PointsTo w u v (.obj [s.entry]) (.obj [t.entry])) (l r : List StructPropertyValue) :
    PointsTo (.index l.length :: w) u v (.arr (structsJ (l ++ s :: r)))
      (.arr (structsJ (l ++ t :: r))) := by
  simp only [structsJ_append, structsJ]
  refine points_index h _ _ ?_
  induction l with
  | nil => rfl
  | cons a l ih => simp [structsJ, ih]

theorem partAt_points {p q : Property} {w : List Step} {u v : J} (h : PartAt p q w u v)
    (hm : MapsDistinct p) : PointsTo w u v p.toJ q.toJ := by
  cases h with
  | bools l r a b =>
    exact points_field (points_map J.bool (points_here _ _) l r) [("type", _)] [] _ (by simp) (by simp)
  | enums l r a b =>
    exact points_field (points_map J.str (points_here _ _) l r) [("type", _)] [] _ (by simp) (by simp)
  | floats l r a b =>
    exact points_field (points_map F32.toJ (points_here _ _) l r) [("type", _)] [] _ (by simp) (by simp)
  | ints l r a b =>
    exact points_field (points_map (fun x : Int32 => J.int x.toInt) (points_here _ _) l r)
      [("type", _)] [] _ (by simp) (by simp)
  | names l r a b =>
    have := points_field (points_map optJ (points_here (optJ a) (optJ b)) l r)
      [("type", .str "ArrayProperty")] [] "names" (by simp) (by simp)
    cases a <;> cases b <;> exact this
  | strings l r a b =>
    have := points_field (points_map optJ (points_here (optJ a) (optJ b)) l r)
      [("type", .str "ArrayProperty")] [] "strings" (by simp) (by simp)
    cases a <;> cases b <;> exact this
  | enumBool l r k a b =>
    exact points_field (points_entry J.bool a b k l r hm) [("type", _)] [] _ (by simp) (by simp)
  | nameBool l r k a b =>
    exact points_field (points_entry J.bool a b k l r hm) [("type", _)] [] _ (by simp) (by simp)
  | strBool l r k a b =>
    exact points_field (points_entry J.bool a b k l r hm) [("type", _)] [] _ (by simp) (by simp)
  | enumInt l r k a b =>
    exact points_field (points_entry (fun x : Int32 => J.int x.toInt) a b k l r hm) [("type", _)] [] _
      (by simp) (by simp)
  | nameInt l r k a b =>
    exact points_field (points_entry (fun x : Int32 => J.int x.toInt) a b k l r hm) [("type", _)] [] _
      (by simp) (by simp)
  | strInt l r k a b =>
    exact points_field (points_entry (fun x : Int32 => J.int x.toInt) a b k l r hm) [("type", _)] [] _
      (by simp) (by simp)
  | strStr l r k a b =>
    have := points_field (points_entry optJ a b k l r hm) [("type", .str "MapProperty")] [] "str_strs"
      (by simp) (by simp)
    cases a <;> cases b <;> exact this
  | @struct g ty s t w u v h =>
    obtain ⟨k, w', rfl, h1, h2, h3, h4, h5, h6⟩ := structAt_points h
    have := points_field h3 (("type", .str "StructProperty") :: (guidE g ++ [("type_name", .str ty)]))
      [] k (by simpa [h4, h6] using guidE_names g k h5) (by simp)
    have e1 : s.entry = (k, s.entry.2) := by rw [← h1]
    have e2 : t.entry = (k, t.entry.2) := by rw [← h2]
    rw [Property.toJ, Property.toJ, e1, e2]
    simpa using this
  | @structValue s t w u v h =>
    obtain ⟨k, w', rfl, h1, h2, h3, h4, h5, h6⟩ := structAt_points h
    have e1 : s.entry = (k, s.entry.2) := by rw [← h1]
    have e2 : t.entry = (k, t.entry.2) := by rw [← h2]
    rw [Property.toJ, Property.toJ, e1, e2]
    exact points_field h3 [("type", .str "StructPropertyValue")] [] k (by simpa using h4) (by simp)
  | @structs f ty g l r s t w u v h =>
    obtain ⟨k, w', rfl, h1, h2, h3, h4, h5, h6⟩ := structAt_points h
    have e1 : s.entry = (k, s.entry.2) := by rw [← h1]
    have e2 : t.entry = (k, t.entry.2) := by rw [← h2]
    have h7 : PointsTo (.field k :: w') u v (.obj [s.entry]) (.obj [t.entry]) := by
      rw [e1, e2]
      exact points_field h3 [] [] k (by simp) (by simp)
    have := points_field (points_structs h7 l r)
      (("type", .str "ArrayProperty") :: ("field_name", .str f) :: ("type_name", .str ty) ::
        guidE g) [] "structs" (by simpa using guidE_names g "structs" (by decide)) (by simp)
    simpa [Property.toJ, ArrayProperty.entries] using this
  | text h => exact ((textAt_points h hm).cons (.str "TextProperty")).obj
  | delegate h =>
    exact points_field (delegateAt_points h) [("type", _)] [] _ (by simp) (by simp)
  | inlineDelegate l r h =>
    exact points_field (points_field (points_map Delegate.toJ (delegateAt_points h) l r) [] [] _ (by simp)
      (by simp)) [("type", _)] [] _ (by simp) (by simp)
  | sparseDelegate l r h =>
    exact points_field (points_field (points_map Delegate.toJ (delegateAt_points h) l r) [] [] _ (by simp)
      (by simp)) [("type", _)] [] _ (by simp) (by simp)
  | fieldPathStep l r a b owner =>
    exact points_field (points_field (points_map J.str (points_here _ _) l r) [] [("resolved_owner", _)] _
      (by simp) (by simp)) [("type", _)] [] _ (by simp) (by simp)
  | fieldPathOwner path a b =>
    exact points_field (points_field (points_here _ _) [("path", _)] [] _ (by simp) (by simp))
      [("type", _)] [] _ (by simp) (by simp)

end Gvas
