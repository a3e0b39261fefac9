import Verif.Lemmas.Strip
import Verif.Spec.Answers
import Verif.Lemmas.JsonMaps
import Verif.Lemmas.AcceptFile
import Verif.Props.Grammar
import Verif.Props.Layout
import Verif.Props.Faults

/-!
# C100: the contents of a save under another header

The header decides how the properties behind it are read and written.  Three questions about its
custom versions are all that matters, and what a change of the answers does to the properties is
known exactly.
-/

namespace Gvas

open Spec Format

private theorem bool_eq {a b : Bool} (h : a = true ↔ b = true) : a = b := by
  cases a <;> cases b <;> simp_all

theorem sameAnswers_iff {cv cv' : List (Guid × UInt32)} : SameAnswers cv cv' ↔
    cultureInvariant cv = cultureInvariant cv' ∧ text64 cv = text64 cv' ∧ lwc cv = lwc cv' := by
  unfold SameAnswers
  rw [invariantText_iff, invariantText_iff, wideArguments_iff, wideArguments_iff, largeWorld_iff,
    largeWorld_iff]
  exact ⟨fun h => ⟨bool_eq h.1, bool_eq h.2.1, bool_eq h.2.2⟩,
    fun h => ⟨by rw [h.1], by rw [h.2.1], by rw [h.2.2]⟩⟩

theorem sameAnswers_symm {cv cv' : List (Guid × UInt32)} (h : SameAnswers cv cv') :
    SameAnswers cv' cv := ⟨h.1.symm, h.2.1.symm, h.2.2.symm⟩

theorem sameAnswers_refl (cv : List (Guid × UInt32)) : SameAnswers cv cv := ⟨.rfl, .rfl, .rfl⟩

/-- **C100** for properties: reading is the same function under versions with the same answers. -/
theorem C100_reading (debug : Bool) (hints : String → Option String)
    (cv cv' : List (Guid × UInt32)) (hs : SameAnswers cv cv') :
    Property.read ⟨debug, hints, cv⟩ = Property.read ⟨debug, hints, cv'⟩ := by
  obtain ⟨h1, h2, h3⟩ := sameAnswers_iff.mp hs
  funext n
  exact property_read_same debug hints h3 h2 h1 n

mutual
private theorem text_write_same {cv cv' : List (Guid × UInt32)}
    (hc : cultureInvariant cv = cultureInvariant cv') (h6 : text64 cv = text64 cv') :
    ∀ t, FText.write cv t = FText.write cv' t
  | .mk _ h => by simp only [FText.write, history_write_same hc h6 h]
private theorem history_write_same {cv cv' : List (Guid × UInt32)}
    (hc : cultureInvariant cv = cultureInvariant cv') (h6 : text64 cv = text64 cv') :
    ∀ t, FTextHistory.write cv t = FTextHistory.write cv' t
  | .namedFormat t a | .argumentFormat t a => by
    simp only [FTextHistory.write, text_write_same hc h6 t, named_write_same hc h6 a]
  | .orderedFormat t a => by
    simp only [FTextHistory.write, text_write_same hc h6 t, args_write_same hc h6 a]
  | .asNumber v _ _ | .asPercent v _ _ | .asCurrency _ v _ _ => by
    simp only [FTextHistory.write, arg_write_same hc h6 v]
  | .transform t _ => by simp only [FTextHistory.write, text_write_same hc h6 t]
  | .none _ | .empty => by simp only [FTextHistory.write, hc]
  | .base _ _ _ | .asDate _ _ _ | .asTime _ _ _ _ | .asDateTime _ _ _ _ _
  | .stringTableEntry _ _ => by simp only [FTextHistory.write]
private theorem arg_write_same {cv cv' : List (Guid × UInt32)}
    (hc : cultureInvariant cv = cultureInvariant cv') (h6 : text64 cv = text64 cv') :
    ∀ t, FormatArgumentValue.write cv t = FormatArgumentValue.write cv' t
  | .text t => by simp only [FormatArgumentValue.write, text_write_same hc h6 t]
  | .int _ | .uint _ | .float _ | .double _ | .int64 _ | .uint64 _ => by
    simp only [FormatArgumentValue.write, h6]
private theorem args_write_same {cv cv' : List (Guid × UInt32)}
    (hc : cultureInvariant cv = cultureInvariant cv') (h6 : text64 cv = text64 cv') :
    ∀ l, writeArgs cv l = writeArgs cv' l
  | [] => rfl
  | v :: l => by simp only [writeArgs, arg_write_same hc h6 v, args_write_same hc h6 l]
private theorem named_write_same {cv cv' : List (Guid × UInt32)}
    (hc : cultureInvariant cv = cultureInvariant cv') (h6 : text64 cv = text64 cv') :
    ∀ l, writeNamedArgs cv l = writeNamedArgs cv' l
  | [] => rfl
  | (_, v) :: l => by simp only [writeNamedArgs, arg_write_same hc h6 v, named_write_same hc h6 l]
end

/-- **C100** for properties: so is writing. -/
theorem C100_writing (cv cv' : List (Guid × UInt32)) (hs : SameAnswers cv cv') :
    Property.write cv = Property.write cv' := by
  obtain ⟨h1, h2, h3⟩ := sameAnswers_iff.mp hs
  funext h p
  have := write_mapTexts (T := id) (cv := cv) (cv' := cv') (fun t => (text_write_same h1 h2 t).symm)
    h3.symm h p
  rw [mapTexts_id] at this
  exact this.symm

private theorem full_same {debug : Bool} {hints : String → Option String}
    {cv cv' : List (Guid × UInt32)} (hs : SameAnswers cv cv') {st : List String} {ty : String}
    {b : Bytes} {p : Property} (h : Full ⟨debug, hints, cv⟩ st ty b p) :
    Full ⟨debug, hints, cv'⟩ st ty b p := by
  obtain ⟨n, hn⟩ := (C69_property_iff _ ty (b ++ []) [] 0 _ st p).mpr ⟨b, rfl, rfl, h⟩
  rw [C100_reading debug hints cv cv' hs] at hn
  obtain ⟨b', e, _, h'⟩ := (C69_property_iff _ ty _ [] 0 _ st p).mp ⟨n, hn⟩
  rw [List.append_nil, List.append_nil] at e
  exact e ▸ h'

private theorem fields_same {debug : Bool} {hints : String → Option String}
    {cv cv' : List (Guid × UInt32)} (hs : SameAnswers cv cv') {st : List String}
    (es : List (String × Property)) : ∀ {b : Bytes}, Fields ⟨debug, hints, cv⟩ st b es →
      Fields ⟨debug, hints, cv'⟩ st b es := by
  induction es with
  | nil =>
    intro b h
    cases h with
    | done h => exact .done h
  | cons e es ih =>
    intro b h
    cases h with
    | entry h1 h2 h3 h4 h5 => exact .entry h1 h2 h3 (full_same hs h4) (ih h5)

theorem headerAt_unique {input r r' : Bytes} {h h' : GvasHeader} (ha : HeaderAt input h r)
    (hb : HeaderAt input h' r') : h = h' ∧ r = r' := by
  obtain ⟨p, e⟩ := (C13_accepts_iff _ _ 0 [] _).mpr ha
  obtain ⟨p', e'⟩ := (C13_accepts_iff _ _ 0 [] _).mpr hb
  rw [e] at e'
  simp only [Prod.mk.injEq, Res.ok.injEq, RS.mk.injEq] at e'
  exact ⟨e'.1, e'.2.1⟩

private theorem save_moves {debug : Bool} {hints : String → Option String} {hb hb' body : Bytes}
    {h h' : GvasHeader} {ps : List (String × Property)} (hh : HeaderAt (hb ++ body) h body)
    (hh' : HeaderAt (hb' ++ body) h' body)
    (hs : SameAnswers h.customVersions h'.customVersions)
    (hr : (readData debug hints (hb ++ body)).1 = .ok (h, ps)) :
    (readData debug hints (hb' ++ body)).1 = .ok (h', ps) := by
  obtain ⟨b, es, rest, h1, h2, h3⟩ := (C69_accepts_iff ..).mp hr
  obtain ⟨_, e⟩ := headerAt_unique hh h1
  exact (C69_accepts_iff ..).mpr ⟨b, es, rest, e ▸ hh', fields_same hs es h2, h3⟩

/-- **C100**: whatever stands behind a header means the same behind any other header whose versions
give the same answers. -/
theorem C100_body_moves (debug : Bool) (hints : String → Option String) (hb hb' body : Bytes)
    (h h' : GvasHeader) (ps : List (String × Property)) (hh : HeaderAt (hb ++ body) h body)
    (hh' : HeaderAt (hb' ++ body) h' body)
    (hs : SameAnswers h.customVersions h'.customVersions) :
    (readData debug hints (hb ++ body)).1 = .ok (h, ps) ↔
      (readData debug hints (hb' ++ body)).1 = .ok (h', ps) :=
  ⟨save_moves hh hh' hs, save_moves hh' hh (sameAnswers_symm hs)⟩

theorem headerAt_write {h : GvasHeader} (hok : HeaderOK h) (body : Bytes) :
    HeaderAt (h.write.bytes ++ body) h body :=
  (C13_accepts_iff _ _ 0 [] _).mp ⟨_, C12_headers_roundtrip h hok body 0 []⟩


private theorem transfer {debug : Bool} {hints : String → Option String} {h h' : GvasHeader}
    {ps : List (String × Property)}
    (hall : ∀ body, (readData debug hints (h.write.bytes ++ body)).1 = .ok (h, ps) →
      (readData debug hints (h'.write.bytes ++ body)).1 = .ok (h', ps))
    (hf : FileOK debug hints ⟨.default, h, ps⟩) (he : EachFits ⟨.default, h, ps⟩) :
    FileOK debug hints ⟨.default, h', ps⟩ := by
  obtain ⟨d, hd⟩ := fileOK_encodes hf
  have hr := fileOK_reads_each hf hd he []
  unfold GvasFile.encode at hd
  obtain ⟨out, _, hd⟩ := Res.bind_inv hd
  cases hd
  simp only [List.append_assoc, List.append_nil] at hr
  exact (accept_data (hall _ hr) .default).1

/-- A culture invariant text. -/
def invariantText : Property := .text (.mk 0 (.none (some "x")))

private theorem file_of_one {debug : Bool} {hints : String → Option String} {h : GvasHeader}
    {p : Property} (hh : HeaderOK h) :
    FileOK debug hints ⟨.default, h, [("p", p)]⟩ ↔ HeadOK (fileEnv debug hints h) ["p"] p := by
  simp only [FileOK, hh, true_and, List.map_cons, List.map_nil, List.mem_singleton, forall_eq]
  exact ⟨fun hf => hf.2.2.2, fun hf => ⟨by simp, by simp only [StrOK]; decide +kernel, by decide, hf⟩⟩

private theorem invariant_ok {debug : Bool} {hints : String → Option String} {h : GvasHeader}
    (hh : HeaderOK h) : FileOK debug hints ⟨.default, h, [("p", invariantText)]⟩ ↔
      InvariantText h.customVersions := by
  rw [file_of_one hh, invariantText_iff]
  simp only [invariantText, HeadOK, TextOK, WidthsOK, HistoryWidthsOK, TextShapeOK, HistoryShapeOK,
    true_and]
  exact ⟨fun hf => hf.1, fun hf => ⟨hf, by simp only [FStrOK, StrOK]; decide +kernel⟩⟩

private theorem wide_ok {debug : Bool} {hints : String → Option String} {h : GvasHeader}
    (hh : HeaderOK h) : FileOK debug hints ⟨.default, h, [("p", wideText)]⟩ ↔
      WideArguments h.customVersions := by
  rw [file_of_one hh, wideArguments_iff]
  simp only [wideText, HeadOK, TextOK, WidthsOK, HistoryWidthsOK, TextShapeOK, HistoryShapeOK,
    ArgWidthsOK, ArgShapeOK, FStrOK]
  exact ⟨fun hf => hf.1, fun hf => ⟨hf, trivial, fun _ hx => by cases hx⟩⟩

private theorem large_ok {debug : Bool} {hints : String → Option String} {h : GvasHeader}
    (hh : HeaderOK h) : FileOK debug hints ⟨.default, h, [("p", largeVector)]⟩ ↔
      LargeWorld h.customVersions := by
  rw [file_of_one hh, largeWorld_iff]
  simp only [largeVector, HeadOK, StructOK]
  exact ⟨fun hf => hf.2.2, fun hf => ⟨by simp only [StrOK]; decide +kernel, by decide, hf⟩⟩

private theorem one_fits {h : GvasHeader} {p : Property}
    (hp : ∀ o, Property.write h.customVersions true p = .ok o → o.bytes.length < 2 ^ 32) :
    EachFits ⟨.default, h, [("p", p)]⟩ := by
  intro e he
  rw [List.mem_singleton.mp he]
  exact hp

private theorem invariant_fits (h : GvasHeader) : EachFits ⟨.default, h, [("p", invariantText)]⟩ := by
  refine one_fits fun o ho => ?_
  simp only [invariantText, Property.write, FText.write, FTextHistory.write] at ho
  cases hc : cultureInvariant h.customVersions <;> rw [hc] at ho <;> cases ho <;> decide +kernel

private theorem wide_fits (h : GvasHeader) : EachFits ⟨.default, h, [("p", wideText)]⟩ := by
  refine one_fits fun o ho => ?_
  simp only [wideText, Property.write, FText.write, FTextHistory.write, FormatArgumentValue.write] at ho
  cases hc : text64 h.customVersions <;> rw [hc] at ho <;> cases ho <;> decide +kernel

private theorem large_fits (h : GvasHeader) : EachFits ⟨.default, h, [("p", largeVector)]⟩ := by
  refine one_fits fun o ho => ?_
  simp only [largeVector, Property.write, StructPropertyValue.writeBody] at ho
  cases hc : lwc h.customVersions <;> rw [hc] at ho <;> cases ho <;> decide +kernel

/-- **C100**, exactly: two valid headers are interchangeable in front of all contents if and only if
their versions give the same answers to these three questions.  Nothing else in a header matters for
the contents. -/
theorem C100_exactly (debug : Bool) (hints : String → Option String) (h h' : GvasHeader)
    (hh : HeaderOK h) (hh' : HeaderOK h') :
    (∀ body ps, (readData debug hints (h.write.bytes ++ body)).1 = .ok (h, ps) ↔
        (readData debug hints (h'.write.bytes ++ body)).1 = .ok (h', ps)) ↔
      SameAnswers h.customVersions h'.customVersions := by
  constructor
  · intro hall
    refine ⟨⟨fun hi => ?_, fun hi => ?_⟩, ⟨fun hi => ?_, fun hi => ?_⟩, ⟨fun hi => ?_, fun hi => ?_⟩⟩
    · exact (invariant_ok hh').mp (transfer (fun b => (hall b _).mp) ((invariant_ok hh).mpr hi)
        (invariant_fits h))
    · exact (invariant_ok hh).mp (transfer (fun b => (hall b _).mpr) ((invariant_ok hh').mpr hi)
        (invariant_fits h'))
    · exact (wide_ok hh').mp (transfer (fun b => (hall b _).mp) ((wide_ok hh).mpr hi) (wide_fits h))
    · exact (wide_ok hh).mp (transfer (fun b => (hall b _).mpr) ((wide_ok hh').mpr hi) (wide_fits h'))
    · exact (large_ok hh').mp (transfer (fun b => (hall b _).mp) ((large_ok hh).mpr hi) (large_fits h))
    · exact (large_ok hh).mp (transfer (fun b => (hall b _).mpr) ((large_ok hh').mpr hi)
        (large_fits h'))
  · intro hs body ps
    exact C100_body_moves debug hints _ _ body h h' ps (headerAt_write hh body)
      (headerAt_write hh' body) hs

/-! ## Saving under other versions -/

private theorem top_mapped {T : FText → FText} {cv : List (Guid × UInt32)}
    (hT : ∀ t, FText.write cv (T t) = FText.write cv t) (ps : List (String × Property)) :
    writeTop cv (ps.map fun e => (e.1, mapTexts T e.2)) = writeTop cv ps := by
  induction ps with
  | nil => rfl
  | cons e l ih =>
    obtain ⟨k, p⟩ := e
    simp only [List.map_cons, writeTop, ih, write_mapTexts hT rfl true p]

/-- **C100**: a file whose versions do not know culture invariant strings is written as if it had
none: they are dropped without error. -/
theorem C100_dropped (gv : DeserializedGameVersion) (h : GvasHeader) (ps : List (String × Property))
    (hi : ¬ InvariantText h.customVersions) :
    GvasFile.encode ⟨gv, h, ps⟩ = GvasFile.encode ⟨gv, h, stripped ps⟩ := by
  have hc : cultureInvariant h.customVersions = false := by
    simpa using mt invariantText_iff.mpr hi
  unfold GvasFile.encode stripped
  rw [top_mapped (fun t => write_stripText hc t)]

private theorem top_each {cv : List (Guid × UInt32)} (ps : List (String × Property)) :
    ∀ {o : Out}, writeTop cv ps = .ok o → ∀ e ∈ ps, ∃ o', Property.write cv true e.2 = .ok o' := by
  induction ps with
  | nil => intro o _ e he; cases he
  | cons x l ih =>
    intro o ho e he
    obtain ⟨k, p⟩ := x
    unfold writeTop at ho
    obtain ⟨a, ha, ho⟩ := Res.bind_inv ho
    obtain ⟨b, hb, _⟩ := Res.bind_inv ho
    rcases List.mem_cons.mp he with rfl | he
    · exact ⟨a, ha⟩
    · exact ih hb e he

private theorem moved_ok {debug : Bool} {hints : String → Option String}
    {h h' : GvasHeader} {ps : List (String × Property)} {gv : DeserializedGameVersion}
    (hf : FileOK debug hints ⟨gv, h, ps⟩) (hh : HeaderOK h') {d : Bytes}
    (he : GvasFile.encode ⟨gv, h', ps⟩ = .ok d) {T : FText → FText}
    (hT : ∀ t, TextOK h.customVersions t → WidthsOK h'.customVersions t →
      TextOK h'.customVersions (T t))
    (hm : ∀ e ∈ ps, MapsDistinct (mapTexts T e.2)) :
    FileOK debug hints ⟨gv, h', ps.map fun e => (e.1, mapTexts T e.2)⟩ := by
  unfold GvasFile.encode at he
  obtain ⟨o, ho, _⟩ := Res.bind_inv he
  refine ⟨hh, ?_, ?_⟩
  · simp only [List.map_map]
    exact hf.2.1
  · intro e hme
    obtain ⟨x, hx, rfl⟩ := List.mem_map.mp hme
    obtain ⟨h1, h2, h3⟩ := hf.2.2 x hx
    obtain ⟨hw, ht⟩ := (C55_write_ok_iff _ _ _).mp (top_each ps ho x hx)
    exact ⟨h1, h2, head_moved (env := fileEnv debug hints h) hT _ x.2 h3 hw ht (hm x hx)⟩

private theorem map_id_texts (ps : List (String × Property)) :
    (ps.map fun e => (e.1, mapTexts id e.2)) = ps := by
  induction ps with
  | nil => rfl
  | cons e l ih => rw [List.map_cons, ih, mapTexts_id]

/-- What can be represented behind one header can be behind another whose versions give the same
answers. -/
theorem fileOK_moves {debug : Bool} {hints : String → Option String} {f : GvasFile} {h' : GvasHeader}
    (hf : FileOK debug hints f) (hh : HeaderOK h')
    (hs : SameAnswers f.header.customVersions h'.customVersions) :
    FileOK debug hints { f with header := h' } := by
  obtain ⟨gv, h, ps⟩ := f
  obtain ⟨d, hd⟩ := fileOK_encodes hf
  unfold GvasFile.encode at hd
  obtain ⟨o, ho, -⟩ := Res.bind_inv hd
  obtain ⟨h1, h2, h3⟩ := sameAnswers_iff.mp hs
  refine ⟨hh, hf.2.1, fun e he => ?_⟩
  obtain ⟨i1, i2, i3⟩ := hf.2.2 e he
  have hw := top_each ps ho e he
  rw [C100_writing _ _ hs] at hw
  obtain ⟨hw, ht⟩ := (C55_write_ok_iff _ _ _).mp hw
  refine ⟨i1, i2, ?_⟩
  have := head_moved (env := fileEnv debug hints h) (T := id) (cv := h'.customVersions)
    (fun t ht hw => ⟨hw, ?_⟩) _ e.2 i3 hw ht (by
      rw [mapTexts_id]; exact (Js.fileOK_maps hf).2.2 e he)
  · rw [mapTexts_id] at this
    exact this
  · cases hc : cultureInvariant h'.customVersions with
    | true => exact text_shape_new hc t ht.2
    | false =>
      have := stripText_shape (cv' := h'.customVersions) t ht.2
      rw [stripText_same (h1.trans hc) t ht.2] at this
      exact this

/-- **C100**: what was read can be represented with another header if and only if that is a valid
one, saving with it succeeds, and its versions know culture invariant strings or there are none. -/
theorem C100_representable (debug : Bool) (hints : String → Option String) (data : Bytes)
    (h h' : GvasHeader) (ps : List (String × Property)) (gv : DeserializedGameVersion)
    (hr : (readData debug hints data).1 = .ok (h, ps)) :
    FileOK debug hints ⟨gv, h', ps⟩ ↔ HeaderOK h' ∧ (∃ d, GvasFile.encode ⟨gv, h', ps⟩ = .ok d) ∧
      (InvariantText h'.customVersions ∨ stripped ps = ps) := by
  have hf := (accept_data hr gv).1
  have hm := (Js.fileOK_maps hf).2.2
  constructor
  · intro hf'
    refine ⟨hf'.1, fileOK_encodes hf', ?_⟩
    by_cases hi : InvariantText h'.customVersions
    · exact .inl hi
    · have hc : cultureInvariant h'.customVersions = false := by
        simpa using mt invariantText_iff.mpr hi
      refine .inr ?_
      have : ∀ e ∈ ps, (e.1, mapTexts stripText e.2) = e := by
        intro e he
        rw [head_steady (env := fileEnv debug hints h') (fun t ht => stripText_same hc t ht.2) _ e.2
          (hf'.2.2 e he).2.2]
      unfold stripped
      rw [List.map_congr_left this, List.map_id']
  · rintro ⟨hh, ⟨d, hd⟩, hi | hs⟩
    · have := moved_ok (T := id) hf hh hd
        (fun t ht hw => ⟨hw, text_shape_new (invariantText_iff.mp hi) t ht.2⟩)
        (fun e he => by rw [mapTexts_id]; exact hm e he)
      rwa [map_id_texts] at this
    · have := moved_ok (T := stripText) hf hh hd
        (fun t ht hw => ⟨stripText_widths t hw, stripText_shape t ht.2⟩)
        (fun e he => by
          have hx : (e.1, mapTexts stripText e.2) ∈ stripped ps := List.mem_map_of_mem he
          rw [hs] at hx
          exact hm _ hx)
      change FileOK debug hints ⟨gv, h', stripped ps⟩ at this
      rwa [hs] at this

/-- **C100**: what was read and is saved under versions that know culture invariant strings comes
back unchanged. -/
theorem C100_kept (debug : Bool) (hints : String → Option String) (data d : Bytes)
    (h h' : GvasHeader) (ps : List (String × Property)) (gv : DeserializedGameVersion)
    (hr : (readData debug hints data).1 = .ok (h, ps)) (hh : HeaderOK h')
    (hi : InvariantText h'.customVersions) (hd : GvasFile.encode ⟨gv, h', ps⟩ = .ok d)
    (hfit : EachFits ⟨gv, h', ps⟩) (rest : Bytes) :
    (readData debug hints (d ++ rest)).1 = .ok (h', ps) :=
  fileOK_reads_each ((C100_representable debug hints data h h' ps gv hr).mpr ⟨hh, ⟨d, hd⟩, .inl hi⟩) hd
    hfit rest

/-- **C100**: what was read and is saved under versions that do not know culture invariant strings
comes back without them, unless keys of a map differed in nothing else. -/
theorem C100_lost (debug : Bool) (hints : String → Option String) (data d : Bytes)
    (h h' : GvasHeader) (ps : List (String × Property)) (gv : DeserializedGameVersion)
    (hr : (readData debug hints data).1 = .ok (h, ps)) (hh : HeaderOK h')
    (hi : ¬ InvariantText h'.customVersions) (hd : GvasFile.encode ⟨gv, h', ps⟩ = .ok d)
    (hfit : EachFits ⟨gv, h', ps⟩) (rest : Bytes) :
    (readData debug hints (d ++ rest)).1 = .ok (h', stripped ps) ↔
      ∀ e ∈ ps, MapsDistinct (mapTexts stripText e.2) := by
  have hc : cultureInvariant h'.customVersions = false := by
    simpa using mt invariantText_iff.mpr hi
  constructor
  · intro hr' e he
    exact (Js.fileOK_maps (accept_data hr' gv).1).2.2 (e.1, mapTexts stripText e.2)
      (List.mem_map_of_mem he)
  · intro hm
    have hok := moved_ok (T := stripText) (accept_data hr gv).1 hh hd
      (fun t ht hw => ⟨stripText_widths t hw, stripText_shape t ht.2⟩) hm
    refine fileOK_reads_each (f := ⟨gv, h', stripped ps⟩) hok ?_ ?_ rest
    · rw [← C100_dropped gv h' ps hi]; exact hd
    · intro e he o ho
      obtain ⟨x, hx, rfl⟩ := List.mem_map.mp he
      refine hfit x hx o ?_
      rw [← ho]
      exact (write_mapTexts (fun t => write_stripText hc t) rfl true x.2).symm

/-! ## Cases -/

/-- A header with the given versions. -/
def movedHeader (cvs : List (Guid × UInt32)) : GvasHeader :=
  .version2 522 ⟨4, 27, 2, 0, "++UE4"⟩ 3 cvs "Save"

theorem movedHeader_ok : HeaderOK (movedHeader []) ∧ HeaderOK (movedHeader [(editorGuid, 31)]) ∧
    HeaderOK (movedHeader [(editorGuid, 32)]) := by
  refine ⟨?_, ?_, ?_⟩ <;>
    exact ⟨by decide, by decide, rfl, by simp only [StrOK]; decide +kernel, by simp,
      by decide, by simp only [StrOK]; decide +kernel⟩

-- the last version of the table before culture invariant strings is as good as none, the next is not
example : (∀ body ps,
      (readData true noHints ((movedHeader []).write.bytes ++ body)).1 = .ok (movedHeader [], ps) ↔
        (readData true noHints ((movedHeader [(editorGuid, 31)]).write.bytes ++ body)).1 =
          .ok (movedHeader [(editorGuid, 31)], ps)) ∧
    ¬ (∀ body ps,
      (readData true noHints ((movedHeader []).write.bytes ++ body)).1 = .ok (movedHeader [], ps) ↔
        (readData true noHints ((movedHeader [(editorGuid, 32)]).write.bytes ++ body)).1 =
          .ok (movedHeader [(editorGuid, 32)], ps)) := by
  rw [C100_exactly true noHints _ _ movedHeader_ok.1 movedHeader_ok.2.1,
    C100_exactly true noHints _ _ movedHeader_ok.1 movedHeader_ok.2.2, sameAnswers_iff,
    sameAnswers_iff]
  decide +kernel

/-- A map whose two keys are texts that differ only in their culture invariant strings. -/
def textKeys : Property :=
  .map (.properties "TextProperty" "IntProperty" 0
    [(.text (.mk 0 (.none (some "A"))), .int 1), (.text (.mk 0 (.none (some "B"))), .int 2)])

/-- The same with different flags. -/
def flaggedKeys : Property :=
  .map (.properties "TextProperty" "IntProperty" 0
    [(.text (.mk 0 (.none (some "A"))), .int 1), (.text (.mk 1 (.none (some "B"))), .int 2)])

/-- The numbers of entries of the maps among properties. -/
def entryCounts (ps : List (String × Property)) : List Nat :=
  ps.filterMap fun e => match e.2 with
    | .map (.properties _ _ _ m) => some m.length
    | _ => none

/-- Save `p` under versions with culture invariant strings, read that, save what was read without any
versions, and read again: the entries in the maps of the two readings. -/
def movedCounts (p : Property) : Option (List Nat × List Nat) :=
  match GvasFile.encode ⟨.default, movedHeader [(editorGuid, 32)], [("m", p)]⟩ with
  | .bad _ => none
  | .ok data =>
    match (readData true noHints data).1 with
    | .bad _ => none
    | .ok (_, ps) =>
      match GvasFile.encode ⟨.default, movedHeader [], ps⟩ with
      | .bad _ => none
      | .ok d =>
        match (readData true noHints d).1 with
        | .bad _ => none
        | .ok (_, ps') => some (entryCounts ps, entryCounts ps')

theorem movedCounts_some {p : Property} {a b : List Nat} (h : movedCounts p = some (a, b)) :
    ∃ data h h' ps ps' d, (readData true noHints data).1 = .ok (h, ps) ∧
      GvasFile.encode ⟨.default, movedHeader [], ps⟩ = .ok d ∧
      (readData true noHints d).1 = .ok (h', ps') ∧ entryCounts ps = a ∧ entryCounts ps' = b := by
  unfold movedCounts at h
  split at h
  · cases h
  · split at h
    · cases h
    · next data _ _ h' ps hr =>
      split at h
      · cases h
      · next d hd =>
        split at h
        · cases h
        · next h'' ps' hr' =>
          cases h
          exact ⟨data, h', h'', ps, ps', d, hr, hd, hr', rfl, rfl⟩

/-- **C100**: the exception is real.  A save with a map of two entries is read, saved without error
under other versions, and read again with one entry left. -/
theorem C100_entry_lost : ∃ data h h' ps ps' d, (readData true noHints data).1 = .ok (h, ps) ∧
    GvasFile.encode ⟨.default, movedHeader [], ps⟩ = .ok d ∧
    (readData true noHints d).1 = .ok (h', ps') ∧ entryCounts ps = [2] ∧ entryCounts ps' = [1] :=
  movedCounts_some (p := textKeys) (by decide +kernel)

-- with keys that differ elsewhere too, both stay
example : ∃ data h h' ps ps' d, (readData true noHints data).1 = .ok (h, ps) ∧
    GvasFile.encode ⟨.default, movedHeader [], ps⟩ = .ok d ∧
    (readData true noHints d).1 = .ok (h', ps') ∧ entryCounts ps = [2] ∧ entryCounts ps' = [2] :=
  movedCounts_some (p := flaggedKeys) (by decide +kernel)

-- the theorems on such files: read under new versions, saved under old ones
example : ∃ data ps d,
    (readData true noHints data).1 = .ok (movedHeader [(editorGuid, 32)], ps) ∧
    GvasFile.encode ⟨.default, movedHeader [], ps⟩ = .ok d ∧ stripped ps ≠ ps ∧
    ¬ FileOK true noHints ⟨.default, movedHeader [], ps⟩ ∧
    (readData true noHints d).1 = .ok (movedHeader [], stripped ps) ∧
    (readData true noHints d).1 = .ok (movedHeader [], [("p", .text (.mk 0 .empty))]) := by
  have hi : InvariantText (movedHeader [(editorGuid, 32)]).customVersions :=
    invariantText_iff.mpr (by decide +kernel)
  have hi' : ¬ InvariantText (movedHeader []).customVersions := fun ⟨_, hx, _⟩ => by cases hx
  have hf := (invariant_ok (debug := true) (hints := noHints) movedHeader_ok.2.2).mpr hi
  obtain ⟨data, hd⟩ := fileOK_encodes hf
  have hr := fileOK_reads_each hf hd (invariant_fits _) []
  rw [List.append_nil] at hr
  have he : ∃ d, GvasFile.encode ⟨.default, movedHeader [], [("p", invariantText)]⟩ = .ok d :=
    eq_ok (by decide +kernel)
  obtain ⟨d, hd'⟩ := he
  have hs : stripped [("p", invariantText)] = [("p", .text (.mk 0 .empty))] := by
    simp only [stripped, invariantText, List.map_cons, List.map_nil, mapTexts, stripText, stripHistory]
  have hl := (C100_lost true noHints data d _ (movedHeader []) _ .default hr movedHeader_ok.1 hi' hd'
    (invariant_fits _) []).mpr (by
      intro e he
      rw [List.mem_singleton.mp he]
      simp only [invariantText, mapTexts, stripText, stripHistory, MapsDistinct, TextMaps, HistoryMaps])
  rw [List.append_nil] at hl
  have hne : stripped [("p", invariantText)] ≠ [("p", invariantText)] := by
    rw [hs]; simp [invariantText]
  refine ⟨data, _, d, hr, hd', hne, fun hf' => ?_, hl, hs ▸ hl⟩
  rcases ((C100_representable true noHints data _ _ _ _ hr).mp hf').2.2 with hx | hx
  · exact hi' hx
  · exact hne hx

end Gvas
