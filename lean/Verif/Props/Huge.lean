import Verif.Props.Accept

/-!
# C19: rewriting saves of 4 GiB or more
-/

namespace Gvas

open Spec

section huge

variable {st : List String} {env : Env}

/-- `"é"` as UTF-8. -/
def eUtf8 : Bytes := [3, 0, 0, 0, 0xC3, 0xA9, 0]

private theorem rpure_run (s : RS) : (R.pure () : R Unit) s = (.ok (), s) := rfl

private theorem withEntry_run {α : Type} {nm : String} {m : R α} {rest : Bytes} {pos : Nat}
    {st : List String} {r : Res α} {s' : RS} (h : m ⟨rest, pos, st ++ [nm]⟩ = (r, s')) :
    R.withEntry nm m ⟨rest, pos, st⟩ = (r, { s' with stack := s'.stack.dropLast }) := by
  simp [R.withEntry, h]

private theorem read_array (env : Env) (m : Nat) (sug : Option UInt32) :
    Property.read env (m + 2) "ArrayProperty" true sug = R.withEntry "ArrayProperty"
      (readArrayProperty env (m + 2) (Property.read env (m + 1)) true) := rfl

theorem reads_eUtf8 : Reads st readFString eUtf8 (some "é") := by
  intro rest pos
  unfold readFString
  have h3 := (reads_i32 (st := st) 3).run
  have e : eUtf8 ++ rest = i32B 3 ++ ([0xC3, 0xA9] ++ ([0] ++ rest)) := by
    rw [show i32B 3 = [3, 0, 0, 0] by decide]; rfl
  rw [R.bind_ok (position_run _)]
  simp only [e]
  rw [R.bind_ok (h3 _ _)]
  rw [R.ensure_true (by decide), R.bind_ok (rpure_run _), if_neg (by decide), if_neg (by decide)]
  rw [R.bind_ok ((Reads.take (st := st) (bs := [0xC3, 0xA9]) (by decide)).run _ _)]
  rw [R.bind_ok (reads_zero.run _ _)]
  rw [R.ensure_true rfl, R.bind_ok (rpure_run _)]
  have h4 : utf8Decode [0xC3, 0xA9] = some "é".toList := by decide +kernel
  simp only [h4, String.ofList_toList]
  rfl

theorem reads_strArray {enc : Bytes} (he : ∀ st, Reads st readFString enc (some "é")) (N : Nat)
    (hN : N < 2 ^ 32) (len : UInt32) (n fuel : Nat) :
    Reads st (readArrayBody env fuel (Property.read env (n + 1)) len "StrProperty")
      (u32B (UInt32.ofNat N) ++ (List.replicate N ()).flatMap fun _ => enc)
      (.strings (List.replicate N (some "é"))) := by
  unfold readArrayBody
  refine (reads_u32 _).bind ?_
  rw [if_neg (by decide), u32_ofNat_toNat hN]
  have hel : ∀ sug, Reads st (Property.read env (n + 1) "StrProperty" false sug) enc
      (.str (some "é")) := by
    intro sug
    show Reads st (Property.readStep env (n + 1) (Property.read env n) "StrProperty" false sug) _ _
    unfold Property.readStep
    exact Reads.withEntry (Reads.map (g := Property.str) (he _))
  have := Reads.replicate (st := st) (m := Property.read env (n + 1) "StrProperty" false
    (arraySuggested len (UInt32.ofNat N))) (fun _ : Unit => enc)
    (fun _ => Property.str (some "é")) (List.replicate N ()) (fun _ _ => hel _)
  rw [List.length_replicate] at this
  refine this.bind' (b2 := []) ?_ (by simp)
  rw [show (List.replicate N ()).map (fun _ => Property.str (some "é")) =
    (List.replicate N (some "é")).map Property.str by simp]
  have hnew : ArrayProperty.new "StrProperty" none ((List.replicate N (some "é")).map Property.str) =
      .ok (.strings (List.replicate N (some "é"))) := by
    simp only [ArrayProperty.new, compactArray]
    rw [collect_map (f := asStr) (g := Property.str) (fun _ => rfl)]
    rfl
  rw [hnew]
  exact Reads.rpure _

/-- A body of another length than declared. -/
theorem readSized_wrong {β : Type} {length : UInt32} {body : R β} {bs : Bytes} {r : β}
    (h : Reads st body bs r) (hl : bs.length ≠ length.toNat) (rest : Bytes) (pos : Nat) :
    readSized length body ⟨bs ++ rest, pos, st⟩ =
      (.err (.invalidValueSize length.toNat bs.length pos), ⟨rest, pos + bs.length, st⟩) := by
  unfold readSized
  rw [R.bind_ok (position_run _), R.bind_ok (h.run rest pos), R.bind_ok (position_run _),
    R.ensure_false (by simp only []; omega)]
  simp only [Nat.add_sub_cancel_left]
  rfl

/-- The header of the files below. -/
def hugeHeader : GvasHeader := .version2 0x205 ⟨4, 27, 2, 0, "++UE4"⟩ 3 [] "S"

theorem hugeHeader_ok : HeaderOK hugeHeader := by
  refine ⟨by decide, by decide, rfl, by decide +kernel, by decide, by decide, by decide +kernel⟩

/-- The file with an array of `N` strings. -/
def hugeFile (N : Nat) : GvasFile :=
  { gameVersion := .default
    header := hugeHeader
    properties := [("A", .array (.strings (List.replicate N (some "é"))))] }

/-- Everything up to the declared length of the array, and what follows it. -/
def hugeInput (len : UInt32) (N : Nat) (enc tail : Bytes) : Bytes :=
  hugeHeader.write.bytes ++ ((writeString "A").bytes ++ ((writeString "ArrayProperty").bytes ++
    (u32B len ++ (u32B 0 ++ ((writeString "StrProperty").bytes ++ ([0] ++
      ((u32B (UInt32.ofNat N) ++ (List.replicate N ()).flatMap fun _ => enc) ++
        ((writeString "None").bytes ++ tail))))))))

private theorem bodyLength (N : Nat) (enc : Bytes) :
    (u32B (UInt32.ofNat N) ++ (List.replicate N ()).flatMap fun _ => enc).length =
      4 + N * enc.length := by
  simp

theorem huge_accepted {enc : Bytes} (he : ∀ st, Reads st readFString enc (some "é")) (N : Nat)
    (hN : 4 + N * enc.length < 2 ^ 32) (hN' : N < 2 ^ 32) (tail : Bytes) (debug : Bool)
    (hints : String → Option String) :
    (readData debug hints (hugeInput (UInt32.ofNat (4 + N * enc.length)) N enc tail)).1 =
      .ok (hugeHeader, (hugeFile N).properties) := by
  unfold readData readContents RS.init
  generalize hn : (hugeInput (UInt32.ofNat (4 + N * enc.length)) N enc tail).length + 1 = n
  obtain ⟨m, rfl⟩ : ∃ m, n = m + 2 := by
    have : 0 < (hugeInput (UInt32.ofNat (4 + N * enc.length)) N enc tail).length := by
      simp [hugeInput]; omega
    exact ⟨n - 2, by omega⟩
  unfold hugeInput
  rw [R.bind_ok ((reads_header (st := []) hugeHeader_ok).run _ _)]
  generalize hcv : ({ debug, hints, cv := hugeHeader.customVersions } : Env) = env
  have hp : Reads ([] ++ ["A"]) (Property.read env (m + 2) "ArrayProperty" true none)
      (u32B (UInt32.ofNat (4 + N * enc.length)) ++ u32B 0 ++ (writeString "StrProperty").bytes ++
        [0] ++ (u32B (UInt32.ofNat N) ++ (List.replicate N ()).flatMap fun _ => enc))
      (.array (.strings (List.replicate N (some "é")))) := by
    rw [read_array]
    refine Reads.withEntry ?_
    unfold readArrayProperty
    rw [if_pos rfl]
    refine reads_header' (reads_string (by decide +kernel)) (Reads.map (g := Property.array)
      (reads_strArray he N hN' _ m (m + 2))) ?_
    rw [bodyLength, u32_ofNat_toNat hN]
  have ht : Reads [] (readTop (Property.read env (m + 2)) (m + 2) [])
      ((writeString "A").bytes ++ ((writeString "ArrayProperty").bytes ++
        ((u32B (UInt32.ofNat (4 + N * enc.length)) ++ u32B 0 ++ (writeString "StrProperty").bytes ++
          [0] ++ (u32B (UInt32.ofNat N) ++ (List.replicate N ()).flatMap fun _ => enc)) ++
          (writeString "None").bytes))) (hugeFile N).properties := by
    rw [readTop]
    refine (reads_string (by decide +kernel)).bind ?_
    rw [if_neg (by decide)]
    refine (reads_string (by decide +kernel)).bind ?_
    refine Reads.bind (a := .array (.strings (List.replicate N (some "é"))))
      (Reads.withEntry (st := []) (nm := "A") hp) ?_
    rw [readTop]
    refine (reads_string (s := "None") (by decide +kernel)).bind' (b2 := []) ?_ (by simp)
    rw [if_pos rfl]
    exact Reads.pure _
  have := ht.run tail (0 + hugeHeader.write.bytes.length)
  simp only [List.append_assoc] at this ⊢
  rw [R.bind_ok this]
  rfl

theorem huge_refused {enc : Bytes} (he : ∀ st, Reads st readFString enc (some "é")) (N : Nat)
    (len : UInt32) (hN : 4 + N * enc.length ≠ len.toNat) (hN' : N < 2 ^ 32) (tail : Bytes)
    (debug : Bool) (hints : String → Option String) :
    ∃ p, (readData debug hints (hugeInput len N enc tail)).1 =
      .err (.invalidValueSize len.toNat (4 + N * enc.length) p) := by
  unfold readData readContents RS.init
  generalize hn : (hugeInput len N enc tail).length + 1 = n
  obtain ⟨m, rfl⟩ : ∃ m, n = m + 2 := by
    have : 0 < (hugeInput len N enc tail).length := by
      simp [hugeInput]; omega
    exact ⟨n - 2, by omega⟩
  unfold hugeInput
  rw [R.bind_ok ((reads_header (st := []) hugeHeader_ok).run _ _)]
  generalize hcv : ({ debug, hints, cv := hugeHeader.customVersions } : Env) = env
  generalize (0 + hugeHeader.write.bytes.length) = pos
  rw [readTop]
  have hA : StrOK "A" := by decide +kernel
  have hT : StrOK "ArrayProperty" := by decide +kernel
  have hS : StrOK "StrProperty" := by decide +kernel
  have hfail : ∀ rest pos, ∃ p s', Property.read env (m + 2) "ArrayProperty" true none
      ⟨u32B len ++ (u32B 0 ++ ((writeString "StrProperty").bytes ++ ([0] ++
        ((u32B (UInt32.ofNat N) ++ (List.replicate N ()).flatMap fun _ => enc) ++ rest)))), pos,
        ["A"]⟩ = (.err (.invalidValueSize len.toNat (4 + N * enc.length) p), s') := by
    intro rest pos
    have hb := readSized_wrong (length := len) (Reads.map (g := Property.array)
      (reads_strArray (st := ["A", "ArrayProperty"]) (env := env) he N hN' len m (m + 2)))
      (by rw [bodyLength]; exact hN) rest
    have : ∀ pos, ∃ p s', readArrayProperty env (m + 2) (Property.read env (m + 1)) true
      ⟨u32B len ++ (u32B 0 ++ ((writeString "StrProperty").bytes ++ ([0] ++
        ((u32B (UInt32.ofNat N) ++ (List.replicate N ()).flatMap fun _ => enc) ++ rest)))), pos,
        ["A", "ArrayProperty"]⟩ =
          (.err (.invalidValueSize len.toNat (4 + N * enc.length) p), s') := by
      intro pos
      unfold readArrayProperty readHeader
      rw [if_pos rfl, R.bind_ok ((reads_u32 len).run _ _), R.bind_ok (reads_zeroIndex.run _ _),
        R.bind_ok ((reads_string hS).run _ _), R.bind_ok (reads_terminator.run _ _), hb, bodyLength]
      exact ⟨_, _, rfl⟩
    obtain ⟨p, s', h⟩ := this pos
    refine ⟨p, { s' with stack := s'.stack.dropLast }, ?_⟩
    rw [read_array]
    exact withEntry_run (st := ["A"]) h
  have hfail' : ∀ rest pos, ∃ p s', R.withEntry "A" (Property.read env (m + 2) "ArrayProperty" true
      none) ⟨u32B len ++ (u32B 0 ++ ((writeString "StrProperty").bytes ++ ([0] ++
        ((u32B (UInt32.ofNat N) ++ (List.replicate N ()).flatMap fun _ => enc) ++ rest)))), pos,
        []⟩ = (.err (.invalidValueSize len.toNat (4 + N * enc.length) p), s') := by
    intro rest pos
    obtain ⟨p, s', h⟩ := hfail rest pos
    refine ⟨p, { s' with stack := s'.stack.dropLast }, ?_⟩
    exact withEntry_run (st := []) h
  obtain ⟨p, s', h⟩ := hfail' ((writeString "None").bytes ++ tail)
    (pos + (writeString "A").bytes.length + (writeString "ArrayProperty").bytes.length)
  refine ⟨p, ?_⟩
  have hstep : (readString >>= fun name =>
      if name = "None" then pure []
      else do
        let ty ← readString
        let q ← R.withEntry name (Property.read env (m + 2) ty true none)
        readTop (Property.read env (m + 2)) (m + 1) (imInsert (· == ·) name q []))
      ⟨(writeString "A").bytes ++ ((writeString "ArrayProperty").bytes ++
        (u32B len ++ (u32B 0 ++ ((writeString "StrProperty").bytes ++ ([0] ++
        ((u32B (UInt32.ofNat N) ++ (List.replicate N ()).flatMap fun _ => enc) ++
          ((writeString "None").bytes ++ tail))))))), pos, []⟩ =
      (.err (.invalidValueSize len.toNat (4 + N * enc.length) p), s') := by
    rw [R.bind_ok ((reads_string hA).run _ _), if_neg (by decide),
      R.bind_ok ((reads_string hT).run _ _), R.bind_bad h]
  rw [R.bind_bad hstep]

private theorem wide_length : (writeFString (some "é")).bytes.length = 8 := by decide +kernel

private theorem huge_write (cv : List (Guid × UInt32)) (N : Nat) :
    ∃ o, writeTop cv (hugeFile N).properties = .ok o ∧ o.bytes = (writeString "A").bytes ++
      ((writeString "ArrayProperty").bytes ++ (u32B (UInt32.ofNat (4 + N * 8)) ++ (u32B 0 ++
        ((writeString "StrProperty").bytes ++ ([0] ++ (u32B (UInt32.ofNat N) ++
          (List.replicate N ()).flatMap fun _ => (writeFString (some "é")).bytes)))))) := by
  have hbody : (concatOut writeFString (List.replicate N (some "é"))).bytes =
      (List.replicate N ()).flatMap fun _ => (writeFString (some "é")).bytes := by
    rw [concatOut_bytes]
    simp [List.flatMap_replicate]
  refine ⟨writeString "A" ++ headed true "ArrayProperty" (writeString "StrProperty")
    (u32O (UInt32.ofNat N) ++ concatOut writeFString (List.replicate N (some "é"))) ++ Out.nil,
    ?_, ?_⟩
  · simp only [hugeFile, writeTop, Property.write, ArrayProperty.writeBody, List.length_replicate]
    rfl
  · simp only [headed, withHeader, Out.app_bytes, u32O_bytes, hbody, Out.nil_bytes,
      List.append_nil, bodyLength, wide_length, if_true, List.append_assoc]

private theorem huge_encode (N : Nat) : (hugeFile N).encode =
    .ok (hugeInput (UInt32.ofNat (4 + N * 8)) N (writeFString (some "é")).bytes (i32B 0)) := by
  obtain ⟨o, h1, h2⟩ := huge_write hugeHeader.customVersions N
  unfold GvasFile.encode hugeInput
  rw [show (hugeFile N).header = hugeHeader from rfl, h1]
  show Res.ok (_ ++ o.bytes ++ _ ++ _) = _
  rw [h2]
  simp only [List.append_assoc]

/-- **C19** is false of contents of 4 GiB or more: there is an accepted save (an array of 2^29
strings stored as UTF-8) whose rewritten contents are refused, because the length of the array no
longer fits its 32-bit header. -/
theorem C19_huge_not_reread (z : Codec) (debug : Bool) (hints : String → Option String) :
    ∃ (input : Bytes) (f : GvasFile) (data : Bytes),
      GvasFile.read z debug .default hints 0 input = .ok f ∧ f.encode = .ok data ∧
      ∃ p, GvasFile.read z debug .default hints 0 data =
        .err (.invalidValueSize 4 4294967300 p) := by
  obtain ⟨N, hN⟩ : ∃ N : Nat, N = 2 ^ 29 := ⟨_, rfl⟩
  have he8 : ∀ st, Reads st readFString (writeFString (some "é")).bytes (some "é") :=
    fun st => reads_fstring (by decide +kernel)
  have h7 : eUtf8.length = 7 := rfl
  have h8 : (writeFString (some "é")).bytes.length = 8 := by decide +kernel
  have hacc := huge_accepted (fun st => reads_eUtf8 (st := st)) N (by rw [h7]; omega) (by omega) [] debug hints
  have hlen : (UInt32.ofNat (4 + N * 8)).toNat = 4 := by
    rw [UInt32.toNat_ofNat']
    omega
  have henc := huge_encode N
  obtain ⟨p, hr⟩ := huge_refused he8 N (UInt32.ofNat (4 + N * 8)) (by rw [hlen, h8]; omega)
    (by omega) (i32B 0) debug hints
  rw [hlen, h8, show 4 + N * 8 = 4294967300 by omega] at hr
  rw [show 4 + N * 8 = 4294967300 by omega] at henc
  refine ⟨hugeInput (UInt32.ofNat (4 + N * eUtf8.length)) N eUtf8 [], hugeFile N, _, ?_, henc, p, ?_⟩
  · simp only [GvasFile.read]
    rw [hacc]
    rfl
  · simp only [GvasFile.read]
    rw [hr]
    rfl

end huge

end Gvas
