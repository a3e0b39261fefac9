import Verif.Spec.File
import Verif.Lemmas.RoundTrip
import Verif.Lemmas.Writable
import Verif.Lemmas.Header

/-! # Files: writing succeeds, reading gives the file back -/

namespace Gvas

open Spec

theorem reads_top {env : Env} {n : Nat} (l acc : List (String × Property)) (out : Out)
    (hw : writeTop env.cv l = .ok out) (hd : ((acc ++ l).map Prod.fst).Nodup)
    (hok : ∀ e ∈ l, StrOK e.1 ∧ e.1 ≠ "None" ∧ HeadOK env [e.1] e.2)
    (hn : out.bytes.length < n)
    (h32 : ∀ e ∈ l, ∀ o, Property.write env.cv true e.2 = .ok o → o.bytes.length < 2 ^ 32)
    (m : Nat) :
    Reads [] (readTop (Property.read env n) (l.length + (m + 1)) acc)
      (out.bytes ++ (writeString "None").bytes) (acc ++ l) := by
  induction l generalizing acc out with
  | nil =>
    simp only [writeTop] at hw
    cases hw
    rw [List.length_nil, Nat.zero_add, readTop]
    simp only [Out.nil, List.nil_append, List.append_nil]
    refine (reads_string (s := "None") (by decide +kernel)).bind' (b2 := []) ?_ (by simp)
    rw [if_pos rfl]
    exact Reads.pure acc
  | cons e l ih =>
    obtain ⟨k, p⟩ := e
    obtain ⟨h1, h2, h3⟩ := hok (k, p) (by simp)
    simp only [writeTop] at hw
    obtain ⟨a, ha, hw⟩ := Res.bind_inv hw
    obtain ⟨b, hb, hw⟩ := Res.bind_inv hw
    cases hw
    simp only [Out.app_bytes, List.length_append] at hn
    obtain ⟨bs, hbs, hr⟩ := (reads_property n).1 [k] p a h3 ha (by omega) (h32 (k, p) (by simp) a ha)
    rw [List.length_cons, Nat.succ_add_eq_add_succ, Nat.add_succ, readTop]
    simp only [Out.app_bytes, List.append_assoc, hbs]
    refine (reads_string h1).bind ?_
    rw [if_neg h2]
    refine (reads_string (headOK_typeName h3)).bind ?_
    refine Reads.bind (a := p) (Reads.withEntry hr) ?_
    have hk : imInsert (fun x y => x == y) k p acc = acc ++ [(k, p)] := by
      refine imInsert_fresh fun e he => ?_
      simp only [List.map_append, List.map_cons] at hd
      have := (List.nodup_append.mp hd).2.2 e.1 (List.mem_map_of_mem he) k (by simp)
      simpa using this
    rw [hk]
    have := ih (acc ++ [(k, p)]) b hb (by simpa using hd) (fun e he => hok e (by simp [he]))
      (by omega) (fun e he => h32 e (by simp [he]))
    simpa using this

theorem writeTop_each {cv : List (Guid × UInt32)} (l : List (String × Property)) (out : Out)
    (hw : writeTop cv l = .ok out) :
    ∀ e ∈ l, ∀ o, Property.write cv true e.2 = .ok o → o.bytes.length ≤ out.bytes.length := by
  induction l generalizing out with
  | nil => simp
  | cons e l ih =>
    obtain ⟨k, p⟩ := e
    simp only [writeTop] at hw
    obtain ⟨a, ha, hw⟩ := Res.bind_inv hw
    obtain ⟨b, hb, hw⟩ := Res.bind_inv hw
    cases hw
    intro e he o ho
    simp only [Out.app_bytes, List.length_append]
    rcases List.mem_cons.mp he with rfl | he
    · rw [ha] at ho; cases ho; omega
    · have := ih b hb e he o ho; omega

theorem writeTop_length {cv : List (Guid × UInt32)} (l : List (String × Property)) (out : Out)
    (hw : writeTop cv l = .ok out) : l.length ≤ out.bytes.length := by
  induction l generalizing out with
  | nil => simp
  | cons e l ih =>
    obtain ⟨k, p⟩ := e
    simp only [writeTop] at hw
    obtain ⟨a, ha, hw⟩ := Res.bind_inv hw
    obtain ⟨b, hb, hw⟩ := Res.bind_inv hw
    cases hw
    have := ih b hb
    have := writeString_pos k
    simp only [Out.app_bytes, List.length_append, List.length_cons]
    omega

theorem writeTop_ok {env : Env} (l : List (String × Property))
    (hok : ∀ e ∈ l, HeadOK env [e.1] e.2) : ∃ out, writeTop env.cv l = .ok out := by
  induction l with
  | nil => exact ⟨_, rfl⟩
  | cons e l ih =>
    obtain ⟨k, p⟩ := e
    obtain ⟨a, ha⟩ := headOK_writes (hok (k, p) (by simp))
    obtain ⟨b, hb⟩ := ih fun e he => hok e (by simp [he])
    exact ⟨_, by simp only [writeTop, ha, hb]; rfl⟩

variable {debug : Bool} {hints : String → Option String}

theorem fileOK_encodes {f : GvasFile} (h : FileOK debug hints f) : ∃ data, f.encode = .ok data := by
  obtain ⟨out, ho⟩ := writeTop_ok (env := fileEnv debug hints f.header) f.properties
    fun e he => (h.2.2 e he).2.2
  exact ⟨_, by simp only [GvasFile.encode]; rw [show writeTop f.header.customVersions f.properties = .ok out from ho]; rfl⟩

theorem fileOK_reads_each {f : GvasFile} {data : Bytes} (h : FileOK debug hints f)
    (he : f.encode = .ok data) (h32 : EachFits f) (rest : Bytes) :
    (readData debug hints (data ++ rest)).1 = .ok (f.header, f.properties) := by
  unfold GvasFile.encode at he
  obtain ⟨out, ho, he⟩ := Res.bind_inv he
  cases he
  have hl := writeTop_length _ _ ho
  unfold readData readContents RS.init
  generalize hn : (f.header.write.bytes ++ out.bytes ++ (writeString "None").bytes ++ i32B 0 ++ rest).length + 1 = n
  simp only [List.length_append] at hn
  obtain ⟨m, rfl⟩ : ∃ m, n = f.properties.length + (m + 1) := ⟨n - f.properties.length - 1, by omega⟩
  simp only [List.append_assoc]
  rw [R.bind_ok ((reads_header (st := []) h.1).run _ _)]
  have := reads_top (env := fileEnv debug hints f.header) (n := f.properties.length + (m + 1)) f.properties [] out ho
    (by simpa using h.2.1) h.2.2 (by omega) h32 m
  rw [List.nil_append] at this
  rw [← List.append_assoc out.bytes]
  rw [show ({ debug := debug, hints := hints, cv := f.header.customVersions } : Env) = fileEnv debug hints f.header from rfl]
  rw [R.bind_ok (this.run _ _)]
  rfl

theorem eachFits_of_small {f : GvasFile} {data : Bytes} (he : f.encode = .ok data)
    (h32 : data.length < 2 ^ 32) : EachFits f := by
  unfold GvasFile.encode at he
  obtain ⟨out, ho, he⟩ := Res.bind_inv he
  cases he
  simp only [List.length_append] at h32
  intro e hm o hw
  have := writeTop_each _ _ ho e hm o hw
  omega

theorem fileOK_reads {f : GvasFile} {data : Bytes} (h : FileOK debug hints f)
    (he : f.encode = .ok data) (h32 : data.length < 2 ^ 32) (rest : Bytes) :
    (readData debug hints (data ++ rest)).1 = .ok (f.header, f.properties) :=
  fileOK_reads_each h he (eachFits_of_small he h32) rest

end Gvas
