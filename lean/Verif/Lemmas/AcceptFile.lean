import Verif.Lemmas.AcceptRec
import Verif.Lemmas.File
import Verif.Lemmas.Instances

/-! # Files that were read are representable -/

namespace Gvas

open Spec

variable {st : List String}

theorem ens_headerCheck {c : Prop} [Decidable c] {msg : String} :
    Ens st (headerCheck c msg) (fun _ k => c ∧ k = 0) := Ens.ensure Ens.fail

theorem ens_engineVersion : Ens st FEngineVersion.read
    (fun v k => StrOK v.branch ∧ v.write.bytes.length ≤ 2 * k) := by
  unfold FEngineVersion.read
  refine ens_u16.bind fun a k1 h1 => ens_u16.bind fun b k2 h2 => ens_u16.bind fun c k3 h3 =>
    ens_u32.bind fun d k4 h4 => ens_string.bind fun e k5 h5 => Ens.pure ⟨h5.1, ?_⟩
  simp only [FEngineVersion.write, Out.app_bytes, List.length_append, u16B_length, u32B_length]
  omega

theorem ens_customVersion : Ens st FCustomVersion.read
    (fun v k => True ∧ (FCustomVersion.write v).bytes.length ≤ 2 * k) := by
  unfold FCustomVersion.read
  refine ens_guid.bind fun a k1 h1 => ens_u32.bind fun b k2 h2 => Ens.pure ⟨trivial, ?_⟩
  simp only [FCustomVersion.write, List.length_append, guidB_length, u32B_length]
  omega

theorem ens_headerTail : Ens st readHeaderTail
    (fun x k => HeaderTailOK x.1 x.2.1 x.2.2.1 x.2.2.2 ∧
      (writeHeaderTail x.1 x.2.1 x.2.2.1 x.2.2.2).bytes.length ≤ 2 * k) := by
  unfold readHeaderTail
  refine ens_engineVersion.bind fun ev k1 h1 => ens_u32.bind fun f k2 h2 =>
    ens_headerCheck.bind fun _ k3 h3 => ens_u32.bind fun n k4 h4 =>
    (Ens.replicate ens_customVersion n.toNat).bind fun vs k5 h5 => ens_string.bind fun nm k6 h6 =>
    Ens.pure ?_
  have hn := n.toNat_lt
  have hl := imExtend_length (same := fun a b : Guid => decide (a = b)) vs []
  have hd := imExtend_distinct (same := fun a b : Guid => decide (a = b)) vs [] (by simp)
  have hs := imExtend_sum (same := fun a b : Guid => decide (a = b))
    (fun _ : Guid => 16) (fun _ : UInt32 => 4) vs []
  simp only [List.length_nil] at hl
  simp only [List.map_nil, List.sum_nil] at hs
  have hw : ∀ v : Guid × UInt32, (FCustomVersion.write v).bytes.length = 16 + 4 := by
    intro v
    simp [FCustomVersion.write]
  refine ⟨⟨h3.1, h1.1, ?_, by simp only; omega, h6.1⟩, ?_⟩
  · exact hd.imp fun h => by simpa using h
  · simp only [writeHeaderTail, Out.app_bytes, List.length_append, u32O_bytes, u32B_length,
      concatOut_length, hw]
    simp only [hw] at h5
    omega

theorem between_iff {x lo hi : UInt32} : between x lo hi = true ↔ lo.toNat ≤ x.toNat ∧ x.toNat ≤ hi.toNat := by
  simp [between, UInt32.le_iff_toNat_le]

theorem ens_gvasHeader : Ens st GvasHeader.read
    (fun h k => HeaderOK h ∧ h.write.bytes.length + 12 ≤ 2 * k) := by
  unfold GvasHeader.read
  refine ens_u32.bind fun tag k1 h1 => ens_headerCheck.bind fun _ k2 h2 => ens_u32.bind
    fun ver k3 h3 => ens_headerCheck.bind fun _ k4 h4 => ens_u32.bind fun pkg k5 h5 =>
    ens_headerCheck.bind fun _ k6 h6 => ?_
  have hp := between_iff.mp h6.1
  split
  · refine ens_u32.bind fun ue5 k7 h7 => ens_headerCheck.bind fun _ k8 h8 =>
      ens_headerTail.bind fun x k9 h9 => ?_
    obtain ⟨ev, f, cvs, nm⟩ := x
    have hu := between_iff.mp h8.1
    refine Ens.pure ⟨⟨hp.1, hp.2, hu.1, hu.2, h9.1⟩, ?_⟩
    have := h9.2
    simp only [GvasHeader.write, Out.app_bytes, List.length_append, u32O_bytes, u32B_length] at this ⊢
    omega
  · refine ens_headerTail.bind fun x k9 h9 => ?_
    obtain ⟨ev, f, cvs, nm⟩ := x
    refine Ens.pure ⟨⟨hp.1, hp.2, h9.1⟩, ?_⟩
    have := h9.2
    simp only [GvasHeader.write, Out.app_bytes, List.length_append, u32O_bytes, u32B_length] at this ⊢
    omega

theorem imInsert_forall_eq {κ ν : Type} [BEq κ] [LawfulBEq κ] {P : κ → ν → Prop} {k : κ} {v : ν}
    (m : List (κ × ν)) (hm : ∀ e ∈ m, P e.1 e.2) (hk : P k v) :
    ∀ e ∈ imInsert (· == ·) k v m, P e.1 e.2 := by
  induction m with
  | nil => simpa [imInsert] using hk
  | cons x m ih =>
    obtain ⟨k', v'⟩ := x
    have h2 := ih fun e he => hm e (by simp [he])
    simp only [imInsert]
    split
    · rename_i he
      have : k' = k := by simpa using he
      subst this
      intro e he
      rcases List.mem_cons.mp he with rfl | he
      · exact hk
      · exact hm e (by simp [he])
    · intro e he
      rcases List.mem_cons.mp he with rfl | he
      · exact hm _ (by simp)
      · exact h2 e he

/-- Bytes of the top level. -/
def topSize (cv : List (Guid × UInt32)) (e : String × Property) : Nat :=
  (writeString e.1).bytes.length + outLen (Property.write cv true e.2)

theorem outLen_top (cv : List (Guid × UInt32)) (l : List (String × Property)) :
    outLen (writeTop cv l) ≤ (l.map (topSize cv)).sum := by
  induction l with
  | nil => simp [writeTop, outLen]
  | cons e l ih =>
    obtain ⟨k, p⟩ := e
    simp only [writeTop, List.map_cons, List.sum_cons]
    refine outLen_map2 (Nat.le_refl _) ih fun o o' h h' => ?_
    simp only [Out.app_bytes, List.length_append, topSize]
    omega

/-- What the top-level loop maintains. -/
def TopInv (env : Env) (ps : List (String × Property)) : Prop :=
  (ps.map Prod.fst).Nodup ∧ ∀ e ∈ ps, StrOK e.1 ∧ e.1 ≠ "None" ∧ HeadOK env [e.1] e.2

theorem ens_top {env : Env} {rec : String → Bool → Option UInt32 → R Property}
    (hrec : RecPost env rec) (n : Nat) (ps : List (String × Property)) (hps : TopInv env ps) :
    Ens [] (readTop rec n ps) (fun qs k => TopInv env qs ∧ 5 ≤ k ∧
      (qs.map (topSize env.cv)).sum + 10 ≤ (ps.map (topSize env.cv)).sum + 2 * k) := by
  induction n generalizing ps with
  | zero => exact Ens.outOfFuel
  | succ n ih =>
    rw [readTop]
    refine ens_string.bind fun name k1 h1 => ?_
    split
    · exact Ens.pure ⟨hps, by omega, by omega⟩
    · rename_i hne
      refine ens_string.bind fun ty k2 h2 => (Ens.withEntry (hrec.head _ _ h2.1)).bind
        fun p k3 h3 => ?_
      obtain ⟨g1, g2, g3⟩ := h3
      have hinv : TopInv env (imInsert (· == ·) name p ps) := by
        refine ⟨?_, ?_⟩
        · refine nodup_of_beq (imInsert_distinct name p ps ?_)
          exact hps.1.imp fun h => by simpa using h
        · exact imInsert_forall_eq (P := fun k v => StrOK k ∧ k ≠ "None" ∧ HeadOK env [k] v) ps
            hps.2 ⟨h1.1, hne, g1⟩
      refine (ih _ hinv).mono fun qs k4 h4 => ⟨h4.1, by omega, ?_⟩
      have hs := imInsert_sum (same := fun a b : String => a == b)
        (fun s => (writeString s).bytes.length) (fun p => outLen (Property.write env.cv true p))
        name p ps
      have h42 := h4.2.2
      have e : ∀ l : List (String × Property), (l.map (topSize env.cv)).sum =
        (l.map fun e => (writeString e.1).bytes.length +
          outLen (Property.write env.cv true e.2)).sum := fun _ => rfl
      rw [← e, ← e] at hs
      omega

theorem ens_contents {debug : Bool} {hints : String → Option String} {fuel : Nat} :
    Ens [] (readContents debug hints fuel) (fun x k =>
      ∀ gv, FileOK debug hints ⟨gv, x.1, x.2⟩ ∧
        ∀ d, GvasFile.encode ⟨gv, x.1, x.2⟩ = .ok d → d.length ≤ 2 * k) := by
  unfold readContents
  refine ens_gvasHeader.bind fun h k1 h1 => ?_
  refine (ens_top (env := fileEnv debug hints h) (accept_property fuel) fuel []
    ⟨by simp, by simp⟩).bind fun ps k2 h2 => Ens.pure ?_
  intro gv
  refine ⟨⟨h1.1, h2.1.1, h2.1.2⟩, fun d hd => ?_⟩
  unfold GvasFile.encode at hd
  obtain ⟨out, ho, hd⟩ := Res.bind_inv hd
  cases hd
  have hl := outLen_top (fileEnv debug hints h).cv ps
  rw [show writeTop (fileEnv debug hints h).cv ps = .ok out from ho] at hl
  have hn : (writeString "None").bytes.length = 9 := by decide +kernel
  have h1' := h1.2
  have h2' := h2.2.2
  simp only [List.length_append, outLen, hn, i32B_length, List.map_nil, List.sum_nil] at hl h2' ⊢
  omega

theorem accept_data {debug : Bool} {hints : String → Option String} {data : Bytes}
    {h : GvasHeader} {ps : List (String × Property)}
    (hr : (readData debug hints data).1 = .ok (h, ps)) (gv : DeserializedGameVersion) :
    FileOK debug hints ⟨gv, h, ps⟩ ∧ ∃ d, GvasFile.encode ⟨gv, h, ps⟩ = .ok d ∧
      d.length ≤ 2 * data.length := by
  have e : readContents debug hints (data.length + 1) (RS.init data) =
      (.ok (h, ps), (readData debug hints data).2) := by
    rw [← hr]; rfl
  obtain ⟨_, k, hk, hall⟩ := ens_contents _ _ _ _ e
  obtain ⟨h1, h2⟩ := hall gv
  obtain ⟨d, hd⟩ := fileOK_encodes h1
  refine ⟨h1, d, hd, ?_⟩
  have h3 := h2 d hd
  obtain ⟨pre, h4, h5, _⟩ := (readContents_good debug hints (data.length + 1) (RS.init data)).consumes
  rw [e] at h4 h5
  simp only [RS.init] at h4 h5
  have h6 := congrArg List.length h4
  simp only [List.length_append] at h6
  omega

end Gvas
