import Verif.Spec.Header
import Verif.Lemmas.StrBound
import Verif.Lemmas.Streams

/-! # Reading and writing headers -/

namespace Gvas

open Spec

@[simp] theorem Out.app_bytes (a b : Out) : (a ++ b).bytes = a.bytes ++ b.bytes := rfl
@[simp] theorem Out.app_n (a b : Out) : (a ++ b).n = a.n + b.n := rfl
@[simp] theorem Out.nil_bytes : Out.nil.bytes = [] := rfl
@[simp] theorem u32O_bytes (x : UInt32) : (u32O x).bytes = u32B x := rfl

theorem concatOut_bytes {α : Type} (f : α → Out) (l : List α) :
    (concatOut f l).bytes = l.flatMap fun a => (f a).bytes := by
  induction l with
  | nil => rfl
  | cons a l ih => rw [concatOut, Out.app_bytes, ih]; rfl

theorem u32_ofNat_toNat {n : Nat} (h : n < 2 ^ 32) : (UInt32.ofNat n).toNat = n := by
  rw [UInt32.toNat_ofNat']; exact Nat.mod_eq_of_lt h

theorem Reads.headerCheck {st : List String} {c : Prop} [Decidable c] {msg : String} (h : c) :
    Reads st (Gvas.headerCheck c msg) [] () := Reads.ensure h

theorem reads_engineVersion {st : List String} (v : FEngineVersion) (h : StrOK v.branch) :
    Reads st FEngineVersion.read v.write.bytes v := by
  unfold FEngineVersion.read FEngineVersion.write
  simp only [Out.app_bytes, List.append_assoc]
  exact (reads_u16 _).bind ((reads_u16 _).bind ((reads_u16 _).bind ((reads_u32 _).bind
    ((reads_string h).bind' (Reads.pure _) (by simp)))))

theorem reads_customVersion {st : List String} (v : Guid × UInt32) :
    Reads st FCustomVersion.read (FCustomVersion.write v).bytes v :=
  (reads_guid v.1).bind ((reads_u32 v.2).bind' (Reads.pure _) (by simp))

theorem reads_headerTail {st : List String} {ev : FEngineVersion} {format : UInt32}
    {cvs : List (Guid × UInt32)} {name : String} (h : HeaderTailOK ev format cvs name) :
    Reads st readHeaderTail (writeHeaderTail ev format cvs name).bytes (ev, format, cvs, name) := by
  unfold readHeaderTail writeHeaderTail
  simp only [Out.app_bytes, List.append_assoc, concatOut_bytes]
  refine (reads_engineVersion ev h.branch).bind ((reads_u32 _).bind
    ((Reads.headerCheck h.format).bind0 ((reads_u32 _).bind ?_)))
  rw [u32_ofNat_toNat h.count]
  refine (Reads.replicate (fun v => (FCustomVersion.write v).bytes) id cvs
    (fun v _ => reads_customVersion v)).bind ((reads_string h.name).bind' ?_
      (List.append_nil _).symm)
  have : imExtend (fun a b => decide (a = b)) [] cvs = cvs := by
    apply imExtend_nil_fresh
    exact h.distinct.imp (by simp)
  rw [List.map_id, this]
  exact Reads.pure _

theorem reads_header {st : List String} {h : GvasHeader} (hok : HeaderOK h) :
    Reads st GvasHeader.read h.write.bytes h := by
  unfold GvasHeader.read
  cases h with
  | version2 pkg ev format cvs name =>
    obtain ⟨h1, h2, h3⟩ := hok
    simp only [GvasHeader.write, Out.app_bytes, List.append_assoc, u32O_bytes]
    refine (reads_u32 _).bind ((Reads.headerCheck rfl).bind0 ((reads_u32 _).bind
      ((Reads.headerCheck (by decide)).bind0 ((reads_u32 _).bind ((Reads.headerCheck ?_).bind0 ?_)))))
    · simp [between, UInt32.le_iff_toNat_le]; omega
    · rw [if_neg (by decide)]
      exact (reads_headerTail h3).bind' (Reads.pure _) (by simp)
  | version3 pkg ue5 ev format cvs name =>
    obtain ⟨h1, h2, h4, h5, h3⟩ := hok
    simp only [GvasHeader.write, Out.app_bytes, List.append_assoc, u32O_bytes]
    refine (reads_u32 _).bind ((Reads.headerCheck rfl).bind0 ((reads_u32 _).bind
      ((Reads.headerCheck (by decide)).bind0 ((reads_u32 _).bind ((Reads.headerCheck ?_).bind0 ?_)))))
    · simp [between, UInt32.le_iff_toNat_le]; omega
    · rw [if_pos (by decide)]
      refine (reads_u32 _).bind ((Reads.headerCheck ?_).bind0
        ((reads_headerTail h3).bind' (Reads.pure _) (by simp)))
      simp [between, UInt32.le_iff_toNat_le]; omega

end Gvas
