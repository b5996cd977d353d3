import Verif.Lemmas.LogText
import Verif.Props.Notices

/-
What the header says and raises.
-/

namespace Verif.Py

open Spec Spec.Log

/-- A computation with a log of several parts. -/
theorem logs_app {x : Py α} {f : α → Py β} {ls ms : List Log} (hx : Logs x (all ls)) (hf : ∀ a, x.res = .ok a → Logs (f a) (all ms)) :
    Logs (x >>= f) (all (ls ++ ms)) := by rw [all_append]; exact logs_bind hx hf

theorem logs_filetime {b : Bytes} {s e : Nat} (he : e = s + 8) :
    Logs (parseFiletime (slice b s e)) (all [room e b, time b s]) := by
  subst he
  by_cases h : s + 8 ≤ b.length
  · rw [room_pos h, all_quiet, all_one]
    obtain ⟨v, hv⟩ := leI8_surj (b := slice b s (s + 8)) (by simp; omega)
    obtain ⟨r, w, h1, h2⟩ := Props.time_read v
    have hs : sAt 8 b s = some v.toInt := by
      refine Values.sAt_of (by omega) ?_
      rw [← hv, unpackI_leI8]
      rfl
    rw [← hv, h1]
    refine ⟨v.toInt, hs, ?_⟩
    have h0 : v.toInt ≠ 0 ↔ v ≠ 0 := by
      rw [ne_eq, ne_eq, not_iff_not, ← Int64.toInt_inj]
      rfl
    rw [h0]
    by_cases hz : v = 0
    · right
      refine ⟨fun h => h.1 hz, ?_⟩
      obtain ⟨rfl, rfl⟩ := h2.zero hz
      exact ⟨rfl, rfl⟩
    rcases r with _ | d
    · left
      obtain ⟨rfl, h4⟩ := h2.missing hz rfl
      refine ⟨hz, h4, ?_⟩
      have : between b s (s + 8) = leI 8 v.toInt := hv.symm
      rw [this]
      exact ⟨rfl, rfl⟩
    · right
      refine ⟨fun h => (h2.stamp d rfl).2 h.2, ?_⟩
      obtain ⟨-, -, rfl⟩ := h2.near d rfl
      exact ⟨rfl, rfl⟩
  · rw [room_neg h, all_fail, Props.filetime_wrong_length _ (by simp; omega)]
    exact logs_raise _

theorem logs_classId {b : Bytes} : Logs (LnkHeader.linkClsId ⟨b⟩) (all [room 20 b, classId b]) := by
  unfold LnkHeader.linkClsId
  by_cases h : 20 ≤ b.length
  · rw [room_pos h, all_quiet, all_one]
    obtain ⟨g, hg⟩ := Props.guid_every_16_bytes (slice b 4 20) (by simp; omega)
    have ht : shellLinkCLSID.text = "00021401-0000-0000-C000-000000000046".toList := by decide +kernel
    simp only
    rw [← hg, parseUuid_encode, Verif.mustBe_pure, ← ht]
    have h1 : between b 4 20 = g.encode := hg.symm
    unfold Logs Log.classId unlessEqual
    generalize shellLinkCLSID.text = c
    refine ⟨g, h1, ?_⟩
    by_cases hc : MustVal.str g.text = MustVal.str c
    · simp only [if_pos hc]
      exact ⟨rfl, rfl⟩
    · simp only [if_neg hc]
      exact ⟨rfl, rfl⟩
  · rw [room_neg h, all_fail, parseUuid_short (by simp; omega)]
    exact logs_raise _

theorem logs_mustBe {b : Bytes} {n s e : Nat} (name : String) (v : Nat) (h : s < e) (hn : n = e - s) :
    Logs (mustBe name (.int v) (fun k : Nat => .int k) (unpackU n (slice b s e)))
      (all [room e b, say (unlessEqual name (.int v) (.int ((uAt n b s).getD 0)))]) := by
  have hr := reads_unpackU (b := b) h hn
  by_cases hl : e ≤ b.length
  · rw [room_pos hl, all_quiet, all_one, Props.Notices.mustBe_pure (hr.ok hl)]
    exact logs_ok
  · rw [room_neg hl, all_fail, hr.err (by omega)]
    exact logs_raise _

theorem reads_map {x : Py α} {k : Nat} {b : Bytes} {v : α} (g : α → β) (h : Reads x k b v) : Reads (x >>= fun a => pure (g a)) k b (g v) :=
  ⟨fun hl => by rw [h.ok hl]; rfl, fun hl => by rw [h.err hl]; rfl⟩

theorem reads_hotKey {b : Bytes} : Reads (LnkHeader.hotKey ⟨b⟩) 66 b (val (LnkHeader.hotKey ⟨b⟩)) := by
  constructor
  · intro h
    unfold LnkHeader.hotKey
    have h2 : (slice b 64 66).length = 2 := by simp; omega
    obtain ⟨x, y, hxy⟩ := List.length_eq_two.1 h2
    simp only [hxy]
    split <;> rfl
  · intro h
    unfold LnkHeader.hotKey
    have h2 : (slice b 64 66).length ≠ 2 := by simp; omega
    simp only
    split
    · rename_i x y e
      rw [e] at h2
      simp at h2
    · rfl

theorem logs_header {f : LnkFile} {b : Bytes} (hf : f.header = ⟨b⟩) : Logs f.jsonHeader (header b) := by
  unfold LnkFile.jsonHeader Log.header
  rw [hf]
  refine logs_app logs_classId fun _ _ => ?_
  refine read_step (reads_unpackU (by omega) (by omega)) (by omega) ?_
  refine read_step (reads_unpackU (by omega) (by omega)) (by omega) ?_
  refine logs_app (logs_filetime (by omega)) fun _ _ => ?_
  refine logs_app (logs_filetime (by omega)) fun _ _ => ?_
  refine logs_app (logs_filetime (by omega)) fun _ _ => ?_
  refine read_step (reads_unpackU (by omega) (by omega)) (by omega) ?_
  refine read_step (reads_unpackI (by omega) (by omega)) (by omega) ?_
  refine read_step (reads_map _ (reads_unpackI (by omega) (by omega))) (by omega) ?_
  refine read_last reads_hotKey fun hl => ?_
  refine read_known (reads_unpackU (by omega) (by omega)) (by omega) ?_
  refine read_known (b := b) (reads_map _ (reads_unpackU (by omega) (by omega))) (by omega) ?_
  refine read_known (b := b) (reads_map _ (reads_unpackU (by omega) (by omega))) (by omega) ?_
  have h4 := logs_mustBe (b := b) "size" 76 (s := 0) (e := 4) (by omega) (n := 4) (by omega)
  rw [room_pos (by omega), all_quiet] at h4
  refine logs_app h4 fun _ _ => ?_
  refine logs_app (logs_mustBe "reserved0" 0 (by omega) (by omega)) fun _ _ => ?_
  refine logs_app (logs_mustBe "reserved1" 0 (by omega) (by omega)) fun _ _ => ?_
  have h7 := logs_mustBe (b := b) "reserved2" 0 (s := 72) (e := 76) (by omega) (n := 4) (by omega)
  exact logs_map _ h7

end Verif.Py
