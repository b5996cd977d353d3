import Verif.Lemmas.Log
import Verif.Lemmas.FaultExtra

/-
What reading a text says and raises.
-/

namespace Verif.Py

open Spec Spec.Log

theorem logs_ansi (tp : TextProc) (a : Bytes) : Logs (tp.ansiToStr a) (decoded tp a) := by
  unfold Log.decoded TextProc.ansiToStr decodeNamed decodeNamedReplace
  by_cases ha : a = []
  · subst ha
    exact ⟨rfl, rfl⟩
  simp only [if_neg ha]
  rcases hc : tp.env.resolve tp.cp with _ | c
  · exact ⟨rfl, rfl⟩
  simp only
  rcases hs : c.strict a with x | t
  · by_cases hx : x = .unicodeDecode
    · subst hx
      refine .inr ⟨rfl, ?_⟩
      unfold decodeUtf8
      rcases hu : utf8Decode a with _ | t
      · right
        refine ⟨fun s hs' => by rw [utf8Decode_eq_some_iff.2 hs'] at hu; simp at hu, ?_⟩
        rcases hr : c.replace a with y | s
        · exact ⟨rfl, rfl⟩
        · exact ⟨rfl, rfl⟩
      · left
        exact ⟨⟨t, utf8Decode_eq_some_iff.1 hu⟩, rfl, rfl⟩
    · refine .inl ⟨hx, ?_⟩
      simp only [tryExcept, hx, decide_false, Bool.false_eq_true, if_false]
      exact ⟨rfl, rfl⟩
  · exact ⟨rfl, rfl⟩

theorem logs_narrow (tp : TextProc) (b : Bytes) : Logs (tp.readString b) (narrow tp b) := by
  have := logs_ansi tp (b.takeWhile (· ≠ 0))
  rcases nul_cases b with h0 | ⟨a, rest, h0, rfl⟩
  · rw [readString_last tp h0]
    rw [Values.takeWhile_all h0] at this
    unfold Log.narrow
    rw [Values.takeWhile_all h0]
    exact this
  · rw [readString_cons tp rest h0]
    rw [Values.takeWhile_zero h0] at this
    unfold Log.narrow
    rw [Values.takeWhile_zero h0]
    exact this

theorem logs_utf16 (us : List UInt16) (h : 0 ∉ us) (tail : Bytes) (ht : tail.length < 2) :
    Logs (TextProc.readUnicodeString (units us ++ tail)) (utf16Read (units us ++ tail)) := by
  obtain ⟨s, hs⟩ := utf16Lenient_total (units us ++ tail)
  rw [Props.wide_decode us h tail ht s hs]
  by_cases hw : ∃ t, units us ++ tail = utf16 t
  · have : units us ++ tail = utf16 s := by
      obtain ⟨t, e⟩ := hw
      have h1 := utf16Lenient_pieces hs
      have h2 := utf16Pieces_utf16 t []
      rw [List.append_nil] at h2
      rw [e, h2] at h1
      rw [← h1, e]; simp [replaceOf, utf16Pieces, Function.comp_def]
    rw [if_pos this]
    exact .inl ⟨⟨s, this⟩, rfl, rfl⟩
  · have hw' : ∀ t, units us ++ tail ≠ utf16 t := fun t e => hw ⟨t, e⟩
    rw [if_neg (hw' s)]
    exact .inr ⟨hw', s, hs, rfl, rfl⟩

theorem logs_wide (b : Bytes) : Logs (TextProc.readUnicodeString b) (wide b) := by
  obtain ⟨us, h, ⟨tail, ht, rfl⟩ | ⟨rest, rfl⟩⟩ := Props.wide_nul_cases b
  · exact ⟨us, h, .inl ⟨tail, ht, rfl, logs_utf16 us h tail ht⟩⟩
  · refine ⟨us, h, .inr ⟨rest, rfl, ?_⟩⟩
    rw [Props.wide_stops_at_nul us rest h]
    have := logs_utf16 us h [] (by simp)
    rwa [List.append_nil] at this

end Verif.Py
