import Verif.Props.Final

/-
C103: what the size of the report tells about where the file ends.
-/

namespace Verif.Props

open Spec Log Trailer

namespace SizeTells

/-- A block with a signature that the end of the file cuts off. -/
def CutOff (l : List Piece) : Prop := ∃ p ∈ l, p.signature.isSome ∧ p.bytes.length < p.declared

/-- The number of bytes of the blocks without signature. -/
def unsignedBytes (l : List Piece) : Nat := ((l.filter fun p => p.signature.isNone).map fun p => p.bytes.length).sum

theorem counts {b : Bytes} {l : List Piece} {last : Bytes} (h : Cut b l last) :
    (CutOff l → b.length < ((ExtraData.signed l).map Piece.declared).sum ∧ unsignedBytes l = 0 ∧ last = []) ∧
    (¬ CutOff l → ((ExtraData.signed l).map Piece.declared).sum + unsignedBytes l + last.length = b.length) := by
  induction h with
  | stop h => exact ⟨fun ⟨p, hp, _⟩ => absurd hp (by simp), fun _ => by simp [ExtraData.signed, unsignedBytes]⟩
  | @block b n l last h hn hl ih =>
    obtain ⟨ih1, ih2⟩ := ih
    rw [List.length_drop] at ih1 ih2
    rcases hu : uAt 4 b 4 with _ | s
    · have h8 := uAt_eq_none_iff.1 hu
      have e1 : ExtraData.signed (⟨n, b.take n, none⟩ :: l) = ExtraData.signed l := rfl
      have e2 : unsignedBytes (⟨n, b.take n, none⟩ :: l) = min n b.length + unsignedBytes l := by
        simp [unsignedBytes]
      have hs := Final.short_unsigned hl (by rw [List.length_drop]; omega)
      have hno : ¬ CutOff l := by
        rintro ⟨p, hp, h1, -⟩
        have : p ∈ ExtraData.signed l := List.mem_filter.2 ⟨hp, h1⟩
        rw [hs] at this
        cases this
      refine ⟨?_, fun _ => ?_⟩
      · rintro ⟨p, hp, h1, h2⟩
        rcases List.mem_cons.1 hp with rfl | hp
        · cases h1
        · exact absurd ⟨p, hp, h1, h2⟩ hno
      · rw [e1, e2]
        have := ih2 hno
        omega
    · have h8 := ExtraData.uAt_some_length hu
      have e1 : ((ExtraData.signed (⟨n, b.take n, some s⟩ :: l)).map Piece.declared).sum =
          n + ((ExtraData.signed l).map Piece.declared).sum := by
        have : ExtraData.signed (⟨n, b.take n, some s⟩ :: l) = ⟨n, b.take n, some s⟩ :: ExtraData.signed l := rfl
        rw [this]
        simp
      have e2 : unsignedBytes (⟨n, b.take n, some s⟩ :: l) = unsignedBytes l := rfl
      have e3 : CutOff (⟨n, b.take n, some s⟩ :: l) ↔ b.length < n ∨ CutOff l := by
        unfold CutOff
        simp
      rw [e1, e2, e3]
      by_cases hc : b.length < n
      · have he : b.drop n = [] := List.drop_eq_nil_of_le (by omega)
        rw [he] at hl
        cases hl with
        | block h' _ _ => simp [uAt] at h'
        | stop _ => exact ⟨fun _ => ⟨by omega, rfl, rfl⟩, fun h => absurd (.inl hc) h⟩
      · refine ⟨fun h => ?_, fun h => ?_⟩
        · obtain ⟨h1, h2⟩ := ih1 (h.resolve_left hc)
          exact ⟨by omega, h2⟩
        · have := ih2 fun hx => h (.inr hx)
          omega

end SizeTells

open SizeTells in
/-- C103: the size is larger than the file exactly if the file ends before its extra data or within a block that has a signature; it is
smaller exactly if more than four bytes are left behind the blocks with a signature. -/
theorem size_tells (env : Env) (cp : Option String) (ht : Tame (TextProc.mk' env cp)) (allow : Bool) (src : Source) (f : LnkFile)
    (hf : (LnkFile.init env cp allow src).res = .ok f) (L : Layout) (hL : layout src.bytes = some L) (l : List Piece) (last : Bytes)
    (hc : Cut (src.bytes.drop L.extraAt) l last) :
    (src.bytes.length < f.size ↔
      src.bytes.length < L.extraAt ∨ ∃ p ∈ l, p.signature.isSome ∧ p.bytes.length < p.declared) ∧
    (f.size < src.bytes.length ↔
      4 < ((l.filter fun p => p.signature.isNone).map fun p => p.bytes.length).sum +
        if allow = true ∧ 4 < last.length then 0 else last.length) := by
  replace hf := LnkFile.init_ok hf
  obtain ⟨L', l', last', h1, h2, hP, -⟩ := LnkFile.parts_tame ht hf
  rw [hL] at h1
  cases h1
  obtain ⟨rfl, rfl⟩ := cut_unique hc h2
  obtain ⟨n, hn, hsz⟩ := hP.size
  obtain ⟨k1, k2⟩ := counts hc
  rw [List.length_drop] at k1 k2
  change (_ ↔ _ ∨ CutOff l) ∧ (_ ↔ 4 < unsignedBytes l + _)
  by_cases ho : CutOff l
  · obtain ⟨a1, a2, rfl⟩ := k1 ho
    simp only [List.length_nil, Nat.not_lt_zero, and_false, if_false] at hn ⊢
    rw [a2]
    exact ⟨⟨fun _ => .inr ho, fun _ => by omega⟩, ⟨fun _ => by omega, fun _ => by omega⟩⟩
  · have := k2 ho
    constructor
    · constructor
      · intro h
        refine .inl ?_
        split at hn <;> omega
      · rintro (h | h)
        · omega
        · exact absurd h ho
    · split at hn <;> rename_i hx
      · rw [if_pos hx]
        omega
      · rw [if_neg hx]
        omega

/-- A header and a block of 20 bytes of which 8 are there: the size is larger than the file. -/
example (env : Env) (cp : Option String) (ht : Tame (TextProc.mk' env cp)) (allow : Bool) (f : LnkFile)
    (hf : (LnkFile.init env cp allow (.indata (bareHeader ++ (le 4 20 ++ le 4 0xA0000004)))).res = .ok f) : 84 < f.size :=
  (size_tells env cp ht allow _ f hf ⟨76, 0, 76, 76, 76⟩ (by decide +kernel) [⟨20, le 4 20 ++ le 4 0xA0000004, some 0xA0000004⟩] []
    (.block (b := le 4 20 ++ le 4 0xA0000004) (n := 20) (by decide +kernel) (by decide)
      (.stop (b := []) (.inl (by decide +kernel))))).1.2 (.inr ⟨_, List.mem_cons_self, rfl, by decide⟩)

/-- The same with all its bytes: the size is that of the file. -/
example (env : Env) (cp : Option String) (ht : Tame (TextProc.mk' env cp)) (allow : Bool) (f : LnkFile)
    (hf : (LnkFile.init env cp allow (.indata oneBlock)).res = .ok f) : f.size = oneBlock.length := by
  obtain ⟨h1, h2⟩ := size_tells env cp ht allow _ f hf _ oneBlock_open.layout _ _ oneBlock_open.cut
  have h3 : ¬ oneBlock.length < f.size := by
    rw [show oneBlock.length = (Source.indata oneBlock).bytes.length from rfl, h1]
    rintro (h | ⟨p, hp, -, h⟩)
    · exact absurd h (Nat.not_lt.2 oneBlock_open.there)
    · obtain rfl := List.mem_singleton.1 hp
      revert h
      decide
  have h4 : ¬ f.size < oneBlock.length := by
    rw [show oneBlock.length = (Source.indata oneBlock).bytes.length from rfl, h2]
    cases allow <;> decide
  omega

/-- A header, a terminal block and a byte: smaller, unless terminal blocks are allowed. -/
example (env : Env) (cp : Option String) (ht : Tame (TextProc.mk' env cp)) (allow : Bool) (f : LnkFile)
    (hf : (LnkFile.init env cp allow (.indata (bareHeader ++ (le 4 0 ++ [7])))).res = .ok f) : f.size < 81 ↔ allow = false := by
  have h := (size_tells env cp ht allow _ f hf ⟨76, 0, 76, 76, 76⟩ (by decide +kernel) [] (le 4 0 ++ [7])
    (.stop (b := le 4 0 ++ [7]) (.inr (by decide +kernel)))).2
  rw [show (Source.indata (bareHeader ++ (le 4 0 ++ [7]))).bytes.length = 81 from by decide +kernel] at h
  rw [h]
  cases allow <;> decide

end Verif.Props
