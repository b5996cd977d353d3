import Verif.Spec.HeaderTold
import Verif.Props.ItemsTold

/-
C109: what the report tells about the header.
-/

namespace Verif.Props

open Spec Py Verif.Values

namespace HeaderTold

open InfoTold BlockTold StoreTold ItemsTold

theorem pin_int4 {w w' : Bytes} {off : Nat} : Pin (IntAt 4 w off) (IntAt 4 w' off) (SameBytes w w' off (off + 4)) := by
  constructor
  · rintro v ⟨k, hk, rfl⟩ ⟨m, hm, e⟩
    simp only [PyVal.int.injEq] at e
    subst e
    unfold sAt at hk hm
    obtain ⟨x, hx, ex⟩ := Option.map_eq_some_iff.1 hk
    obtain ⟨y, hy, ey⟩ := Option.map_eq_some_iff.1 hm
    have lx := uAt_lt hx
    have ly := uAt_lt hy
    have : x = y := by
      rw [← ey] at ex
      split at ex <;> split at ex <;> omega
    subst this
    exact num_bytes hx hy
  · intro h v v' hv hv'
    rw [int_eq (by omega) h] at hv
    exact sole_int _ _ _ _ _ hv hv'

theorem pin_time {w w' : Bytes} {off : Nat} : Pin (FiletimeAt w off) (FiletimeAt w' off) (EqualTime w w' off) := by
  constructor
  · rintro v ⟨t, ht, -, h⟩ ⟨t', ht', -, h'⟩
    refine ⟨t, t', ht, ht', ?_⟩
    rcases h with ⟨rfl, h⟩ | ⟨d, rfl, h1, h2, h3, h4, -⟩
    · rcases h' with ⟨-, h'⟩ | ⟨d', e, -⟩
      · exact .inl ⟨h, h'⟩
      · cases e
    · rcases h' with ⟨e, -⟩ | ⟨d', e, h1', h2', h3', h4', -⟩
      · cases e
      · cases e
        exact .inr ⟨fun h => h.elim h1 h2, fun h => h.elim h1' h2', _, h4, h4'⟩
  · rintro ⟨s, s', hs, hs', h⟩ v v' ⟨t, ht, -, hv⟩ ⟨t', ht', -, hv'⟩
    rw [hs] at ht
    rw [hs'] at ht'
    cases ht
    cases ht'
    rcases h with ⟨n, n'⟩ | ⟨n, n', m, hm, hm'⟩
    · rcases hv with ⟨rfl, -⟩ | ⟨d, -, h1, h2, -⟩
      · rcases hv' with ⟨rfl, -⟩ | ⟨d, -, h1, h2, -⟩
        · rfl
        · exact absurd n' (fun h => h.elim h1 h2)
      · exact absurd n (fun h => h.elim h1 h2)
    · rcases hv with ⟨-, h⟩ | ⟨d, rfl, -, -, h3, h4, -⟩
      · exact absurd h n
      · rcases hv' with ⟨-, h⟩ | ⟨d', rfl, -, -, h3', h4', -⟩
        · exact absurd h n'
        · have := (stamp_unique h4 hm).trans (stamp_unique hm' h4')
          rw [instant_inj h3 h3' (by exact_mod_cast this)]

theorem pin_show {b b' : Bytes} : Pin (fun v => ∃ i, sAt 4 b 60 = some i ∧ v = .str (showCommandName i).toList)
    (fun v => ∃ i, sAt 4 b' 60 = some i ∧ v = .str (showCommandName i).toList)
    (∀ i : Int, i = 3 ∨ i = 7 → (sAt 4 b 60 = some i ↔ sAt 4 b' 60 = some i)) := by
  have name : ∀ i k : Int, showCommandName i = showCommandName k ↔ ∀ m : Int, m = 3 ∨ m = 7 → (i = m ↔ k = m) := by
    intro i k
    simp only [forall_eq_or_imp, forall_eq]
    unfold showCommandName
    split_ifs <;> simp_all
  constructor
  · rintro v ⟨i, hi, rfl⟩ ⟨k, hk, e⟩ m hm
    have := (name i k).1 ((is_inj _ _).1 e) m hm
    rw [hi, hk]
    simpa using this
  · rintro h v v' ⟨i, hi, rfl⟩ ⟨k, hk, rfl⟩
    rw [(name i k).2 fun m hm => ?_]
    have := h m hm
    rw [hi, hk] at this
    simpa using this

theorem pin_bits {names : List String} {w w' : Bytes} {off : Nat} :
    Pin (BitsAt names w off) (BitsAt names w' off) (SameSaid (BitsAt names w off) (BitsAt names w' off)) :=
  pin_said (sole_bits _ _ _) (sole_bits _ _ _)

theorem bits_eq {names : List String} {w w' : Bytes} {off : Nat} (h : SameBytes w w' off (off + 4)) :
    SameSaid (BitsAt names w off) (BitsAt names w' off) := by
  intro v
  unfold BitsAt
  rw [bytes_num (by omega) h]

theorem header_entries {b b' : Bytes} {d d' : Dict} (h : Fits d (headerEntries b)) (h' : Fits d' (headerEntries b')) :
    d = d' ↔ EqualHeader b b' := by
  have sole_key : ∀ b : Bytes, Sole (fun v => ∃ low high, b[64]? = some low ∧ b[65]? = some high ∧ v = .str (hotKeyText low high)) := by
    rintro b v w ⟨l, h, h1, h2, rfl⟩ ⟨l', h', h1', h2', rfl⟩
    rw [h1] at h1'
    rw [h2] at h2'
    cases h1'
    cases h2'
    rfl
  refine ((Pins.cons pin_guid <| .cons (pin_nat (by omega)) <| .cons (pin_nat (by omega)) <| .cons pin_time <| .cons pin_time <| .cons pin_time <|
    .cons (pin_nat (by omega)) <| .cons pin_int4 <| .cons pin_show <| .cons (pin_said (sole_key b) (sole_key b')) <| .cons (pin_nat (by omega)) <|
    .cons pin_bits <| .cons pin_bits <| .cons (pin_nat (by omega)) <| .cons (pin_nat (by omega)) <| .cons (pin_nat (by omega)) <|
    .cons (pin_nat (by omega)) .nil).told h h').trans ⟨?_, ?_⟩
  · rintro ⟨a1, a2, a3, a4, a5, a6, a7, a8, a9, -, a11, -, -, a14, a15, a16, a17, -⟩
    exact ⟨sameBytes_append a14 <| sameBytes_append a1 <| sameBytes_append a2 a3, a4, a5, a6, sameBytes_append a7 a8, a9,
      sameBytes_append a11 <| sameBytes_append a15 <| sameBytes_append a16 a17⟩
  · rintro ⟨a, b1, b2, b3, c, e, f⟩
    have l : SameBytes b b' 20 24 := sameBytes_sub a (by omega) (by omega)
    have m : SameBytes b b' 24 28 := sameBytes_sub a (by omega) (by omega)
    refine ⟨sameBytes_sub a (by omega) (by omega), l, m, b1, b2, b3, sameBytes_sub c (by omega) (by omega), sameBytes_sub c (by omega) (by omega), e,
      ?_, sameBytes_sub f (by omega) (by omega), bits_eq l, bits_eq m, sameBytes_sub a (by omega) (by omega),
      sameBytes_sub f (by omega) (by omega), sameBytes_sub f (by omega) (by omega), sameBytes_sub f (by omega) (by omega), trivial⟩
    intro v
    rw [f 64 (by omega) (by omega), f 65 (by omega) (by omega)]

end HeaderTold

open HeaderTold Ends in
/-- C109: what the reports of two files say about their headers is the same exactly if the headers are the same but for times that are
shown as the same date, and show commands other than 3 and 7. -/
theorem header_told (env : Env) (cp : Option String) (hcp : UsableCodePage (TextProc.mk' env cp)) (allow allow' : Bool) (src src' : Source)
    (f f' : LnkFile) (hf : (LnkFile.init env cp allow src).res = .ok f) (hf' : (LnkFile.init env cp allow' src').res = .ok f') (j j' : Dict)
    (hj : (f.getJson true).res = .ok j) (hj' : (f'.getJson true).res = .ok j') :
    Dict.get? j "header" = Dict.get? j' "header" ↔ EqualHeader src.bytes src'.bytes := by
  have key : ∀ (allow : Bool) (src : Source) (f : LnkFile) (j : Dict), (LnkFile.init env cp allow src).res = .ok f →
      (f.getJson true).res = .ok j → ∃ d, Dict.get? j "header" = some (.dict d) ∧ Fits d (headerEntries src.bytes) := by
    intro allow src f j hf hj
    obtain ⟨L, l, last, hL, hc, hv⟩ := report_values env cp hcp allow src f hf
    obtain ⟨v, h1, E, rfl, h2⟩ := value_at (k := "header") (P := fun v => ∃ d, v = .dict d ∧ Fits d (headerEntries src.bytes))
      (hv j hj) (by
        unfold reportEntries
        simp)
    exact ⟨E, h1, h2⟩
  obtain ⟨d, h1, h2⟩ := key allow src f j hf hj
  obtain ⟨d', h1', h2'⟩ := key allow' src' f' j' hf' hj'
  rw [h1, h1']
  simp only [Option.some.injEq, PyVal.dict.injEq]
  exact header_entries h2 h2'

/-- A header without times, with a show command and a last byte (reserved). -/
def headerOf (command : Nat) (last : UInt8) : Bytes :=
  le 4 76 ++ shellLinkCLSID.encode ++ le 4 0 ++ List.replicate 36 0 ++ le 4 command ++ List.replicate 11 0 ++ [last]

/-- Show commands 5 and 1000 are not told apart. -/
example : EqualHeader (headerOf 5 0) (headerOf 1000 0) := by
  have bytes : ∀ a c, c ≤ 60 ∨ 64 ≤ a → c ≤ 76 → SameBytes (headerOf 5 0) (headerOf 1000 0) a c := by
    intro a c h hc k h1 h2
    have : ∀ k < 76, k < 60 ∨ 64 ≤ k → (headerOf 5 0)[k]? = (headerOf 1000 0)[k]? := by decide +kernel
    exact this k (by omega) (by omega)
  have time : ∀ off ∈ [28, 36, 44], EqualTime (headerOf 5 0) (headerOf 1000 0) off := by
    intro off h
    have e : ∀ off ∈ [28, 36, 44], sAt 8 (headerOf 5 0) off = some 0 ∧ sAt 8 (headerOf 1000 0) off = some 0 := by decide +kernel
    exact ⟨0, 0, (e off h).1, (e off h).2, .inl ⟨.inl rfl, .inl rfl⟩⟩
  have e : sAt 4 (headerOf 5 0) 60 = some 5 := by decide +kernel
  have e' : sAt 4 (headerOf 1000 0) 60 = some 1000 := by decide +kernel
  refine ⟨bytes _ _ (.inl (by omega)) (by omega), time _ (by simp), time _ (by simp), time _ (by simp), bytes _ _ (.inl (by omega)) (by omega), ?_,
    bytes _ _ (.inr (by omega)) (by omega)⟩
  rw [e, e']
  rintro i (rfl | rfl) <;> simp

/-- The reserved bytes are, and so is the command 3. -/
example : ¬ EqualHeader (headerOf 5 0) (headerOf 5 1) ∧ ¬ EqualHeader (headerOf 5 0) (headerOf 3 0) := by
  constructor
  · intro h
    have := h.third 75 (by omega) (by omega)
    revert this
    decide +kernel
  · intro h
    have := (h.showCommand 3 (.inl rfl)).2 (by decide +kernel)
    revert this
    decide +kernel

end Verif.Props
