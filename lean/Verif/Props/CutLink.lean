import Verif.Props.Damaged
import Verif.Props.Outcome

/-
C63: a well-formed link that is cut anywhere.
-/

namespace Verif.Props

open Spec

namespace CutLink

/-- Fewer than eight bytes hold no block with a signature. -/
theorem unsigned {b : Bytes} {l : List Piece} {last : Bytes} (h : Cut b l last) (hb : b.length < 8) :
    ∀ p ∈ l, p.signature = none := by
  induction h with
  | stop => simp
  | @block b n l last h hn hl ih =>
    intro p hp
    rcases List.mem_cons.1 hp with rfl | hp
    · exact uAt_eq_none_iff.2 (by omega)
    · exact ih (by simp; omega) p hp

/-- One block of at least four bytes, and fewer than eight bytes after it. -/
theorem one {b : Bytes} {l : List Piece} {last : Bytes} (h : Cut b l last) {d : Nat} (hd : uAt 4 b 0 = some d) (h4 : 4 ≤ d)
    (hb : b.length < d + 8) : ∀ p ∈ l, p.signature.isSome → 4 ≤ p.declared := by
  cases h with
  | stop => simp
  | @block _ n l _ h hn hl =>
    rw [hd] at h
    cases h
    intro p hp hs
    rcases List.mem_cons.1 hp with rfl | hp
    · exact h4
    · rw [unsigned hl (by simp; omega) p hp] at hs
      cases hs

theorem stringsEnd_le (flags : Nat) (b : Bytes) (fs : List (Nat × Nat)) (pos : Nat) : pos ≤ stringsEnd flags b fs pos := by
  induction fs generalizing pos with
  | nil => exact le_refl _
  | cons f fs ih =>
    obtain ⟨bit, limit⟩ := f
    unfold stringsEnd
    split
    · split
      · exact le_refl _
      · exact le_trans (by omega) (ih _)
    · exact ih _

/-- The string data takes no single byte. -/
theorem stringsEnd_ne (flags : Nat) (b : Bytes) (fs : List (Nat × Nat)) (pos : Nat) :
    stringsEnd flags b fs pos = pos ∨ pos + 2 ≤ stringsEnd flags b fs pos := by
  induction fs generalizing pos with
  | nil => exact .inl rfl
  | cons f fs ih =>
    obtain ⟨bit, limit⟩ := f
    unfold stringsEnd
    split
    · split
      · exact .inl rfl
      · exact .inr (le_trans (by omega) (stringsEnd_le _ _ _ _))
    · exact ih _

/-- Integers that overlap. -/
theorem uAt_overlap {b : Bytes} {p v : Nat} (h : uAt 4 b (p + 4) = some v) (hv : v % 65536 ≠ 0) (k : Nat) (hk : k = 2 ∨ k = 3) :
    ∃ d, uAt 4 b (p + k) = some d ∧ 256 ≤ d := by
  unfold uAt at h ⊢
  split at h
  · rename_i hl
    simp only [Option.some.injEq, uAt.go] at h
    rw [if_pos (by omega)]
    refine ⟨_, rfl, ?_⟩
    generalize ha : (b.getD (p + 4) 0).toNat = x0 at h
    generalize hb : (b.getD (p + 4 + 1) 0).toNat = x1 at h
    generalize (b.getD (p + 4 + 1 + 1) 0).toNat = x2 at h
    generalize (b.getD (p + 4 + 1 + 1 + 1) 0).toNat = x3 at h
    simp only [uAt.go]
    rcases hk with rfl | rfl
    · rw [show p + 2 + 1 + 1 = p + 4 by omega, show p + 4 + 1 = p + 5 by omega, ha, show p + 5 = p + 4 + 1 by omega, hb]
      omega
    · rw [show p + 3 + 1 = p + 4 by omega, ha, hb]
      omega
  · cases h

theorem uAt_parts {n v k : Nat} (h : v < 256 ^ n) {b pre post : Bytes} (hb : b = pre ++ (le n v ++ post)) (hk : pre.length = k) :
    uAt n b k = some v := by
  subst hb hk
  exact uAt_le h pre post

theorem toNat_lt (v : UInt32) : v.toNat < 256 ^ 4 := by
  have := v.toNat_lt
  omega

theorem encode_size {tp : TextProc} {s : ShellLink} (hv : s.Valid tp) : uAt 4 s.encode 0 = some 76 := by
  obtain ⟨post, h⟩ : ∃ post, s.encode = [] ++ (le 4 s.header.headerSize.toNat ++ post) := by
    simp only [ShellLink.encode, Header.encode, List.append_assoc, List.nil_append]
    exact ⟨_, rfl⟩
  rw [← hv.headerSize]
  exact uAt_parts (toNat_lt _) h rfl

theorem encode_flags (s : ShellLink) : uAt 4 s.encode 20 = some s.flags := by
  obtain ⟨post, h⟩ : ∃ post, s.encode = (le 4 s.header.headerSize.toNat ++ s.header.linkCLSID.encode) ++
      (le 4 s.header.linkFlags.toNat ++ post) := by
    simp only [ShellLink.encode, Header.encode, List.append_assoc]
    exact ⟨_, rfl⟩
  exact uAt_parts (toNat_lt _) h (by simp)

end CutLink

open CutLink

/-- Where the sections of a well-formed link are after it was cut before the end of its link info. -/
theorem cut_layout {tp : TextProc} {s : ShellLink} (hv : s.Valid tp) {n : Nat} (h24 : 24 ≤ n)
    (h78 : s.flags.testBit 0 = true → 78 ≤ n) :
    ∃ L, layout (s.encode.take n) = some L ∧ L.headerSize = 76 ∧ L.flags = s.flags ∧ L.infoAt = 76 + s.encodeTarget.length ∧
      L.stringsAt = (if infoAnnounced s.flags && (infoLocation (s.encode.take n) L.infoAt).isSome then
        L.infoAt + (uAt 4 (s.encode.take n) L.infoAt).getD 0 else L.infoAt) ∧
      L.extraAt = stringsEnd s.flags (s.encode.take n) stringLimits L.stringsAt := by
  have e0 := encode_size hv
  have e20 := encode_flags s
  unfold layout
  rw [ExtraData.uAt_take _ _ _ _ (by omega) (by omega), e0]
  simp only
  rw [List.take_take, ExtraData.uAt_take _ _ _ _ (by omega) (by omega), e20]
  simp only
  have hi := hv.hasItems
  by_cases hb : s.flags.testBit 0 = true
  · rw [hb] at hi
    obtain ⟨items, hit⟩ := Option.isSome_iff_exists.1 hi
    have ht : s.encodeTarget = encodeIdList items := by simp [ShellLink.encodeTarget, hit]
    have e76 : uAt 2 s.encode 76 = some ((encodeItems items).length + 2) :=
      uAt_parts (by have := (hv.items items hit).2; omega) (pre := s.header.encode)
        (by simp only [ShellLink.encode, ht, encodeIdList, List.append_assoc]; rfl) (by simp)
    simp only [hb, if_true]
    rw [ExtraData.uAt_take _ _ _ _ (by omega) (by have := h78 hb; omega), e76]
    refine ⟨_, rfl, rfl, rfl, ?_, rfl, rfl⟩
    simp only [ht, encodeIdList, List.length_append, le_length]
    omega
  · have hb' : s.flags.testBit 0 = false := by simpa using hb
    rw [hb'] at hi
    have hit : s.items = none := by simpa using hi
    simp only [hb', Bool.false_eq_true, if_false]
    exact ⟨_, rfl, rfl, rfl, by simp [ShellLink.encodeTarget, hit], rfl, rfl⟩

/-- The fixed part of the link info, read in the whole file. -/
theorem info_at {tp : TextProc} {s : ShellLink} (hv : s.Valid tp) {i : Info} (hi : s.info = some i) :
    28 ≤ i.raw.length ∧ uAt 4 s.encode (76 + s.encodeTarget.length) = some i.raw.length ∧
    uAt 4 s.encode (76 + s.encodeTarget.length + 4) = some i.header.headerSize.toNat ∧
    uAt 4 s.encode (76 + s.encodeTarget.length + 8) = some i.header.flags.toNat := by
  have hI := hv.info i hi
  obtain ⟨pre, post, hraw, hpre⟩ := hI.parts.header
  rw [List.length_eq_zero_iff.1 hpre, List.nil_append] at hraw
  have he : ∃ more, s.encode = (s.header.encode ++ s.encodeTarget) ++ (i.header.encode ++ more) := by
    simp only [ShellLink.encode, ShellLink.encodeInfo, hi, hraw, List.append_assoc]
    exact ⟨_, rfl⟩
  obtain ⟨more, he⟩ := he
  obtain ⟨tail, ht⟩ : ∃ tail, i.header.encode = le 4 i.header.size.toNat ++ (le 4 i.header.headerSize.toNat ++
      (le 4 i.header.flags.toNat ++ tail)) := by
    simp only [InfoHeader.encode, List.append_assoc]
    exact ⟨_, rfl⟩
  have hlen : 28 ≤ i.header.encode.length := by
    simp only [InfoHeader.encode, List.length_append, le_length]
    omega
  refine ⟨?_, ?_, ?_, ?_⟩
  · have := congrArg List.length hraw
    rw [List.length_append] at this
    omega
  · rw [← hI.size]
    refine uAt_parts (toNat_lt _) (pre := s.header.encode ++ s.encodeTarget)
      (post := le 4 i.header.headerSize.toNat ++ (le 4 i.header.flags.toNat ++ (tail ++ more))) ?_ (by simp)
    rw [he, ht]
    simp only [List.append_assoc]
  · refine uAt_parts (toNat_lt _) (pre := s.header.encode ++ s.encodeTarget ++ le 4 i.header.size.toNat)
      (post := le 4 i.header.flags.toNat ++ (tail ++ more)) ?_ (by simp; omega)
    rw [he, ht]
    simp only [List.append_assoc]
  · refine uAt_parts (toNat_lt _) (pre := s.header.encode ++ s.encodeTarget ++ le 4 i.header.size.toNat ++
      le 4 i.header.headerSize.toNat) (post := tail ++ more) ?_ (by simp; omega)
    rw [he, ht]
    simp only [List.append_assoc]

/-- What is left by a cut before the end of the link info is acceptable. -/
theorem cut_acceptable {tp : TextProc} {s : ShellLink} (hv : s.Valid tp)
    (hi : ∀ i, s.info = some i → i.header.headerSize.toNat % 65536 ≠ 0) {n : Nat} (h24 : 24 ≤ n)
    (h78 : s.flags.testBit 0 = true → 78 ≤ n) (hn : n < (head s).length) : Acceptable (s.encode.take n) := by
  obtain ⟨L, hL, hsz, hfl, hat, hst, hex⟩ := cut_layout hv h24 h78
  refine ⟨(layout_isSome _).1 ⟨L, hL⟩, ?_⟩
  intro L' l last hL' hc
  rw [hL] at hL'
  cases hL'
  have hlen : (s.encode.take n).length ≤ n := by simp
  have hle := stringsEnd_le s.flags (s.encode.take n) stringLimits L.stringsAt
  have hstl : L.infoAt ≤ L.stringsAt := by
    rw [hst]
    split <;> omega
  rw [← hex] at hle
  have short : (s.encode.take n).length < L.extraAt + 8 → ∀ p ∈ l, p.signature.isSome → 4 ≤ p.declared := by
    intro h p hp hsig
    rw [unsigned hc (by rw [List.length_drop]; omega) p hp] at hsig
    cases hsig
  by_cases h8 : n < L.infoAt + 8
  · exact short (by omega)
  have hhd : (head s).length = 76 + s.encodeTarget.length + s.encodeInfo.length := by simp [head]; omega
  rcases hinf : s.info with _ | i
  · have : s.encodeInfo.length = 0 := by simp [ShellLink.encodeInfo, hinf]
    omega
  obtain ⟨h28, u0, u4, u8⟩ := info_at hv hinf
  have hel : s.encodeInfo.length = i.raw.length := by simp [ShellLink.encodeInfo, hinf]
  have hann : infoAnnounced s.flags = true := by
    have := hv.hasInfo
    rw [hinf] at this
    exact this.symm
  rw [← hat] at u0 u4 u8
  by_cases h12 : n < L.infoAt + 12
  · have hnone : infoLocation (s.encode.take n) L.infoAt = none := by
      unfold infoLocation
      rw [uAt_eq_none_iff.2 (by omega)]
    rw [hnone] at hst
    simp only [Option.isSome_none, Bool.and_false, Bool.false_eq_true, if_false] at hst
    rw [hst] at hle hex
    rcases stringsEnd_ne s.flags (s.encode.take n) stringLimits L.infoAt with h | h
    · rw [← hex] at h
      refine one hc (d := i.raw.length) ?_ (by omega) (by rw [List.length_drop]; omega)
      rw [uAt_drop _ _ _ _ (by omega), ExtraData.uAt_take _ _ _ _ (by omega) (by omega), Nat.add_zero, h]
      exact u0
    · rw [← hex] at h
      by_cases h4 : L.infoAt + 4 ≤ L.extraAt
      · exact short (by omega)
      · obtain ⟨d, hd, h256⟩ := uAt_overlap u4 (hi i hinf) (L.extraAt - L.infoAt) (by omega)
        refine one hc (d := d) ?_ (by omega) (by rw [List.length_drop]; omega)
        rw [uAt_drop _ _ _ _ (by omega), ExtraData.uAt_take _ _ _ _ (by omega) (by omega), Nat.add_zero]
        rwa [show L.infoAt + (L.extraAt - L.infoAt) = L.extraAt by omega] at hd
  · have hsome : (infoLocation (s.encode.take n) L.infoAt).isSome = true := by
      unfold infoLocation
      rw [ExtraData.uAt_take _ _ _ _ (by omega) (by omega), u8]
      have := (hv.info i hinf).location
      rcases hloc : i.location with v | w
      · rw [hloc] at this
        simp [this.1]
      · rw [hloc] at this
        simp [this.1, this.2.1]
    rw [hann, hsome, ExtraData.uAt_take _ _ _ _ (by omega) (by omega), u0] at hst
    simp only [Bool.and_self, if_true, Option.getD_some] at hst
    exact short (by omega)

/-- C63: a well-formed link that is cut anywhere is accepted iff its size and flags and, if announced, the size of its ID list
are left. -/
theorem cut_anywhere (env : Env) (cp : Option String) (hcp : UsableCodePage (TextProc.mk' env cp)) (allow : Bool)
    (s : ShellLink) (hv : s.Valid (TextProc.mk' env cp))
    (hi : ∀ i, s.info = some i → i.header.headerSize.toNat % 65536 ≠ 0) (n : Nat) (src : Source)
    (hs : src.bytes = s.encode.take n) :
    ((∃ f, (LnkFile.init env cp allow src).res = .ok f) ↔ 24 ≤ n ∧ (s.flags.testBit 0 = true → 78 ≤ n)) ∧
    (¬ (24 ≤ n ∧ (s.flags.testBit 0 = true → 78 ≤ n)) →
      (LnkFile.init env cp allow src).res = .error (constructorError src)) := by
  have hO := constructor_outcome env cp hcp allow src
  have key : Acceptable src.bytes ↔ 24 ≤ n ∧ (s.flags.testBit 0 = true → 78 ≤ n) := by
    constructor
    · rintro ⟨⟨hsz, flags, h0, h20, h24, hb⟩, -⟩
      have hl := ExtraData.uAt_some_length h20
      rw [hs] at h0 h20 hb hl
      have hn : 24 ≤ n := by rw [List.length_take] at hl; omega
      rw [ExtraData.uAt_take _ _ _ _ (by omega) (by omega), encode_size hv] at h0
      rw [ExtraData.uAt_take _ _ _ _ (by omega) (by omega), encode_flags s] at h20
      cases h0
      cases h20
      refine ⟨hn, fun h => ?_⟩
      have := hb h
      rw [List.length_take] at this
      omega
    · rintro ⟨h24, h78⟩
      by_cases hn : n < (head s).length
      · rw [hs]
        exact cut_acceptable hv hi h24 h78 hn
      · exact hO.1.1 (cut_link_accepted env cp hcp allow s hv n (by omega) src hs)
  exact ⟨hO.1.trans key, fun h => hO.2 (fun h' => h (key.1 h'))⟩

/-- C63: an object made from a link that is cut within its header has no report. -/
theorem cut_header_unreported (env : Env) (cp : Option String) (hcp : UsableCodePage (TextProc.mk' env cp)) (allow : Bool)
    (s : ShellLink) (n : Nat) (hn : n < 76) (src : Source) (hs : src.bytes = s.encode.take n) (f : LnkFile)
    (hf : (LnkFile.init env cp allow src).res = .ok f) (all : Bool) : (f.getJson all).res = .error .structError := by
  obtain ⟨L, l, last, -, -, h⟩ := report_outcome env cp hcp allow src f hf
  refine (h all _).2 (.header fun h => ?_)
  have := h.2
  rw [hs, List.length_take] at this
  omega

/-! ### examples -/

/-- Cut in the middle of its link info, the example link is accepted; cut in the middle of its flags, it is not. -/
example (env : Env) (allow : Bool) :
    (∃ f, (LnkFile.init env none allow (.indata (exampleLink.encode.take ((head exampleLink).length - 20)))).res = .ok f) ∧
    (LnkFile.init env none allow (.indata (exampleLink.encode.take 22))).res = .error .structError := by
  have hi : ∀ i, exampleLink.info = some i → i.header.headerSize.toNat % 65536 ≠ 0 := by
    intro i h
    cases h
    decide +kernel
  refine ⟨((cut_anywhere env none (usable_default env) allow exampleLink (exampleLink_valid env) hi _ _ rfl).1).2
    (by decide +kernel), ?_⟩
  exact (cut_anywhere env none (usable_default env) allow exampleLink (exampleLink_valid env) hi 22 _ rfl).2 (by decide)

/-- The example link without its last 300 bytes: 47 are left. -/
example (env : Env) (allow : Bool) (f : LnkFile)
    (hf : (LnkFile.init env none allow (.indata (exampleLink.encode.take 47))).res = .ok f) : (f.getJson true).res = .error .structError :=
  cut_header_unreported env none (usable_default env) allow exampleLink 47 (by decide) _ rfl f hf true

end Verif.Props
