import Verif.Lemmas.Values
import Verif.Props.Targets

namespace Verif

open Spec Py

namespace Values

/-! ### pieces -/

theorem zeroPieces_ne_nil (b : Bytes) : zeroPieces b ≠ [] := by
  cases b with
  | nil => simp [zeroPieces]
  | cons x xs => unfold zeroPieces; split <;> simp

theorem zeroPieces_last {a : Bytes} (h : 0 ∉ a) : zeroPieces a = [a] := by
  induction a with
  | nil => rfl
  | cons x xs ih =>
    simp only [List.mem_cons, not_or] at h
    unfold zeroPieces
    rw [if_neg (fun e => h.1 e.symm), ih h.2]
    rfl

theorem zeroPieces_cons {a : Bytes} (rest : Bytes) (h : 0 ∉ a) : zeroPieces (a ++ 0 :: rest) = a :: zeroPieces rest := by
  induction a with
  | nil => simp [zeroPieces]
  | cons x xs ih =>
    simp only [List.mem_cons, not_or] at h
    rw [List.cons_append, zeroPieces, if_neg (fun e => h.1 e.symm), ih h.2]
    rfl

/-- The strings that are read are the pieces. -/
theorem readStrings_pieces (tp : TextProc) (b : Bytes) :
    tp.readStrings b = (zeroPieces b).map tp.ansiToStr ∧ ∀ p ∈ zeroPieces b, 0 ∉ p := by
  generalize hn : b.length = n
  induction n using Nat.strong_induction_on generalizing b with
  | _ n ih =>
    rcases nul_cases b with h0 | ⟨a, rest, h0, rfl⟩
    · rw [readStrings_last tp h0, zeroPieces_last h0]
      exact ⟨rfl, fun p hp => by rw [List.mem_singleton.1 hp]; exact h0⟩
    · rw [readStrings_cons tp h0, zeroPieces_cons rest h0]
      obtain ⟨h1, h2⟩ := ih rest.length (by subst hn; simp only [List.length_append, List.length_cons]; omega) rest rfl
      rw [h1]
      refine ⟨rfl, fun p hp => ?_⟩
      rcases List.mem_cons.1 hp with rfl | hp
      · exact h0
      · exact h2 p hp

theorem narrow_piece {tp : TextProc} {a : Bytes} {s : Str} (h0 : 0 ∉ a) (h : (tp.ansiToStr a).res = .ok s) : Narrow tp a (.str s) := by
  refine ⟨s, ?_, rfl⟩
  unfold NarrowText
  simp only [takeWhile_all h0]
  exact ansi_cases h

theorem next_ok {tp : TextProc} {ps : List Bytes} {r : Str × List (Py Str)} (h0 : ∀ p ∈ ps, 0 ∉ p)
    (h : (TextProc.next (ps.map tp.ansiToStr)).res = .ok r) :
    ∃ p ps', ps = p :: ps' ∧ r.2 = ps'.map tp.ansiToStr ∧ Narrow tp p (.str r.1) := by
  cases ps with
  | nil => simp [TextProc.next, raise] at h
  | cons p ps =>
    simp only [List.map_cons, TextProc.next] at h
    obtain ⟨s, h1, h2⟩ := bind_ok_iff.1 h
    rw [← Except.ok.inj h2]
    exact ⟨p, ps, rfl, rfl, narrow_piece (h0 p (by simp)) h1⟩

theorem testBit7 (n : Nat) : (n &&& 0x80 ≠ 0) ↔ n.testBit 7 = true := by
  have := and_two_pow_ne_zero n 7
  rw [← this]; simp

theorem testBit6 (n : Nat) : (n &&& 0x40 ≠ 0) ↔ n.testBit 6 = true := by
  have := and_two_pow_ne_zero n 6
  rw [← this]; simp

/-! ### what an item is built from -/

/-- The strings of a network item. -/
def NetworkTexts (tp : TextProc) (w : Bytes) (t : Target) : Prop :=
  PieceText tp true (zeroPieces (w.drop 3))[0]? (.str t.location) ∧
    ∃ cf, uAt 1 w 2 = some cf ∧ PieceText tp (cf.testBit 7) (zeroPieces (w.drop 3))[1]? (PyVal.opt .str t.description) ∧
      PieceText tp (cf.testBit 6) (zeroPieces (w.drop 3))[if cf.testBit 7 then 2 else 1]? (PyVal.opt .str t.comments)

structure Built (cls : TargetClass) (tp : TextProc) (n : Nat) (b : Bytes) (t : Target) : Prop where
  ofClass : t.cls = cls
  ofTp : t.tp = tp
  ofRaw : t.raw = b
  size : uAt 2 b 0 = some n
  window : t.rawTarget = (b.drop 2).take n
  network : cls = .networkLocation → NetworkTexts tp t.rawTarget t

theorem initBase_built {cls : TargetClass} {tp : TextProc} {b : Bytes} {t : Target} (h : (Target.initBase cls tp b).res = .ok t) :
    ∃ n, t.cls = cls ∧ t.tp = tp ∧ t.raw = b ∧ uAt 2 b 0 = some n ∧ t.rawTarget = (b.drop 2).take n := by
  unfold Target.initBase Target.sizeOf at h
  obtain ⟨n, h1, h2⟩ := bind_ok_iff.1 h
  rw [← Except.ok.inj h2]
  refine ⟨n, rfl, rfl, rfl, (uAt_iff_ok (by omega)).1 h1, ?_⟩
  show slice b 2 (2 + n) = _
  unfold slice
  congr 1
  omega

theorem init_built {cls : TargetClass} {tp : TextProc} {b : Bytes} {t : Target} (h : (Target.init cls tp b).res = .ok t) :
    ∃ n, Built cls tp n b t := by
  unfold Target.init at h
  split at h
  swap
  · rename_i hne
    obtain ⟨n, h1, h2, h3, h4, h5⟩ := initBase_built h
    exact ⟨n, h1, h2, h3, h4, h5, fun e => absurd e hne⟩
  unfold Target.initNetwork at h
  obtain ⟨t0, h0, h⟩ := bind_ok_iff.1 h
  obtain ⟨n, e1, e2, e3, e4, e5⟩ := initBase_built h0
  rw [(readStrings_pieces tp _).1] at h
  obtain ⟨⟨loc, it⟩, h1, h⟩ := bind_ok_iff.1 h
  have hp := (readStrings_pieces tp (t0.rawTarget.drop 3)).2
  obtain ⟨p, ps, hps, hit, hloc⟩ := next_ok hp h1
  dsimp only at h
  obtain ⟨cf, hcf, h⟩ := bind_ok_iff.1 h
  have hcf' : uAt 1 t0.rawTarget 2 = some cf := (uAt_iff_ok (by omega)).1 hcf
  obtain ⟨⟨desc, it2⟩, h2, h⟩ := bind_ok_iff.1 h
  dsimp only at h
  obtain ⟨cf2, hcf2, h⟩ := bind_ok_iff.1 h
  obtain ⟨comm, h3, h⟩ := bind_ok_iff.1 h
  rw [← Except.ok.inj h]
  clear h
  obtain rfl : cf2 = cf := by rw [hcf] at hcf2; exact (Except.ok.inj hcf2).symm
  refine ⟨n, e1, e2, e3, e4, e5, fun _ => ?_⟩
  have hp' : ∀ q ∈ ps, 0 ∉ q := fun q hq => hp q (by rw [hps]; exact List.mem_cons_of_mem _ hq)
  refine ⟨?_, cf2, hcf', ?_⟩
  · show PieceText tp true (zeroPieces (t0.rawTarget.drop 3))[0]? (.str loc)
    rw [hps]
    exact ⟨p, rfl, hloc⟩
  · show PieceText tp (cf2.testBit 7) (zeroPieces (t0.rawTarget.drop 3))[1]? (PyVal.opt .str desc) ∧
      PieceText tp (cf2.testBit 6) (zeroPieces (t0.rawTarget.drop 3))[if cf2.testBit 7 then 2 else 1]? (PyVal.opt .str comm)
    rw [hps]
    simp only at hit h2 h3
    subst hit
    by_cases h7 : cf2.testBit 7 = true
    · rw [if_pos ((testBit7 cf2).2 h7)] at h2
      obtain ⟨r, h2, h2'⟩ := bind_ok_iff.1 h2
      obtain ⟨q, qs, rfl, hq, hq'⟩ := next_ok hp' h2
      have := Except.ok.inj h2'
      simp only [Prod.mk.injEq] at this
      obtain ⟨rfl, rfl⟩ := this
      refine ⟨?_, ?_⟩
      · rw [h7]; exact ⟨q, rfl, hq'⟩
      · by_cases h6 : cf2.testBit 6 = true
        · rw [if_pos ((testBit6 cf2).2 h6), hq] at h3
          obtain ⟨r', h3, h3'⟩ := bind_ok_iff.1 h3
          obtain ⟨q', qs', rfl, -, hq''⟩ := next_ok (fun x hx => hp' x (List.mem_cons_of_mem _ hx)) h3
          rw [← Except.ok.inj h3', h6, h7]
          exact ⟨q', rfl, hq''⟩
        · rw [if_neg (fun h => h6 ((testBit6 cf2).1 h))] at h3
          rw [← Except.ok.inj h3, Bool.eq_false_iff.2 h6]
          rfl
    · rw [if_neg (fun h => h7 ((testBit7 cf2).1 h))] at h2
      have := Except.ok.inj h2
      simp only [Prod.mk.injEq] at this
      obtain ⟨rfl, rfl⟩ := this
      rw [Bool.eq_false_iff.2 h7]
      refine ⟨rfl, ?_⟩
      by_cases h6 : cf2.testBit 6 = true
      · rw [if_pos ((testBit6 cf2).2 h6)] at h3
        obtain ⟨r', h3, h3'⟩ := bind_ok_iff.1 h3
        obtain ⟨q', qs', rfl, -, hq''⟩ := next_ok hp' h3
        rw [← Except.ok.inj h3', h6]
        exact ⟨q', rfl, hq''⟩
      · rw [if_neg (fun h => h6 ((testBit6 cf2).1 h))] at h3
        rw [← Except.ok.inj h3, Bool.eq_false_iff.2 h6]
        rfl

/-! ### what an item reports -/

theorem uAt_one {w : Bytes} {off k : Nat} (h : uAt 1 w off = some k) : ∃ t : UInt8, w[off]? = some t ∧ k = t.toNat := by
  have hl := ExtraData.uAt_some_length h
  obtain ⟨t, ht⟩ : ∃ t, w[off]? = some t := ⟨w[off], List.getElem?_eq_getElem (by omega)⟩
  refine ⟨t, ht, ?_⟩
  have h1 := (uAt_iff_ok (b := w) (off := off) (v := k) (by omega : 0 < 1)).2 h
  have hs : slice w off (off + 1) = [t] := by
    obtain ⟨hlt, he⟩ := List.getElem?_eq_some_iff.1 ht
    unfold slice
    rw [show off + 1 - off = 1 by omega, List.drop_eq_getElem_cons hlt, he]; rfl
  rw [hs] at h1
  simpa [unpackU, leNat] using (Except.ok.inj h1).symm

theorem fsKind_ok {t : UInt8} {s : String} (h : (Target.getItemShellFsFolder (t.toNat &&& 0x0F)).res = .ok s) : s = fsKindText t := by
  rw [Target.getItemShellFsFolder_eq] at h
  exact (Except.ok.inj h).symm

theorem indicator_ok {t : Target} {k : Nat} (h : t.classTypeIndicator.res = .ok k) :
    ∃ x : UInt8, t.rawTarget[0]? = some x ∧ k = x.toNat := uAt_one ((uAt_iff_ok (by omega)).1 h)

theorem fs_values {t : Target} {d : Dict} (hc : t.cls = .shellFSFolder) (h : t.fsAsItem.res = .ok d) :
    Fits d (fileEntries t.tp t.rawTarget) := by
  unfold Target.fsAsItem at h
  simp only [bind_ok_iff] at h
  obtain ⟨flags, h1, size, h2, mtime, h3, attr, h4, name, h5, h6⟩ := h
  rw [← Except.ok.inj h6, hc]
  refine ⟨rfl, rfl, rfl, ?_, rfl, natAt (by omega) h2, rfl, dostimeAt h3, rfl, natAt (by omega) h4, rfl, ?_, trivial⟩
  · unfold Target.fsFlags at h1
    obtain ⟨k, hk, h1⟩ := bind_ok_iff.1 h1
    obtain ⟨x, hx, rfl⟩ := indicator_ok hk
    exact ⟨x, hx, by rw [fsKind_ok h1]; rfl⟩
  · unfold Target.fsPrimaryName Target.hasUnicodeStrings at h5
    obtain ⟨u, hu, h5⟩ := bind_ok_iff.1 h5
    obtain ⟨k, hk, hu⟩ := bind_ok_iff.1 hu
    obtain ⟨x, hx, rfl⟩ := indicator_ok hk
    refine ⟨x, hx, ?_⟩
    have := Except.ok.inj hu
    rw [Target.testBit2] at this
    unfold Either
    rw [this]
    cases u
    · exact narrow h5
    · exact wide h5

theorem cplWide_eq (t : Target) : t.cplIsUnicode = cplWide t.rawTarget := by
  unfold Target.cplIsUnicode cplWide
  by_cases h : t.rawTarget.length < 22
  · rw [if_pos h, decide_eq_false (by omega), Bool.false_and]
  · rw [if_neg h, decide_eq_true (by omega), Bool.true_and]

theorem cplText {t : Target} {units : Nat} {s : Str}
    (h : (if t.cplIsUnicode then TextProc.readUnicodeString (t.rawTarget.drop (22 + units * 2))
      else t.tp.readString (t.rawTarget.drop (10 + units))).res = .ok s) : CplText t.tp t.rawTarget units (.str s) := by
  rw [cplWide_eq] at h
  unfold CplText
  split at h
  · rw [if_pos ‹_›]; exact wide h
  · rw [if_neg ‹_›]; exact narrow h

theorem cplOffset {t : Target} {a b n : Nat} (h : (if t.cplIsUnicode then unpackU 2 (slice t.rawTarget a (a + 2))
      else unpackU 2 (slice t.rawTarget b (b + 2))).res = .ok n) : uAt 2 t.rawTarget (if cplWide t.rawTarget then a else b) = some n := by
  rw [cplWide_eq] at h
  split at h
  · rw [if_pos ‹_›]; exact (uAt_iff_ok (by omega)).1 h
  · rw [if_neg ‹_›]; exact (uAt_iff_ok (by omega)).1 h

theorem cpl_values {t : Target} {d : Dict} {n : Nat} {x : UInt8} (hc : t.cls = .controlPanelCPL) (h : t.asItem.res = .ok d) :
    Fits d (("class", Is t.cls.name) :: itemFields t.tp n x t.rawTarget t.cls.name) := by
  unfold Target.asItem at h
  rw [hc] at h ⊢
  simp only [bind_ok_iff] at h
  obtain ⟨sig, h1, path, h2, name, h3, comments, h4, h5⟩ := h
  rw [← Except.ok.inj h5]
  have hw : ∀ units, (if t.cplIsUnicode then TextProc.readUnicodeString (t.rawTarget.drop (t.cplStringsStart + units * 2))
      else t.tp.readString (t.rawTarget.drop (t.cplStringsStart + units))) =
      (if t.cplIsUnicode then TextProc.readUnicodeString (t.rawTarget.drop (22 + units * 2))
      else t.tp.readString (t.rawTarget.drop (10 + units))) := fun units => by
    unfold Target.cplStringsStart
    cases t.cplIsUnicode <;> rfl
  refine ⟨rfl, rfl, rfl, ?_, rfl, ?_, rfl, ?_, rfl, ?_, trivial⟩
  · have := (uAt_iff_ok (by omega)).1 h1
    refine ⟨sig, this, ?_⟩
    rw [fmtX_eq (w := 8) (by decide) (uAt_lt this)]
    rfl
  · refine cplText ?_
    rw [← hw]
    exact h2
  · unfold Target.cplNameString at h3
    obtain ⟨k, hk, h3⟩ := bind_ok_iff.1 h3
    refine ⟨k, cplOffset hk, cplText ?_⟩
    rw [← hw]
    exact h3
  · unfold Target.cplComments at h4
    obtain ⟨k, hk, h4⟩ := bind_ok_iff.1 h4
    have hu := cplOffset hk
    by_cases h0 : k = 0
    · rw [if_pos h0] at h4
      rw [← Except.ok.inj h4]
      show if _ then _ else _
      rw [if_pos (by rw [hu, h0])]
    · rw [if_neg h0] at h4
      show if _ then _ else _
      rw [if_neg (by rw [hu]; simpa using h0)]
      refine ⟨k, hu, cplText ?_⟩
      rw [← hw]
      exact h4

theorem asItem_values {cls : TargetClass} {tp : TextProc} {n : Nat} {b : Bytes} {t : Target} {d : Dict} {x : UInt8}
    (hb : Built cls tp n b t) (hx : t.rawTarget[0]? = some x) (h : t.asItem.res = .ok d) :
    Fits d (("class", Is cls.name) :: itemFields tp n x t.rawTarget cls.name) := by
  obtain ⟨hc, ht, hr, hs, -, hn⟩ := hb
  subst hc ht hr
  have hx' : ∀ y : UInt8, t.rawTarget[0]? = some y → y = x := fun y hy => by rw [hx] at hy; exact (Option.some.inj hy).symm
  cases hk : t.cls
  case controlPanelCPL => rw [← hk]; exact cpl_values hk h
  all_goals
    unfold Target.asItem at h
    rw [hk] at h
    dsimp only at h
  case controlPanelCategory =>
    simp only [bind_ok_iff] at h
    obtain ⟨id, h1, cat, h2, h3⟩ := h
    rw [← Except.ok.inj h3]
    have hid := (uAt_iff_ok (by omega)).1 h1
    refine ⟨rfl, rfl, rfl, ⟨id, hid, rfl⟩, rfl, ?_, trivial⟩
    refine ⟨id, hid, ?_⟩
    unfold Target.category at h2
    obtain ⟨k, hk', h2⟩ := bind_ok_iff.1 h2
    obtain rfl : id = k := by rw [h1] at hk'; exact Except.ok.inj hk'
    rw [Target.category_lookup] at h2
    cases hq : categoryName id with
    | none => rw [hq] at h2; obtain ⟨-, -, h2⟩ := bind_ok_iff.1 h2; rw [← Except.ok.inj h2]; rfl
    | some s => rw [hq] at h2; rw [← Except.ok.inj h2]; rfl
  case rootFolder =>
    simp only [bind_ok_iff] at h
    obtain ⟨si, h1, v, h2, g, h3, h4⟩ := h
    rw [← Except.ok.inj h4]
    have hv := (uAt_iff_ok (by omega)).1 h2
    refine ⟨rfl, rfl, rfl, ⟨v, hv, ?_⟩, rfl, ⟨v, hv, rfl⟩, rfl, guidAt h3, trivial⟩
    unfold Target.sortIndex at h1
    obtain ⟨k, hk', h1⟩ := bind_ok_iff.1 h1
    obtain rfl : v = k := by rw [h2] at hk'; exact Except.ok.inj hk'
    obtain ⟨y, -, rfl⟩ := uAt_one hv
    rw [Target.sortIndex_lookup] at h1
    cases hq : sortIndexName y.toNat with
    | none => rw [hq] at h1; obtain ⟨-, -, h1⟩ := bind_ok_iff.1 h1; rw [← Except.ok.inj h1]; rfl
    | some s => rw [hq] at h1; rw [← Except.ok.inj h1]; rfl
  case myComputer =>
    simp only [bind_ok_iff] at h
    obtain ⟨f, h1, hh, h2, h3⟩ := h
    unfold Target.volumeHasName at h2
    obtain ⟨f', h1', h2'⟩ := bind_ok_iff.1 h2
    obtain rfl : f = f' := by rw [h1] at h1'; exact Except.ok.inj h1'
    unfold Target.volumeFlags at h1
    obtain ⟨c, hc, h1⟩ := bind_ok_iff.1 h1
    obtain ⟨y, hy, rfl⟩ := indicator_ok hc
    obtain rfl := hx' y hy
    have hf : f = y.toNat % 16 := by rw [← Except.ok.inj h1, and_15]
    have hh' : hh = y.toNat.testBit 0 := by
      rw [← Except.ok.inj h2', Target.testBit0, hf, Nat.testBit_zero, Nat.testBit_zero]
      congr 2
      omega
    have e : itemFields t.tp n y t.rawTarget TargetClass.myComputer.name = [ ("flags", fun v => v = .str (hex0x (y.toNat % 16))),
      if y.toNat.testBit 0 then ("volume_name", Narrow t.tp (between t.rawTarget 1 21)) else ("volume_identifier", GuidAt t.rawTarget 2) ] := rfl
    rw [e, ← hh']
    cases hh
    · obtain ⟨i, h3, h4⟩ := bind_ok_iff.1 h3
      rw [← Except.ok.inj h4]
      refine ⟨rfl, rfl, rfl, ?_, rfl, ?_, trivial⟩
      · rw [hf, pyHex_eq]
      · unfold Target.volumeIdentifier at h3
        obtain ⟨u, hu, h3⟩ := bind_ok_iff.1 h3
        have : u = false := by
          unfold Target.volumeHasName at hu
          rw [h2] at hu
          exact (Except.ok.inj hu).symm
        subst this
        exact guidAt h3
    · obtain ⟨i, h3, h4⟩ := bind_ok_iff.1 h3
      rw [← Except.ok.inj h4]
      unfold Target.volumeName at h3
      obtain ⟨u, hu, h3⟩ := bind_ok_iff.1 h3
      have : u = true := by
        unfold Target.volumeHasName at hu
        rw [h2] at hu
        exact (Except.ok.inj hu).symm
      subst this
      obtain ⟨s, hs', h3⟩ := bind_ok_iff.1 h3
      rw [← Except.ok.inj h3]
      refine ⟨rfl, rfl, rfl, ?_, rfl, narrow hs', trivial⟩
      rw [hf, pyHex_eq]
  case shellFSFolder =>
    have := fs_values hk h
    have e : (("class", Is TargetClass.shellFSFolder.name) :: itemFields t.tp n x t.rawTarget TargetClass.shellFSFolder.name) =
      fileEntries t.tp t.rawTarget := rfl
    rw [e]
    exact this
  case networkLocation =>
    simp only [bind_ok_iff] at h
    obtain ⟨f, h1, cf, h2, h3⟩ := h
    rw [← Except.ok.inj h3]
    have hcf := (uAt_iff_ok (by omega)).1 h2
    obtain ⟨n1, cf', hcf', n2, n3⟩ := hn hk
    obtain rfl : cf' = cf := by rw [hcf'] at hcf; exact Option.some.inj hcf
    refine ⟨rfl, rfl, rfl, ?_, rfl, ⟨_, hcf, rfl⟩, rfl, n1, rfl, ⟨_, hcf, n2⟩, rfl, ⟨_, hcf, n3⟩, trivial⟩
    unfold Target.networkFlags at h1
    obtain ⟨k, hk', h1⟩ := bind_ok_iff.1 h1
    obtain ⟨y, hy, rfl⟩ := uAt_one ((uAt_iff_ok (by omega)).1 hk')
    obtain rfl := hx' y hy
    rw [fsKind_ok h1]
    rfl
  case controlPanel =>
    simp only [bind_ok_iff] at h
    obtain ⟨g, h1, h2⟩ := h
    rw [← Except.ok.inj h2]
    exact ⟨rfl, rfl, rfl, guidAt h1, trivial⟩
  case usersFilesFolder =>
    simp only [bind_ok_iff] at h
    obtain ⟨fe, h1, item, h2, c, h3, dd, h4, h5⟩ := h
    rw [← Except.ok.inj h5]
    refine ⟨rfl, rfl, rfl, rfl, rfl, ?_, rfl, ?_, rfl, ?_, trivial⟩
    · obtain ⟨m, e1, e2, e3, e4, e5⟩ := initBase_built h1
      have := fs_values e1 h2
      rw [e2, e5] at this
      refine ⟨m, item, ?_, rfl, ?_⟩
      · rw [uAt_drop _ _ _ _ (by omega)] at e4
        exact e4
      · have e : between t.rawTarget 10 (10 + m) = ((t.rawTarget.drop 8).drop 2).take m := by
          unfold between
          rw [List.drop_drop]
          congr 1
          omega
        rw [e]
        exact this
    · unfold Target.delegateClassId at h3
      obtain ⟨k, hk', h3⟩ := bind_ok_iff.1 h3
      exact ⟨k, (uAt_iff_ok (by omega)).1 hk', guidAt h3⟩
    · unfold Target.delegateFolderId at h4
      obtain ⟨k, hk', h4⟩ := bind_ok_iff.1 h4
      refine ⟨k, (uAt_iff_ok (by omega)).1 hk', ?_⟩
      rw [show 4 + k + 16 = 20 + k by omega] at h4
      exact guidAt h4
  case unknown =>
    simp only [bind_ok_iff] at h
    obtain ⟨m, h1, h2⟩ := h
    rw [← Except.ok.inj h2]
    have hm : uAt 2 t.raw 0 = some m := (uAt_iff_ok (by omega)).1 h1
    rw [hs] at hm
    obtain rfl := Option.some.inj hm
    refine ⟨rfl, rfl, rfl, ?_, trivial⟩
    show PyVal.int _ = _
    rw [Nat.add_comm]
  all_goals
    rw [← Except.ok.inj h]
    exact ⟨rfl, rfl, trivial⟩

/-! ### the list -/

theorem itemOf_ok {t : Target} {o : Option PyVal} (hcp : ∀ b, Only (fun e => e ≠ .keyError) (t.tp.ansiToStr b))
    (h : (LnkTargets.itemOf t).res = .ok o) : ∃ d, t.asItem.res = .ok d ∧ o = some (.dict d) := by
  have ho := Target.only_asItem t (P := fun e => e ≠ .keyError) (by simp) hcp
  unfold LnkTargets.itemOf at h
  rw [tryExcept_res, bind_res] at h
  rcases ht : t.asItem with ⟨w, e | d⟩
  · rw [ht] at h ho
    have : e ≠ .keyError := ho.out e rfl
    simp [this] at h
  · rw [ht] at h
    exact ⟨d, rfl, (Except.ok.inj h).symm⟩

theorem items_values {tp : TextProc} (hcp : ∀ b, Only (fun e => e ≠ .keyError) (tp.ansiToStr b)) {b : Bytes} {l : List PyVal}
    (h : (LnkTargets.asListLoop (LnkTargets.idLists tp b)).res = .ok l) : ItemsAt tp b l := by
  generalize hn : b.length = n
  induction n using Nat.strong_induction_on generalizing b l with
  | _ n ih =>
    rw [LnkTargets.idLists.eq_def] at h
    by_cases hb : b = []
    · rw [if_pos hb] at h
      rw [← Except.ok.inj h]
      exact .stop (.inl hb)
    rw [if_neg hb] at h
    dsimp only at h
    rcases hs : (LnkTargets.genBody (LnkTargets.step tp b)).res with e | _ | ⟨t, rest⟩
    · rw [hs] at h
      simp only [LnkTargets.asListLoop] at h
      obtain ⟨_, h1, _⟩ := bind_ok_iff.1 h
      simp at h1
    · rw [hs] at h
      rw [← Except.ok.inj h]
      refine .stop (.inr ?_)
      rw [LnkTargets.genBody_ok] at hs
      unfold LnkTargets.step at hs
      obtain ⟨c, h1, h2⟩ := bind_ok_iff.1 hs
      cases c with
      | some c => 
        obtain ⟨_, -, h2⟩ := bind_ok_iff.1 h2
        obtain ⟨_, -, h2⟩ := bind_ok_iff.1 h2
        simp at h2
      | none =>
        unfold TargetFactory.targetClass at h1
        obtain ⟨k, hk, h1⟩ := bind_ok_iff.1 h1
        have hk' : uAt 2 b 0 = some k := (uAt_iff_ok (by omega)).1 hk
        by_cases h0 : k = 0
        · rw [hk', h0]
        · exfalso
          simp only [h0, if_false] at h1
          obtain ⟨x, hx, h1⟩ := bind_ok_iff.1 h1
          split at h1 <;>
          · obtain ⟨y, hy, h1⟩ := bind_ok_iff.1 h1
            simp at h1
    · rw [LnkTargets.genBody_ok] at hs
      have hlt := LnkTargets.step_shorter hb hs
      rw [(LnkTargets.genBody_ok.2 hs)] at h
      dsimp only at h
      rw [if_pos hlt] at h
      unfold LnkTargets.asListLoop at h
      obtain ⟨t', h1, h⟩ := bind_ok_iff.1 h
      obtain rfl := Except.ok.inj h1
      obtain ⟨o, h2, h⟩ := bind_ok_iff.1 h
      obtain ⟨l', h3, h4⟩ := bind_ok_iff.1 h
      clear h
      obtain ⟨m, cls, s1, s2, rfl, s4, s5⟩ := LnkTargets.step_some hs
      have htp := Target.init_tp s5
      obtain ⟨d, hd, rfl⟩ := itemOf_ok (by rw [htp]; exact hcp) h2
      rw [← Except.ok.inj h4]
      have hm : uAt 2 b 0 = some m := (uAt_iff_ok (by omega)).1 s1
      obtain ⟨m', hbuilt⟩ := init_built s5
      obtain rfl : m' = m := by have := hbuilt.size; rw [hm] at this; exact (Option.some.inj this).symm
      have hlen : b.length ≠ 2 := fun h2 => by
        rw [((Props.item_dispatch_end b).2.2 m' hm s2 h2)] at s4
        simp [raise] at s4
      have := ExtraData.uAt_some_length hm
      obtain ⟨x, hx⟩ : ∃ x, b[2]? = some x := ⟨b[2], List.getElem?_eq_getElem (by omega)⟩
      have hw : t.rawTarget[0]? = some x := by
        rw [hbuilt.window, List.getElem?_take_of_lt (by omega), List.getElem?_drop]
        exact hx
      obtain ⟨c, w, hc, hname, -⟩ := Props.item_dispatch b m' x hm s2 hx
      obtain rfl : c = cls := by rw [hc] at s4; exact Option.some.inj (Except.ok.inj s4)
      have hv := asItem_values hbuilt hw hd
      rw [hname, hbuilt.window] at hv
      exact .item hm s2 hx hv (ih _ (by rw [← hn]; exact hlt) h3 rfl)

end Values

end Verif
