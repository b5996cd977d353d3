import Verif.Spec.HeaderSeen
import Verif.Props.Determined
import Verif.Props.Hidden

/-
C101: which changes of the header are seen.
-/

namespace Verif.Props

open Spec Py LnkHeader Hidden

namespace HeaderSeen

theorem times_warned {v : Int64} {r : Option DateTime} {w : List Warn} (h : TimeRead v r w) :
    w = if OutOfCalendar v.toInt then [.invalidFiletime (leI 8 v.toInt)] else [] := by
  rcases r with _ | d
  · by_cases h0 : v = 0
    · rw [(h.zero h0).2, h0]
      have : ¬ OutOfCalendar (0 : Int64).toInt := by
        unfold OutOfCalendar
        rw [filetime_first, filetime_last]
        decide
      rw [if_neg this]
    · obtain ⟨h1, h2⟩ := h.missing h0 rfl
      rw [h1, if_pos h2]
  · rw [(h.near d rfl).2.2, if_neg (h.stamp d rfl).2]

/-- The announcements of a header with these fields. -/
def said (hd : Header) : List Warn × List Warn :=
  (checkWarns "link_cls_id" (.str shellLinkCLSID.text) (.str hd.linkCLSID.text),
    checkWarns "size" (.int 0x4C) (.int hd.headerSize.toNat) ++ checkWarns "reserved0" (.int 0) (.int hd.reserved1.toNat) ++
      checkWarns "reserved1" (.int 0) (.int hd.reserved2.toNat) ++ checkWarns "reserved2" (.int 0) (.int hd.reserved3.toNat))

/-- The announcements of invalid times. -/
def badSaid (l : List Int64) : List Warn := l.map fun v => .invalidFiletime (leI 8 v.toInt)

theorem bad_inj {l l' : List Int64} (h : badSaid l = badSaid l') : l = l' := by
  refine List.map_injective_iff.2 (fun v v' e => ?_) h
  simp only [Warn.invalidFiletime.injEq] at e
  have e1 := unpackI_leI8 v
  rw [e, unpackI_leI8 v'] at e1
  have := congrArg Py.res e1
  simp only [Py.pure_res, Except.ok.injEq] at this
  exact (Int64.toInt_inj.1 this).symm

theorem header_said (hd : Header) : ∃ c a w wc wa ww, TimeRead hd.creationTime c wc ∧ TimeRead hd.accessTime a wa ∧ TimeRead hd.writeTime w ww ∧
    ∀ f : LnkFile, HeaderRaw hd f.header.raw →
      f.jsonHeader = ⟨(said hd).1 ++ badSaid (badTimes hd) ++ (said hd).2, .ok (headerObject hd c a w)⟩ := by
  obtain ⟨c, wc, pc, tc⟩ := time_read hd.creationTime
  obtain ⟨a, wa, pa, ta⟩ := time_read hd.accessTime
  obtain ⟨w, ww, pw, tw⟩ := time_read hd.writeTime
  refine ⟨c, a, w, wc, wa, ww, tc, ta, tw, fun f hr => ?_⟩
  have hb : badSaid (badTimes hd) = wc ++ wa ++ ww := by
    rw [times_warned tc, times_warned ta, times_warned tw]
    unfold badSaid badTimes
    simp only [List.filter_cons, List.filter_nil, decide_eq_true_eq]
    split <;> split <;> split <;> rfl
  unfold LnkFile.jsonHeader
  simp only [linkClsId_enc hr, rLinkFlags_enc hr, linkFlags_enc hr, rFileFlags_enc hr, fileFlags_enc hr,
    creationTime_enc hr, accessTime_enc hr, writeTime_enc hr, fileSize_enc hr, iconIndex_enc hr,
    windowStyle_enc hr, hotKey_enc hr, rawHotKey_enc hr, size_enc hr, reserved0_enc hr, reserved1_enc hr,
    reserved2_enc hr, pc, pa, pw, hb, said, pure_bind]
  simp [bind, Py.andThen, pure, Py.ret, headerObject]
  exact ⟨rfl, rfl, rfl, rfl, rfl, rfl, rfl, rfl, rfl, rfl, rfl⟩

theorem encode_split (hd : Header) : ∃ p q, hd.encode = p ++ q ∧ p.length = 24 ∧ q.length = 52 ∧
    p = le 4 hd.headerSize.toNat ++ hd.linkCLSID.encode ++ le 4 hd.linkFlags.toNat := by
  have h76 : hd.encode.length = 76 := by simp
  have e : hd.encode = (le 4 hd.headerSize.toNat ++ hd.linkCLSID.encode ++ le 4 hd.linkFlags.toNat) ++ hd.encode.drop 24 := by
    conv_lhs => rw [← List.take_append_drop 24 hd.encode]
    congr 1
  exact ⟨_, _, e, by simp, by rw [List.length_drop, h76], rfl⟩

/-- Another header with the same size, class id and flags in front of the same bytes. -/
theorem process_other (env : Env) (cp : Option String) (allow : Bool) {hd hd' : Header} {rest : Bytes} (h1 : hd.headerSize = hd'.headerSize)
    (h2 : hd.linkCLSID = hd'.linkCLSID) (h3 : hd.linkFlags = hd'.linkFlags) (h76 : 76 ≤ hd.headerSize.toNat) {f : LnkFile}
    (hf : (LnkFile.process env cp allow (hd.encode ++ rest)).res = .ok f) :
    LnkFile.process env cp allow (hd'.encode ++ rest) = (do
      let f ← LnkFile.process env cp allow (hd.encode ++ rest)
      pure { f with indata := hd'.encode ++ rest, header := ⟨(hd'.encode ++ rest).take hd.headerSize.toNat⟩ }) := by
  obtain ⟨p, q, e1, l1, m1, n1⟩ := encode_split hd
  obtain ⟨p', q', e2, l2, m2, n2⟩ := encode_split hd'
  have hp : p = p' := by rw [n1, n2, h1, h2, h3]
  subst hp
  rcases hL : layout (hd.encode ++ rest) with _ | L
  · rw [LnkFile.process_none _ _ _ _ hL] at hf
    simp at hf
  have hz : L.headerSize = hd.headerSize.toNat := by
    obtain ⟨q, e⟩ : ∃ q, hd.encode ++ rest = le 4 hd.headerSize.toNat ++ q := by
      unfold Header.encode
      simp only [List.append_assoc]
      exact ⟨_, rfl⟩
    have h0 : uAt 4 (hd.encode ++ rest) 0 = some hd.headerSize.toNat := by
      rw [e]
      exact uAt_le (n := 4) (v := hd.headerSize.toNat) hd.headerSize.toNat_lt [] q
    unfold layout at hL
    rw [h0] at hL
    dsimp only at hL
    split at hL
    · cases hL
    · split at hL
      · cases hL
      · cases hL
        rfl
  have hE := elsewhere_append p q q' rest (m1.trans m2.symm)
  rw [← e1, ← e2] at hE
  have := (Gaps.process_header env cp allow hE hL (by omega) (by omega)).1
  rw [hz] at this
  exact this

/-- A report needs the whole header. -/
theorem header_long {env : Env} {cp : Option String} {allow : Bool} {hd : Header} {rest : Bytes} {f : LnkFile}
    (hf : (LnkFile.process env cp allow (hd.encode ++ rest)).res = .ok f) {j : Dict} (hj : (f.getJson true).res = .ok j) :
    76 ≤ hd.headerSize.toNat ∧ f.header = ⟨(hd.encode ++ rest).take hd.headerSize.toNat⟩ := by
  obtain ⟨h, _, _, _, _, _, _, _, _, h1, -, -, -, -, -, -, rfl⟩ := LnkFile.process_ok_iff.mp hf
  obtain ⟨hdr, _, _, _, h2, -, -, -, rfl⟩ := LnkFile.getJson_ok_iff.mp hj
  rw [init_enc] at h1
  simp only [Except.ok.injEq] at h1
  subst h1
  refine ⟨?_, rfl⟩
  by_contra hc
  have := (LnkFile.when_jsonHeader _).2 (by rw [List.length_take]; omega) |>.symm.trans h2
  cases this

theorem init_bytes {env : Env} {cp : Option String} {allow : Bool} {s : Source} {b : Bytes} (hs : s.bytes = b) (h : b ≠ []) :
    LnkFile.init env cp allow s = LnkFile.process env cp allow b := by
  subst hs
  cases s with
  | fhandle x => rfl
  | indata x => exact if_neg h

theorem encode_ne (hd : Header) (rest : Bytes) : hd.encode ++ rest ≠ [] := by
  intro h
  have : (hd.encode ++ rest).length = 0 := by rw [h]; rfl
  simp at this

theorem showCommand_shown {v v' : Int32} (h : v = v' ∨ (v ∉ [3, 7] ∧ v' ∉ [3, 7])) : showCommandName v.toInt = showCommandName v'.toInt := by
  rcases h with rfl | ⟨h, h'⟩
  · rfl
  have e : ∀ x : Int32, x ∉ [3, 7] → showCommandName x.toInt = "SW_SHOWNORMAL" := by
    intro x hx
    simp only [List.mem_cons, List.not_mem_nil, or_false, not_or] at hx
    unfold showCommandName
    rw [if_neg (show ¬ x.toInt = 3 from fun h => hx.1 (Int32.toInt_inj.1 h)), if_neg (show ¬ x.toInt = 7 from fun h => hx.2 (Int32.toInt_inj.1 h))]
  rw [e v h, e v' h']

theorem object_same {h h' : Header} {c a w c' a' w' : Option DateTime} {wc wa ww wc' wa' ww' : List Warn}
    (tc : TimeRead h.creationTime c wc) (ta : TimeRead h.accessTime a wa) (tw : TimeRead h.writeTime w ww)
    (tc' : TimeRead h'.creationTime c' wc') (ta' : TimeRead h'.accessTime a' wa') (tw' : TimeRead h'.writeTime w' ww') (e : SameHeader h h') :
    headerObject h c a w = headerObject h' c' a' w' ∧ said h = said h' ∧ h.headerSize = h'.headerSize ∧ h.linkCLSID = h'.linkCLSID ∧
      h.linkFlags = h'.linkFlags ∧ h.fileAttributes = h'.fileAttributes := by
  have e0 := e.exact
  rw [Header.mk.injEq] at e0
  obtain ⟨e1, e2, e3, e4, -, -, -, e5, e6, -, e7, e8, e9, e10, e11⟩ := e0
  refine ⟨?_, ?_, e1, e2, e3, e4⟩
  · unfold headerObject
    rw [same_time tc tc' e.creation, same_time ta ta' e.access, same_time tw tw' e.write, showCommand_shown e.showCommand, e1, e2, e3, e4, e5, e6,
      e7, e8, e9, e10, e11]
  · unfold said
    rw [e1, e2, e9, e10, e11]

/-- The file with the other header. -/
def swapped (hd' : Header) (rest : Bytes) (f : LnkFile) : LnkFile :=
  { f with indata := hd'.encode ++ rest, header := ⟨(hd'.encode ++ rest).take hd'.headerSize.toNat⟩ }

theorem swapped_rest (hd' : Header) (rest : Bytes) (f : LnkFile) : (swapped hd' rest f).stringData = f.stringData ∧
    (swapped hd' rest f).jsonTarget = f.jsonTarget ∧ (swapped hd' rest f).jsonInfo = f.jsonInfo ∧
    (swapped hd' rest f).extras.asDict = f.extras.asDict := ⟨rfl, rfl, rfl, rfl⟩

/-- What the other header makes of the file. -/
theorem swapped_json (env : Env) (cp : Option String) (allow : Bool) {hd hd' : Header} {rest : Bytes} (h : SameHeader hd hd') {f : LnkFile}
    (hf : (LnkFile.process env cp allow (hd.encode ++ rest)).res = .ok f) {j : Dict} (hj : (f.getJson true).res = .ok j) :
    LnkFile.process env cp allow (hd'.encode ++ rest) = (do
      let f ← LnkFile.process env cp allow (hd.encode ++ rest)
      pure (swapped hd' rest f)) ∧
    (f.formatLinkFlags = (swapped hd' rest f).formatLinkFlags ∧ f.formatFileFlags = (swapped hd' rest f).formatFileFlags ∧
      ∀ s, f.header.hasFlag s = (swapped hd' rest f).header.hasFlag s) ∧
    ∃ A B o, f.jsonHeader = ⟨A ++ badSaid (badTimes hd) ++ B, .ok o⟩ ∧
      (swapped hd' rest f).jsonHeader = ⟨A ++ badSaid (badTimes hd') ++ B, .ok o⟩ := by
  obtain ⟨h76, hh⟩ := header_long hf hj
  obtain ⟨c, a, w, wc, wa, ww, tc, ta, tw, hg⟩ := header_said hd
  obtain ⟨c', a', w', wc', wa', ww', tc', ta', tw', hg'⟩ := header_said hd'
  obtain ⟨o1, o2, o3, o4, o5, o6⟩ := object_same tc ta tw tc' ta' tw' h
  have hr : HeaderRaw hd f.header.raw := by
    rw [hh]
    exact HeaderRaw_take hd rest _ h76
  have hr' : HeaderRaw hd' (swapped hd' rest f).header.raw := HeaderRaw_take hd' rest _ (by rw [← o3]; exact h76)
  refine ⟨?_, ⟨?_, ?_, fun s => ?_⟩, _, _, _, hg f hr, ?_⟩
  · rw [process_other env cp allow o3 o4 o5 h76 hf, o3]
    rfl
  · unfold LnkFile.formatLinkFlags
    rw [rLinkFlags_enc hr, linkFlags_enc hr, rLinkFlags_enc hr', linkFlags_enc hr', o5]
  · unfold LnkFile.formatFileFlags
    rw [rFileFlags_enc hr, fileFlags_enc hr, rFileFlags_enc hr', fileFlags_enc hr', o6]
  · unfold LnkHeader.hasFlag
    rw [linkFlags_enc hr, linkFlags_enc hr', o5]
  · rw [hg' _ hr', o1, o2]

/-- The warnings of the report, and what it is, from those of the header. -/
theorem json_header (f : LnkFile) {w : List Warn} {o : Dict} (h : f.jsonHeader = ⟨w, .ok o⟩) :
    ∃ k : Py Dict, (f.getJson true) = ⟨w ++ k.warns, k.res⟩ ∧ ∀ g : LnkFile, (g.size = f.size ∧ g.stringData = f.stringData ∧ g.targets = f.targets ∧
      g.info = f.info ∧ g.extras = f.extras ∧ g.targetIndex = f.targetIndex) → ∀ w', g.jsonHeader = ⟨w', .ok o⟩ → g.getJson true = ⟨w' ++ k.warns, k.res⟩ := by
  let K : LnkFile → Dict → Py Dict := fun f header => do
    let target ← f.jsonTarget
    let info ← f.jsonInfo
    let extra ← f.extras.asDict
    let prH := if true then header else LnkFile.pruneHeader header
    let prI := if true then info else LnkFile.pruneInfo info
    let prT := target.map fun t => if true then t else LnkFile.pruneTarget t
    pure ([("size", .nat f.size), ("header", .dict prH)]
      ++ (prT.toList.map fun t => ("target", .dict t))
      ++ [("link_info", .dict prI), ("data", .dict f.stringData.asDict), ("extra", .dict extra)])
  have hK : ∀ f : LnkFile, f.getJson true = f.jsonHeader >>= K f := fun _ => rfl
  have hb : ∀ (f : LnkFile) (w : List Warn), ((⟨w, .ok o⟩ : Py Dict) >>= K f) = ⟨w ++ (K f o).warns, (K f o).res⟩ := fun _ _ => rfl
  refine ⟨K f o, by rw [hK, h, hb], fun g ⟨g1, g2, g3, g4, g5, g6⟩ w' h' => ?_⟩
  have e : K g = K f := by
    funext d
    simp only [K]
    rw [g1, g2, g5, show g.jsonTarget = f.jsonTarget by unfold LnkFile.jsonTarget; rw [g3, g6],
      show g.jsonInfo = f.jsonInfo by unfold LnkFile.jsonInfo; rw [g4]]
  rw [hK, h', hb, e]

/-- Nothing tells the files apart if the headers are alike. -/
theorem alike_seen {env : Env} {cp : Option String} {allow : Bool} {hd hd' : Header} {rest : Bytes} {src src' : Source}
    (hs : src.bytes = hd.encode ++ rest) (hs' : src'.bytes = hd'.encode ++ rest) {f : LnkFile}
    (hf0 : (LnkFile.process env cp allow (hd.encode ++ rest)).res = .ok f) {j : Dict} (hj : (f.getJson true).res = .ok j)
    (h : AlikeHeader hd hd') : NothingSeen env cp allow src src' := by
  obtain ⟨h, hb⟩ := h
  obtain ⟨hp, ⟨p1, p2, p3⟩, A, B, o, e, e'⟩ := swapped_json env cp allow h hf0 hj
  refine nothing_seen' (P := LnkFile.process env cp allow (hd.encode ++ rest)) (g := id) (g' := swapped hd' rest)
    (by rw [hs]; exact encode_ne _ _) (by rw [hs']; exact encode_ne _ _) (by rw [hs]; exact (bind_pure _).symm) (by rw [hs']; exact hp) fun g hg => ?_
  rw [hf0] at hg
  cases hg
  have q : (swapped hd' rest f).jsonHeader = f.jsonHeader := by rw [e', e, hb]
  exact ⟨rfl, ⟨q, p1.symm, p2.symm, fun s => (p3 s).symm⟩, swapped_rest hd' rest f⟩

end HeaderSeen

open HeaderSeen

/-- C101: two files with the same bytes behind the headers have the same report exactly if everything in the headers is equal, except that the
times may differ by what is lost in their precision, that times without a date are not told apart, and that show commands other than 3
and 7 are not told apart. -/
theorem header_reported (env : Env) (cp : Option String) (allow : Bool) (hd hd' : Header) (rest : Bytes) (src src' : Source)
    (hs : src.bytes = hd.encode ++ rest) (hs' : src'.bytes = hd'.encode ++ rest) (f : LnkFile)
    (hf : (LnkFile.init env cp allow src).Returns f) (j : Dict) (hj : (f.getJson true).Returns j) :
    (∃ f', (LnkFile.init env cp allow src').Returns f' ∧ (f'.getJson true).Returns j) ↔ SameHeader hd hd' := by
  have hf0 := hf
  rw [init_bytes hs (encode_ne _ _)] at hf0
  obtain ⟨h76, hh⟩ := header_long hf0 hj
  constructor
  · rintro ⟨f', hf', hj'⟩
    have hf1 := hf'
    rw [init_bytes hs' (encode_ne _ _)] at hf1
    obtain ⟨h76', -⟩ := header_long hf1 hj'
    obtain ⟨c, a, w, pc, pa, pw, e⟩ := header_json env cp allow true hd rest h76 src hs f hf j hj
    obtain ⟨c', a', w', pc', pa', pw', e'⟩ := header_json env cp allow true hd' rest h76' src' hs' f' hf' j hj'
    have key : ∀ {v : Int64} {r : Option DateTime}, (parseFiletime (leI 8 v.toInt)).Returns r → ∃ wr, TimeRead v r wr := by
      intro v r h
      obtain ⟨r', wr, h1, h2⟩ := time_read v
      rw [h1] at h
      cases h
      exact ⟨wr, h2⟩
    obtain ⟨_, tc⟩ := key pc
    obtain ⟨_, ta⟩ := key pa
    obtain ⟨_, tw⟩ := key pw
    obtain ⟨_, tc'⟩ := key pc'
    obtain ⟨_, ta'⟩ := key pa'
    obtain ⟨_, tw'⟩ := key pw'
    rw [e] at e'
    simp only [if_true, Option.some.injEq, PyVal.dict.injEq] at e'
    exact header_same tc ta tw tc' ta' tw' e'
  · intro h
    obtain ⟨hp, -, A, B, o, e, e'⟩ := swapped_json env cp allow h hf0 hj
    refine ⟨swapped hd' rest f, ?_, ?_⟩
    · unfold Py.Returns
      rw [init_bytes hs' (encode_ne _ _), hp]
      exact bind_ok_iff.2 ⟨f, hf0, rfl⟩
    · obtain ⟨k, k1, k2⟩ := json_header f e
      have := k2 (swapped hd' rest f) ⟨rfl, rfl, rfl, rfl, rfl, rfl⟩ _ e'
      unfold Py.Returns at hj ⊢
      rw [this]
      rw [k1] at hj
      exact hj

/-- C101: nothing tells such files apart, not even a warning, exactly if moreover the headers have the same invalid times. -/
theorem header_seen (env : Env) (cp : Option String) (allow : Bool) (hd hd' : Header) (rest : Bytes) (src src' : Source)
    (hs : src.bytes = hd.encode ++ rest) (hs' : src'.bytes = hd'.encode ++ rest) (f : LnkFile)
    (hf : (LnkFile.init env cp allow src).Returns f) (j : Dict) (hj : (f.getJson true).Returns j) :
    NothingSeen env cp allow src src' ↔ AlikeHeader hd hd' := by
  have hf0 := hf
  rw [init_bytes hs (encode_ne _ _)] at hf0
  constructor
  · intro hn
    obtain ⟨f', hf', -, -, hg⟩ := hn.same f hf
    have h : SameHeader hd hd' := (header_reported env cp allow hd hd' rest src src' hs hs' f hf j hj).1 ⟨f', hf', by
      unfold Py.Returns
      rw [(hg true).1]
      exact hj⟩
    refine ⟨h, ?_⟩
    obtain ⟨hp, -, A, B, o, e, e'⟩ := swapped_json env cp allow h hf0 hj
    have hf1 : (LnkFile.init env cp allow src').res = .ok (swapped hd' rest f) := by
      rw [init_bytes hs' (encode_ne _ _), hp]
      exact bind_ok_iff.2 ⟨f, hf0, rfl⟩
    rw [hf1] at hf'
    cases hf'
    obtain ⟨k, k1, k2⟩ := json_header f e
    have k3 := k2 (swapped hd' rest f) ⟨rfl, rfl, rfl, rfl, rfl, rfl⟩ _ e'
    have := congrArg Py.warns (k3.symm.trans ((hg true).1.trans k1))
    simp only [List.append_assoc, List.append_cancel_left_eq] at this
    rw [← List.append_assoc, ← List.append_assoc, List.append_cancel_right_eq] at this
    exact (bad_inj (List.append_cancel_right this)).symm
  · exact fun h => alike_seen hs hs' hf0 hj h

/-! ### examples -/

/-- The link of the examples with other times and another show command. -/
def timedLink (c a : Int64) (show' : Int32) : ShellLink :=
  { exampleLink with header := { exampleLink.header with creationTime := c, accessTime := a, showCommand := show' } }

theorem timedLink_valid (env : Env) (c a : Int64) (show' : Int32) : (timedLink c a show').Valid (TextProc.mk' env none) := by
  have h := exampleLink_valid env
  exact ⟨h.headerSize, h.hasItems, h.items, h.hasInfo, h.info, h.announced, h.strings, h.blocks⟩

/-- An invalid creation time and no access time, or no creation time and the invalid time as access time, and two show commands that have
no name: nothing tells the two apart.  A show command of 3 is seen. -/
example (env : Env) :
    NothingSeen env none false (.indata (timedLink (-600000000000000000) 0 5).encode) (.indata (timedLink 0 (-600000000000000000) 1000).encode) ∧
    ¬ NothingSeen env none false (.indata (timedLink (-600000000000000000) 0 5).encode) (.indata (timedLink (-600000000000000000) 0 3).encode) := by
  obtain ⟨rest, hr⟩ : ∃ rest, ∀ c a x, (timedLink c a x).encode = (timedLink c a x).header.encode ++ rest := by
    refine ⟨exampleLink.encodeTarget ++ exampleLink.encodeInfo ++ exampleLink.strings.encode (exampleLink.flags.testBit 7) ++
      exampleLink.encodeBlocks ++ le 4 0, fun c a x => ?_⟩
    unfold ShellLink.encode
    simp only [List.append_assoc]
    rfl
  obtain ⟨f, h1, -, c, a, w, wc, wa, ww, -, -, -, h2⟩ := link_roundtrip env none false (timedLink (-600000000000000000) 0 5) (timedLink_valid env _ _ _)
    (.indata (timedLink (-600000000000000000) 0 5).encode) rfl
  have key := fun c' a' x' => header_seen env none false (timedLink (-600000000000000000) 0 5).header (timedLink c' a' x').header rest
    (.indata (timedLink (-600000000000000000) 0 5).encode) (.indata (timedLink c' a' x').encode) (hr _ _ _) (hr _ _ _) f (congrArg Py.res h1) _
    (congrArg Py.res h2)
  have no : SameTime.NoDate (-600000000000000000) := .inr (by decide +kernel)
  have nz : SameTime.NoDate 0 := .inl rfl
  rw [key, key]
  refine ⟨⟨⟨rfl, .inr ⟨no, nz⟩, .inr ⟨nz, no⟩, .inr ⟨nz, nz⟩, .inr (by decide)⟩, by decide +kernel⟩, fun h => ?_⟩
  have := h.same.showCommand
  revert this
  decide

end Verif.Props
