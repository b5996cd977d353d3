import Verif.Lemmas.Notices
import Verif.Props.Warnings

/-
C73: all warnings of a report, in order.
-/

namespace Verif.Props

open Spec Py

/-- The warnings about the time at `off`. -/
def TimeSays (b : Bytes) (off : Nat) (w : List Warn) : Prop :=
  ∃ (v : Int64) (r : Option DateTime), between b off (off + 8) = leI 8 v.toInt ∧ TimeRead v r w

/-- The warnings about the header. -/
inductive HeaderSays (b : Bytes) : List Warn → Prop
  | mk {g : Guid} {w₁ w₂ w₃ : List Warn} {n n₀ n₁ n₂ : Nat} : between b 4 20 = g.encode → TimeSays b 28 w₁ → TimeSays b 36 w₂ →
      TimeSays b 44 w₃ → uAt 4 b 0 = some n → uAt 2 b 66 = some n₀ → uAt 4 b 68 = some n₁ → uAt 4 b 72 = some n₂ →
      HeaderSays b (unlessEqual "link_cls_id" (.str shellLinkCLSID.text) (.str g.text) ++ (w₁ ++ (w₂ ++ (w₃ ++
        (unlessEqual "size" (.int 76) (.int n) ++ (unlessEqual "reserved0" (.int 0) (.int n₀) ++
        (unlessEqual "reserved1" (.int 0) (.int n₁) ++ unlessEqual "reserved2" (.int 0) (.int n₂))))))))

namespace Notices

theorem filetime_says {b : Bytes} {m off : Nat} (h : off + 8 ≤ m) {a} (ha : (parseFiletime (slice (b.take m) off (off + 8))).res = .ok a) :
    ∃ w, TimeSays b off w ∧ Says (parseFiletime (slice (b.take m) off (off + 8))) w := by
  have e : slice (b.take m) off (off + 8) = between b off (off + 8) := between_take b off (off + 8) m h
  rw [e] at ha ⊢
  have hl : (between b off (off + 8)).length = 8 := by
    by_contra hl
    rw [filetime_wrong_length _ hl] at ha
    cases ha
  obtain ⟨v, hv⟩ := leI8_surj hl
  obtain ⟨r, w, h1, h2⟩ := time_read v
  refine ⟨w, ⟨v, r, hv.symm, h2⟩, ?_⟩
  rw [← hv, h1]
  refine ⟨fun _ _ => ?_⟩
  by_cases h0 : v = 0
  · rw [(h2.zero h0).2]; rfl
  rcases r with _ | d
  · rw [(h2.missing h0 rfl).1]; rfl
  · rw [(h2.near d rfl).2.2]; rfl

theorem header_says {f : LnkFile} {b : Bytes} {m : Nat} (hf : f.header = ⟨b.take m⟩) (hm : 76 ≤ m) {d : Dict}
    (h : f.jsonHeader.res = .ok d) : HeaderSays b (f.jsonHeader.warns.filter told) := by
  have key : ∀ W, HeaderSays b W → Says f.jsonHeader W → HeaderSays b (f.jsonHeader.warns.filter told) :=
    fun W hW hS => by rw [hS.out d h]; exact hW
  unfold LnkFile.jsonHeader at h
  rw [hf] at h
  obtain ⟨guid, h1, h⟩ := bind_ok_iff.1 h
  obtain ⟨rlf, h2, h⟩ := bind_ok_iff.1 h
  obtain ⟨rff, h3, h⟩ := bind_ok_iff.1 h
  obtain ⟨ct, h4, h⟩ := bind_ok_iff.1 h
  obtain ⟨at_, h5, h⟩ := bind_ok_iff.1 h
  obtain ⟨wt, h6, h⟩ := bind_ok_iff.1 h
  obtain ⟨fs, h7, h⟩ := bind_ok_iff.1 h
  obtain ⟨ii, h8, h⟩ := bind_ok_iff.1 h
  obtain ⟨ws, h9, h⟩ := bind_ok_iff.1 h
  obtain ⟨hk, h10, h⟩ := bind_ok_iff.1 h
  obtain ⟨rhk, h11, h⟩ := bind_ok_iff.1 h
  obtain ⟨lf, h12, h⟩ := bind_ok_iff.1 h
  obtain ⟨ff, h13, h⟩ := bind_ok_iff.1 h
  obtain ⟨hs, h14, h⟩ := bind_ok_iff.1 h
  obtain ⟨r0, h15, h⟩ := bind_ok_iff.1 h
  obtain ⟨r1, h16, h⟩ := bind_ok_iff.1 h
  obtain ⟨r2, h17, h⟩ := bind_ok_iff.1 h
  have mustOk : ∀ {α : Type} {n : String} {v : MustVal} {g : α → MustVal} {x : Py α} {a : α}, (mustBe n v g x).res = .ok a →
      x.res = .ok a := by
    intro α n v g x a h
    unfold mustBe at h
    obtain ⟨a', h1, h2⟩ := bind_ok_iff.1 h
    have : a' = a := by
      split at h2
      · obtain ⟨_, -, h2⟩ := bind_ok_iff.1 h2
        simpa using h2
      · simpa using h2
    rw [← this]
    exact h1
  obtain ⟨w1, t1, s1⟩ := filetime_says (b := b) (m := m) (off := 28) (by omega) h4
  obtain ⟨w2, t2, s2⟩ := filetime_says (b := b) (m := m) (off := 36) (by omega) h5
  obtain ⟨w3, t3, s3⟩ := filetime_says (b := b) (m := m) (off := 44) (by omega) h6
  have u1 : uAt 4 b 0 = some hs := LnkHeader.uAt_of_take (n := 4) (off := 0) (by omega) (mustOk h14)
  have u2 : uAt 2 b 66 = some r0 := LnkHeader.uAt_of_take (n := 2) (off := 66) (by omega) (mustOk h15)
  have u3 : uAt 4 b 68 = some r1 := LnkHeader.uAt_of_take (n := 4) (off := 68) (by omega) (mustOk h16)
  have u4 : uAt 4 b 72 = some r2 := LnkHeader.uAt_of_take (n := 4) (off := 72) (by omega) (mustOk h17)
  have hcls := mustOk h1
  have e : slice (b.take m) 4 20 = between b 4 20 := between_take b 4 20 m (by omega)
  dsimp only at hcls
  rw [e] at hcls
  have hl : (between b 4 20).length = 16 := by
    have h16 : 16 ≤ (between b 4 20).length := by
      by_contra hc
      rw [(when_parseUuid (between b 4 20)).err hc] at hcls
      cases hcls
    have : (between b 4 20).length ≤ 16 := by unfold between; simp
    omega
  obtain ⟨g, hg⟩ := guid_every_16_bytes (between b 4 20) hl
  have ht : shellLinkCLSID.text = "00021401-0000-0000-C000-000000000046".toList := by decide +kernel
  have q1 : Says (LnkHeader.linkClsId ⟨b.take m⟩) (unlessEqual "link_cls_id" (.str shellLinkCLSID.text) (.str g.text)) := by
    refine says_mustBe (warned_parseUuid _) fun a ha => ?_
    rw [e, ← hg, parseUuid_encode] at ha
    obtain rfl : g.text = a := Except.ok.inj ha
    rw [ht]
  have must : ∀ {n : String} {v : Nat} {x : Py Nat} {a : Nat}, Quiet x → x.res = .ok a →
      Says (mustBe n (.int v) (fun k : Nat => .int k) x) (unlessEqual n (.int v) (.int a)) := by
    intro n v x a hq hx
    refine says_mustBe hq fun a' ha' => ?_
    rw [hx] at ha'
    cases ha'
    rfl
  refine key _ (HeaderSays.mk hg.symm t1 t2 t3 u1 u2 u3 u4) ?_
  unfold LnkFile.jsonHeader
  rw [hf]
  refine says_bind q1 fun _ _ => ?_
  refine says_skip (warned_unpackU _ _) fun _ _ => ?_
  refine says_skip (warned_unpackU _ _) fun _ _ => ?_
  refine says_bind s1 fun _ _ => ?_
  refine says_bind s2 fun _ _ => ?_
  refine says_bind s3 fun _ _ => ?_
  refine says_skip (warned_unpackU _ _) fun _ _ => ?_
  refine says_skip (warned_unpackI _ _) fun _ _ => ?_
  refine says_skip (warned_bind (warned_unpackI _ _) fun _ => warned_pure _) fun _ _ => ?_
  refine says_skip ?_ fun _ _ => ?_
  · unfold LnkHeader.hotKey
    dsimp only
    split
    · split <;> exact warned_pure _
    · exact warned_raise _
  refine says_skip (warned_unpackU _ _) fun _ _ => ?_
  refine says_skip (warned_bind (warned_unpackU _ _) fun _ => warned_pure _) fun _ _ => ?_
  refine says_skip (warned_bind (warned_unpackU _ _) fun _ => warned_pure _) fun _ _ => ?_
  refine says_bind (must (warned_unpackU _ _) (mustOk h14)) fun _ _ => ?_
  refine says_bind (must (warned_unpackU _ _) (mustOk h15)) fun _ _ => ?_
  refine says_bind (must (warned_unpackU _ _) (mustOk h16)) fun _ _ => ?_
  refine says_last (must (warned_unpackU _ _) (mustOk h17)) fun _ _ => warned_pure _

theorem mustBe_pure {n : String} {v a : Nat} {x : Py Nat} (hx : x = pure a) :
    mustBe n (.int v) (fun k : Nat => .int k) x = ⟨unlessEqual n (.int v) (.int a), .ok a⟩ := by
  subst hx
  unfold mustBe unlessEqual
  rw [pure_bind]
  by_cases h : a = v
  · subst h
    simp
    rfl
  · have : ¬ (MustVal.int a = MustVal.int v) := by simpa using h
    simp only [ne_eq, this, not_false_eq_true, if_true, if_false]
    rfl

theorem quiet_tail {W : List Warn} {a : α} {k : α → Py β} (h : Quiet (k a)) :
    ((⟨W, .ok a⟩ : Py α) >>= k).warns.filter told = W.filter told := by
  rw [bind_warns]
  simp only [List.filter_append]
  rw [h.filter, List.append_nil]

theorem told_unlessEqual (n : String) (v a : MustVal) : (unlessEqual n v a).filter told = unlessEqual n v a := by
  unfold unlessEqual
  split <;> rfl

theorem piece_says {tp : TextProc} (hcp : UsableCodePage tp) (p : Piece) {s : Nat} (hs : p.signature = some s)
    (hu : uAt 4 p.bytes 0 = some p.declared) (hl : p.bytes.length ≤ p.declared)
    (hr : p.signature = some 0xA000000C → BlockReadable 0xA000000C p.bytes) :
    (Extra.asDict ⟨extraKind s, tp, p.bytes⟩).warns.filter told = pieceNotices p := by
  have hsz : ∀ c, c ≠ .terminal → Extra.size ⟨c, tp, p.bytes⟩ = pure p.declared := by
    intro c hc
    rw [ExtraData.size_eq _ hc, hu]
  unfold pieceNotices
  by_cases h3 : s = 0xA0000003
  · subst h3
    rw [if_pos hs]
    show (Extra.asDict ⟨.distributedTracker, tp, p.bytes⟩).warns.filter told = _
    unfold Extra.asDict
    rw [hsz _ (by simp), pure_bind]
    show (Extra.trackerFields ⟨.distributedTracker, tp, p.bytes⟩ >>= _).warns.filter told = _
    unfold Extra.trackerFields
    rcases h8 : uAt 4 p.bytes 8 with _ | n
    · have e : Extra.uint ⟨.distributedTracker, tp, p.bytes⟩ 8 12 = Py.raise .structError := by
        have := unpackU_slice p.bytes 4 8 (by omega)
        rw [h8] at this
        exact this
      have h12 : uAt 4 p.bytes 12 = none := by
        rw [uAt_eq_none_iff] at h8 ⊢
        omega
      rw [h12, e]
      rfl
    · have e : Extra.uint ⟨.distributedTracker, tp, p.bytes⟩ 8 12 = pure n := by
        have := unpackU_slice p.bytes 4 8 (by omega)
        rw [h8] at this
        exact this
      rw [mustBe_pure e, bind_assoc]
      rcases h12 : uAt 4 p.bytes 12 with _ | m
      · have e2 : Extra.uint ⟨.distributedTracker, tp, p.bytes⟩ 12 16 = Py.raise .structError := by
          have := unpackU_slice p.bytes 4 12 (by omega)
          rw [h12] at this
          exact this
        rw [quiet_tail, told_unlessEqual]
        · simp
        · rw [e2]
          exact warned_silent rfl
      · have e2 : Extra.uint ⟨.distributedTracker, tp, p.bytes⟩ 12 16 = pure m := by
          have := unpackU_slice p.bytes 4 12 (by omega)
          rw [h12] at this
          exact this
        rw [bind_warns]
        simp only [List.filter_append]
        rw [told_unlessEqual, mustBe_pure e2, bind_assoc, quiet_tail, told_unlessEqual]
        repeat' first
          | with_reducible exact Target.quiet_readString _ _
          | with_reducible exact warned_parseUuid _
          | warned_step1
  · have n3 : p.signature ≠ some 0xA0000003 := by rw [hs]; simpa using h3
    rw [if_neg n3]
    by_cases hC : s = 0xA000000C
    · subst hC
      rw [if_pos hs]
      have hread : listFault (p.bytes.drop 8) = none := hr hs
      show (Extra.asDict ⟨.shellItem, tp, p.bytes⟩).warns.filter told = _
      have hit : Extra.shellItemIter ⟨.shellItem, tp, p.bytes⟩ = LnkTargets.idLists tp (p.bytes.drop 8) := by
        rw [Extra.shellItemIter_eq (n := p.declared)]
        · congr 1
          simp only [slice]
          rw [List.take_of_length_le]
          simp
          omega
        · exact Target.leNat_slice (n := 4) (off := 0) (by omega) hu
      have hf := LnkTargets.fails_idLists hcp (p.bytes.drop 8)
      rw [hread] at hf
      obtain ⟨items, hok⟩ := hf
      unfold Extra.asDict
      rw [hsz _ (by simp), pure_bind]
      have hS : Says (Extra.shellItemFields ⟨.shellItem, tp, p.bytes⟩ >>= fun d => (pure (("size", PyVal.nat p.declared) :: d) : Py Dict))
          (listNotices (p.bytes.drop 8)) := by
        refine says_last ?_ fun _ _ => warned_pure _
        unfold Extra.shellItemFields
        rw [hit]
        exact says_last (LnkTargets.says_idLists hcp _) fun _ _ => warned_pure _
      refine hS.out (("size", .nat p.declared) :: [("id_list", .list items)]) ?_
      refine bind_ok_iff.2 ⟨[("id_list", .list items)], ?_, rfl⟩
      unfold Extra.shellItemFields
      rw [hit]
      exact bind_ok_iff.2 ⟨items, hok, rfl⟩
    · have nC : p.signature ≠ some 0xA000000C := by rw [hs]; simpa using hC
      rw [if_neg nC]
      refine Quiet.filter (Extra.warned_asDict hcp p hs ?_)
      rintro w (⟨h, -, -⟩ | ⟨h, -, -⟩ | ⟨h, -⟩ | _)
      · exact absurd h n3
      · exact absurd h n3
      · exact absurd h nC
      · rfl

/-- The same for all but the header, whose warnings are left as they are. -/
theorem report_says (env : Env) (cp : Option String) (hcp : UsableCodePage (TextProc.mk' env cp)) (allow : Bool) (src : Source)
    (f : LnkFile) (hf : (LnkFile.init env cp allow src).res = .ok f) :
    ∃ L l last, layout src.bytes = some L ∧ Cut (src.bytes.drop L.extraAt) l last ∧ LnkFile.Parts env cp allow src.bytes L l last f ∧
      ∀ all j, (f.getJson all).res = .ok j →
        (∀ p ∈ l, p.signature = some 0xA000000C → BlockReadable 0xA000000C p.bytes) →
        HeaderSays src.bytes (f.jsonHeader.warns.filter told) ∧ (f.getJson all).warns.filter told = f.jsonHeader.warns.filter told ++
          ((if L.flags.testBit 0 then listNotices (between src.bytes (L.headerSize + 2) L.infoAt) else []) ++
            l.flatMap pieceNotices) := by
  obtain ⟨L, l, last, hL, hc, P, h4, hg⟩ := Blocks.pieces env cp hcp allow src f hf
  refine ⟨L, l, last, hL, hc, P, fun all j hj hr => ?_⟩
  obtain ⟨header, target, info, E, h1, h2, h3, hE, -⟩ := LnkFile.getJson_ok_iff.1 hj
  have h76 : 76 ≤ L.headerSize := by
    by_contra hn
    rw [(Outcome.header_fails P).err fun h => hn h.1] at h1
    cases h1
  refine ⟨Notices.header_says P.header h76 h1, ?_⟩
  have hT : f.jsonTarget.warns.filter told =
      if L.flags.testBit 0 then listNotices (between src.bytes (L.headerSize + 2) L.infoAt) else [] := by
    have ht := P.targets
    unfold LnkFile.jsonTarget at h2 ⊢
    by_cases h0 : L.flags.testBit 0 = true
    · rw [if_pos h0] at ht ⊢
      rw [ht] at h2 ⊢
      have : Says (do
          let n ← LnkTargets.idListSize ⟨TextProc.mk' env cp, src.bytes.drop L.headerSize, slice src.bytes (L.headerSize + 2) L.infoAt⟩
          let items ← LnkTargets.asList ⟨TextProc.mk' env cp, src.bytes.drop L.headerSize, slice src.bytes (L.headerSize + 2) L.infoAt⟩
          pure (some [("size", PyVal.nat n), ("items", .list items), ("index", .nat f.targetIndex)]))
          (listNotices (between src.bytes (L.headerSize + 2) L.infoAt)) :=
        says_skip (warned_unpackU _ _) fun _ _ => says_last (LnkTargets.says_idLists hcp _) fun _ _ => warned_pure _
      exact this.out _ h2
    · rw [if_neg h0] at ht ⊢
      rw [ht]
      rfl
  have hI : f.jsonInfo.warns.filter told = [] := Quiet.filter (LnkFile.warned_jsonInfo (fun _ => rfl) f)
  have hX : f.extras.asDict.warns.filter told = l.flatMap pieceNotices := by
    obtain ⟨E', hE', -, -, -⟩ := extra_report f.extras (Blocks.caught_of_ok hE)
    rw [hE']
    simp only
    rw [List.filter_flatMap]
    have hone : ∀ g : Extra → List Warn, (∀ x, g x = x.asDict.warns.filter told) →
        List.flatMap g f.extras.data = l.flatMap pieceNotices := by
      intro g hgx
      obtain rfl : g = fun x => x.asDict.warns.filter told := funext hgx
      rw [P.extras, List.flatMap_append]
      have hlast : List.flatMap (fun x : Extra => x.asDict.warns.filter told)
          (if allow = true ∧ 4 < last.length then [⟨.terminal, TextProc.mk' env cp, last⟩] else []) = [] := by
        split <;> rfl
      rw [hlast, List.append_nil]
      clear hE' hE hlast P h4 hc
      induction l with
      | nil => rfl
      | cons p l ih =>
        have ih := ih (hg.mono fun q hq => List.mem_cons_of_mem _ hq) fun q hq => hr q (List.mem_cons_of_mem _ hq)
        unfold ExtraData.objects at ih ⊢
        rcases hs : p.signature with _ | s
        · rw [List.filterMap_cons_none (by rw [hs]; rfl), ih, List.flatMap_cons]
          unfold pieceNotices
          simp [hs]
        · rw [List.filterMap_cons_some (b := ⟨extraKind s, TextProc.mk' env cp, p.bytes⟩) (by rw [hs]; rfl), List.flatMap_cons, ih,
            List.flatMap_cons]
          congr 1
          exact Notices.piece_says hcp p hs (hg.size p List.mem_cons_self s hs) (hg.length p List.mem_cons_self)
            (hr p List.mem_cons_self)
    refine hone _ fun x => ?_
    simp only [List.filter_append]
    rcases x.asDict.res with e | a <;> simp [told]
  unfold LnkFile.getJson
  simp only [bind_warns, h1, h2, h3, hE, pure_warns, List.filter_append, hT, hI, hX, List.append_nil, List.nil_append]

end Notices

/-- C73: if `get_json` returns and the shell item blocks can be reported, its warnings - apart from undecodable texts and blocks that
cannot be reported - are in this order: class id, times, size and reserved fields of the header, each only if it is not as it must be;
per item of the ID list its type byte and its fields; per extra block its fields. -/
theorem report_notices (env : Env) (cp : Option String) (hcp : UsableCodePage (TextProc.mk' env cp)) (allow : Bool) (src : Source)
    (f : LnkFile) (hf : (LnkFile.init env cp allow src).res = .ok f) :
    ∃ L l last, layout src.bytes = some L ∧ Cut (src.bytes.drop L.extraAt) l last ∧
      ∀ all j, (f.getJson all).res = .ok j →
        (∀ p ∈ l, p.signature = some 0xA000000C → BlockReadable 0xA000000C p.bytes) →
        ∃ W, HeaderSays src.bytes W ∧ (f.getJson all).warns.filter told = W ++
          ((if L.flags.testBit 0 then listNotices (between src.bytes (L.headerSize + 2) L.infoAt) else []) ++
            l.flatMap pieceNotices) := by
  obtain ⟨L, l, last, hL, hc, -, h⟩ := Notices.report_says env cp hcp allow src f hf
  exact ⟨L, l, last, hL, hc, fun all j hj hr => ⟨_, h all j hj hr⟩⟩

/-! ### a link at odds with the format -/

/-- The class id and two reserved fields are wrong; the ID list has an item of unknown type, a root folder without a known index, and
a file entry of unknown kind whose date is none; the tracker block has the wrong length; a shell item block. -/
def odd : Bytes := le 4 76 ++ List.replicate 16 7 ++ le 4 1 ++ List.replicate 42 0 ++ le 2 3 ++ le 4 0 ++ le 4 9 ++
  (le 2 42 ++ ((le 2 4 ++ [0x99, 0]) ++ (le 2 20 ++ [0x1F, 1] ++ List.replicate 16 0) ++
    (le 2 16 ++ [0x38, 0] ++ le 4 5 ++ [0xFF, 0xFF, 0xFF, 0xFF] ++ le 2 0 ++ [0x41, 0]) ++ le 2 0)) ++
  (le 4 96 ++ le 4 0xA0000003 ++ le 4 1 ++ List.replicate 84 0) ++
  (le 4 14 ++ le 4 0xA000000C ++ (le 2 4 ++ [0x9A, 0]) ++ le 2 0)

theorem odd_layout : layout odd = some ⟨76, 1, 120, 120, 120⟩ := by decide +kernel

theorem odd_cut : Cut (odd.drop 120)
    [⟨96, le 4 96 ++ le 4 0xA0000003 ++ le 4 1 ++ List.replicate 84 0, some 0xA0000003⟩,
      ⟨14, le 4 14 ++ le 4 0xA000000C ++ (le 2 4 ++ [0x9A, 0]) ++ le 2 0, some 0xA000000C⟩] [] := by
  have h0 : Cut (((odd.drop 120).drop 96).drop 14) [] (((odd.drop 120).drop 96).drop 14) := .stop (.inl (by decide +kernel))
  have h1 := Cut.block (b := (odd.drop 120).drop 96) (n := 14) (by decide +kernel) (by decide) h0
  have h := Cut.block (b := odd.drop 120) (n := 96) (by decide +kernel) (by decide) h1
  have e1 : ((odd.drop 120).drop 96).drop 14 = [] := by decide +kernel
  have e2 : (⟨96, (odd.drop 120).take 96, uAt 4 (odd.drop 120) 4⟩ : Piece) =
      ⟨96, le 4 96 ++ le 4 0xA0000003 ++ le 4 1 ++ List.replicate 84 0, some 0xA0000003⟩ := by
    congr 1
  have e3 : (⟨14, ((odd.drop 120).drop 96).take 14, uAt 4 ((odd.drop 120).drop 96) 4⟩ : Piece) =
      ⟨14, le 4 14 ++ le 4 0xA000000C ++ (le 2 4 ++ [0x9A, 0]) ++ le 2 0, some 0xA000000C⟩ := by
    congr 1
  rw [e1, e2, e3] at h
  exact h

/-- Its object exists and has a report, with these warnings. -/
example (env : Env) (allow all : Bool) :
    ∃ f, (LnkFile.init env none allow (.indata odd)).res = .ok f ∧ (∃ j, (f.getJson all).res = .ok j) ∧
      (f.getJson all).warns.filter told =
        [.mustBe "link_cls_id" (.str shellLinkCLSID.text) (.str "07070707-0707-0707-0707-070707070707".toList),
          .mustBe "reserved0" (.int 0) (.int 3), .mustBe "reserved2" (.int 0) (.int 9),
          .itemType 0x99, .sortIndex 1, .itemFlags 8, .invalidDostime [0xFF, 0xFF, 0xFF, 0xFF],
          .mustBe "length" (.int 0x58) (.int 1), .itemType 0x9A] := by
  obtain ⟨f, hf⟩ := (constructor_outcome env none (usable_default env) allow (.indata odd)).1.2 (by
    refine ⟨⟨76, 1, by decide +kernel, by decide +kernel, by decide, by decide +kernel⟩, ?_⟩
    intro L l last hL hc p hp hs
    simp only [Source.bytes] at hL hc
    rw [odd_layout] at hL
    cases hL
    obtain ⟨rfl, -⟩ := cut_unique hc odd_cut
    simp only [List.mem_cons, List.not_mem_nil, or_false] at hp
    rcases hp with rfl | rfl <;> decide)
  have hlf : listFault ((le 4 14 ++ le 4 0xA000000C ++ (le 2 4 ++ [0x9A, 0]) ++ le 2 0).drop 8) = none := by decide +kernel
  obtain ⟨L, l, last, hL, hc, h⟩ := report_returns env none (usable_default env) allow _ f hf
  simp only [Source.bytes] at hL hc h
  rw [odd_layout] at hL
  cases hL
  obtain ⟨rfl, -⟩ := cut_unique hc odd_cut
  obtain ⟨j, hj⟩ := (h all).2 ⟨⟨by decide, by decide +kernel⟩, by decide +kernel, fun h => absurd h (by decide), fun p hp e he => by
    simp only [List.mem_cons, List.not_mem_nil, or_false] at hp
    rcases hp with rfl | rfl
    · rcases he with ⟨h, -⟩ | ⟨h, -⟩ <;> exact absurd h (by decide)
    · rcases he with ⟨h, -⟩ | ⟨-, h⟩
      · exact absurd h (by decide)
      · simp only at h
        rw [hlf] at h
        simp at h⟩
  refine ⟨f, hf, ⟨j, hj⟩, ?_⟩
  obtain ⟨L, l, last, hL, hc, h⟩ := report_notices env none (usable_default env) allow _ f hf
  simp only [Source.bytes] at hL hc h
  rw [odd_layout] at hL
  cases hL
  obtain ⟨rfl, -⟩ := cut_unique hc odd_cut
  obtain ⟨W, hW, h⟩ := h all j hj (by
    intro p hp hs
    simp only [List.mem_cons, List.not_mem_nil, or_false] at hp
    rcases hp with rfl | rfl
    · exact absurd hs (by decide)
    · exact hlf)
  have hWe : W = [.mustBe "link_cls_id" (.str shellLinkCLSID.text) (.str "07070707-0707-0707-0707-070707070707".toList),
      .mustBe "reserved0" (.int 0) (.int 3), .mustBe "reserved2" (.int 0) (.int 9)] := by
    have hzero : ∀ off w, between odd off (off + 8) = leI 8 (0 : Int64).toInt → TimeSays odd off w → w = [] := by
      rintro off w hz ⟨v, r, hv, hr⟩
      rw [hz] at hv
      have h1 : (unpackI 8 (leI 8 (0 : Int64).toInt)).res = (unpackI 8 (leI 8 v.toInt)).res := by rw [hv]
      rw [unpackI_leI8, unpackI_leI8] at h1
      exact (hr.zero (Int64.toInt_inj.1 (Except.ok.inj h1)).symm).2
    obtain ⟨hg, t1, t2, t3, u1, u2, u3, u4⟩ := hW
    rename_i g w1 w2 w3 n n0 n1 n2
    have e1 := hzero _ _ (by decide +kernel) t1
    have e2 := hzero _ _ (by decide +kernel) t2
    have e3 := hzero _ _ (by decide +kernel) t3
    rw [show uAt 4 odd 0 = some 76 by decide +kernel] at u1
    rw [show uAt 2 odd 66 = some 3 by decide +kernel] at u2
    rw [show uAt 4 odd 68 = some 0 by decide +kernel] at u3
    rw [show uAt 4 odd 72 = some 9 by decide +kernel] at u4
    cases u1; cases u2; cases u3; cases u4
    have hg' : g.encode = (⟨0x07070707, 0x0707, 0x0707, 7, 7, 7, 7, 7, 7, 7, 7⟩ : Guid).encode := by
      rw [← hg]
      decide +kernel
    have ht : (parseUuid g.encode).res = (parseUuid (⟨0x07070707, 0x0707, 0x0707, 7, 7, 7, 7, 7, 7, 7, 7⟩ : Guid).encode).res := by rw [hg']
    rw [parseUuid_encode, parseUuid_encode] at ht
    have ht := Except.ok.inj ht
    have e : (⟨0x07070707, 0x0707, 0x0707, 7, 7, 7, 7, 7, 7, 7, 7⟩ : Guid).text = "07070707-0707-0707-0707-070707070707".toList := by
      decide +kernel
    rw [e1, e2, e3, ht, e]
    decide +kernel
  rw [h, hWe]
  decide +kernel

end Verif.Props
