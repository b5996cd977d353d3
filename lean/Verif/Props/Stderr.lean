import Verif.Lemmas.Stderr
import Verif.Props.Said
import Verif.Props.Messages

/-
C92: what is seen of the warnings on standard error.
-/

namespace Verif.Props

open Spec Py Spec.Log

namespace Stderr

open Verif.Stderr Verif.Messages Verif.Said

theorem warns_append (dir : Str) (reg : Registry) (cs ds : List Call) :
    (reg.warns dir (cs ++ ds)).2 = (reg.warns dir cs).2 ++ (Registry.warns dir (reg.warns dir cs).1 ds).2 := by
  induction cs generalizing reg with
  | nil => rfl
  | cons c cs ih =>
    show (reg.warn dir c).2 ++ (Registry.warns dir (reg.warn dir c).1 (cs ++ ds)).2 = _
    rw [ih, ← List.append_assoc]
    rfl

theorem clear_all : Holds Clear where
  decode _ := trivial
  number name hn m n := by
    refine Messages.number_clear ?_ ?_ m n
    · have : ∀ name ∈ ["size", "reserved0", "reserved1", "reserved2", "length", "version"], name ∈ fieldNames := by decide
      exact this name hn
    · have : ∀ name ∈ ["size", "reserved0", "reserved1", "reserved2", "length", "version"], name ≠ "link_cls_id" := by decide
      exact this name hn
  classId g := ⟨by decide, by show ':' ∉ shellLinkCLSID.text; decide +kernel, by simp, by simp⟩
  filetime _ := trivial
  dostime _ := trivial
  itemType _ h := h
  itemFlags _ h := Nat.lt_trans h (by decide)
  sortIndex _ h := h
  category _ := trivial
  block s _ := Messages.blockName_mark s
  infoClass := trivial
  stringData := trivial
  extraSize := trivial
  extraSignature := trivial

/-- No warning about an item that names a key. -/
def NoKey (w : Warn) : Prop := ∀ name, w ≠ .targetKey name

theorem noKey_all : Holds NoKey where
  decode _ := nofun
  number _ _ _ _ := nofun
  classId _ := nofun
  filetime _ := nofun
  dostime _ := nofun
  itemType _ _ := nofun
  itemFlags _ _ := nofun
  sortIndex _ _ := nofun
  category _ := nofun
  block _ _ := nofun
  infoClass := nofun
  stringData := nofun
  extraSize := nofun
  extraSignature := nofun

/-- The numbers in the messages about items. -/
def Small : Warn → Prop
  | .itemType n => n < 256
  | .itemFlags n => n < 16
  | .sortIndex n => n < 256
  | .targetKey _ => False
  | _ => True

theorem small_all : Holds Small where
  decode _ := trivial
  number _ _ _ _ := trivial
  classId _ := trivial
  filetime _ := trivial
  dostime _ := trivial
  itemType _ h := h
  itemFlags _ h := h
  sortIndex _ h := h
  category _ := trivial
  block _ _ := trivial
  infoClass := trivial
  stringData := trivial
  extraSize := trivial
  extraSignature := trivial

theorem tool_each {P : Warn → Prop} (hP : Holds P) (env : Env) (dump : Dict → Str) (args : Args)
    (ht : Tame (TextProc.mk' env (some args.cp))) (content : Option Bytes) :
    ∀ w ∈ (main env dump args content).py.warns, P w := by
  intro w hw
  cases content with
  | none => cases hw
  | some b =>
    have h := tool_logged env dump args ht b (main env dump args (some b)).py.warns
    have hl : ∃ e, tool (TextProc.mk' env (some args.cp)) args.target b (main env dump args (some b)).py.warns e := by
      rcases hr : (main env dump args (some b)).py with ⟨W, e | a⟩
      · rw [hr] at h
        exact ⟨_, (h.2 e).2 rfl⟩
      · rw [hr] at h
        exact ⟨_, h.1.2 rfl⟩
    obtain ⟨e, he⟩ := hl
    exact each_tool hP _ _ _ _ e he w hw

/-- Equal messages come from the same line, unless they are about texts that cannot be decoded. -/
theorem same_line {c d : Call} (hc : Clear c.warn) (hd : Clear d.warn) (kc : NoKey c.warn) (h : c.text = d.text)
    (hne : ¬ SameLine c d) : ∃ s s', c.warn = .decode s ∧ d.warn = .decode s' ∧ c.wide ≠ d.wide := by
  have h1 : some (noticeOf c.quote c.warn) = some (noticeOf d.quote d.warn) := by
    rw [← read_text _ _ hc, ← read_text _ _ hd]
    exact congrArg _ h
  have h2 := Option.some.inj h1
  have hp : c.place ≠ d.place := fun hp => hne ⟨hp, h⟩
  obtain ⟨w, q, b⟩ := c
  obtain ⟨w', q', b'⟩ := d
  cases w <;> cases w' <;> simp only [noticeOf, reduceCtorEq] at h2 <;> first
    | exact absurd rfl hp
    | exact absurd rfl (kc _)
    | skip
  refine ⟨_, _, rfl, rfl, fun hb => hp ?_⟩
  change b = b' at hb
  subst hb
  rfl

end Stderr

open Props.Stderr Verif.Stderr Verif.Messages Verif.Said

/-- C92: what is written for calls `cs`, after others: the message of each call, with the place it comes from, unless one of the
calls before it, in this file or an earlier one, had the same message from the same place. -/
theorem stderr_exact (dir : Str) (before cs : List Call) :
    stderr dir (before ++ cs) = stderr dir before ++ (firstCalls before cs).flatMap (·.shown dir) := by
  unfold stderr
  rw [warns_append]
  congr 1
  exact warns_eq (by simpa using keeps_warns keeps_nil dir before) dir cs

/-- C92: nothing is written for a file exactly if all it gives rise to was written before. -/
theorem stderr_silent_iff (dir : Str) (before cs : List Call) :
    stderr dir (before ++ cs) = stderr dir before ↔ ∀ c ∈ cs, ∃ c' ∈ before, SameLine c' c := by
  rw [stderr_exact, List.append_right_eq_self]
  constructor
  · intro h c hc
    rcases firsts_cover (before := before) hc with h1 | ⟨c', h1, -⟩
    · exact h1
    · exact absurd (List.flatMap_eq_nil_iff.1 h c' h1) (shown_ne dir c')
  · intro h
    refine List.flatMap_eq_nil_iff.2 fun c hc => ?_
    obtain ⟨c', h1, h2⟩ := h c ((firsts_sublist _ _).subset hc)
    exact absurd h2 (firsts_new hc c' h1)

/-- C92: the tool writes every message it issues, and no message twice, except that a text that cannot be decoded may be named by the
one and by the other of the two functions that decode. -/
theorem stderr_distinct (env : Env) (dump : Dict → Str) (args : Args) (ht : Tame (TextProc.mk' env (some args.cp)))
    (content : Option Bytes) (cs : List Call) (hcs : Issues cs (main env dump args content).py.warns) (dir : Str) :
    ∃ kept : List Call, kept.Sublist cs ∧ stderr dir cs = kept.flatMap (·.shown dir) ∧
      (∀ c ∈ cs, ∃ c' ∈ kept, c'.text = c.text) ∧
      kept.Pairwise fun c d => c.text ≠ d.text ∨ ∃ s s', c.warn = .decode s ∧ d.warn = .decode s' ∧ c.wide ≠ d.wide := by
  refine ⟨firstCalls [] cs, firsts_sublist _ _, ?_, ?_, ?_⟩
  · exact stderr_exact dir [] cs
  · intro c hc
    rcases firsts_cover (before := []) hc with ⟨_, h, -⟩ | ⟨c', h1, h2⟩
    · cases h
    · exact ⟨c', h1, h2.2⟩
  · have hmem : ∀ c ∈ firstCalls [] cs, c.warn ∈ (main env dump args content).py.warns := fun c hc =>
      hcs ▸ List.mem_map.2 ⟨c, (firsts_sublist _ _).subset hc, rfl⟩
    refine List.Pairwise.imp_of_mem (fun {c d} hc hd h => ?_) (firsts_pairwise [] cs)
    by_cases he : c.text = d.text
    · exact .inr (same_line (tool_each clear_all env dump args ht content _ (hmem c hc))
        (tool_each clear_all env dump args ht content _ (hmem d hd)) (tool_each noKey_all env dump args ht content _ (hmem c hc)) he h)
    · exact .inl he

/-- Four calls, the third like the first; the fourth has the message of the second but comes from the other function. -/
example : stderr "p/".toList
    [⟨.mustBe "size" (.int 76) (.int 80), ⟨['x'], false⟩, false⟩, ⟨.decode ['a'], ⟨['e'], false⟩, false⟩,
      ⟨.mustBe "size" (.int 76) (.int 80), ⟨[], true⟩, true⟩, ⟨.decode ['a'], ⟨['e'], false⟩, true⟩] =
    ("p/decorators.py:18: UserWarning: size must be 76: 80\n  warnings.warn(msg)\n" ++
      "p/text_processor.py:30: UserWarning: Error while decoding string `a` (e)\n  warnings.warn(msg)\n" ++
      "p/text_processor.py:56: UserWarning: Error while decoding string `a` (e)\n  warnings.warn(msg)\n").toList := by
  show stderr "p/".toList ([] ++ _) = _
  rw [stderr_exact]
  decide +kernel

/-- A second file with the damage of a first one is silent. -/
example (dir : Str) (q : Quote) : stderr dir ([⟨.infoClass, q, false⟩, ⟨.itemType 13, q, false⟩] ++ [⟨.itemType 13, ⟨[], true⟩, true⟩]) =
    stderr dir [⟨.infoClass, q, false⟩, ⟨.itemType 13, q, false⟩] :=
  (stderr_silent_iff dir _ _).2 fun c hc => ⟨⟨.itemType 13, q, false⟩, by simp, by rw [List.mem_singleton.1 hc]; exact ⟨rfl, rfl⟩⟩

/-- C92: however many items a file has, the tool writes at most 256 messages about types of items, 16 about kinds of file entries and
256 about sort indices. -/
theorem stderr_items (env : Env) (dump : Dict → Str) (args : Args) (ht : Tame (TextProc.mk' env (some args.cp)))
    (content : Option Bytes) (cs : List Call) (hcs : Issues cs (main env dump args content).py.warns) (dir : Str) :
    ∃ kept : List Call, kept.Sublist cs ∧ stderr dir cs = kept.flatMap (·.shown dir) ∧
      (kept.filter fun c => decide (c.place.file = "target_factory.py")).length ≤ 256 ∧
      (kept.filter fun c => decide (c.place.file = "target/lnk_target_base.py")).length ≤ 16 ∧
      (kept.filter fun c => decide (c.place.file = "target/root_folder.py")).length ≤ 256 := by
  refine ⟨firstCalls [] cs, firsts_sublist _ _, stderr_exact dir [] cs, ?_⟩
  have hmem : ∀ c ∈ firstCalls [] cs, c.warn ∈ (main env dump args content).py.warns := fun c hc =>
    hcs ▸ List.mem_map.2 ⟨c, (firsts_sublist _ _).subset hc, rfl⟩
  have key : ∀ (file : String) (mk : Nat → Warn) (n : Nat),
      (∀ q q' i, (mk i).text q = (mk i).text q') → (∀ q q' b b' i, Call.place ⟨mk i, q, b⟩ = Call.place ⟨mk i, q', b'⟩) →
      (∀ c ∈ firstCalls [] cs, c.place.file = file → ∃ i < n, c.warn = mk i) →
      ((firstCalls [] cs).filter fun c => decide (c.place.file = file)).length ≤ n := by
    intro file mk n hq hp h
    have : ∃ is : List Nat, is.length = ((firstCalls [] cs).filter fun c => decide (c.place.file = file)).length ∧
        is.Nodup ∧ ∀ i ∈ is, i < n := by
      have hpw := (firsts_pairwise [] cs).sublist (List.filter_sublist (p := fun c => decide (c.place.file = file)))
      have hall : ∀ c ∈ (firstCalls [] cs).filter fun c => decide (c.place.file = file), ∃ i < n, c.warn = mk i := by
        intro c hc
        rw [List.mem_filter, decide_eq_true_eq] at hc
        exact h c hc.1 hc.2
      revert hpw hall
      generalize (firstCalls [] cs).filter (fun c => decide (c.place.file = file)) = l
      intro hpw hall
      have : ∃ is : List Nat, is.length = l.length ∧ is.Nodup ∧ (∀ i ∈ is, i < n) ∧ ∀ i ∈ is, ∃ c ∈ l, c.warn = mk i := by
        induction l with
        | nil => exact ⟨[], rfl, List.nodup_nil, nofun, nofun⟩
        | cons c l ih =>
          obtain ⟨is, h1, h2, h3, h4⟩ := ih hpw.of_cons fun d hd => hall d (List.mem_cons_of_mem _ hd)
          obtain ⟨i, hi, hc⟩ := hall c List.mem_cons_self
          refine ⟨i :: is, by simp [h1], List.nodup_cons.2 ⟨fun hmem => ?_, h2⟩, ?_, ?_⟩
          · obtain ⟨d, hd, hw⟩ := h4 i hmem
            refine (List.pairwise_cons.1 hpw).1 d hd ?_
            obtain ⟨w, q, b⟩ := c
            obtain ⟨w', q', b'⟩ := d
            change w = mk i at hc
            change w' = mk i at hw
            subst hc hw
            exact ⟨hp _ _ _ _ _, hq _ _ _⟩
          · intro j hj
            rcases List.mem_cons.1 hj with rfl | hj
            · exact hi
            · exact h3 j hj
          · intro j hj
            rcases List.mem_cons.1 hj with rfl | hj
            · exact ⟨c, List.mem_cons_self, hc⟩
            · obtain ⟨d, h5, h6⟩ := h4 j hj
              exact ⟨d, List.mem_cons_of_mem _ h5, h6⟩
      obtain ⟨is, h1, h2, h3, -⟩ := this
      exact ⟨is, h1, h2, h3⟩
    obtain ⟨is, h1, h2, h3⟩ := this
    rw [← h1]
    have := (h2.subperm (l₂ := List.range n) fun i hi => List.mem_range.2 (h3 i hi)).length_le
    rwa [List.length_range] at this
  have hsmall := tool_each small_all env dump args ht content
  refine ⟨key "target_factory.py" .itemType 256 (fun _ _ _ => rfl) (fun _ _ _ _ _ => rfl) ?_,
    key "target/lnk_target_base.py" .itemFlags 16 (fun _ _ _ => rfl) (fun _ _ _ _ _ => rfl) ?_,
    key "target/root_folder.py" .sortIndex 256 (fun _ _ _ => rfl) (fun _ _ _ _ _ => rfl) ?_⟩
  all_goals
    intro c hc hf
    have hs := hsmall c.warn (hmem c hc)
    obtain ⟨w, q, b⟩ := c
    cases w <;> first
      | exact ⟨_, hs, rfl⟩
      | exact hs.elim
      | exact absurd hf (by show ¬ Place.file _ = _; unfold Call.place; dsimp only; decide)

/-! ### what is not seen -/

/-- A header that announces nothing. -/
def plainHeader : Bytes := le 4 76 ++ shellLinkCLSID.encode ++ List.replicate 56 0

/-- `n` console blocks without content. -/
def emptyBlocks : Nat → Bytes
  | 0 => le 4 0
  | n + 1 => le 4 8 ++ le 4 0xA0000002 ++ emptyBlocks n

theorem cut_empty (n : Nat) :
    Cut (emptyBlocks n) (List.replicate n ⟨8, le 4 8 ++ le 4 0xA0000002, some 0xA0000002⟩) (le 4 0) := by
  induction n with
  | zero => exact .stop (.inr (by decide +kernel))
  | succ n ih =>
    have h8 : (le 4 8 ++ le 4 0xA0000002).length = 8 := by decide +kernel
    have h1 : uAt 4 (emptyBlocks (n + 1)) 0 = some 8 := Trailer.uAt_some_more _ (by decide +kernel)
    have h2 : uAt 4 (emptyBlocks (n + 1)) 4 = some 0xA0000002 := Trailer.uAt_some_more _ (by decide +kernel)
    have h3 : (emptyBlocks (n + 1)).take 8 = le 4 8 ++ le 4 0xA0000002 := List.take_left' h8
    have h4 : (emptyBlocks (n + 1)).drop 8 = emptyBlocks n := List.drop_left' h8
    have := Cut.block h1 (by decide) (h4.symm ▸ ih)
    rwa [h2, h3] at this

theorem pieces_logged (tp : TextProc) (n : Nat) :
    all ((List.replicate n ⟨8, le 4 8 ++ le 4 0xA0000002, some 0xA0000002⟩).map (extra tp))
      (List.replicate n (.extraBlock "CONSOLE_PROPERTIES_BLOCK" .structError)) none := by
  have hone : extra tp ⟨8, le 4 8 ++ le 4 0xA0000002, some 0xA0000002⟩ [.extraBlock "CONSOLE_PROPERTIES_BLOCK" .structError] none := by
    have hn : blockName 0xA0000002 = "CONSOLE_PROPERTIES_BLOCK" := by decide +kernel
    show caught (blockName 0xA0000002) (block tp 0xA0000002 (le 4 8 ++ le 4 0xA0000002)) _ _
    rw [hn]
    refine .inl ⟨[], .structError, .inl rfl, ?_, rfl, rfl⟩
    unfold block
    rw [if_neg (by decide), if_pos rfl]
    exact all_stop ⟨rfl, .inr ⟨by decide +kernel, rfl⟩⟩
  induction n with
  | zero => exact ⟨rfl, rfl⟩
  | succ n ih => exact all_step (u := [_]) hone ih

theorem empty_logged (tp : TextProc) (n : Nat) :
    tool tp false (plainHeader ++ emptyBlocks n) (List.replicate n (.extraBlock "CONSOLE_PROPERTIES_BLOCK" .structError)) none := by
  have hh : plainHeader.length = 76 := by decide +kernel
  have ht : (plainHeader ++ emptyBlocks n).take 76 = plainHeader := List.take_left' hh
  have hd : (plainHeader ++ emptyBlocks n).drop 76 = emptyBlocks n := List.drop_left' hh
  have h1 : uAt 4 (plainHeader ++ emptyBlocks n) 0 = some 76 := Trailer.uAt_some_more _ (by decide +kernel)
  have hL : layout (plainHeader ++ emptyBlocks n) = some ⟨76, 0, 76, 76, 76⟩ := by
    unfold layout
    rw [h1]
    dsimp only
    rw [ht, show uAt 4 plainHeader 20 = some 0 by decide +kernel]
    dsimp only
    rw [if_neg (by decide)]
    dsimp only
    have hi : infoAnnounced 0 = false := by decide
    rw [hi, Bool.false_and, if_neg (by decide)]
    rfl
  have hc : Cut ((plainHeader ++ emptyBlocks n).drop 76) _ _ := hd.symm ▸ cut_empty n
  have h4 : u4 (plainHeader ++ emptyBlocks n) 0 = 76 := by
    unfold u4
    rw [h1]
    rfl
  have hmute : ∀ (name : String) (v k : Nat), v = k → say (unlessEqual name (.int k) (.int v)) [] none := by
    rintro name v k rfl
    exact ⟨by simp [unlessEqual], rfl⟩
  have htime : ∀ off, sAt 8 plainHeader off = some 0 → time plainHeader off [] none :=
    fun off h => ⟨0, h, .inr ⟨by simp, rfl, rfl⟩⟩
  unfold tool
  rw [if_neg fun h => by have := congrArg List.length h; simp [hh] at this]
  refine .inr ⟨[], _, rfl, ?_, _, _, _, hL, hc, ?_⟩
  · unfold construction
    rw [h4, ht]
    refine all_pass (room_there (by simp [hh]; omega)) (all_pass (hmute _ _ _ rfl) (all_pass (room_there (by decide +kernel))
      (all_pass (hmute _ _ _ rfl) (all_pass ⟨rfl, .inl ⟨by rw [hL]; simp, rfl⟩⟩ (all_pass ?_ ⟨rfl, rfl⟩)))))
    refine ⟨_, _, _, hL, hc, ?_⟩
    refine all_pass ⟨rfl, rfl⟩ (all_pass ⟨rfl, rfl⟩ (all_pass ?_ ⟨rfl, rfl⟩))
    refine all_pass ⟨?_, rfl⟩ (all_pass ⟨?_, rfl⟩ (all_pass ⟨rfl, .inl ⟨?_, rfl⟩⟩ ⟨rfl, rfl⟩))
    · rw [List.filter_replicate, if_neg (by simp)]
      rfl
    · rw [if_neg (by decide +kernel)]
    · intro p hp _
      rw [(List.mem_replicate.1 hp).2]
      decide
  · rw [if_neg (by decide)]
    unfold report
    rw [ht]
    refine all_pass ?_ (all_pass ?_ (all_pass ?_ ?_))
    · unfold header
      refine all_pass (room_there (by decide +kernel)) (all_pass ?_ (all_pass (room_there (by decide +kernel)) (all_pass (htime _ (by decide +kernel))
        (all_pass (room_there (by decide +kernel)) (all_pass (htime _ (by decide +kernel)) (all_pass (room_there (by decide +kernel))
        (all_pass (htime _ (by decide +kernel)) (all_pass (room_there (by decide +kernel)) (all_pass (hmute _ _ _ (by decide +kernel)) ?_)))))))))
      · exact ⟨shellLinkCLSID, by decide +kernel, by simp [unlessEqual], rfl⟩
      · exact all_pass (room_there (by decide +kernel)) (all_pass (hmute _ _ _ (by decide +kernel)) (all_pass (room_there (by decide +kernel))
          (all_pass (hmute _ _ _ (by decide +kernel)) (all_pass (room_there (by decide +kernel)) (all_pass (hmute _ _ _ (by decide +kernel)) ⟨rfl, rfl⟩)))))
    · rw [given_neg (by show ¬ Nat.testBit 0 0 = true; decide)]
      exact ⟨rfl, rfl⟩
    · rw [given_neg (by show ¬ infoAnnounced 0 = true; decide)]
      exact ⟨rfl, rfl⟩
    · rw [all_one]
      exact pieces_logged tp n

/-- C92, violation: damage of a kind is shown once.  For every `n` there is a file with `n` console blocks none of which can be reported;
the tool warns `n` times, but for all `n` that are not zero it writes the same: one message. -/
theorem stderr_repeated (env : Env) (dump : Dict → Str) (n : Nat) (hn : n ≠ 0) :
    ∃ b, (∃ l last, Cut (b.drop 76) l last ∧ l.length = n ∧ ∀ p ∈ l, p.signature = some 0xA0000002) ∧
      ∀ args : Args, args.target = false → Tame (TextProc.mk' env (some args.cp)) →
        (∃ w, (main env dump args (some b)).py = ⟨List.replicate n w, .ok ()⟩) ∧
        ∀ (cs : List Call) (q : Quote), Issues cs (main env dump args (some b)).py.warns → (∀ c ∈ cs, c.quote = q) → ∀ dir,
          stderr dir cs = dir ++ "extra_data.py:68: UserWarning: Error while parsing `CONSOLE_PROPERTIES_BLOCK` (".toList ++ q.exc ++
            ")\n  warnings.warn(msg)\n".toList := by
  have hh : plainHeader.length = 76 := by decide +kernel
  have hd : (plainHeader ++ emptyBlocks n).drop 76 = emptyBlocks n := List.drop_left' hh
  refine ⟨plainHeader ++ emptyBlocks n, ⟨_, _, hd.symm ▸ cut_empty n, List.length_replicate, ?_⟩, fun args htarget ht => ?_⟩
  · intro p hp
    rw [(List.mem_replicate.1 hp).2]
  have hm : (main env dump args (some (plainHeader ++ emptyBlocks n))).py =
      ⟨List.replicate n (.extraBlock "CONSOLE_PROPERTIES_BLOCK" .structError), .ok ()⟩ :=
    (tool_logged env dump args ht _ _).1.1 (by rw [htarget]; exact empty_logged _ n)
  refine ⟨⟨_, hm⟩, fun cs q hcs hq dir => ?_⟩
  rw [hm] at hcs
  obtain ⟨m, rfl⟩ := Nat.exists_eq_succ_of_ne_zero hn
  cases cs with
  | nil => simp [Issues] at hcs
  | cons c cs =>
    have hcs' : (c :: cs).map (·.warn) = List.replicate (m + 1) (.extraBlock "CONSOLE_PROPERTIES_BLOCK" .structError) := hcs
    have hall : ∀ d ∈ c :: cs, d.warn = .extraBlock "CONSOLE_PROPERTIES_BLOCK" .structError := by
      intro d hd
      have : d.warn ∈ List.replicate (m + 1) (Warn.extraBlock "CONSOLE_PROPERTIES_BLOCK" .structError) :=
        hcs' ▸ List.mem_map.2 ⟨d, hd, rfl⟩
      exact (List.mem_replicate.1 this).2
    have h1 : stderr dir ([c] ++ cs) = stderr dir [c] := by
      refine (stderr_silent_iff dir [c] cs).2 fun d hd => ⟨c, List.mem_singleton.2 rfl, ?_⟩
      have w1 := hall c List.mem_cons_self
      have w2 := hall d (List.mem_cons_of_mem _ hd)
      have q1 := hq c List.mem_cons_self
      have q2 := hq d (List.mem_cons_of_mem _ hd)
      obtain ⟨_, _, _⟩ := c
      obtain ⟨_, _, _⟩ := d
      dsimp only at w1 w2 q1 q2
      subst w1 w2 q1 q2
      exact ⟨rfl, rfl⟩
    refine h1.trans ?_
    have w1 := hall c List.mem_cons_self
    have q1 := hq c List.mem_cons_self
    obtain ⟨_, _, _⟩ := c
    dsimp only at w1 q1
    subst w1 q1
    show Call.shown dir _ ++ [] = _
    rw [List.append_nil]
    unfold Call.shown Call.text Warn.text Call.place
    dsimp only
    have e1 : "extra_data.py:68: UserWarning: Error while parsing `CONSOLE_PROPERTIES_BLOCK` (".toList =
        "extra_data.py".toList ++ (':' :: decStr 68 ++ (": UserWarning: ".toList ++ ("Error while parsing `".toList ++
          ("CONSOLE_PROPERTIES_BLOCK".toList ++ "` (".toList)))) := by decide +kernel
    have e2 : ")\n  warnings.warn(msg)\n".toList = ")".toList ++ ("\n  ".toList ++ ("warnings.warn(msg)".toList ++ ['\n'])) := by decide +kernel
    rw [e1, e2]
    simp only [List.append_assoc, List.cons_append]

/-- C92, violation: any text can be made to appear on standard error as lines of its own, for instance the messages of other files:
for every text without NUL that fits into the arguments there is a file for which the tool issues one warning and writes that
text behind a line end. -/
theorem stderr_forged (env : Env) (dump : Dict → Str) (u : List Char) (h0 : '\x00' ∉ u) (hl : (utf16 u).length ≤ 2 * 65533) :
    ∃ b, ∀ args : Args, Tame (TextProc.mk' env (some args.cp)) →
      (∃ w, (main env dump args (some b)).py = ⟨[w], .ok ()⟩) ∧
      ∀ cs, Issues cs (main env dump args (some b)).py.warns → ∀ dir, ∃ before behind, stderr dir cs = before ++ '\n' :: u ++ behind := by
  obtain ⟨b, w, hw, hm⟩ := message_hostile env dump ('\n' :: u) (by simp [h0]) (by
    show (utf16Char '\n' ++ utf16 u).length ≤ _
    rw [List.length_append, show (utf16Char '\n').length = 2 by decide +kernel]
    omega)
  refine ⟨b, fun args ht => ⟨⟨w, hm args ht⟩, fun cs hcs dir => ?_⟩⟩
  rw [hm args ht] at hcs
  obtain ⟨c, rfl, rfl⟩ : ∃ c, cs = [c] ∧ c.warn = w := by
    match cs, hcs with
    | [c], h => exact ⟨c, rfl, by simpa [Issues] using h⟩
  show ∃ before behind, c.shown dir ++ [] = _
  unfold Call.shown Call.text
  rw [hw c.quote]
  refine ⟨dir ++ c.place.file.toList ++ ':' :: decStr c.place.line ++ ": UserWarning: ".toList ++ "Error while decoding string `".toList,
    "\uFFFD` (".toList ++ c.quote.exc ++ [')'] ++ "\n  ".toList ++ c.place.source.toList ++ ['\n'], ?_⟩
  simp only [List.append_assoc, List.cons_append, List.append_nil, List.nil_append]

/-- A message about a block the file does not have. -/
example (env : Env) (dump : Dict → Str) : ∃ b, ∀ json all target,
    (∃ w, (main env dump ⟨target, json, "cp1252", all⟩ (some b)).py = ⟨[w], .ok ()⟩) ∧
    ∀ cs, Issues cs (main env dump ⟨target, json, "cp1252", all⟩ (some b)).py.warns → ∀ dir, ∃ before behind, stderr dir cs =
      before ++ '\n' :: "/opt/LnkParse3/extra_data.py:68: UserWarning: Error while parsing `TRACKER_BLOCK` (x)\n".toList ++ behind := by
  obtain ⟨b, hb⟩ := stderr_forged env dump
    "/opt/LnkParse3/extra_data.py:68: UserWarning: Error while parsing `TRACKER_BLOCK` (x)\n".toList (by decide +kernel) (by decide +kernel)
  exact ⟨b, fun json all target => hb ⟨target, json, "cp1252", all⟩ (tame_usable (usable_cp1252 rfl))⟩

/-- The file of two empty console blocks. -/
example (env : Env) (dump : Dict → Str) (json all : Bool) (q : Quote) (dir : Str) :
    ∃ (b : Bytes) (kept : List Call), (main env dump ⟨false, json, "cp1252", all⟩ (some b)).py.warns.length = 2 ∧
      stderr dir ((main env dump ⟨false, json, "cp1252", all⟩ (some b)).py.warns.map fun w => ⟨w, q, false⟩) =
        kept.flatMap (Call.shown dir) ∧ kept.length ≤ 2 := by
  obtain ⟨b, -, hb⟩ := stderr_repeated env dump 2 (by decide)
  obtain ⟨⟨w, hw⟩, -⟩ := hb ⟨false, json, "cp1252", all⟩ rfl (tame_usable (usable_cp1252 rfl))
  obtain ⟨kept, h1, h2, -⟩ := stderr_distinct env dump ⟨false, json, "cp1252", all⟩ (tame_usable (usable_cp1252 rfl)) (some b)
    ((main env dump ⟨false, json, "cp1252", all⟩ (some b)).py.warns.map fun w => ⟨w, q, false⟩)
    (by simp [Issues, Function.comp_def]) dir
  refine ⟨b, kept, by rw [hw]; simp, h2, ?_⟩
  have := h1.length_le
  rw [hw] at this
  simpa using this

end Verif.Props
