import Verif.Props.Link

/-
C62, C63: what damage and truncation leave alone; C45 for whole files.
-/

namespace Verif.Props

open Spec

/-- `src` starts with the header, ID list and link info of `s`, then comes `T`. -/
theorem init_head (env : Env) (cp : Option String) (allow : Bool) (s : ShellLink) (hv : s.Valid (TextProc.mk' env cp))
    (T : Bytes) (src : Source) (hs : src.bytes = head s ++ T) :
    ∃ (h : LnkHeader) (F : StringData → ExtraData → Nat → LnkFile), HeaderRaw s.header h.raw ∧
      (LnkFile.init env cp allow src = do
        let sd ← StringData.init h (TextProc.mk' env cp) T
        let x ← ExtraData.init (TextProc.mk' env cp) allow (T.drop sd.size)
        let n ← x.size
        pure (F sd x n)) ∧
      ∀ sd x n, Head (TextProc.mk' env cp) s (F sd x n) ∧ (F sd x n).stringData = sd ∧ (F sd x n).extras = x ∧
        (F sd x n).size = (head s).length + sd.size + n + min (T.length - (sd.size + n)) 4 := by
  obtain ⟨h, F, hr, hF, hall⟩ := process_head env cp allow s hv T
  refine ⟨h, F, hr, ?_, hall⟩
  rw [← hF]
  have hne : src.bytes ≠ [] := by
    rw [hs]
    intro h
    have := congrArg List.length h
    simp [head] at this
  rcases src with b | b
  · rw [← hs]; rfl
  · have hne : b ≠ [] := hne
    show (if _ then _ else _) = _
    rw [if_neg hne, ← hs]
    rfl

/-- The parts of an object made from bytes that start like `s`. -/
theorem init_head_ok {env : Env} {cp : Option String} {allow : Bool} {s : ShellLink} (hv : s.Valid (TextProc.mk' env cp))
    {T : Bytes} {src : Source} (hs : src.bytes = head s ++ T) {f : LnkFile}
    (hf : (LnkFile.init env cp allow src).res = .ok f) :
    ∃ h : LnkHeader, HeaderRaw s.header h.raw ∧ Head (TextProc.mk' env cp) s f ∧
      (StringData.init h (TextProc.mk' env cp) T).res = .ok f.stringData ∧
      (ExtraData.init (TextProc.mk' env cp) allow (T.drop f.stringData.size)).res = .ok f.extras := by
  obtain ⟨h, F, hr, hF, hall⟩ := init_head env cp allow s hv T src hs
  rw [hF] at hf
  obtain ⟨sd, h1, hf⟩ := Py.bind_ok_iff.1 hf
  obtain ⟨x, h2, hf⟩ := Py.bind_ok_iff.1 hf
  obtain ⟨n, -, hf⟩ := Py.bind_ok_iff.1 hf
  simp only [Py.pure_res, Except.ok.injEq] at hf
  obtain ⟨a1, a2, a3, -⟩ := hall sd x n
  rw [hf] at a1 a2 a3
  exact ⟨h, hr, a1, by rw [a2]; exact h1, by rw [a2, a3]; exact h2⟩

/-- C62: whatever bytes stand after the link info of a well-formed link, an object that is constructed reports the header,
the ID list and the link info as they are, and `get_json` raises only what the extra data raises. -/
theorem damaged_tail (env : Env) (cp : Option String) (allow : Bool) (s : ShellLink) (hv : s.Valid (TextProc.mk' env cp))
    (T : Bytes) (src : Source) (hs : src.bytes = head s ++ T) (f : LnkFile)
    (hf : (LnkFile.init env cp allow src).res = .ok f) :
    ∃ c a w wc wa ww, TimeRead s.header.creationTime c wc ∧ TimeRead s.header.accessTime a wa ∧
      TimeRead s.header.writeTime w ww ∧
      f.getJson true = ⟨headWarns s wc wa ww ++ f.extras.asDict.warns,
        f.extras.asDict.res.map (headReport s c a w f.size f.stringData.asDict)⟩ := by
  obtain ⟨c, a, w, wc, wa, ww, tc, ta, tw, h⟩ := json_head (TextProc.mk' env cp) s hv
  obtain ⟨_, -, hd, -⟩ := init_head_ok hv hs hf
  exact ⟨c, a, w, wc, wa, ww, tc, ta, tw, h f hd⟩

/-- C62: whatever bytes stand in place of the extra data of a well-formed link, the strings too are reported as they are. -/
theorem damaged_extra (env : Env) (cp : Option String) (allow : Bool) (s : ShellLink) (hv : s.Valid (TextProc.mk' env cp))
    (E : Bytes) (src : Source) (hs : src.bytes = head s ++ (s.strings.encode (s.flags.testBit 7) ++ E)) (f : LnkFile)
    (hf : (LnkFile.init env cp allow src).res = .ok f) :
    f.stringData.asDict = stringsObject s.strings ∧ (ExtraData.init (TextProc.mk' env cp) allow E).res = .ok f.extras := by
  obtain ⟨h, hr, -, h1, h2⟩ := init_head_ok hv hs hf
  rw [string_data_roundtrip h _ s.flags (flags_of_header hr) s.strings ⟨hv.announced, hv.strings⟩ E] at h1
  simp only [Py.pure_res, Except.ok.injEq] at h1
  rw [← h1] at h2 ⊢
  rw [drop_append_exact rfl] at h2
  exact ⟨string_data_dict _ _, h2⟩

/-- C45 for whole files: a well-formed link whose terminal block has the value 1, 2 or 3, as [MS-SHLLINK] 2.5 allows, is
rejected when at least four bytes follow, and accepted otherwise. -/
theorem link_terminal_one_to_three (env : Env) (cp : Option String) (allow : Bool) (s : ShellLink)
    (hv : s.Valid (TextProc.mk' env cp)) (k : Nat) (hk : 1 ≤ k ∧ k ≤ 3) (rest : Bytes) (src : Source)
    (hs : src.bytes = head s ++ (s.strings.encode (s.flags.testBit 7) ++ (s.encodeBlocks ++ (le 4 k ++ rest)))) :
    (4 ≤ rest.length → (LnkFile.init env cp allow src).res = .error .structError) ∧
    (rest.length < 4 → ∃ f, (LnkFile.init env cp allow src).res = .ok f) := by
  obtain ⟨h, F, hr, hF, -⟩ := init_head env cp allow s hv _ src hs
  rw [string_data_roundtrip h _ s.flags (flags_of_header hr) s.strings ⟨hv.announced, hv.strings⟩, pure_bind] at hF
  simp only at hF
  rw [drop_append_exact rfl] at hF
  have hfit : ∀ r ∈ rawBlocks s, r.Fits := by
    intro r hr
    obtain ⟨b, hb, rfl⟩ := List.mem_map.1 hr
    exact (hv.blocks b hb).2
  obtain ⟨h1, h2⟩ := terminal_one_to_three (TextProc.mk' env cp) allow (rawBlocks s) hfit k hk rest
  rw [← encodeBlocks_eq] at h1 h2
  have key : (LnkFile.init env cp allow src) = (do
      let x ← ExtraData.init (TextProc.mk' env cp) allow (s.encodeBlocks ++ (le 4 k ++ rest))
      let n ← x.size
      pure (F ⟨fieldTexts s.strings.fields, (s.strings.encode (s.flags.testBit 7)).length⟩ x n)) := hF
  constructor
  · intro h4
    have := h1 h4
    rw [key]
    rcases Py.bind_error_iff.1 this with h | ⟨x, hx, hn⟩
    · exact Py.bind_error_iff.2 (.inl h)
    · exact Py.bind_error_iff.2 (.inr ⟨x, hx, Py.bind_error_iff.2 (.inl hn)⟩)
  · intro h4
    obtain ⟨n, hn⟩ := h2 h4
    rw [key]
    obtain ⟨x, hx, hn⟩ := Py.bind_ok_iff.1 hn
    exact ⟨F _ x n, Py.bind_ok_iff.2 ⟨x, hx, Py.bind_ok_iff.2 ⟨n, hn, rfl⟩⟩⟩

/-! ### intact strings and blocks before the damage -/

/-- The loop over the strings only adds to what it has. -/
theorem loop_grows (h : LnkHeader) (tp : TextProc) (raw : Bytes) (ms : List (String × String × Bool))
    (data : List (String × Str)) (start : Nat) (sd : StringData) (hl : (StringData.loop h tp raw ms data start).res = .ok sd) :
    data <+: sd.data := by
  induction ms generalizing data start with
  | nil =>
    simp only [StringData.loop, Py.pure_res, Except.ok.injEq] at hl
    rw [← hl]
  | cons m ms ih =>
    obtain ⟨flag, key, limit⟩ := m
    rw [StringData.loop] at hl
    obtain ⟨r, -, hl⟩ := Py.bind_ok_iff.1 hl
    rcases r with e | _ | ⟨text, n⟩
    · simp only at hl
      obtain ⟨-, -, hl⟩ := Py.bind_ok_iff.1 hl
      simp only [Py.pure_res, Except.ok.injEq] at hl
      rw [← hl]
    · exact ih _ _ hl
    · exact (List.prefix_append _ _).trans (ih _ _ hl)

/-- C62: the strings before the damage are kept. -/
theorem damaged_strings (env : Env) (cp : Option String) (allow : Bool) (s : ShellLink) (hv : s.Valid (TextProc.mk' env cp))
    (pre post : List StringField) (hsplit : s.strings.fields = pre ++ post) (X : Bytes) (src : Source)
    (hs : src.bytes = head s ++ (encodeFields (s.flags.testBit 7) pre ++ X)) (f : LnkFile)
    (hf : (LnkFile.init env cp allow src).res = .ok f) : fieldTexts pre <+: f.stringData.data := by
  obtain ⟨h, hr, -, h1, -⟩ := init_head_ok hv hs hf
  have hm := StringData.matches_fields s.strings
  rw [hsplit] at hm
  obtain ⟨ms1, ms2, he, hm1, -⟩ := StringData.Matches_split hm
  have hmem : ∀ g ∈ pre, g ∈ s.strings.fields := fun g hg => by rw [hsplit]; simp [hg]
  unfold StringData.init at h1
  rw [he, StringData.loop_fields (flags_of_header hr) _ pre ms1 ms2 hm1 (fun g hg => hv.announced g (hmem g hg))
    (fun g hg => hv.strings g (hmem g hg)) _ X [] 0 rfl] at h1
  exact loop_grows _ _ _ _ _ _ _ h1

/-- C62: the extra blocks before the damage are kept, in order, each with its own bytes. -/
theorem damaged_blocks (env : Env) (cp : Option String) (allow : Bool) (s : ShellLink) (hv : s.Valid (TextProc.mk' env cp))
    (pre post : List (Block × Bytes)) (hsplit : s.blocks = pre ++ post) (X : Bytes) (src : Source)
    (hs : src.bytes = head s ++ (s.strings.encode (s.flags.testBit 7) ++ (pre.flatMap (fun b => b.1.encode b.2) ++ X)))
    (f : LnkFile) (hf : (LnkFile.init env cp allow src).res = .ok f) :
    (pre.map fun b => (blockName b.1.signature.toNat, b.1.encode b.2)) <+:
      f.extras.data.map fun x => (x.cls.name, x.raw) := by
  obtain ⟨-, h2⟩ := damaged_extra env cp allow s hv _ src hs f hf
  have hfit : ∀ r ∈ pre.map fun b => (⟨b.1.signature, b.1.payload ++ b.2⟩ : RawBlock), r.Fits := by
    intro r hr
    obtain ⟨b, hb, rfl⟩ := List.mem_map.1 hr
    exact (hv.blocks b (by rw [hsplit]; simp [hb])).2
  have he : pre.flatMap (fun b => b.1.encode b.2) =
      (pre.map fun b => (⟨b.1.signature, b.1.payload ++ b.2⟩ : RawBlock)).flatMap RawBlock.encode := by
    rw [List.flatMap_map]
    rfl
  obtain ⟨l, last, hc⟩ := ExtraData.cut_exists X
  rw [he, ExtraData.init_cut (ExtraData.cut_raw _ hfit hc)] at h2
  simp only [Except.ok.injEq] at h2
  rw [← h2]
  unfold ExtraData.objects
  simp only [List.filterMap_append, List.map_append, List.append_assoc]
  suffices h : (pre.map fun b => (blockName b.1.signature.toNat, b.1.encode b.2)) =
      (List.filterMap (fun p : Piece => p.signature.map fun s => (⟨extraKind s, TextProc.mk' env cp, p.bytes⟩ : Extra))
        ((pre.map fun b => (⟨b.1.signature, b.1.payload ++ b.2⟩ : RawBlock)).map ExtraData.pieceOf)).map
          fun x => (x.cls.name, x.raw) by
    rw [h]
    exact List.prefix_append _ _
  clear h2 hc he hfit hs hsplit
  induction pre with
  | nil => rfl
  | cons b pre ih =>
    simp only [List.map_cons]
    rw [ih]
    simp only [List.filterMap_cons, ExtraData.pieceOf, Option.map_some, List.map_cons, extraKind_name]
    rfl

/-! ### cut files -/

theorem cut_take (raws : List RawBlock) (hf : ∀ b ∈ raws, b.Fits) (m : Nat) :
    ∃ l last, Cut ((raws.flatMap RawBlock.encode ++ le 4 0).take m) l last ∧ ∀ p ∈ l, 4 ≤ p.declared := by
  have hshort : ∀ b : Bytes, b.length < 4 → ∃ l last, Cut b l last ∧ ∀ p ∈ l, 4 ≤ p.declared := fun b hb =>
    ⟨[], b, ExtraData.cut_stops (.inr hb), by simp⟩
  induction raws generalizing m with
  | nil =>
    by_cases hm : m < 4
    · exact hshort _ (by simp; omega)
    · refine ⟨[], le 4 0, ?_, by simp⟩
      rw [List.flatMap_nil, List.nil_append, List.take_of_length_le (by simp; omega)]
      exact .stop (.inr (by simpa using ExtraData.uAt_le4 0 (by omega) []))
  | cons b raws ih =>
    have hb := hf b List.mem_cons_self
    have hlen := ExtraData.RawBlock_length b
    have hu : ∀ rest, uAt 4 (b.encode ++ rest) 0 = some (8 + b.payload.length) := by
      intro rest
      rw [RawBlock.encode, List.append_assoc, List.append_assoc]
      exact ExtraData.uAt_le4 _ hb _
    rw [List.flatMap_cons, List.append_assoc]
    by_cases hm : m < 4
    · exact hshort _ (by simp; omega)
    by_cases hm' : b.encode.length ≤ m
    · obtain ⟨l, last, hc, hl⟩ := ih (fun x hx => hf x (List.mem_cons_of_mem _ hx)) (m - b.encode.length)
      rw [List.take_append, List.take_of_length_le hm']
      refine ⟨_, last, .block (hu _) (by omega) (l := l) ?_, ?_⟩
      · rw [drop_append_exact hlen]
        exact hc
      · intro p hp
        rcases List.mem_cons.1 hp with rfl | hp
        · show 4 ≤ 8 + _; omega
        · exact hl p hp
    · rw [List.take_append_of_le_length (by omega)]
      refine ⟨_, [], .block (n := 8 + b.payload.length) (l := []) ?_ (by omega) ?_, ?_⟩
      · rw [ExtraData.uAt_take 4 _ 0 m (by omega) (by omega)]
        simpa using hu []
      · rw [List.drop_eq_nil_of_le (by simp; omega)]
        exact .stop (.inl rfl)
      · intro p hp
        rw [List.mem_singleton] at hp
        subst hp
        show 4 ≤ 8 + _; omega

/-- C63: a well-formed link that is cut anywhere after its link info is accepted. -/
theorem cut_link_accepted (env : Env) (cp : Option String) (hcp : UsableCodePage (TextProc.mk' env cp)) (allow : Bool)
    (s : ShellLink) (hv : s.Valid (TextProc.mk' env cp)) (n : Nat) (hn : (head s).length ≤ n) (src : Source)
    (hs : src.bytes = s.encode.take n) : ∃ f, (LnkFile.init env cp allow src).res = .ok f := by
  obtain ⟨S, hS⟩ : ∃ S, S = s.strings.encode (s.flags.testBit 7) := ⟨_, rfl⟩
  obtain ⟨m, rfl⟩ : ∃ m, n = (head s).length + m := ⟨n - (head s).length, by omega⟩
  have he : s.encode = head s ++ (S ++ ((rawBlocks s).flatMap RawBlock.encode ++ le 4 0)) := by
    rw [ShellLink.encode, head, hS, encodeBlocks_eq]
    simp only [List.append_assoc]
  have hs' : src.bytes = head s ++ (S ++ ((rawBlocks s).flatMap RawBlock.encode ++ le 4 0)).take m := by
    rw [hs, he, List.take_append, List.take_of_length_le (by omega), Nat.add_sub_cancel_left]
  obtain ⟨h, F, hr, hF, -⟩ := init_head env cp allow s hv _ src hs'
  have hflags := flags_of_header hr
  have hgood : GoodStrings (TextProc.mk' env cp) s.flags s.strings := ⟨hv.announced, hv.strings⟩
  have hfit : ∀ r ∈ rawBlocks s, r.Fits := by
    intro r hr
    obtain ⟨b, hb, rfl⟩ := List.mem_map.1 hr
    exact (hv.blocks b hb).2
  -- strings that are read, and blocks behind them that can be counted
  suffices ∃ sd l last, (StringData.init h (TextProc.mk' env cp)
      ((S ++ ((rawBlocks s).flatMap RawBlock.encode ++ le 4 0)).take m)).res = .ok sd ∧
      Cut (((S ++ ((rawBlocks s).flatMap RawBlock.encode ++ le 4 0)).take m).drop sd.size) l last ∧
      ∀ p ∈ l, 4 ≤ p.declared by
    obtain ⟨sd, l, last, h1, hc, hl⟩ := this
    have hsz := ExtraData.size_cut (tp := TextProc.mk' env cp) (allow := allow) hc
    have hl' : ∀ p ∈ ExtraData.signed l, 4 ≤ p.declared := fun p hp => hl p (List.mem_filter.1 hp).1
    rw [if_pos hl'] at hsz
    have hX := congrArg Py.res (ExtraData.init_cut (tp := TextProc.mk' env cp) (allow := allow) hc)
    have hn' := congrArg Py.res hsz
    rw [hF]
    exact ⟨_, Py.bind_ok_iff.2 ⟨sd, h1, Py.bind_ok_iff.2 ⟨_, hX, Py.bind_ok_iff.2 ⟨_, hn', rfl⟩⟩⟩⟩
  by_cases hm : S.length ≤ m
  · rw [List.take_append, List.take_of_length_le hm, hS,
      string_data_roundtrip h _ s.flags hflags s.strings hgood]
    obtain ⟨l, last, hc, hl⟩ := cut_take (rawBlocks s) hfit (m - S.length)
    refine ⟨_, l, last, rfl, ?_, hl⟩
    rw [drop_append_exact rfl, ← hS]
    exact hc
  · rw [List.take_append_of_le_length (by omega)]
    obtain ⟨pre, g, post, raw, text, hsplit, hcont, hcut⟩ :=
      string_data_cuts (s.flags.testBit 7) s.strings.fields m (by rw [hS] at hm; simpa [Strings.encode] using hm)
    have hS' : S = encodeFields (s.flags.testBit 7) s.strings.fields := hS
    rw [hS']
    rcases hcut with ⟨x, hx, hcut⟩ | ⟨x, y, hy, hxy, hcut⟩
    · rw [hcut, string_data_cut_prefix h _ s.flags hflags s.strings hgood pre post g hsplit (by rw [hcont]; rfl) x hx]
      refine ⟨_, [], x, rfl, ?_, by simp⟩
      rw [drop_append_exact rfl]
      exact ExtraData.cut_stops (.inr (by omega))
    · obtain ⟨t, w, ht⟩ : ∃ t w, (if s.flags.testBit 7 then TextProc.readUnicodeString x
          else (TextProc.mk' env cp).readString x) = ⟨w, .ok t⟩ := by
        split
        · exact Py.only_false_iff.1 (only_readUnicodeString x)
        · exact Py.only_false_iff.1 (only_readString (fun b => only_ansiToStr hcp b) x)
      rw [hcut, string_data_cut_text h _ s.flags hflags s.strings hgood pre post g hsplit raw text hcont x y hxy hy t w ht]
      refine ⟨_, [], [], rfl, ?_, by simp⟩
      rw [List.drop_eq_nil_of_le]
      · exact .stop (.inl rfl)
      · have : g.encode (s.flags.testBit 7) = stringBytes (s.flags.testBit 7) raw := by simp [StringField.encode, hcont]
        simp [encodeFields, this]

/-- C63: and it keeps the header, the ID list and the link info (`damaged_tail`), the strings before the cut, and the blocks
before the cut. -/
theorem cut_link_keeps (env : Env) (cp : Option String) (allow : Bool) (s : ShellLink) (hv : s.Valid (TextProc.mk' env cp))
    (n : Nat) (src : Source) (hs : src.bytes = s.encode.take n) (f : LnkFile)
    (hf : (LnkFile.init env cp allow src).res = .ok f) :
    (∀ pre post, s.strings.fields = pre ++ post →
      (head s).length + (encodeFields (s.flags.testBit 7) pre).length ≤ n → fieldTexts pre <+: f.stringData.data) ∧
    ∀ pre post, s.blocks = pre ++ post →
      (head s ++ s.strings.encode (s.flags.testBit 7) ++ pre.flatMap fun b => b.1.encode b.2).length ≤ n →
      (pre.map fun b => (blockName b.1.signature.toNat, b.1.encode b.2)) <+:
        f.extras.data.map fun x => (x.cls.name, x.raw) := by
  have key : ∀ a b : Bytes, s.encode = a ++ b → a.length ≤ n → src.bytes = a ++ b.take (n - a.length) := by
    intro a b he hn
    rw [hs, he, List.take_append, List.take_of_length_le hn]
  constructor
  · intro pre post hsplit hn
    have h := key (head s ++ encodeFields (s.flags.testBit 7) pre)
      (encodeFields (s.flags.testBit 7) post ++ s.encodeBlocks ++ le 4 0) ?_ (by simpa using hn)
    · rw [List.append_assoc] at h
      exact damaged_strings env cp allow s hv pre post hsplit _ src h f hf
    rw [ShellLink.encode, head]
    unfold Strings.encode
    rw [hsplit]
    simp [encodeFields]
  · intro pre post hsplit hn
    have h := key _ ((post.flatMap fun b => b.1.encode b.2) ++ le 4 0) ?_ hn
    · rw [List.append_assoc, List.append_assoc] at h
      exact damaged_blocks env cp allow s hv pre post hsplit _ src h f hf
    rw [ShellLink.encode, head, ShellLink.encodeBlocks, hsplit]
    simp

/-- Rubbish after the name: the name is kept. -/
example (env : Env) (f : LnkFile) (X : Bytes) (hf : (LnkFile.init env none true (.indata (head exampleLink ++
    (encodeFields (exampleLink.flags.testBit 7) (exampleLink.strings.fields.take 1) ++ X)))).res = .ok f) :
    fieldTexts (exampleLink.strings.fields.take 1) <+: f.stringData.data :=
  damaged_strings env none true exampleLink (exampleLink_valid env) (exampleLink.strings.fields.take 1)
    (exampleLink.strings.fields.drop 1) rfl X _ rfl f hf

/-- Rubbish after the first block: the block is kept. -/
example (env : Env) (f : LnkFile) (X : Bytes) (hf : (LnkFile.init env none true (.indata (head exampleLink ++
    (exampleLink.strings.encode (exampleLink.flags.testBit 7) ++ ((exampleLink.blocks.take 1).flatMap (fun b => b.1.encode b.2) ++ X))))).res =
      .ok f) :
    ((exampleLink.blocks.take 1).map fun b => (blockName b.1.signature.toNat, b.1.encode b.2)) <+:
      f.extras.data.map fun x => (x.cls.name, x.raw) :=
  damaged_blocks env none true exampleLink (exampleLink_valid env) (exampleLink.blocks.take 1) (exampleLink.blocks.drop 1) rfl X _ rfl f hf

/-! ### examples -/

/-- The example link cut in the middle of its extra data: accepted, all strings kept. -/
example (env : Env) (allow : Bool) : ∃ f, (LnkFile.init env none allow (.indata (exampleLink.encode.take 340))).res = .ok f ∧
    fieldTexts exampleLink.strings.fields <+: f.stringData.data := by
  obtain ⟨f, hf⟩ := cut_link_accepted env none (usable_default env) allow exampleLink (exampleLink_valid env) 340
    (by decide +kernel) (.indata (exampleLink.encode.take 340)) rfl
  exact ⟨f, hf, (cut_link_keeps env none allow exampleLink (exampleLink_valid env) 340 _ rfl f hf).1 _ [] (by simp)
    (by decide +kernel)⟩

/-- With a terminal block of 2 and more data: rejected. -/
example (env : Env) (allow : Bool) : (LnkFile.init env none allow (.indata (head exampleLink ++
    (exampleLink.strings.encode (exampleLink.flags.testBit 7) ++ (exampleLink.encodeBlocks ++ (le 4 2 ++ [1, 2, 3, 4])))))).res =
      .error .structError :=
  (link_terminal_one_to_three env none allow exampleLink (exampleLink_valid env) 2 (by omega) [1, 2, 3, 4] _ rfl).1 (by decide)

/-- The extra data replaced by rubbish: all other sections are reported as before. -/
example (env : Env) (allow : Bool) : ∃ f d, (LnkFile.init env none allow (.indata (head exampleLink ++
    (exampleLink.strings.encode (exampleLink.flags.testBit 7) ++ [9, 0, 0, 0, 1, 2, 3, 4, 5])))).res = .ok f ∧
      f.stringData.asDict = d ∧ d = stringsObject exampleLink.strings := by
  have hc : Cut [9, 0, 0, 0, 1, 2, 3, 4, 5] [⟨9, [9, 0, 0, 0, 1, 2, 3, 4, 5], some 0x04030201⟩] [] :=
    .block (by decide) (by decide) (.stop (by decide))
  obtain ⟨h, F, hr, hF, hall⟩ := init_head env none allow exampleLink (exampleLink_valid env) _
    (.indata (head exampleLink ++
      (exampleLink.strings.encode (exampleLink.flags.testBit 7) ++ [9, 0, 0, 0, 1, 2, 3, 4, 5]))) rfl
  have hok : ∃ f, (LnkFile.init env none allow (.indata (head exampleLink ++
      (exampleLink.strings.encode (exampleLink.flags.testBit 7) ++ [9, 0, 0, 0, 1, 2, 3, 4, 5])))).res = .ok f := by
    rw [hF, string_data_roundtrip h _ exampleLink.flags (flags_of_header hr) exampleLink.strings
      ⟨(exampleLink_valid env).announced, (exampleLink_valid env).strings⟩, pure_bind]
    simp only
    rw [drop_append_exact rfl]
    have hsz := ExtraData.size_cut (tp := TextProc.mk' env none) (allow := allow) hc
    have hX := congrArg Py.res (ExtraData.init_cut (tp := TextProc.mk' env none) (allow := allow) hc)
    have h4 : ∀ p ∈ ExtraData.signed [⟨9, [9, 0, 0, 0, 1, 2, 3, 4, 5], some 0x04030201⟩], 4 ≤ p.declared := by
      intro p hp
      have := List.mem_singleton.1 (List.mem_filter.1 hp).1
      subst this
      show 4 ≤ 9
      omega
    rw [if_pos h4] at hsz
    exact ⟨_, Py.bind_ok_iff.2 ⟨_, hX, Py.bind_ok_iff.2 ⟨_, congrArg Py.res hsz, rfl⟩⟩⟩
  obtain ⟨f, hf⟩ := hok
  exact ⟨f, _, hf, rfl, (damaged_extra env none allow exampleLink (exampleLink_valid env) _ _ rfl f hf).1⟩

end Verif.Props
