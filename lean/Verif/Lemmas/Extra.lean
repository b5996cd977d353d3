import Verif.Spec.Extra
import Verif.Model.File
import Verif.Lemmas.Header
import Verif.Lemmas.Info
import Verif.Lemmas.TargetsOutcome

namespace Verif

open Spec

/-! ### signatures -/

/-- Searching by hexadecimal text is searching by number among the keys that are the text of their own value. -/
theorem find_hexStr (table : List (String × β)) (n : Nat) :
    ((table.find? fun kv => kv.1.toList = hexStr false n).map Prod.snd) =
      (table.filterMap fun kv =>
        if kv.1.toList = hexStr false (hexVal kv.1.toList) then some (hexVal kv.1.toList, kv.2)
        else none).lookup n := by
  induction table with
  | nil => rfl
  | cons kv table ih =>
    obtain ⟨k, v⟩ := kv
    rw [List.find?_cons, List.filterMap_cons]
    by_cases hk : k.toList = hexStr false n
    · have hv : hexVal k.toList = n := by rw [hk]; exact hexVal_hexStr n
      rw [hv, if_pos hk]
      simp [hk, List.lookup]
    · simp only [decide_eq_false hk]
      rw [ih]
      by_cases hs : k.toList = hexStr false (hexVal k.toList)
      · have hne : (n == hexVal k.toList) = false := by
          simp only [beq_eq_false_iff_ne, ne_eq]
          intro hn
          rw [← hn] at hs
          exact hk hs
        rw [if_pos hs]
        simp only [List.lookup, hne]
      · rw [if_neg hs]

/-- The classes by signature. -/
def extraKinds : List (Nat × ExtraClass) :=
  [ (0xA0000001, .environment), (0xA0000002, .console), (0xA0000003, .distributedTracker), (0xA0000004, .codePage),
    (0xA0000005, .specialFolder), (0xA0000006, .darwin), (0xA0000007, .icon), (0xA0000008, .shimLayer),
    (0xA0000009, .metadata), (0xA000000B, .knownFolder), (0xA000000C, .shellItem) ]

/-- The class of a signature. -/
def extraKind (n : Nat) : ExtraClass := (extraKinds.lookup n).getD .unknown

theorem extraClass_eq (raw : Bytes) :
    ExtraFactory.extraClass raw = match uAt 4 raw 4 with
      | some n => pure (some (extraKind n))
      | none => ⟨[.extraSignature], .ok none⟩ := by
  unfold ExtraFactory.extraClass ExtraFactory.rsig
  rw [unpackU_slice raw 4 4 (by omega)]
  rcases uAt 4 raw 4 with _ | n
  · rfl
  · simp only [pure_bind]
    have h := find_hexStr ExtraFactory.EXTRA_SIGS n
    have ht : (ExtraFactory.EXTRA_SIGS.filterMap fun kv =>
        if kv.1.toList = hexStr false (hexVal kv.1.toList) then some (hexVal kv.1.toList, kv.2)
        else none) = extraKinds := by decide +kernel
    rw [ht] at h
    have hd : (pyHex n).drop 2 = hexStr false n := rfl
    simp only [hd]
    unfold extraKind
    rcases hf : ExtraFactory.EXTRA_SIGS.find? fun kv => kv.1.toList = hexStr false n with _ | kv
    · rw [hf] at h
      rw [hf, ← h]
      rfl
    · rw [hf] at h
      rw [hf, ← h]
      rfl

theorem lookup_map_snd (l : List (Nat × β)) (f : β → γ) (n : Nat) :
    (l.map fun kv => (kv.1, f kv.2)).lookup n = (l.lookup n).map f := by
  induction l with
  | nil => rfl
  | cons kv l ih =>
    obtain ⟨k, v⟩ := kv
    simp only [List.map_cons, List.lookup_cons, ih]
    cases n == k <;> rfl

theorem extraKind_name (n : Nat) : (extraKind n).name = blockName n := by
  have h : blockNames = extraKinds.map fun kv => (kv.1, kv.2.name) := by decide +kernel
  unfold blockName extraKind
  rw [h, lookup_map_snd]
  rcases extraKinds.lookup n with _ | c <;> rfl

theorem ExtraClass.name_inj {c d : ExtraClass} (h : c.name = d.name) : c = d := by
  revert h
  cases c <;> cases d <;> decide

/-! ### packed GUIDs -/

theorem base85_eq : base85 = digits85 := rfl

theorem strFind_base85 (n : Nat) (h : n < 85) : strFind base85 (digits85.getD n '?') = n := by
  have : ∀ i : Fin 85, strFind base85 (digits85.getD i.1 '?') = (i.1 : Int) := by decide +kernel
  exact this ⟨n, h⟩

theorem quadToHex_b85 (v : Nat) (h : v < 2 ^ 32) : quadToHex (b85 5 v) = pure (hexFixed 8 v) := by
  unfold quadToHex
  have hm : ∀ k, strFind base85 (digits85.getD (k % 85) '?') = ((k % 85 : Nat) : Int) :=
    fun k => strFind_base85 _ (Nat.mod_lt _ (by omega))
  have : quadLoop (b85 5 v) 5 0 = pure (v : Int) := by
    simp only [quadLoop, b85, List.getElem?_cons_succ, List.getElem?_cons_zero, hm]
    norm_num
    congr 1
    omega
  rw [this, pure_bind]
  show (pure (fmtX 8 v) : Py Str) = _
  rw [fmtX_eq (by omega) (by omega)]

theorem b85_length (n v : Nat) : (b85 n v).length = n := by
  induction n generalizing v with
  | zero => rfl
  | succ n ih => simp [b85, ih]

theorem hexFixed8_pair (a b : UInt16) :
    hexFixed 8 (a.toNat + 2 ^ 16 * b.toNat) = hexFixed 4 b.toNat ++ hexFixed 4 a.toNat := by
  have ha := a.toNat_lt
  rw [show 8 = 4 + 4 from rfl, hexFixed_add, hexFixed_mod 4 (a.toNat + 2 ^ 16 * b.toNat)]
  congr 2 <;> omega

theorem hexFixed8_bytes (a b c d : UInt8) :
    hexFixed 8 (a.toNat + 2 ^ 8 * b.toNat + 2 ^ 16 * c.toNat + 2 ^ 24 * d.toNat) =
      Guid.hex2 d ++ Guid.hex2 c ++ Guid.hex2 b ++ Guid.hex2 a := by
  have ha := a.toNat_lt
  have hb := b.toNat_lt
  have hc := c.toNat_lt
  have hd := d.toNat_lt
  have key : ∀ n, hexFixed 8 n = hexFixed 2 (n / 2 ^ 24) ++ hexFixed 2 (n / 2 ^ 16 % 256) ++
      hexFixed 2 (n / 2 ^ 8 % 256) ++ hexFixed 2 (n % 256) := by
    intro n
    have h1 := hexFixed_add 6 2 n
    have h2 := hexFixed_add 4 2 (n / 16 ^ 2)
    have h3 := hexFixed_add 2 2 (n / 16 ^ 2 / 16 ^ 2)
    have m1 := hexFixed_mod 2 n
    have m2 := hexFixed_mod 2 (n / 16 ^ 2)
    have m3 := hexFixed_mod 2 (n / 16 ^ 2 / 16 ^ 2)
    simp only [Nat.div_div_eq_div_mul, Nat.reducePow, Nat.reduceMul, Nat.reduceAdd] at h1 h2 h3 m1 m2 m3 ⊢
    rw [h1, h2, h3, m1, m2, m3]
  have q1 : ∀ n, n = a.toNat + 2 ^ 8 * b.toNat + 2 ^ 16 * c.toNat + 2 ^ 24 * d.toNat → n / 2 ^ 24 = d.toNat ∧
      n / 2 ^ 16 % 256 = c.toNat ∧ n / 2 ^ 8 % 256 = b.toNat ∧ n % 256 = a.toNat := by
    intro n hn
    omega
  obtain ⟨r1, r2, r3, r4⟩ := q1 _ rfl
  rw [key, r1, r2, r3, r4]
  rfl

theorem two_chars (n : Nat) : ∃ a b, hexFixed 2 n = [a, b] := ⟨_, _, rfl⟩
theorem four_chars (n : Nat) : ∃ a b c d, hexFixed 4 n = [a, b, c, d] := ⟨_, _, _, _, rfl⟩
theorem eight_chars (n : Nat) : ∃ a b c d e f g h, hexFixed 8 n = [a, b, c, d, e, f, g, h] :=
  ⟨_, _, _, _, _, _, _, _, rfl⟩

theorem Guid_packed_length (g : Guid) : g.packed.length = 20 := by
  simp [Guid.packed, Guid.words, b85_length]

theorem parsePackedUuid_packed (g : Guid) (rest : Str) : parsePackedUuid (some (g.packed ++ rest)) = pure (some g.text) := by
  have h1 := g.data1.toNat_lt
  have h2 := g.data2.toNat_lt
  have h3 := g.data3.toNat_lt
  have k0 := g.b0.toNat_lt
  have k1 := g.b1.toNat_lt
  have k2 := g.b2.toNat_lt
  have k3 := g.b3.toNat_lt
  have k4 := g.b4.toNat_lt
  have k5 := g.b5.toNat_lt
  have k6 := g.b6.toNat_lt
  have k7 := g.b7.toNat_lt
  have e : g.packed ++ rest = b85 5 g.data1.toNat ++ (b85 5 (g.data2.toNat + 2 ^ 16 * g.data3.toNat) ++
      (b85 5 (g.b0.toNat + 2 ^ 8 * g.b1.toNat + 2 ^ 16 * g.b2.toNat + 2 ^ 24 * g.b3.toNat) ++
      (b85 5 (g.b4.toNat + 2 ^ 8 * g.b5.toNat + 2 ^ 16 * g.b6.toNat + 2 ^ 24 * g.b7.toNat) ++ rest))) := by
    simp [Guid.packed, Guid.words]
  unfold parsePackedUuid
  rw [e]
  have s1 : ∀ (a r : Str), a.length = 5 → slice (a ++ r) 0 5 = a := fun a r h => slice_append_exact h
  have s2 : ∀ (a r : Str) (i j : Nat), a.length = 5 → 5 ≤ i → slice (a ++ r) i j = slice r (i - 5) (j - 5) :=
    fun a r i j h hi => by rw [slice_append_right (by omega), h]
  simp only [s1 _ _ (b85_length _ _)]
  rw [s2 _ _ 5 10 (b85_length _ _) (by omega), s2 _ _ 10 15 (b85_length _ _) (by omega),
    s2 _ _ 15 20 (b85_length _ _) (by omega)]
  rw [s2 _ _ (10 - 5) (15 - 5) (b85_length _ _) (by omega), s2 _ _ (15 - 5) (20 - 5) (b85_length _ _) (by omega)]
  rw [s2 _ _ (15 - 5 - 5) (20 - 5 - 5) (b85_length _ _) (by omega)]
  simp only [Nat.reduceSub, s1 _ _ (b85_length _ _)]
  rw [quadToHex_b85 _ h1, quadToHex_b85 _ (by omega), quadToHex_b85 _ (by omega), quadToHex_b85 _ (by omega)]
  simp only [pure_bind, hexFixed8_pair, hexFixed8_bytes]
  unfold Guid.text Guid.hex2
  obtain ⟨a0, a1, a2, a3, a4, a5, a6, a7, ha⟩ := eight_chars g.data1.toNat
  obtain ⟨c0, c1, c2, c3, hc⟩ := four_chars g.data2.toNat
  obtain ⟨d0, d1, d2, d3, hd⟩ := four_chars g.data3.toNat
  obtain ⟨e0, f0, q0⟩ := two_chars g.b0.toNat
  obtain ⟨e1, f1, q1⟩ := two_chars g.b1.toNat
  obtain ⟨e2, f2, q2⟩ := two_chars g.b2.toNat
  obtain ⟨e3, f3, q3⟩ := two_chars g.b3.toNat
  obtain ⟨e4, f4, q4⟩ := two_chars g.b4.toNat
  obtain ⟨e5, f5, q5⟩ := two_chars g.b5.toNat
  obtain ⟨e6, f6, q6⟩ := two_chars g.b6.toNat
  obtain ⟨e7, f7, q7⟩ := two_chars g.b7.toNat
  rw [ha, hc, hd, q0, q1, q2, q3, q4, q5, q6, q7]
  rfl

/-! ### reading a block -/

namespace Extra

/-- The object for a block with any contents. -/
def ofRaw (tp : TextProc) (b : RawBlock) : Extra := ⟨extraKind b.signature.toNat, tp, b.encode⟩

theorem uint_at {x : Extra} {s e : Nat} {v : Nat} (h : slice x.raw s e = le (e - s) v) (hv : v < 256 ^ (e - s)) :
    x.uint s e = pure v := by
  unfold uint
  rw [h, unpackU_le hv]

theorem uint4_at {x : Extra} {s e : Nat} {v : UInt32} (h : slice x.raw s e = le 4 v.toNat) (he : e - s = 4) :
    x.uint s e = pure v.toNat := by
  unfold uint
  rw [h, he, unpackU_le4]

theorem uint2_at {x : Extra} {s e : Nat} {v : UInt16} (h : slice x.raw s e = le 2 v.toNat) (he : e - s = 2) :
    x.uint s e = pure v.toNat := by
  unfold uint
  rw [h, he, unpackU_le2]

theorem sint2_at {x : Extra} {s e : Nat} {v : Int16} (h : slice x.raw s e = leI 2 v.toInt) (he : e - s = 2) :
    x.sint s e = pure v.toInt := by
  unfold sint
  rw [h, he, unpackI_leI2]

theorem readString_field {tp : TextProc} {f : Field} (h : f.text.Valid tp false) :
    tp.readString (f.encode false) = pure f.text.text := readString_encodeZ h _

theorem readUnicodeString_field {tp : TextProc} {f : Field} (h : f.text.Valid tp true) :
    TextProc.readUnicodeString (f.encode true) = pure f.text.text := readUnicodeString_encodeZ h _

theorem size_of {x : Extra} {b : RawBlock} (hx : x.raw = b.encode) (hc : x.cls ≠ .terminal) (hb : b.Fits) :
    x.size = pure (8 + b.payload.length) := by
  have h : x.size = x.uint 0 4 := by
    unfold size
    cases hcls : x.cls <;> first | rfl | exact absurd hcls hc
  rw [h]
  refine uint_at ?_ hb
  rw [hx, RawBlock.encode]
  slices

theorem extraKind_ne_terminal (n : Nat) : extraKind n ≠ .terminal := by
  have h : ∀ (l : List (Nat × ExtraClass)), (∀ kv ∈ l, kv.2 ≠ .terminal) → (l.lookup n).getD .unknown ≠ .terminal := by
    intro l hl
    induction l with
    | nil => exact (by decide : ExtraClass.unknown ≠ .terminal)
    | cons kv l ih =>
      rw [List.lookup_cons]
      cases n == kv.1
      · exact ih fun x hx => hl x (List.mem_cons_of_mem _ hx)
      · exact hl kv List.mem_cons_self
  exact h _ (by decide)

/-- `slices`, with equations for the lengths of some parts. -/
macro "slices_with" "[" hs:term,* "]" : tactic => `(tactic|
  simp (disch := len_disch) only [List.append_assoc, slice_append_right, slice_through, slice_all,
    slice_zero_zero, slice_nil, le_length, leI_length, Guid_encode_length, Nat.reduceSub, Nat.sub_self, List.append_nil,
    List.length_cons, List.length_nil, Nat.reduceAdd, List.length_append, $[$hs:term],*])

/-! ### the kinds -/

theorem targetFields_of {x : Extra} {a w : Field} {more : Bytes} {sz sig : Nat}
    (hx : x.raw = le 4 sz ++ le 4 sig ++ (a.encode false ++ w.encode true ++ more))
    (ha : a.Valid x.tp false 260) (hw : w.Valid x.tp true 520) :
    x.targetFields = pure [("target_ansi", .str a.text.text), ("target_unicode", .str w.text.text)] := by
  have l1 := ha.2
  have l2 := hw.2
  have e1 : slice x.raw 8 (8 + 260) = a.encode false := by
    rw [hx]; slices_with [l1, l2]
  have e2 : slice x.raw 268 (268 + 520) = w.encode true := by
    rw [hx]; slices_with [l1, l2]
  unfold targetFields
  rw [e1, e2, readString_field ha.1, readUnicodeString_field hw.1]
  rfl

theorem codePageFields_of {x : Extra} {cp : UInt32} {more : Bytes} {sz sig : Nat}
    (hx : x.raw = le 4 sz ++ le 4 sig ++ (le 4 cp.toNat ++ more)) :
    x.codePageFields = pure [("code_page", .int cp.toNat)] := by
  unfold codePageFields
  rw [uint4_at (s := 8) (e := 12) (v := cp) (by rw [hx]; slices) rfl]
  rfl

theorem specialFolderFields_of {x : Extra} {i o : UInt32} {more : Bytes} {sz sig : Nat}
    (hx : x.raw = le 4 sz ++ le 4 sig ++ (le 4 i.toNat ++ le 4 o.toNat ++ more)) :
    x.specialFolderFields = pure [("special_folder_id", .int i.toNat), ("offset", .int o.toNat)] := by
  unfold specialFolderFields
  rw [uint4_at (s := 8) (e := 12) (v := i) (by rw [hx]; slices) rfl,
    uint4_at (s := 12) (e := 16) (v := o) (by rw [hx]; slices) rfl]
  rfl

theorem parseUuid_at {b : Bytes} {s e : Nat} {g : Guid} (h : slice b s e = g.encode) :
    parseUuid (slice b s e) = pure g.text := by
  rw [h]
  have := parseUuid_encode_append g []
  rwa [List.append_nil] at this

theorem knownFolderFields_of {x : Extra} {i : Guid} {o : UInt32} {more : Bytes} {sz sig : Nat}
    (hx : x.raw = le 4 sz ++ le 4 sig ++ (i.encode ++ le 4 o.toNat ++ more)) :
    x.knownFolderFields = pure [("known_folder_id", .str i.text), ("offset", .int o.toNat)] := by
  unfold knownFolderFields
  rw [parseUuid_at (g := i) (by rw [hx]; slices), uint4_at (s := 24) (e := 28) (v := o) (by rw [hx]; slices) rfl]
  rfl

theorem shimLayerFields_of {x : Extra} {t : Text} {more : Bytes} {sz sig : Nat}
    (hx : x.raw = le 4 sz ++ le 4 sig ++ (t.encodeZ false ++ more)) (ht : t.Valid x.tp false) :
    x.shimLayerFields = pure [("layer_name", .str t.text)] := by
  unfold shimLayerFields
  have : x.raw.drop 8 = t.encodeZ false ++ more := by
    rw [hx]
    exact drop_append_exact (by simp)
  rw [this, readString_encodeZ ht]
  rfl

theorem unknownFields_of {x : Extra} {sz sig : Nat} {p : Bytes} (hx : x.raw = le 4 sz ++ le 4 sig ++ p) :
    x.unknownFields = pure [("extra_data_sha256", .str (x.tp.env.sha256hex (le 4 sig ++ p)))] := by
  unfold unknownFields
  have : x.raw.drop 4 = le 4 sig ++ p := by
    rw [hx, List.append_assoc]
    exact drop_append_exact (by simp)
  rw [this]

theorem consoleFields_of {x : Extra} {c : ConsoleBlock} {more : Bytes} {sz sig : Nat}
    (hx : x.raw = le 4 sz ++ le 4 sig ++ (c.encode ++ more)) (hc : c.faceName.Valid x.tp true 64) :
    x.consoleFields = pure c.report := by
  have l1 := hc.2
  unfold consoleFields
  unfold ConsoleBlock.encode at hx
  rw [uint2_at (s := 8) (e := 10) (v := c.fillAttributes) (by rw [hx]; slices_with [l1]) rfl,
    uint2_at (s := 10) (e := 12) (v := c.popupFillAttributes) (by rw [hx]; slices_with [l1]) rfl,
    sint2_at (s := 12) (e := 14) (v := c.screenBufferSizeX) (by rw [hx]; slices_with [l1]) rfl,
    sint2_at (s := 14) (e := 16) (v := c.screenBufferSizeY) (by rw [hx]; slices_with [l1]) rfl,
    sint2_at (s := 16) (e := 18) (v := c.windowSizeX) (by rw [hx]; slices_with [l1]) rfl,
    sint2_at (s := 18) (e := 20) (v := c.windowSizeY) (by rw [hx]; slices_with [l1]) rfl,
    sint2_at (s := 20) (e := 22) (v := c.windowOriginX) (by rw [hx]; slices_with [l1]) rfl,
    sint2_at (s := 22) (e := 24) (v := c.windowOriginY) (by rw [hx]; slices_with [l1]) rfl,
    uint4_at (s := 32) (e := 36) (v := c.fontSize) (by rw [hx]; slices_with [l1]) rfl,
    uint4_at (s := 36) (e := 40) (v := c.fontFamily) (by rw [hx]; slices_with [l1]) rfl,
    uint4_at (s := 40) (e := 44) (v := c.fontWeight) (by rw [hx]; slices_with [l1]) rfl,
    uint4_at (s := 108) (e := 112) (v := c.cursorSize) (by rw [hx]; slices_with [l1]) rfl,
    uint4_at (s := 112) (e := 116) (v := c.fullScreen) (by rw [hx]; slices_with [l1]) rfl,
    uint4_at (s := 116) (e := 120) (v := c.quickEdit) (by rw [hx]; slices_with [l1]) rfl,
    uint4_at (s := 120) (e := 124) (v := c.insertMode) (by rw [hx]; slices_with [l1]) rfl,
    uint4_at (s := 124) (e := 128) (v := c.autoPosition) (by rw [hx]; slices_with [l1]) rfl,
    uint4_at (s := 128) (e := 132) (v := c.historyBufferSize) (by rw [hx]; slices_with [l1]) rfl,
    uint4_at (s := 132) (e := 136) (v := c.numberOfHistoryBuffers) (by rw [hx]; slices_with [l1]) rfl,
    uint4_at (s := 136) (e := 140) (v := c.historyNoDup) (by rw [hx]; slices_with [l1]) rfl,
    uint4_at (s := 140) (e := 144) (v := c.color0) (by rw [hx]; slices_with [l1]) rfl]
  have e1 : slice x.raw 44 (44 + 64) = c.faceName.encode true := by
    rw [hx]; slices_with [l1]
  rw [e1, readUnicodeString_field hc.1]
  rfl

theorem trackerFields_of {x : Extra} {t : TrackerBlock} {more : Bytes} {sz sig : Nat}
    (hx : x.raw = le 4 sz ++ le 4 sig ++ (t.encode ++ more)) (hc : t.machine.Valid x.tp false 16) :
    x.trackerFields = ⟨(Block.tracker t).warns, .ok t.report⟩ := by
  have l1 := hc.2
  unfold trackerFields
  unfold TrackerBlock.encode at hx
  rw [uint4_at (s := 8) (e := 12) (v := t.length) (by rw [hx]; slices_with [l1]) rfl,
    uint4_at (s := 12) (e := 16) (v := t.version) (by rw [hx]; slices_with [l1]) rfl,
    parseUuid_at (g := t.droidVolume) (by rw [hx]; slices_with [l1]),
    parseUuid_at (g := t.droidFile) (by rw [hx]; slices_with [l1]),
    parseUuid_at (g := t.birthVolume) (by rw [hx]; slices_with [l1]),
    parseUuid_at (g := t.birthFile) (by rw [hx]; slices_with [l1])]
  have e1 : slice x.raw 16 (16 + 16) = t.machine.encode false := by
    rw [hx]; slices_with [l1]
  rw [e1, readString_field hc.1, LnkHeader.mustBe_pure', LnkHeader.mustBe_pure']
  simp [bind, Py.andThen, pure, Py.ret, LnkHeader.checkWarns, Block.warns, TrackerBlock.report, PyVal.nat]

/-! ### Darwin -/

theorem strFind_none {s : Str} {c : Char} (h : c ∉ s) : strFind s c = -1 := by
  unfold strFind
  rw [List.idxOf?_eq_none_iff.2 h]

theorem strFind_append {a b : Str} {c : Char} (h : c ∉ a) : strFind (a ++ c :: b) c = a.length := by
  have : (a ++ c :: b).idxOf? c = some a.length := by
    induction a with
    | nil => simp [List.idxOf?_cons]
    | cons x a ih =>
      simp only [List.mem_cons, not_or] at h
      rw [List.cons_append, List.idxOf?_cons, if_neg (by simpa using fun hx => h.1 hx.symm), ih h.2]
      simp
  unfold strFind
  rw [this]

theorem b85_mem (n v : Nat) : ∀ c ∈ b85 n v, c ∈ digits85 := by
  have hd : ∀ i : Fin 85, digits85.getD i.1 '?' ∈ digits85 := by decide +kernel
  induction n generalizing v with
  | zero => simp [b85]
  | succ n ih =>
    intro c hc
    rcases List.mem_cons.1 hc with rfl | hc
    · exact hd ⟨v % 85, Nat.mod_lt _ (by omega)⟩
    · exact ih _ c hc

theorem packed_mem (g : Guid) : ∀ c ∈ g.packed, c ∈ digits85 := by
  intro c hc
  obtain ⟨v, -, h⟩ := List.mem_flatMap.1 hc
  exact b85_mem _ _ c h

theorem digits85_lt : '<' ∉ digits85 := by decide
theorem digits85_gt : '>' ∉ digits85 := by decide
theorem digits85_nul : '\x00' ∉ digits85 := by decide

theorem descriptor_nul {d : Descriptor} (h : d.Valid) : '\x00' ∉ d.text := by
  unfold Descriptor.text
  simp only [List.mem_append, not_or]
  refine ⟨⟨fun hc => digits85_nul (packed_mem _ _ hc), h.2.2⟩, ?_⟩
  rcases d.component with _ | g
  · decide
  · simp only [List.mem_cons, not_or]
    exact ⟨by decide, fun hc => digits85_nul (packed_mem _ _ hc)⟩

theorem packed_feature_no (d : Descriptor) (h : d.Valid) (c : Char) (hc : c = '<' ∨ c = '>') :
    c ∉ d.product.packed ++ d.feature := by
  rw [List.mem_append, not_or]
  rcases hc with rfl | rfl
  · exact ⟨fun hc => digits85_lt (packed_mem _ _ hc), h.1⟩
  · exact ⟨fun hc => digits85_gt (packed_mem _ _ hc), h.2.1⟩

theorem descriptor_len (d : Descriptor) : (d.product.packed ++ d.feature).length = 20 + d.feature.length := by
  rw [List.length_append, Guid_packed_length]

/-- Where the separators are. -/
theorem descriptor_find {d : Descriptor} (h : d.Valid) :
    strFind d.text '<' = (if d.component = none then ((20 + d.feature.length : Nat) : Int) else -1) ∧
    strFind d.text '>' = (if d.component = none then -1 else ((20 + d.feature.length : Nat) : Int)) := by
  have h1 := packed_feature_no d h '<' (.inl rfl)
  have h2 := packed_feature_no d h '>' (.inr rfl)
  unfold Descriptor.text
  rcases d.component with _ | g
  · simp only [if_pos]
    rw [strFind_append h1, descriptor_len]
    refine ⟨rfl, strFind_none ?_⟩
    simp only [List.mem_append, not_or] at h2 ⊢
    exact ⟨h2, by decide⟩
  · simp only [reduceCtorEq, if_false]
    rw [strFind_append h2, descriptor_len]
    refine ⟨strFind_none ?_, rfl⟩
    simp only [List.mem_append, List.mem_cons, not_or] at h1 ⊢
    exact ⟨h1, by decide, fun hc => digits85_lt (packed_mem _ _ hc)⟩

theorem productCodeId_of {x : Extra} {d : Descriptor} (hx : x.darwinDataUnicode = pure d.text) :
    x.productCodeId = pure (some d.product.text) := by
  unfold productCodeId
  rw [hx, pure_bind]
  have : slice d.text 0 20 = d.product.packed := by
    unfold Descriptor.text
    rw [List.append_assoc]
    exact slice_append_exact (Guid_packed_length _)
  rw [this]
  have := parsePackedUuid_packed d.product []
  rwa [List.append_nil] at this

theorem featureName_of {x : Extra} {d : Descriptor} (hx : x.darwinDataUnicode = pure d.text) (h : d.Valid) :
    x.featureName = pure (if d.feature = [] then none else some d.feature) := by
  unfold featureName
  rw [hx, pure_bind]
  obtain ⟨e1, e2⟩ := descriptor_find h
  have hm : max (strFind d.text '>') (strFind d.text '<') = ((20 + d.feature.length : Nat) : Int) := by
    rw [e1, e2]
    rcases d.component with _ | g <;> simp <;> omega
  simp only [hm]
  by_cases hf : d.feature = []
  · rw [if_pos hf, if_pos (by simp [hf])]
  · have : d.feature.length ≠ 0 := fun h0 => hf (List.length_eq_zero_iff.1 h0)
    rw [if_neg hf, if_neg (by omega)]
    have hs : sliceTo d.text 20 ((20 + d.feature.length : Nat) : Int) = d.feature := by
      unfold sliceTo
      rw [if_neg (by omega)]
      unfold Descriptor.text
      rw [List.append_assoc, Int.toNat_natCast]
      exact slice_mid (Guid_packed_length _) (by omega)
    rw [hs]

theorem componentId_of {x : Extra} {d : Descriptor} (hx : x.darwinDataUnicode = pure d.text) (h : d.Valid) :
    x.componentId = pure (d.component.map Guid.text) := by
  unfold componentId
  rw [hx, pure_bind]
  have e2 := (descriptor_find h).2
  simp only [e2]
  rcases hc : d.component with _ | g
  · rfl
  · simp only [reduceCtorEq, if_false]
    have : d.text.drop (((20 + d.feature.length : Nat) : Int) + 1).toNat = g.packed := by
      have : d.text = (d.product.packed ++ d.feature ++ ['>']) ++ g.packed := by
        unfold Descriptor.text; rw [hc]; simp
      rw [this]
      refine drop_append_exact ?_
      rw [List.length_append, descriptor_len]
      simp; omega
    rw [this]
    have := parsePackedUuid_packed g []
    rwa [List.append_nil] at this

theorem darwinFields_of {x : Extra} {a : Field} {d : Descriptor} {junk more : Bytes} {sz sig : Nat}
    (hx : x.raw = le 4 sz ++ le 4 sig ++ (a.encode false ++ (Block.descriptorField d junk).encode true ++ more))
    (ha : a.Valid x.tp false 260) (hd : d.Valid) (hl : ((Block.descriptorField d junk).encode true).length = 520) :
    x.darwinFields = pure ((Block.darwin a d junk).fields x.tp.env.sha256hex more) := by
  have l1 := ha.2
  have e1 : slice x.raw 8 (8 + 260) = a.encode false := by
    rw [hx]; slices_with [l1, hl]
  have e2 : x.darwinDataUnicode = pure d.text := by
    unfold darwinDataUnicode
    have : slice x.raw 268 (268 + 520) = (Block.descriptorField d junk).encode true := by
      rw [hx]; slices_with [l1, hl]
    rw [this, readUnicodeString_field (tp := x.tp)]
    · rfl
    · exact ⟨rfl, descriptor_nul hd⟩
  unfold darwinFields
  rw [e1, readString_field ha.1, productCodeId_of e2, featureName_of e2 hd, componentId_of e2 hd, e2]
  unfold Block.fields
  by_cases hf : d.feature = []
  · simp [hf, bind, Py.andThen, pure, Py.ret, PyVal.opt]
  · simp [hf, bind, Py.andThen, pure, Py.ret, PyVal.opt]

/-! ### ShellItem -/

theorem shellItemIter_eq {x : Extra} {n : Nat} (hn : x.uint 0 4 = pure n) :
    x.shellItemIter = LnkTargets.idLists x.tp (slice x.raw 8 n) := by
  unfold shellItemIter
  rw [hn]
  rfl

theorem shellItemFields_of {x : Extra} {items : List Item} {more : Bytes} {sig : Nat}
    (hx : x.raw = le 4 (8 + (encodeItems items ++ le 2 0 ++ more).length) ++ le 4 sig ++ (encodeItems items ++ le 2 0 ++ more))
    (hn : 8 + (encodeItems items ++ le 2 0 ++ more).length < 2 ^ 32)
    (hv : ∀ it ∈ items, it.Valid x.tp ∧ it.payload.length + 2 < 65536) :
    x.shellItemFields = ⟨items.flatMap Item.warns, .ok [("id_list", .list (items.map fun it => .dict it.report))]⟩ := by
  unfold shellItemFields
  rw [shellItemIter_eq (n := 8 + (encodeItems items ++ le 2 0 ++ more).length)]
  · have hs : slice x.raw 8 (8 + (encodeItems items ++ le 2 0 ++ more).length) = encodeItems items ++ (le 2 0 ++ more) := by
      rw [hx, ← List.append_nil (encodeItems items ++ le 2 0 ++ more), slice_mid (by simp) (by simp)]
      simp
    rw [hs, (idLists_items items (tail := le 2 0 ++ more) (.inr ⟨more, rfl⟩) hv).2]
    simp [bind, Py.andThen, pure, Py.ret]
  · refine uint_at ?_ hn
    rw [hx]; slices

end Extra

end Verif
