import Verif.Lemmas.HowMany
import Verif.Props.Growth
import Verif.Props.Log

/-
C87: how many warnings there can be.
-/

namespace Verif

open Spec Py

namespace HowMany

open Log

theorem logs_most {x : Py α} {l : Log} {k : Nat} (hx : Logs x l) (hl : Most k l) : x.warns.length ≤ k := hl _ _ hx

end HowMany

namespace Props

open Log HowMany

/-! ### upper bound -/

/-- C87: making the object says at most 13 things. -/
theorem construction_warnings_bounded (env : Env) (cp : Option String) (ht : Tame (TextProc.mk' env cp)) (allow : Bool) (src : Source) :
    (LnkFile.init env cp allow src).warns.length ≤ 13 := by
  by_cases hb : src.bytes = []
  · cases src with
    | fhandle b =>
      change b = [] at hb
      subst hb
      exact Nat.zero_le _
    | indata b =>
      change b = [] at hb
      subst hb
      exact Nat.zero_le _
  · exact logs_most (LnkFile.logs_init ht allow hb) (most_construction _ _)

/-- C87: the report says at most `n ^ 2 + 6 n + 16` things, and at most `6 n + 16` when there is no metadata block. -/
theorem report_warnings_bounded (env : Env) (cp : Option String) (ht : Tame (TextProc.mk' env cp)) (allow : Bool) (src : Source) (f : LnkFile)
    (hf : (LnkFile.init env cp allow src).res = .ok f) :
    ∃ L l last, layout src.bytes = some L ∧ Cut (src.bytes.drop L.extraAt) l last ∧ ∀ all,
      (f.getJson all).warns.length ≤ src.bytes.length ^ 2 + 6 * src.bytes.length + 16 ∧
      ((∀ p ∈ l, p.signature ≠ some 0xA0000009) → (f.getJson all).warns.length ≤ 6 * src.bytes.length + 16) := by
  obtain ⟨L, l, last, hl, hc, hP, h4⟩ := LnkFile.parts_tame ht (LnkFile.init_ok hf)
  refine ⟨L, l, last, hl, hc, fun all => ?_⟩
  have h := logs_most (LnkFile.logs_report ht hl hc hP h4 all) (most_report _ hl hc)
  constructor
  · refine Nat.le_trans h ?_
    rw [Nat.pow_two]
    split <;> omega
  · intro hn
    rw [if_neg (by push Not; exact hn)] at h
    omega

/-- C87: whatever the bytes and the arguments, the command-line tool says at most `n ^ 2 + 6 n + 29` things, and at most `6 n + 29` when
there is no metadata block. -/
theorem tool_warnings_bounded (env : Env) (dump : Dict → Str) (args : Args) (ht : Tame (TextProc.mk' env (some args.cp))) (b : Bytes) :
    (main env dump args (some b)).py.warns.length ≤ b.length ^ 2 + 6 * b.length + 29 ∧
    ((∀ L l last, layout b = some L → Cut (b.drop L.extraAt) l last → ∀ p ∈ l, p.signature ≠ some 0xA0000009) →
      (main env dump args (some b)).py.warns.length ≤ 6 * b.length + 29) := by
  have key : ∀ k, (∀ L l last, layout b = some L → Cut (b.drop L.extraAt) l last →
      (if ∃ p ∈ l, p.signature = some 0xA0000009 then b.length * b.length else 0) ≤ k) →
      Most (k + 6 * b.length + 29) (tool (TextProc.mk' env (some args.cp)) args.target b) := by
    intro k hk
    unfold tool
    split
    · exact most_mono (most_fail _) (Nat.zero_le _)
    · refine most_mono (most_andThen (most_construction _ _) (k := k + 6 * b.length + 16) ?_) (by omega)
      rintro w e ⟨L, l, last, hL, hc, h⟩
      split at h
      · exact most_mono (most_need _ _) (Nat.zero_le _) w e h
      · have := hk L l last hL hc
        exact most_mono (most_report _ hL hc) (by omega) w e h
  have hw : ∀ k, Most k (tool (TextProc.mk' env (some args.cp)) args.target b) → (main env dump args (some b)).py.warns.length ≤ k := by
    intro k key
    have h := tool_logged env dump args ht b (main env dump args (some b)).py.warns
    rcases hp : (main env dump args (some b)).py with ⟨w, x | u⟩
    · rw [hp] at h
      exact key _ _ ((h.2 x).2 rfl)
    · rw [hp] at h
      exact key _ _ (h.1.2 rfl)
  refine ⟨hw _ (key _ fun L l last _ _ => ?_), fun hn => Nat.le_trans (hw _ (key 0 fun L l last hL hc => ?_)) (by omega)⟩
  · rw [Nat.pow_two]
    split <;> omega
  · rw [if_neg (by push Not; exact hn L l last hL hc)]

/-- The hypothesis is met by a file of 350 bytes. -/
example (env : Env) (dump : Dict → Str) (json all : Bool) :
    (main env dump { json := json, print_all := all } (some halfPair)).py.warns.length ≤ 6 * 350 + 29 := by
  have hlen : halfPair.length = 350 := by decide +kernel
  rw [← hlen]
  refine (tool_warnings_bounded env dump { json := json, print_all := all } (tame_usable (usable_cp1252 rfl)) halfPair).2 ?_
  intro L l last hl hc
  have hL : layout halfPair = some ⟨80, 0, 80, 80, 80⟩ := by decide +kernel
  rw [hL] at hl
  cases hl
  have h := cut_unique hc (Cut.block (b := halfPair.drop 80) (n := 270) (l := []) (last := []) (by decide +kernel) (by decide)
    (.stop (.inl (by decide +kernel))))
  rw [h.1]
  simp only [List.mem_singleton, forall_eq]
  decide +kernel

/-! ### lower bound -/

/-- A record of 32 bytes that is a storage (from byte 24 on a value of 8 bytes, then what follows) as well as a value (from byte 9 on
a text of one unit, half a surrogate pair). -/
def halfRecord : Bytes :=
  le 4 32 ++ le 4 0 ++ [0] ++ (le 2 0x1F ++ le 2 0 ++ le 4 1 ++ [0x00, 0xD8]) ++ List.replicate 5 0 ++ (le 4 8 ++ le 4 0)

/-- `n` of them, then zeros. -/
def halfRecords : Nat → Bytes
  | 0 => List.replicate 8 0
  | n + 1 => halfRecord ++ halfRecords n

/-- The suffixes from each record on. -/
def halfTails : Nat → List Bytes
  | 0 => []
  | n + 1 => halfRecords (n + 1) :: halfTails n

theorem halfRecords_length (n : Nat) : (halfRecords n).length = 32 * n + 8 := by
  induction n with
  | zero => rfl
  | succ n ih =>
    rw [halfRecords, List.length_append, ih, show halfRecord.length = 32 from rfl]
    omega

theorem sizeChain_half (n : Nat) : Metadata.sizeChain (halfRecords n) = pure (halfTails n) := by
  induction n with
  | zero => exact Metadata.sizeChain_end (List.replicate 4 0)
  | succ n ih => exact Metadata.sizeChain_cons ⟨halfRecord.drop 4, rfl, by decide⟩ ih

theorem value_half (n : Nat) : ∃ d, Metadata.integerNameAsDict (halfRecords (n + 1)) = ⟨[.decode ['\uFFFD']], .ok d⟩ := by
  have h0 : slice (halfRecords (n + 1)) 0 4 = le 4 32 := rfl
  have h4 : slice (halfRecords (n + 1)) 4 8 = le 4 0 := rfl
  have ht : Metadata.valueType ((halfRecords (n + 1)).drop 9) = pure 0x1F := rfl
  have hp : Metadata.valuePadding ((halfRecords (n + 1)).drop 9) = pure 0 := rfl
  have hl : slice ((halfRecords (n + 1)).drop 9) 4 8 = le 4 1 := rfl
  have hb : slice ((halfRecords (n + 1)).drop 9) 8 (8 + 1 * 2) = [0x00, 0xD8] := rfl
  have hr : TextProc.readUnicodeString [0x00, 0xD8] = ⟨[.decode ['\uFFFD']], .ok ['\uFFFD']⟩ := by rfl
  have hv : Metadata.typedValue ((halfRecords (n + 1)).drop 9) = ⟨[.decode ['\uFFFD']], .ok (.str ['\uFFFD'])⟩ := by
    unfold Metadata.typedValue
    rw [hp, ht]
    simp only [pure_bind, ne_eq, not_true_eq_false, if_false]
    rw [if_neg (by decide), if_pos trivial, hl, unpackU_le (by omega), pure_bind, hb, hr]
    rfl
  refine ⟨[("value_size", .nat 32), ("id", .nat 0), ("value", .str ['\uFFFD']), ("value_type", .lit "VT_LPWSTR")], ?_⟩
  unfold Metadata.integerNameAsDict
  rw [h0, h4, unpackU_le (by omega), unpackU_le (by omega), ht, hv]
  rfl

theorem values_half (n : Nat) : ∃ l, Metadata.collect Metadata.integerNameAsDict (halfTails n) = ⟨List.replicate n (.decode ['\uFFFD']), .ok l⟩ := by
  induction n with
  | zero => exact ⟨[], rfl⟩
  | succ n ih =>
    obtain ⟨l, hl⟩ := ih
    obtain ⟨d, hd⟩ := value_half n
    refine ⟨.dict d :: l, ?_⟩
    rw [halfTails, Metadata.collect, hd, hl]
    simp [bind, Py.andThen, pure, Py.ret, List.replicate_succ]

theorem first_half (n : Nat) : ∃ d, Metadata.integerNameAsDict (halfRecord.drop 24 ++ halfRecords n) = pure d := by
  cases n with
  | zero => exact ⟨_, rfl⟩
  | succ n =>
    rw [halfRecords]
    exact ⟨_, rfl⟩

theorem storage_half (n : Nat) :
    ∃ d, Metadata.storageAsDict (halfRecords (n + 1)) = ⟨List.replicate n (.decode ['\uFFFD']), .ok d⟩ := by
  obtain ⟨l, hl⟩ := values_half n
  obtain ⟨d, hd⟩ := first_half n
  have hdrop : (halfRecords (n + 1)).drop 24 = halfRecord.drop 24 ++ halfRecords n := rfl
  have hc : Metadata.sizeChain (halfRecord.drop 24 ++ halfRecords n) = pure ((halfRecord.drop 24 ++ halfRecords n) :: halfTails n) :=
    Metadata.sizeChain_cons ⟨le 4 0, rfl, by decide⟩ (sizeChain_half n)
  have hg : Metadata.formatId (halfRecords (n + 1)) = pure (⟨0x1F00, 0x100, 0, 0, 0, 0xD8, 0, 0, 0, 0, 0⟩ : Guid).text := by
    rw [← parseUuid_encode]
    rfl
  refine ⟨[("storage_size", .nat 32), ("version", .str (pyHex 0)),
    ("format_id", .str (⟨0x1F00, 0x100, 0, 0, 0, 0xD8, 0, 0, 0, 0, 0⟩ : Guid).text), ("serialized_property_values", .list (.dict d :: l))], ?_⟩
  unfold Metadata.storageAsDict
  have h0 : slice (halfRecords (n + 1)) 0 4 = le 4 32 := rfl
  have h4 : slice (halfRecords (n + 1)) 4 8 = le 4 0 := rfl
  rw [h0, h4, unpackU_le (by omega), unpackU_le (by omega), hg, hdrop, hc]
  simp only [pure_bind]
  rw [if_neg (by decide +kernel), Metadata.collect, hd, pure_bind, hl]
  simp [bind, Py.andThen, pure, Py.ret]

/-- How many warnings the store gives. -/
def triangle : Nat → Nat
  | 0 => 0
  | n + 1 => n + triangle n

theorem triangle_eq (n : Nat) : 2 * triangle n = n * (n - 1) := by
  induction n with
  | zero => rfl
  | succ n ih =>
    rw [triangle, Nat.mul_add, ih, Nat.add_sub_cancel]
    cases n with
    | zero => rfl
    | succ m =>
      rw [Nat.add_sub_cancel]
      ring

theorem store_half (n : Nat) :
    ∃ l, Metadata.collect Metadata.storageAsDict (halfTails n) = ⟨List.replicate (triangle n) (.decode ['\uFFFD']), .ok l⟩ := by
  induction n with
  | zero => exact ⟨[], rfl⟩
  | succ n ih =>
    obtain ⟨l, hl⟩ := ih
    obtain ⟨d, hd⟩ := storage_half n
    refine ⟨.dict d :: l, ?_⟩
    rw [halfTails, Metadata.collect, hd, hl]
    simp [bind, Py.andThen, pure, Py.ret, triangle]

/-- A metadata block of `32 n + 16` bytes. -/
def halfBlock (n : Nat) : RawBlock := ⟨0xA0000009, halfRecords n⟩

theorem halfBlock_length (n : Nat) : (halfBlock n).encode.length = 32 * n + 16 := by
  rw [ExtraData.RawBlock_length, halfBlock, halfRecords_length]
  omega

/-- C87, lower bound: a metadata block of `32 n + 16` bytes is reported with `n (n - 1) / 2` warnings. -/
theorem block_warnings (tp : TextProc) (n : Nat) (hn : 32 * n + 16 < 2 ^ 32) :
    ∃ W d, Extra.asDict ⟨.metadata, tp, (halfBlock n).encode⟩ = ⟨W, .ok d⟩ ∧ 2 * W.length = n * (n - 1) := by
  obtain ⟨l, hl⟩ := store_half n
  have hfit : (halfBlock n).Fits := by
    have := halfBlock_length n
    rw [ExtraData.RawBlock_length] at this
    unfold RawBlock.Fits
    omega
  have hsz : Extra.size ⟨.metadata, tp, (halfBlock n).encode⟩ = pure (halfBlock n).encode.length := by
    rw [ExtraData.size_eq _ (by simp), ExtraData.RawBlock_length]
    simp only [RawBlock.encode, List.append_assoc]
    rw [ExtraData.uAt_le4 _ hfit]
  have hd : ((halfBlock n).encode).drop 8 = halfRecords n := drop_append_exact (by simp)
  refine ⟨List.replicate (triangle n) (.decode ['\uFFFD']), [("size", .nat (halfBlock n).encode.length), ("property_store", .list l)], ?_,
    (by rw [List.length_replicate]; exact triangle_eq n)⟩
  unfold Extra.asDict
  rw [hsz, pure_bind]
  show (Extra.metadataFields _ >>= _) = _
  unfold Extra.metadataFields Metadata.propertyStore
  simp only [hd]
  rw [sizeChain_half, pure_bind, hl]
  simp [bind, Py.andThen, pure, Py.ret]

/-- C87, lower bound: any well-formed link to whose extra data such a block is written is accepted, and its report says at least
`n (n - 1) / 2` things. -/
theorem report_warnings_quadratic (env : Env) (cp : Option String) (allow : Bool) (s : ShellLink) (hv : s.Valid (TextProc.mk' env cp))
    (n : Nat) (hn : 32 * n + 16 < 2 ^ 32) (src : Source)
    (hs : src.bytes = head s ++ (s.strings.encode (s.flags.testBit 7) ++ ((halfBlock n).encode ++ le 4 0))) :
    src.bytes.length = (head s ++ s.strings.encode (s.flags.testBit 7)).length + 32 * n + 20 ∧
    ∃ f j, (LnkFile.init env cp allow src).res = .ok f ∧ (f.getJson true).res = .ok j ∧
      n * (n - 1) ≤ 2 * (f.getJson true).warns.length := by
  constructor
  · have := halfBlock_length n
    rw [hs]
    simp only [List.length_append, le_length]
    omega
  have hfit : (halfBlock n).Fits := by
    have := halfBlock_length n
    rw [ExtraData.RawBlock_length] at this
    unfold RawBlock.Fits
    omega
  have hcut : Cut ((halfBlock n).encode ++ le 4 0) [ExtraData.pieceOf (halfBlock n)] (le 4 0) := by
    have := ExtraData.cut_raw [halfBlock n] (by simpa using hfit)
      (ExtraData.cut_stops (tail := le 4 0) (.inl ⟨[], rfl⟩))
    simpa using this
  have hx := ExtraData.init_cut (tp := TextProc.mk' env cp) (allow := allow) hcut
  have hsz := ExtraData.size_cut (tp := TextProc.mk' env cp) (allow := allow) hcut
  rw [if_pos (fun p hp => ?_)] at hsz
  swap
  · simp only [ExtraData.signed, List.mem_filter, List.mem_singleton] at hp
    rw [hp.1]
    show 4 ≤ 8 + _
    omega
  rw [if_neg (by simp), List.append_nil] at hx hsz
  obtain ⟨h, F, hr, hF, -⟩ := init_head env cp allow s hv _ src hs
  rw [string_data_roundtrip h _ s.flags (flags_of_header hr) s.strings ⟨hv.announced, hv.strings⟩, pure_bind] at hF
  simp only at hF
  rw [drop_append_exact rfl] at hF
  obtain ⟨f, hf⟩ : ∃ f, (LnkFile.init env cp allow src).res = .ok f := by
    rw [hF]
    refine ⟨_, Py.bind_ok_iff.2 ⟨_, congrArg Py.res hx, Py.bind_ok_iff.2 ⟨_, congrArg Py.res hsz, rfl⟩⟩⟩
  obtain ⟨c, a, w, wc, wa, ww, -, -, -, hj⟩ := damaged_tail env cp allow s hv _ src hs f hf
  obtain ⟨-, he⟩ := damaged_extra env cp allow s hv _ src hs f hf
  rw [hx] at he
  have he : f.extras = ⟨[⟨.metadata, TextProc.mk' env cp, (halfBlock n).encode⟩]⟩ := by
    have := Except.ok.inj he
    rw [← this]
    rfl
  obtain ⟨W, d, hd, hW⟩ := block_warnings (TextProc.mk' env cp) n hn
  have hx' : f.extras.asDict = ⟨W, .ok [("METADATA_PROPERTIES_BLOCK", .dict d)]⟩ := by
    rw [he]
    unfold ExtraData.asDict ExtraData.asDictLoop
    simp only [Py.attempt, hd]
    show (⟨W ++ [], _⟩ : Py Dict) = _
    rw [List.append_nil]
    rfl
  refine ⟨f, headReport s c a w f.size f.stringData.asDict [("METADATA_PROPERTIES_BLOCK", .dict d)], hf, (by rw [hj, hx']; rfl), ?_⟩
  rw [hj, hx']
  simp only [List.length_append]
  omega

/-- 640 kB, 200 million warnings. -/
example (env : Env) (allow : Bool) : ∃ b f j, b.length ≤ 641000 ∧ (LnkFile.init env none allow (.indata b)).res = .ok f ∧
    (f.getJson true).res = .ok j ∧ 199990000 ≤ (f.getJson true).warns.length := by
  obtain ⟨b, hb⟩ : ∃ b, b = head exampleLink ++ (exampleLink.strings.encode (exampleLink.flags.testBit 7) ++
      ((halfBlock 20000).encode ++ le 4 0)) := ⟨_, rfl⟩
  obtain ⟨h1, f, j, h2, h3, h4⟩ := report_warnings_quadratic env none allow exampleLink (exampleLink_valid env) 20000 (by omega) (.indata b) hb
  have hl : (head exampleLink ++ exampleLink.strings.encode (exampleLink.flags.testBit 7)).length ≤ 900 := by decide +kernel
  change b.length = _ at h1
  exact ⟨b, f, j, by omega, h2, h3, by omega⟩

end Props

end Verif
