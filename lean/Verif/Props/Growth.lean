import Verif.Props.Overlap
import Verif.Props.Damaged
import Verif.Lemmas.Bounded
import Verif.Lemmas.Json

/-
C68: how large the report of a file can be.
-/

namespace Verif.Props

open Spec

/-! ### a block with a report of cubic size -/

/-- The end of a name. -/
def filler : Bytes := List.replicate 287 0x41

theorem filler_length : filler.length = 287 := List.length_replicate

/-- 320 bytes that are a storage (its size, a version, the format of string-named values, the values) and at the same time
a string-named value (its size, the size of the name, a reserved byte, the name).  The first value of the storage starts at
byte 24. -/
def doubleRecord (S : Nat) : Bytes :=
  le 4 320 ++ le 4 S ++ [0x05, 0xD5, 0xCD, 0xD5, 0x9C, 0x2E, 0x1B, 0x10, 0x93, 0x97, 0x08, 0x00, 0x2B, 0x2C, 0xF9, 0xAE] ++
    (le 4 296 ++ le 4 S ++ 1 :: filler)

/-- `m` such records, then zeros. -/
def doubleRecords (S m : Nat) : Bytes := (List.replicate m (doubleRecord S)).flatten ++ List.replicate (S + 32) 0

theorem doubleRecord_length (S : Nat) : (doubleRecord S).length = 320 := by simp [doubleRecord, filler_length]

theorem doubleRecords_succ (S m : Nat) : doubleRecords S (m + 1) = doubleRecord S ++ doubleRecords S m := by
  simp [doubleRecords, List.replicate_succ]

theorem doubleRecords_length (S m : Nat) : (doubleRecords S m).length = 320 * m + S + 32 := by
  induction m with
  | zero => simp [doubleRecords]
  | succ m ih => rw [doubleRecords_succ, List.length_append, ih, doubleRecord_length]; omega

/-- The name size has no zero unit where the names read it. -/
def GoodSize (S : Nat) : Prop := S < 2 ^ 32 ∧ S % 256 ≠ 0 ∧ S / 256 % 65536 ≠ 0

theorem le4_bytes (S : Nat) : le 4 S =
    [UInt8.ofNat S, UInt8.ofNat (S / 256), UInt8.ofNat (S / 65536), UInt8.ofNat (S / 16777216)] := by
  simp only [le, List.cons.injEq, and_true]
  refine ⟨?_, ?_, ?_, ?_⟩ <;> apply UInt8.toNat_inj.mp <;> simp only [UInt8.toNat_ofNat'] <;> omega

theorem doubleRecord_noZero (S : Nat) (h : GoodSize S) :
    NoZero ((doubleRecord S).drop 9 ++ (doubleRecord S).take 9) ∧ NoZero ((doubleRecord S).drop 9 ++ [0]) := by
  obtain ⟨-, h1, h2⟩ := h
  have ha : UInt8.ofNat S ≠ 0 := by
    intro h; have := congrArg UInt8.toNat h; simp only [UInt8.toNat_ofNat'] at this; simp at this; omega
  have hb : ¬ (UInt8.ofNat (S / 256) = 0 ∧ UInt8.ofNat (S / 65536) = 0) := by
    rintro ⟨h, h'⟩
    have h := congrArg UInt8.toNat h
    have h' := congrArg UInt8.toNat h'
    simp only [UInt8.toNat_ofNat'] at h h'
    simp at h h'
    omega
  have hu : NoZero ([0xD5, 0xCD, 0xD5, 0x9C, 0x2E, 0x1B, 0x10, 0x93, 0x97, 0x08, 0x00, 0x2B, 0x2C, 0xF9, 0xAE] ++
      (le 4 296 ++ le 4 S ++ [1])) := by
    rw [le4_bytes S]
    generalize UInt8.ofNat S = a at *
    generalize UInt8.ofNat (S / 256) = b at *
    generalize UInt8.ofNat (S / 65536) = c at *
    refine ⟨by simp, ?_⟩
    simp only [le, List.cons_append, List.nil_append, TextProc.twoBytesEach]
    simp
    exact ⟨ha, fun h => not_and.1 hb h⟩
  have hw : NoZero [1, 0, 0, UInt8.ofNat S, UInt8.ofNat (S / 256), UInt8.ofNat (S / 65536), UInt8.ofNat (S / 16777216), 5] := by
    generalize UInt8.ofNat S = a at *
    generalize UInt8.ofNat (S / 256) = b at *
    generalize UInt8.ofNat (S / 65536) = c at *
    refine ⟨by simp, ?_⟩
    simp only [TextProc.twoBytesEach]
    simp
    exact ⟨ha, fun h => not_and.1 hb h⟩
  have hf : NoZero (filler ++ [0x40]) := ⟨by decide +kernel, by decide +kernel⟩
  have hg : NoZero (filler ++ [0]) := ⟨by decide +kernel, by decide +kernel⟩
  have hd : (doubleRecord S).drop 9 = [0xD5, 0xCD, 0xD5, 0x9C, 0x2E, 0x1B, 0x10, 0x93, 0x97, 0x08, 0x00, 0x2B, 0x2C, 0xF9,
      0xAE] ++ (le 4 296 ++ le 4 S ++ [1]) ++ filler := rfl
  have ht : (doubleRecord S).take 9 = [0x40] ++ [1, 0, 0, UInt8.ofNat S, UInt8.ofNat (S / 256), UInt8.ofNat (S / 65536),
      UInt8.ofNat (S / 16777216), 5] := by
    unfold doubleRecord
    rw [le4_bytes S]
    rfl
  rw [hd, ht]
  constructor
  · have := (hu.append hf).append hw
    simpa only [List.append_assoc] using this
  · have := hu.append hg
    simpa only [List.append_assoc] using this

/-- The bytes from a name to the end of the records. -/
def nameBytes (S j : Nat) : Bytes :=
  (List.replicate j ((doubleRecord S).drop 9 ++ (doubleRecord S).take 9)).flatten ++ ((doubleRecord S).drop 9 ++ [0])

theorem nameBytes_length (S j : Nat) : (nameBytes S j).length = 320 * j + 312 := by
  have h : ((doubleRecord S).drop 9 ++ (doubleRecord S).take 9).length = 320 := by simp [doubleRecord_length]
  rw [nameBytes, List.length_append, List.length_append, List.length_flatten, List.map_replicate, h, List.length_drop,
    doubleRecord_length]
  simp
  omega

theorem nameBytes_noZero (S j : Nat) (h : GoodSize S) : NoZero (nameBytes S j) :=
  ((doubleRecord_noZero S h).1.replicate j).append (doubleRecord_noZero S h).2

theorem drop_name (S j : Nat) :
    (doubleRecords S (j + 1)).drop 9 = nameBytes S j ++ List.replicate (S + 31) 0 := by
  have h : ∀ j, (doubleRecord S).drop 9 ++ doubleRecords S j = nameBytes S j ++ List.replicate (S + 31) 0 := by
    intro j
    induction j with
    | zero => simp [nameBytes, doubleRecords, List.replicate_succ]
    | succ j ih =>
      rw [doubleRecords_succ]
      have e : nameBytes S (j + 1) = (doubleRecord S).drop 9 ++ (doubleRecord S).take 9 ++ nameBytes S j := by
        simp only [nameBytes, List.replicate_succ, List.flatten_cons, List.append_assoc]
      rw [e, List.append_assoc _ (nameBytes S j), ← ih, List.append_assoc, ← List.append_assoc ((doubleRecord S).take 9),
        List.take_append_drop]
  rw [doubleRecords_succ, List.drop_append_of_le_length (by rw [doubleRecord_length]; omega), h]

theorem name_slice (S j : Nat) (h : 320 * j + 312 ≤ S) : slice (doubleRecords S (j + 1)) 9 (9 + S) =
    nameBytes S j ++ List.replicate (S - (nameBytes S j).length) 0 := by
  have hn := nameBytes_length S j
  have e : slice (doubleRecords S (j + 1)) 9 (9 + S) = ((doubleRecords S (j + 1)).drop 9).take S := by
    unfold slice
    rw [Nat.add_sub_cancel_left]
  rw [e, drop_name, List.take_append, List.take_of_length_le (by omega), List.take_replicate,
    show min (S - (nameBytes S j).length) (S + 31) = S - (nameBytes S j).length by omega]

theorem readUnicodeString_ok (b : Bytes) : ∃ s, (TextProc.readUnicodeString b).res = .ok s := by
  rw [readUnicodeString_eq]
  obtain ⟨s, h, -⟩ := wideToStr_ok ((TextProc.twoBytesEach b).takeWhile (· ≠ [0, 0])).flatten
  exact ⟨s, h⟩

/-- A value whose type lies in zeros. -/
theorem value_zero {raw r r' : Bytes} {n S : Nat} (h : raw = le 4 n ++ (le 4 S ++ r)) (hn : n < 2 ^ 32) (hS : S < 2 ^ 32)
    (hz : raw.drop (9 + S) = 0 :: 0 :: 0 :: 0 :: r') :
    ∃ d s, (TextProc.readUnicodeString (slice raw 9 (9 + S))).res = .ok s ∧ (Metadata.stringNameAsDict raw).res = .ok d ∧
      s.length ≤ weight (.dict d) := by
  obtain ⟨s, hs⟩ := readUnicodeString_ok (slice raw 9 (9 + S))
  refine ⟨[("value_size", .nat n), ("name_size", .nat S), ("name", .str s), ("value", .none), ("value_type", .lit "VT_EMPTY")],
    s, hs, ?_, ?_⟩
  · have h0 : slice raw 0 4 = le 4 n := by rw [h]; slices
    have h4 : slice raw 4 8 = le 4 S := by rw [h]; slices
    unfold Metadata.stringNameAsDict
    rw [h0, h4, unpackU_le hn, unpackU_le hS]
    simp only [pure_bind, hz]
    rw [Py.bind_ok_iff]
    exact ⟨s, hs, rfl⟩
  · simp [weight, weightEntries]
    omega

theorem drop_records (S m t : Nat) (h : 320 * m ≤ t) (ht : t + 4 ≤ 320 * m + S + 32) :
    ∃ r', (doubleRecords S m).drop t = 0 :: 0 :: 0 :: 0 :: r' := by
  have hl : ((List.replicate m (doubleRecord S)).flatten).length = 320 * m := by
    rw [List.length_flatten, List.map_replicate, doubleRecord_length]
    simp
    omega
  refine ⟨List.replicate (S + 32 - (t - 320 * m) - 4) 0, ?_⟩
  rw [doubleRecords, List.drop_append, List.drop_eq_nil_of_le (by omega), hl, List.drop_replicate, List.nil_append]
  obtain ⟨z, hz⟩ : ∃ z, S + 32 - (t - 320 * m) = z + 1 + 1 + 1 + 1 := ⟨S + 32 - (t - 320 * m) - 4, by omega⟩
  rw [hz]
  simp only [List.replicate_succ]
  rfl

/-- The suffixes from each record on. -/
def recordTails (S : Nat) : Nat → List Bytes
  | 0 => []
  | m + 1 => doubleRecords S (m + 1) :: recordTails S m

theorem sizeChain_records (S m : Nat) : Metadata.sizeChain (doubleRecords S m) = pure (recordTails S m) := by
  induction m with
  | zero => exact Metadata.sizeChain_end (List.replicate (S + 28) 0)
  | succ m ih =>
    rw [recordTails, doubleRecords_succ]
    refine Metadata.sizeChain_cons ⟨(doubleRecord S).drop 4, ?_, by rw [List.length_drop, doubleRecord_length]; omega⟩ ih
    rw [List.length_drop, doubleRecord_length]
    rfl

theorem collect_cons_ok {f : Bytes → Py Dict} {x : Bytes} {xs : List Bytes} {d : Dict} {ds : List PyVal}
    (h : (f x).res = .ok d) (hs : (Metadata.collect f xs).res = .ok ds) :
    (Metadata.collect f (x :: xs)).res = .ok (.dict d :: ds) := by
  rw [Metadata.collect, Py.bind_ok_iff]
  refine ⟨d, h, ?_⟩
  rw [Py.bind_ok_iff]
  exact ⟨ds, hs, rfl⟩

theorem values_weight (S m : Nat) (h : GoodSize S) (hm : 320 * m ≤ S) :
    ∃ l, (Metadata.collect Metadata.stringNameAsDict (recordTails S m)).res = .ok l ∧ 39 * (m * (m + 1)) ≤ weightList l := by
  induction m with
  | zero => exact ⟨[], rfl, Nat.zero_le _⟩
  | succ j ih =>
    obtain ⟨l, hl, hw⟩ := ih (by omega)
    obtain ⟨r', hr⟩ := drop_records S (j + 1) (9 + S) (by omega) (by omega)
    obtain ⟨d, s, h1, h2, h3⟩ := value_zero (n := 320) (raw := doubleRecords S (j + 1))
      (r := (doubleRecord S).drop 8 ++ doubleRecords S j) (by rw [doubleRecords_succ]; rfl) (by omega) h.1 hr
    refine ⟨_, collect_cons_ok h2 hl, ?_⟩
    rw [name_slice S j (by omega)] at h1
    obtain ⟨s', h5, h6⟩ := name_long (nameBytes S j) (List.replicate (S - (nameBytes S j).length) 0) (nameBytes_noZero S j h)
    rw [h1] at h5
    cases h5
    rw [nameBytes_length] at h6
    rw [weightList]
    have : 39 * ((j + 1) * (j + 1 + 1)) = 39 * (j * (j + 1)) + 78 * (j + 1) := by ring
    omega

theorem storage_weight (S m : Nat) (h : GoodSize S) (hm : 320 * (m + 1) ≤ S) :
    ∃ d, (Metadata.storageAsDict (doubleRecords S (m + 1))).res = .ok d ∧ 39 * (m * (m + 1)) ≤ weight (.dict d) := by
  obtain ⟨l, hl, hw⟩ := values_weight S m h (by omega)
  have hdrop : (doubleRecords S (m + 1)).drop 24 = (doubleRecord S).drop 24 ++ doubleRecords S m := by
    rw [doubleRecords_succ, List.drop_append_of_le_length (by rw [doubleRecord_length]; omega)]
  have hz : ∃ r', ((doubleRecord S).drop 24 ++ doubleRecords S m).drop (9 + S) = 0 :: 0 :: 0 :: 0 :: r' := by
    rw [← hdrop, List.drop_drop]
    exact drop_records S (m + 1) _ (by omega) (by omega)
  obtain ⟨r', hr⟩ := hz
  obtain ⟨d0, s0, -, h2, -⟩ := value_zero (n := 296) (raw := (doubleRecord S).drop 24 ++ doubleRecords S m)
    (r := 1 :: filler ++ doubleRecords S m) (by rfl) (by omega) h.1 hr
  have hc := sizeChain_records S m
  have hc' : Metadata.sizeChain ((doubleRecord S).drop 24 ++ doubleRecords S m) =
      pure (((doubleRecord S).drop 24 ++ doubleRecords S m) :: recordTails S m) := by
    refine Metadata.sizeChain_cons ⟨(doubleRecord S).drop 28, ?_, by rw [List.length_drop, doubleRecord_length]; omega⟩ hc
    rw [List.length_drop, doubleRecord_length]
    rfl
  have hg : Metadata.formatId (doubleRecords S (m + 1)) = pure Metadata.stringNameFormat := by
    rw [doubleRecords_succ]
    show parseUuid [0x05, 0xD5, 0xCD, 0xD5, 0x9C, 0x2E, 0x1B, 0x10, 0x93, 0x97, 0x08, 0x00, 0x2B, 0x2C, 0xF9, 0xAE] = _
    exact parseUuid_encode ⟨0xD5CDD505, 0x2E9C, 0x101B, 0x93, 0x97, 0x08, 0x00, 0x2B, 0x2C, 0xF9, 0xAE⟩
  refine ⟨[("storage_size", .nat 320), ("version", .str (pyHex S)), ("format_id", .str Metadata.stringNameFormat),
    ("serialized_property_values", .list (.dict d0 :: l))], ?_, ?_⟩
  · unfold Metadata.storageAsDict
    have h0 : slice (doubleRecords S (m + 1)) 0 4 = le 4 320 := by rw [doubleRecords_succ]; rfl
    have h4 : slice (doubleRecords S (m + 1)) 4 8 = le 4 S := by rw [doubleRecords_succ]; rfl
    rw [h0, h4, unpackU_le (by omega), unpackU_le h.1, hg, hdrop, hc']
    simp only [pure_bind, if_true]
    rw [Py.bind_ok_iff]
    exact ⟨_, collect_cons_ok h2 hl, rfl⟩
  · simp only [weight, weightEntries, weightList]
    omega

theorem store_weight (S k : Nat) (h : GoodSize S) (hk : 320 * k ≤ S) :
    ∃ l, (Metadata.collect Metadata.storageAsDict (recordTails S k)).res = .ok l ∧ l.length = k ∧ 13 * k ^ 3 ≤ weightList l + 13 * k := by
  induction k with
  | zero => exact ⟨[], rfl, rfl, Nat.zero_le _⟩
  | succ m ih =>
    obtain ⟨l, hl, hn, hw⟩ := ih (by omega)
    obtain ⟨d, hd, hw'⟩ := storage_weight S m h (by omega)
    refine ⟨_, collect_cons_ok hd hl, by simp [hn], ?_⟩
    rw [weightList]
    have : 13 * (m + 1) ^ 3 = 13 * m ^ 3 + 39 * (m * (m + 1)) + 13 := by ring
    omega

/-- The size of the names for `k` records. -/
def nameSize (k : Nat) : Nat := if (320 * k + 7) / 256 % 65536 = 0 then 320 * k + 263 else 320 * k + 7

theorem nameSize_good (k : Nat) (hk : 640 * k + 303 < 2 ^ 32) :
    GoodSize (nameSize k) ∧ 320 * k ≤ nameSize k ∧ nameSize k ≤ 320 * k + 263 := by
  have h : (320 * k + 263) / 256 = (320 * k + 7) / 256 + 1 := by omega
  unfold nameSize GoodSize
  split
  · rw [h]
    omega
  · omega

/-- A metadata block of at most `640 k + 303` bytes. -/
def cubicBlock (k : Nat) : RawBlock := ⟨0xA0000009, doubleRecords (nameSize k) k⟩

theorem cubicBlock_length (k : Nat) (hk : 640 * k + 303 < 2 ^ 32) : (cubicBlock k).encode.length ≤ 640 * k + 303 := by
  have := (nameSize_good k hk).2.2
  rw [ExtraData.RawBlock_length, cubicBlock, doubleRecords_length]
  omega

theorem cubicBlock_fits (k : Nat) (hk : 640 * k + 303 < 2 ^ 32) : (cubicBlock k).Fits := by
  have := cubicBlock_length k hk
  rw [ExtraData.RawBlock_length] at this
  unfold RawBlock.Fits
  omega

/-- C68, lower bound: the report of a metadata block of at most `640 k + 303` bytes has a size of at least
`13 (k^3 - k)`. -/
theorem block_cubic (tp : TextProc) (k : Nat) (hk : 640 * k + 303 < 2 ^ 32) :
    ∃ l, (Extra.asDict ⟨.metadata, tp, (cubicBlock k).encode⟩).res =
        .ok [("size", .int (cubicBlock k).encode.length), ("property_store", .list l)] ∧
      l.length = k ∧ 13 * k ^ 3 ≤ weight (.list l) + 13 * k := by
  obtain ⟨hS, h1, h2⟩ := nameSize_good k hk
  obtain ⟨l, hl, hn, hw⟩ := store_weight (nameSize k) k hS h1
  refine ⟨l, ?_, hn, by rw [weight]; omega⟩
  have hfit := cubicBlock_fits k hk
  have hsz : Extra.size ⟨.metadata, tp, (cubicBlock k).encode⟩ = pure (cubicBlock k).encode.length := by
    rw [ExtraData.size_eq _ (by simp), ExtraData.RawBlock_length]
    simp only [RawBlock.encode, List.append_assoc]
    rw [ExtraData.uAt_le4 _ hfit]
  unfold Extra.asDict
  rw [hsz, pure_bind, Py.bind_ok_iff]
  refine ⟨[("property_store", .list l)], ?_, rfl⟩
  show (Extra.metadataFields _).res = _
  unfold Extra.metadataFields Metadata.propertyStore
  have hd : ((cubicBlock k).encode).drop 8 = doubleRecords (nameSize k) k := drop_append_exact (by simp)
  rw [Py.bind_ok_iff]
  refine ⟨l, ?_, rfl⟩
  show (Metadata.sizeChain (((cubicBlock k).encode).drop 8) >>= _).res = _
  rw [hd, sizeChain_records, pure_bind, hl]

/-- C68, lower bound: any well-formed link to whose extra data such a block is written is accepted, and the size of its
report is at least cubic. -/
theorem report_cubic (env : Env) (cp : Option String) (allow : Bool) (s : ShellLink) (hv : s.Valid (TextProc.mk' env cp))
    (k : Nat) (hk : 640 * k + 303 < 2 ^ 32) (src : Source)
    (hs : src.bytes = head s ++ (s.strings.encode (s.flags.testBit 7) ++ ((cubicBlock k).encode ++ le 4 0))) :
    src.bytes.length ≤ (head s ++ s.strings.encode (s.flags.testBit 7)).length + 640 * k + 307 ∧
    ∃ f j, (LnkFile.init env cp allow src).res = .ok f ∧ (f.getJson true).res = .ok j ∧
      13 * k ^ 3 ≤ weight (.dict j) + 13 * k := by
  constructor
  · have := cubicBlock_length k hk
    rw [hs]
    simp only [List.length_append, le_length]
    omega
  have hcut : Cut ((cubicBlock k).encode ++ le 4 0) [ExtraData.pieceOf (cubicBlock k)] (le 4 0) := by
    have := ExtraData.cut_raw [cubicBlock k] (by simpa using cubicBlock_fits k hk)
      (ExtraData.cut_stops (tail := le 4 0) (.inl ⟨[], rfl⟩))
    simpa using this
  have hx := ExtraData.init_cut (tp := TextProc.mk' env cp) (allow := allow) hcut
  have hn := ExtraData.size_cut (tp := TextProc.mk' env cp) (allow := allow) hcut
  rw [if_pos (fun p hp => ?_)] at hn
  swap
  · simp only [ExtraData.signed, List.mem_filter, List.mem_singleton] at hp
    rw [hp.1]
    show 4 ≤ 8 + _
    omega
  rw [if_neg (by simp), List.append_nil] at hx hn
  obtain ⟨h, F, hr, hF, -⟩ := init_head env cp allow s hv _ src hs
  rw [string_data_roundtrip h _ s.flags (flags_of_header hr) s.strings ⟨hv.announced, hv.strings⟩, pure_bind] at hF
  simp only at hF
  rw [drop_append_exact rfl] at hF
  obtain ⟨f, hf⟩ : ∃ f, (LnkFile.init env cp allow src).res = .ok f := by
    rw [hF]
    refine ⟨_, Py.bind_ok_iff.2 ⟨_, congrArg Py.res hx, Py.bind_ok_iff.2 ⟨_, congrArg Py.res hn, rfl⟩⟩⟩
  obtain ⟨c, a, w, wc, wa, ww, -, -, -, hj⟩ := damaged_tail env cp allow s hv _ src hs f hf
  obtain ⟨-, he⟩ := damaged_extra env cp allow s hv _ src hs f hf
  rw [hx] at he
  have he : f.extras = ⟨[⟨.metadata, TextProc.mk' env cp, (cubicBlock k).encode⟩]⟩ := by
    have := Except.ok.inj he
    rw [← this]
    rfl
  obtain ⟨l, hl, -, hw⟩ := block_cubic (TextProc.mk' env cp) k hk
  have hd : f.extras.asDict.res = .ok [("METADATA_PROPERTIES_BLOCK", .dict
      [("size", .int (cubicBlock k).encode.length), ("property_store", .list l)])] := by
    rw [he]
    unfold ExtraData.asDict ExtraData.asDictLoop
    rw [Py.bind_ok_iff]
    refine ⟨.ok [("size", .int (cubicBlock k).encode.length), ("property_store", .list l)], ?_, rfl⟩
    simp only [Py.attempt, hl]
  refine ⟨f, headReport s c a w f.size f.stringData.asDict [("METADATA_PROPERTIES_BLOCK", .dict
      [("size", .int (cubicBlock k).encode.length), ("property_store", .list l)])], hf, (by rw [hj, hd]; rfl), ?_⟩
  have h1 : weight (.list l) ≤ weight (.dict [("size", .int (cubicBlock k).encode.length), ("property_store", .list l)]) :=
    weight_mem (k := "property_store") (by simp)
  have h2 := weight_mem (k := "METADATA_PROPERTIES_BLOCK") (d := [("METADATA_PROPERTIES_BLOCK", .dict
      [("size", .int (cubicBlock k).encode.length), ("property_store", .list l)])]) (List.mem_singleton.2 rfl)
  have h3 := weight_mem (k := "extra") (v := .dict [("METADATA_PROPERTIES_BLOCK", .dict
      [("size", .int (cubicBlock k).encode.length), ("property_store", .list l)])]) (d := headReport s c a w f.size f.stringData.asDict [("METADATA_PROPERTIES_BLOCK", .dict
      [("size", .int (cubicBlock k).encode.length), ("property_store", .list l)])]) (by simp [headReport])
  omega

/-- 640 kB, 13 billion characters and values. -/
example (env : Env) (allow : Bool) : ∃ b f j, b.length ≤ 700000 ∧ (LnkFile.init env none allow (.indata b)).res = .ok f ∧
    (f.getJson true).res = .ok j ∧ 12999987000 ≤ weight (.dict j) := by
  obtain ⟨b, hb⟩ : ∃ b, b = head exampleLink ++ (exampleLink.strings.encode (exampleLink.flags.testBit 7) ++
      ((cubicBlock 1000).encode ++ le 4 0)) := ⟨_, rfl⟩
  obtain ⟨h1, f, j, h2, h3, h4⟩ := report_cubic env none allow exampleLink (exampleLink_valid env) 1000 (by omega) (.indata b) hb
  have hl : (head exampleLink ++ exampleLink.strings.encode (exampleLink.flags.testBit 7)).length ≤ 1000 := by decide +kernel
  change b.length ≤ _ at h1
  exact ⟨b, f, j, by omega, h2, h3, by omega⟩

/-! ### upper bound -/

/-- C68, upper bound: whatever the bytes, the report of an accepted file has a size of at most `2 (n + 20)^3`, where `n`
is the number of bytes, with any code page that gives at most one character for each byte, and digests of at
most 64 digits. -/
theorem report_bounded (env : Env) (cp : Option String) (allow : Bool) (src : Source) (f : LnkFile) (all : Bool) (j : Dict)
    (hcp : Frugal (TextProc.mk' env cp)) (hsha : ∀ b, (env.sha256hex b).length ≤ 64)
    (hf : (LnkFile.init env cp allow src).res = .ok f) (hj : (f.getJson all).res = .ok j) :
    weight (.dict j) ≤ 2 * (src.bytes.length + 20) ^ 3 := by
  have hw : LnkFile.Within (TextProc.mk' env cp) src.bytes.length f := by
    cases src with
    | fhandle b => exact (LnkFile.within_process hcp allow b).out f hf
    | indata b =>
      simp only [LnkFile.init] at hf
      split at hf
      · simp [Py.raise] at hf
      · exact (LnkFile.within_process hcp allow b).out f hf
  exact (LnkFile.weight_getJson hcp hsha hw all).out j hj

theorem frugal_pieces {α : Type} (b : List α) (g : α → Option Char) (s : Str) :
    strictOf (b.map g) = .ok s ∨ (Except.ok (replaceOf (b.map g)) : Except PyErr Str) = .ok s → s.length = b.length := by
  unfold strictOf replaceOf
  rintro (h | h)
  · split at h
    · simp only [Except.ok.injEq] at h
      simp [← h]
    · simp at h
  · simp only [Except.ok.injEq] at h
    simp [← h]

/-- The default code page, Windows-1252, meets the hypothesis of `report_bounded`. -/
theorem default_frugal (env : Env) : Frugal (TextProc.mk' env none) := by
  intro b s h
  have hcp : (TextProc.mk' env none).env.resolve (TextProc.mk' env none).cp = some cp1252 := rfl
  unfold decodeNamed decodeNamedReplace at h
  rw [hcp] at h
  by_cases hb : b = []
  · rw [if_pos hb, if_pos hb, or_self] at h
    simp [← Except.ok.inj h]
  · rw [if_neg hb, if_neg hb] at h
    exact Nat.le_of_eq (frugal_pieces b cp1252Char s h)

/-- With the default code page, for a concrete digest function: the report of a 300 byte file has at most
65,536,000 characters and values. -/
example (lookup : String → Option Codec) (allow : Bool) (src : Source) (f : LnkFile) (j : Dict) (hn : src.bytes.length = 300)
    (hf : (LnkFile.init ⟨lookup, fun _ => []⟩ none allow src).res = .ok f) (hj : (f.getJson true).res = .ok j) :
    weight (.dict j) ≤ 65536000 := by
  have := report_bounded _ none allow src f true j (default_frugal _) (by simp) hf hj
  rw [hn] at this
  simpa using this

/-! ### the printed text -/

theorem quote_length (s : Str) : 2 + s.length ≤ (Json.quote s).length := by
  have := Json.flatMap_escChar_length s
  unfold Json.quote
  simp only [List.length_cons, List.length_append, List.length_nil]
  omega

theorem decInt_length (i : Int) : 1 ≤ (decInt i).length := by
  obtain ⟨c, s, h, -⟩ := Json.decInt_head i
  simp [h]

mutual
theorem weight_le_dump (lvl : Nat) : (v : PyVal) → weight v ≤ (Json.dump lvl v).length
  | .none => by simp [weight, Json.dump]
  | .int i => by simpa [weight, Json.dump] using decInt_length i
  | .str s => by
    have := quote_length s
    simp only [weight, Json.dump]
    omega
  | .dt d => by
    have := quote_length d.isoSeconds
    simp only [weight, Json.dump]
    omega
  | .list [] => by simp [weight, weightList, Json.dump]
  | .list (v :: l) => by
    have h1 := weight_le_dump (lvl + 1) v
    have h2 := weightList_le_dump (lvl + 1) l
    simp only [weight, weightList, Json.dump, List.length_cons, List.length_append, List.length_nil]
    omega
  | .dict [] => by simp [weight, weightEntries, Json.dump]
  | .dict ((k, v) :: d) => by
    have h1 := weight_le_dump (lvl + 1) v
    have h2 := weightEntries_le_dump (lvl + 1) d
    simp only [weight, weightEntries, Json.dump, List.length_cons, List.length_append, List.length_nil]
    omega
theorem weightList_le_dump (lvl : Nat) : (l : List PyVal) → weightList l ≤ (Json.dumpList lvl l).length
  | [] => by simp [weightList]
  | v :: l => by
    have h1 := weight_le_dump lvl v
    have h2 := weightList_le_dump lvl l
    simp only [weightList, Json.dumpList, List.length_cons, List.length_append]
    omega
theorem weightEntries_le_dump (lvl : Nat) : (d : List (String × PyVal)) → weightEntries d ≤ (Json.dumpDict lvl d).length
  | [] => by simp [weightEntries]
  | (k, v) :: d => by
    have h1 := weight_le_dump lvl v
    have h2 := weightEntries_le_dump lvl d
    simp only [weightEntries, Json.dumpDict, List.length_cons, List.length_append]
    omega
end

theorem weightEntries_insertKey (k : String) (v : PyVal) (d : Dict) :
    weightEntries (Json.insertKey k v d) = weight v + weightEntries d := by
  induction d with
  | nil => rfl
  | cons x d ih =>
    obtain ⟨k', v'⟩ := x
    simp only [Json.insertKey]
    split
    · rfl
    · simp only [weightEntries, ih]
      omega

mutual
theorem weight_sortKeys : (v : PyVal) → weight (Json.sortKeys v) = weight v
  | .none => rfl
  | .int _ => rfl
  | .str _ => rfl
  | .dt _ => rfl
  | .list l => by simp only [Json.sortKeys, weight, weightList_sort l]
  | .dict d => by simp only [Json.sortKeys, weight, weightEntries_sort d]
theorem weightList_sort : (l : List PyVal) → weightList (Json.sortList l) = weightList l
  | [] => rfl
  | v :: l => by simp only [Json.sortList, weightList, weight_sortKeys v, weightList_sort l]
theorem weightEntries_sort : (d : List (String × PyVal)) → weightEntries (Json.sortDict d) = weightEntries d
  | [] => rfl
  | (k, v) :: d => by simp only [Json.sortDict, weightEntries, weightEntries_insertKey, weight_sortKeys v, weightEntries_sort d]
end

/-- C68: the text printed by `print_json` is at least as long as the size of the report. -/
theorem printed_weight (f : LnkFile) (all : Bool) (j : Dict) (hj : (f.getJson all).res = .ok j) :
    ∃ t, (f.printJson all).res = .ok t ∧ weight (.dict j) ≤ t.length := by
  refine ⟨Json.dumps (.dict j), Py.bind_ok_iff.2 ⟨j, hj, rfl⟩, ?_⟩
  rw [← weight_sortKeys]
  exact weight_le_dump 0 _

/-- C68: with `k` records in the metadata block (`640 k + 303` bytes) the text printed by `print_json` has at least
`13 (k^3 - k)` characters. -/
theorem printed_cubic (env : Env) (cp : Option String) (allow : Bool) (s : ShellLink) (hv : s.Valid (TextProc.mk' env cp))
    (k : Nat) (hk : 640 * k + 303 < 2 ^ 32) (src : Source)
    (hs : src.bytes = head s ++ (s.strings.encode (s.flags.testBit 7) ++ ((cubicBlock k).encode ++ le 4 0))) :
    ∃ f t, (LnkFile.init env cp allow src).res = .ok f ∧ (f.printJson true).res = .ok t ∧ 13 * k ^ 3 ≤ t.length + 13 * k := by
  obtain ⟨-, f, j, hf, hj, hw⟩ := report_cubic env cp allow s hv k hk src hs
  obtain ⟨t, ht, hl⟩ := printed_weight f true j hj
  exact ⟨f, t, hf, ht, by omega⟩

end Verif.Props
