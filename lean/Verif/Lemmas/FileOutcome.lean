import Verif.Lemmas.Layout

namespace Verif

open Spec Py

variable {P : PyErr → Prop}

namespace LnkHeader

theorem only_size (h : LnkHeader) (hp : P .structError) : Only P h.size := only_mustBe _ _ _ (only_unpackU _ _ hp)

theorem only_rLinkFlags (h : LnkHeader) (hp : P .structError) : Only P h.rLinkFlags := only_unpackU _ _ hp

theorem only_linkFlags (h : LnkHeader) (hp : P .structError) : Only P h.linkFlags :=
  only_bind (h.only_rLinkFlags hp) fun _ => only_pure _

theorem only_hasFlag (h : LnkHeader) (n : String) (hp : P .structError) : Only P (h.hasFlag n) :=
  only_bind (h.only_linkFlags hp) fun _ => only_pure _

end LnkHeader

namespace LnkFile

theorem only_jsonHeader (f : LnkFile) (hp : P .structError) : Only P f.jsonHeader := by
  unfold jsonHeader
  have h1 : Only P f.header.linkClsId := only_mustBe _ _ _ (only_parseUuid _ hp)
  have h2 := f.header.only_rLinkFlags hp
  have h3 : Only P f.header.rFileFlags := only_unpackU _ _ hp
  have h4 : Only P f.header.creationTime := only_parseFiletime _ hp
  have h5 : Only P f.header.accessTime := only_parseFiletime _ hp
  have h6 : Only P f.header.writeTime := only_parseFiletime _ hp
  have h7 : Only P f.header.fileSize := only_unpackU _ _ hp
  have h8 : Only P f.header.iconIndex := only_unpackI _ _ hp
  have h9 : Only P f.header.windowStyle := only_bind (only_unpackI _ _ hp) fun _ => only_pure _
  have h10 : Only P f.header.hotKey := by
    unfold LnkHeader.hotKey
    dsimp only
    split
    · split <;> exact only_pure _
    · exact only_raise hp
  have h11 : Only P f.header.rawHotKey := only_unpackU _ _ hp
  have h12 := f.header.only_linkFlags hp
  have h13 : Only P f.header.fileFlags := only_bind h3 fun _ => only_pure _
  have h14 := f.header.only_size hp
  have h15 : Only P f.header.reserved0 := only_mustBe _ _ _ (only_unpackU _ _ hp)
  have h16 : Only P f.header.reserved1 := only_mustBe _ _ _ (only_unpackU _ _ hp)
  have h17 : Only P f.header.reserved2 := only_mustBe _ _ _ (only_unpackU _ _ hp)
  only

theorem only_jsonTarget (f : LnkFile) (hp : P .structError) (hr : P .runtimeError)
    (hcp : ∀ t, f.targets = some t → ∀ b, Only P (t.tp.ansiToStr b)) : Only P f.jsonTarget := by
  unfold jsonTarget
  split
  · exact only_pure _
  · rename_i t ht
    exact only_bind (only_unpackU _ _ hp) fun _ => only_bind (t.only_asList hp hr (hcp t ht)) fun _ => only_pure _

theorem only_entryIf (b : Bool) {x : Py Dict} (hx : Only P x) : Only P (entryIf b x) := by
  unfold entryIf
  exact only_ite (fun _ => hx) fun _ => only_pure _

end LnkFile

namespace LnkInfo

variable (i : LnkInfo) (hp : P .structError) (hcp : ∀ b, Only P (i.tp.ansiToStr b))

include hp in
theorem only_u32 (n : Nat) : Only P (i.u32 n) := only_unpackU _ _ hp

include hp in
theorem only_at (start k : Nat) {x : Py Nat} (hx : Only P x) : Only P (do
    let s ← x
    i.u32 (s + k)) := only_bind hx fun _ => i.only_u32 hp _

include hp in
theorem only_hasOptFields : Only P i.hasOptFields := only_bind (i.only_u32 hp _) fun _ => only_pure _

include hp in
theorem only_lbpou : Only P i.localBasePathOffsetUnicode := by
  have h1 := i.only_hasOptFields hp
  have h2 := i.only_u32 hp 28
  unfold localBasePathOffsetUnicode; only

include hp in
theorem only_cpsou : Only P i.commonPathSuffixOffsetUnicode := by
  have h1 := i.only_hasOptFields hp
  have h2 := i.only_u32 hp 32
  unfold commonPathSuffixOffsetUnicode; only

include hp hcp in
theorem only_texts : Only P i.commonPathSuffix ∧ Only P i.localBasePath ∧ Only P i.localBasePathUnicode ∧
    Only P i.commonPathSuffixUnicode := by
  have h1 := i.only_u32 hp 24
  have h2 := i.only_u32 hp 16
  have h3 := fun b => only_readString hcp b
  have h4 := i.only_lbpou hp
  have h5 := i.only_cpsou hp
  refine ⟨?_, ?_, ?_, ?_⟩
  · unfold commonPathSuffix commonPathSuffixOffset
    refine only_bind h1 fun s => only_ite (fun _ => only_pure _) fun _ => only_bind (h3 _) fun _ => only_pure _
  · unfold localBasePath localBasePathOffset
    refine only_bind h2 fun s => only_ite (fun _ => only_pure _) fun _ => only_bind (h3 _) fun _ => only_pure _
  · unfold localBasePathUnicode
    refine only_bind h4 fun s => ?_
    split
    · exact only_pure _
    · exact only_pure _
    · exact only_bind (only_readUnicodeString _) fun _ => only_pure _
  · unfold commonPathSuffixUnicode
    refine only_bind h5 fun s => ?_
    split
    · exact only_pure _
    · exact only_pure _
    · exact only_bind (only_readUnicodeString _) fun _ => only_pure _

include hp in
theorem only_volumeLabelOffset : Only P i.volumeLabelOffset := only_bind (i.only_u32 hp _) fun _ => i.only_u32 hp _

include hp in
theorem only_hasVolumeLabelOffsetUnicode : Only P i.hasVolumeLabelOffsetUnicode :=
  only_bind (i.only_volumeLabelOffset hp) fun _ => only_pure _

include hp in
theorem only_volumeLabelUnicodeOffset : Only P i.volumeLabelUnicodeOffset := by
  have h1 := i.only_hasVolumeLabelOffsetUnicode hp
  refine only_bind h1 fun b => only_ite (fun _ => ?_) fun _ => only_pure _
  exact only_bind (i.only_u32 hp _) fun _ => only_bind (i.only_u32 hp _) fun _ => only_pure _

include hp in
theorem only_volumeLabelUnicode : Only P i.volumeLabelUnicode := by
  refine only_bind (i.only_volumeLabelUnicodeOffset hp) fun o => ?_
  split
  · exact only_pure _
  · exact only_pure _
  · exact only_bind (i.only_u32 hp _) fun _ => only_bind (only_readUnicodeString _) fun _ => only_pure _

include hp hcp in
theorem only_volumeLabel : Only P i.volumeLabel := by
  refine only_bind (i.only_hasVolumeLabelOffsetUnicode hp) fun b => only_ite (fun _ => only_pure _) fun _ => ?_
  exact only_bind (i.only_u32 hp _) fun _ => only_bind (i.only_volumeLabelOffset hp) fun _ =>
    only_bind (only_readString hcp _) fun _ => only_pure _

include hp hcp in
theorem only_jsonLocal : Only P (LnkFile.jsonLocal i) := by
  have h0 : Only P i.volumeIdOffset := i.only_u32 hp _
  have h1 : Only P i.volumeIdSize := only_bind h0 fun _ => i.only_u32 hp _
  have h2 : Only P i.rDriveType := only_bind h0 fun _ => i.only_u32 hp _
  have h3 := i.only_volumeLabelOffset hp
  have h4 : Only P i.driveSerialNumber := only_bind h0 fun _ => only_bind (i.only_u32 hp _) fun _ => only_pure _
  have h5 : Only P i.driveType := only_bind h2 fun _ => only_pure _
  have h6 := i.only_volumeLabel hp hcp
  have h7 := i.only_volumeLabelUnicodeOffset hp
  have h8 := i.only_volumeLabelUnicode hp
  unfold LnkFile.jsonLocal LnkFile.entryIf
  only

include hp in
theorem only_netNameOffset : Only P i.netNameOffset := only_bind (i.only_u32 hp _) fun _ => i.only_u32 hp _

include hp in
theorem only_netNameOffsetUnicode : Only P i.netNameOffsetUnicode := by
  have h0 : Only P i.cnrlOffset := i.only_u32 hp _
  refine only_bind (i.only_netNameOffset hp) fun n => only_ite (fun _ => only_pure _) fun _ => ?_
  exact only_bind h0 fun _ => only_bind (i.only_u32 hp _) fun _ => only_pure _

include hp in
theorem only_deviceNameOffsetUnicode : Only P i.deviceNameOffsetUnicode := by
  have h0 : Only P i.cnrlOffset := i.only_u32 hp _
  refine only_bind (i.only_netNameOffset hp) fun n => only_ite (fun _ => only_pure _) fun _ => ?_
  exact only_bind h0 fun _ => only_bind (i.only_u32 hp _) fun _ => only_pure _

theorem unicodeOffset_some {n : Nat} (hn : i.netNameOffset.res = .ok n) (h20 : ¬ n ≤ 20) {k : Nat} {o : Option Nat}
    (h : (do
      let n ← i.netNameOffset
      if n ≤ 20 then pure none
      else do
        let start ← i.cnrlOffset
        let m ← i.u32 (start + k)
        pure (some m) : Py (Option Nat)).res = .ok o) : ∃ m, o = some m := by
  rw [Py.bind_ok_iff] at h
  obtain ⟨n', h1, h2⟩ := h
  rw [hn] at h1
  simp only [Except.ok.injEq] at h1
  subst h1
  rw [if_neg h20, Py.bind_ok_iff] at h2
  obtain ⟨s, -, h3⟩ := h2
  rw [Py.bind_ok_iff] at h3
  obtain ⟨m, -, h4⟩ := h3
  simp only [Py.pure_res, Except.ok.injEq] at h4
  exact ⟨m, h4.symm⟩

include hp in
theorem only_netNameUnicode : Only P i.netNameUnicode := by
  have h0 : Only P i.cnrlOffset := i.only_u32 hp _
  refine only_bind' (i.only_netNameOffset hp) fun n hn => only_ite (fun _ => only_pure _) fun h20 => ?_
  refine only_bind h0 fun s => only_bind' (i.only_netNameOffsetUnicode hp) fun o ho => ?_
  obtain ⟨m, rfl⟩ := i.unicodeOffset_some hn h20 ho
  exact only_bind (only_readUnicodeString _) fun _ => only_pure _

include hp in
theorem only_deviceNameUnicode : Only P i.deviceNameUnicode := by
  have h0 : Only P i.cnrlOffset := i.only_u32 hp _
  refine only_bind' (i.only_netNameOffset hp) fun n hn => only_ite (fun _ => only_pure _) fun h20 => ?_
  refine only_bind h0 fun s => only_bind' (i.only_deviceNameOffsetUnicode hp) fun o ho => ?_
  obtain ⟨m, rfl⟩ := i.unicodeOffset_some hn h20 ho
  exact only_bind (only_readUnicodeString _) fun _ => only_pure _

include hp hcp in
theorem only_netName : Only P i.netName := by
  refine only_bind (i.only_netNameOffset hp) fun n => only_ite (fun _ => only_pure _) fun _ => ?_
  exact only_bind (i.only_u32 hp _) fun _ => only_bind (only_readString hcp _) fun _ => only_pure _

include hp hcp in
theorem only_deviceName : Only P i.deviceName := by
  have h0 : Only P i.deviceNameOffset := only_bind (i.only_u32 hp _) fun _ => i.only_u32 hp _
  refine only_bind (i.only_netNameOffset hp) fun n => only_ite (fun _ => only_pure _) fun _ => ?_
  exact only_bind (i.only_u32 hp _) fun _ => only_bind h0 fun _ => only_bind (only_readString hcp _) fun _ => only_pure _

include hp hcp in
theorem only_jsonNetwork : Only P (LnkFile.jsonNetwork i) := by
  have h0 : Only P i.cnrlOffset := i.only_u32 hp _
  have h1 : Only P i.cnrlSize := only_bind h0 fun _ => i.only_u32 hp _
  have h2 : Only P i.cnrlFlags := only_bind h0 fun _ => i.only_u32 hp _
  have h3 := i.only_netNameOffset hp
  have h4 : Only P i.deviceNameOffset := only_bind h0 fun _ => i.only_u32 hp _
  have h5 : Only P i.rNetworkProviderType := only_bind h0 fun _ => only_bind (i.only_u32 hp _) fun _ => only_pure _
  have h6 : Only P i.networkProviderType :=
    only_bind h2 fun _ => only_ite (fun _ => only_pure _) fun _ => only_bind h5 fun _ => only_pure _
  have h7 := i.only_netNameOffsetUnicode hp
  have h8 := i.only_deviceNameOffsetUnicode hp
  have h9 := i.only_netNameUnicode hp
  have h10 := i.only_deviceNameUnicode hp
  have h11 := i.only_netName hp hcp
  have h12 := i.only_deviceName hp hcp
  unfold LnkFile.jsonNetwork
  refine only_bind h1 fun _ => only_bind h2 fun _ => only_bind h3 fun _ => only_bind h4 fun _ => only_bind h5 fun _ =>
    only_bind h6 fun _ => only_bind (LnkFile.only_entryIf _ (only_bind h6 fun _ => only_pure _)) fun _ => only_bind h7 fun _ =>
    only_bind (LnkFile.only_entryIf _ (only_bind h7 fun _ => only_bind h9 fun _ => only_pure _)) fun _ => only_bind h8 fun _ =>
    only_bind (LnkFile.only_entryIf _ (only_bind h8 fun _ => only_bind h10 fun _ => only_pure _)) fun _ =>
    only_bind h11 fun _ => only_bind (LnkFile.only_entryIf _ (only_bind h11 fun _ => only_pure _)) fun _ =>
    only_bind h12 fun _ => only_bind (LnkFile.only_entryIf _ (only_bind h12 fun _ => only_pure _)) fun _ => only_pure _

end LnkInfo

namespace LnkFile

theorem only_jsonInfo (f : LnkFile) (hp : P .structError)
    (hcp : ∀ c i, f.info = some (c, i) → ∀ b, Only P (i.tp.ansiToStr b)) : Only P f.jsonInfo := by
  unfold jsonInfo
  split
  · exact only_pure _
  · rename_i c i hi
    have hc := hcp c i hi
    obtain ⟨t1, t2, t3, t4⟩ := i.only_texts hp hc
    have h1 : Only P i.size := i.only_u32 hp _
    have h2 : Only P i.headerSize := i.only_u32 hp _
    have h3 : Only P i.flags := i.only_u32 hp _
    have h4 : Only P i.volumeIdOffset := i.only_u32 hp _
    have h5 : Only P i.localBasePathOffset := i.only_u32 hp _
    have h6 : Only P i.cnrlOffset := i.only_u32 hp _
    have h7 : Only P i.commonPathSuffixOffset := i.only_u32 hp _
    have h8 := i.only_lbpou hp
    have h9 := i.only_cpsou hp
    have h10 := i.only_jsonLocal hp hc
    have h11 := i.only_jsonNetwork hp hc
    unfold entryIf
    only

end LnkFile

namespace ExtraData

/-- What may escape from the report of the extra data. -/
theorem only_asDict (e : ExtraData) (hi : P .indexError) (hr : P .runtimeError)
    (hcp : ∀ x ∈ e.data, ∀ b, Only P (x.tp.ansiToStr b)) : Only P e.asDict := by
  refine only_asDictLoop ?_ []
  intro x hx
  refine Extra.only_asDict x (.inl rfl) ?_ fun b => (hcp x hx b).mono fun e he => .inr he
  intro e he
  cases hc : x.cls <;> rw [hc] at he <;> simp only [Extra.extraErr] at he <;> subst he
  · exact .inr hi
  · exact .inl rfl
  · exact .inr hr

end ExtraData

namespace LnkFile

/-- All text processors of an object. -/
structure Uses (f : LnkFile) (tp : TextProc) : Prop where
  targets : ∀ t, f.targets = some t → t.tp = tp
  info : ∀ c i, f.info = some (c, i) → i.tp = tp
  extras : ∀ x ∈ f.extras.data, x.tp = tp

theorem only_getJson (f : LnkFile) (all : Bool) {tp : TextProc} (hu : f.Uses tp) (hp : P .structError) (hi : P .indexError)
    (hr : P .runtimeError) (hcp : ∀ b, Only P (tp.ansiToStr b)) : Only P (f.getJson all) := by
  have h1 := f.only_jsonHeader hp
  have h2 := f.only_jsonTarget hp hr fun t ht => by rw [hu.targets t ht]; exact hcp
  have h3 := f.only_jsonInfo hp fun c i h => by rw [hu.info c i h]; exact hcp
  have h4 := f.extras.only_asDict hi hr fun x hx => by rw [hu.extras x hx]; exact hcp
  unfold getJson
  exact only_bind h1 fun _ => only_bind h2 fun _ => only_bind h3 fun _ => only_bind h4 fun _ => only_pure _

end LnkFile

namespace LnkFile

/-! ### the constructor, for any code page -/

theorem only_stringData {h : LnkHeader} {tp : TextProc} (raw : Bytes) (hp : P .structError)
    (hcp : ∀ b, Only P (tp.ansiToStr b)) (fs : List (String × String × Bool)) (data : List (String × Str)) (start : Nat) :
    Only P (StringData.loop h tp raw fs data start) := by
  induction fs generalizing data start with
  | nil => exact only_pure _
  | cons f fs ih =>
    obtain ⟨flag, key, limit⟩ := f
    unfold StringData.loop
    refine only_bind (only_attempt (Only.mono ?_ fun e he => .inr he)) ?_
    · refine only_bind (h.only_hasFlag _ hp) fun b => only_ite (fun _ => ?_) fun _ => only_pure _
      refine only_bind ?_ fun _ => only_pure _
      unfold StringData.read
      refine only_bind (only_unpackU _ _ hp) fun _ => only_bind (h.only_hasFlag _ hp) fun _ => ?_
      refine only_ite (fun _ => ?_) fun _ => ?_
      · exact only_bind (only_readUnicodeString _) fun _ => only_pure _
      · exact only_bind (only_readString hcp _) fun _ => only_pure _
    · intro r
      match r with
      | .error _ => exact only_bind (only_warn _) fun _ => only_pure _
      | .ok none => exact ih _ _
      | .ok (some (t, n)) => exact ih _ _

theorem only_processTargets (tp : TextProc) (data : Bytes) (h : LnkHeader) (index : Nat) (hp : P .structError) :
    Only P (processTargets tp data h index) := by
  have hs : ∀ b, Only P (LnkTargets.idListSizeOf b) := fun b => only_unpackU _ _ hp
  refine only_bind (h.only_hasFlag _ hp) fun b => only_ite (fun _ => ?_) fun _ => only_pure _
  refine only_bind (only_bind (hs _) fun _ => only_pure _) fun t => only_bind ?_ fun _ => only_pure _
  exact only_bind (hs _) fun _ => only_pure _

theorem only_processInfo (tp : TextProc) (data : Bytes) (h : LnkHeader) (index : Nat) (hp : P .structError) :
    Only P (processInfo tp data h index) := by
  refine only_bind (h.only_hasFlag _ hp) fun a => only_bind ?_ fun b => only_ite (fun _ => ?_) fun _ => only_pure _
  · exact only_ite (fun _ => only_bind (h.only_hasFlag _ hp) fun _ => only_pure _) fun _ => only_pure _
  · refine only_bind ?_ fun c => ?_
    · refine only_tryExcept ?_ fun _ => only_bind (only_warn _) fun _ => only_pure _
      have hi : ∀ i : LnkInfo, Only (fun e => decide (e = PyErr.structError) = true ∨ P e) i.flags :=
        fun i => only_unpackU _ _ (.inr hp)
      refine only_bind (hi _) fun _ => only_ite (fun _ => only_pure _) fun _ => only_bind (hi _) fun _ => ?_
      exact only_ite (fun _ => only_pure _) fun _ => only_pure _
    · split
      · exact only_bind (only_unpackU _ _ hp) fun _ => only_pure _
      · exact only_pure _

theorem only_extras (tp : TextProc) (allow : Bool) (b : Bytes) : Only P (ExtraData.init tp allow b) := by
  obtain ⟨l, last, hc⟩ := ExtraData.cut_exists b
  rw [ExtraData.init_cut hc]
  exact ⟨fun e he => by simp at he⟩

theorem only_extrasSize (e : ExtraData) (hp : P .structError) : Only P e.size := by
  obtain ⟨xs⟩ := e
  show Only P (ExtraData.sizeLoop xs)
  induction xs with
  | nil => exact only_pure _
  | cons x xs ih =>
    exact only_bind (x.only_size hp) fun _ => only_bind ih fun _ => only_pure _

theorem only_process (env : Env) (cp : Option String) (allow : Bool) (b : Bytes) (hp : P .structError)
    (hl : P .lnkParserError) (hcp : ∀ b, Only P ((TextProc.mk' env cp).ansiToStr b)) : Only P (process env cp allow b) := by
  unfold process
  refine only_bind ?_ fun h => only_bind (h.only_size hp) fun _ => only_bind (only_processTargets _ _ _ _ hp) fun _ =>
    only_bind (only_processInfo _ _ _ _ hp) fun _ => only_bind (only_stringData _ hp hcp _ _ _) fun _ =>
    only_bind (only_extras _ _ _) fun _ => only_bind (only_extrasSize _ hp) fun _ => only_pure _
  unfold LnkHeader.init
  exact only_ite (fun _ => only_raise hl) fun _ => only_bind (LnkHeader.only_size _ hp) fun _ => only_pure _

/-- The text processors, for any code page. -/
theorem uses_of_process {env : Env} {cp : Option String} {allow : Bool} {b : Bytes} {f : LnkFile}
    (h : (process env cp allow b).res = .ok f) : f.Uses (TextProc.mk' env cp) := by
  obtain ⟨hd, hs, ts, i1, info, i2, sd, extras, n, h1, h2, h3, h4, h5, h6, h7, rfl⟩ := process_ok_iff.1 h
  constructor
  · rintro t rfl
    unfold processTargets LnkTargets.init at h3
    rw [Py.bind_ok_iff] at h3
    obtain ⟨c, -, h3⟩ := h3
    split at h3
    · rw [Py.bind_ok_iff] at h3
      obtain ⟨t', ht', h3⟩ := h3
      rw [Py.bind_ok_iff] at h3 ht'
      obtain ⟨m, -, h3⟩ := h3
      obtain ⟨k, -, ht'⟩ := ht'
      simp only [Py.pure_res, Except.ok.injEq, Prod.mk.injEq, Option.some.injEq] at h3 ht'
      rw [← h3.1, ← ht']
    · simp at h3
  · rintro c i rfl
    unfold processInfo at h4
    rw [Py.bind_ok_iff] at h4
    obtain ⟨x, -, h4⟩ := h4
    rw [Py.bind_ok_iff] at h4
    obtain ⟨y, -, h4⟩ := h4
    split at h4
    · rw [Py.bind_ok_iff] at h4
      obtain ⟨z, -, h4⟩ := h4
      split at h4
      · rw [Py.bind_ok_iff] at h4
        obtain ⟨m, -, h4⟩ := h4
        simp only [Py.pure_res, Except.ok.injEq, Prod.mk.injEq, Option.some.injEq] at h4
        rw [← h4.1.2]
      · simp at h4
    · simp at h4
  · intro x hx
    obtain ⟨l, last, hc⟩ := ExtraData.cut_exists (b.drop (i2 + sd.size))
    rw [ExtraData.init_cut hc] at h6
    simp only [Except.ok.injEq] at h6
    subst h6
    rw [List.mem_append] at hx
    rcases hx with hx | hx
    · simp only [ExtraData.objects, List.mem_filterMap, Option.map_eq_some_iff] at hx
      obtain ⟨p, -, s, -, rfl⟩ := hx
      rfl
    · split at hx
      · simp only [List.mem_singleton] at hx
        rw [hx]
      · simp at hx

end LnkFile

end Verif
