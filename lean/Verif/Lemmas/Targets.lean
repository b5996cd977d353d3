import Verif.Model.Targets
import Verif.Spec.Targets
import Verif.Lemmas.Guid
import Verif.Lemmas.Header
import Verif.Lemmas.Text
import Verif.Lemmas.FileTime

namespace Verif

open Spec

/-! ### texts -/

theorem readString_encodeZ {tp : TextProc} {t : Text} (h : t.Valid tp false) (rest : Bytes) :
    tp.readString (t.encodeZ false ++ rest) = pure t.text := by
  have : CodePageText tp t.raw t.text := by simpa [Text.Valid] using h
  have e : t.encodeZ false ++ rest = t.raw ++ 0 :: rest := by simp [Text.encodeZ]
  rw [e]; exact readString_text_nul this rest

theorem readUnicodeString_encodeZ {tp : TextProc} {t : Text} (h : t.Valid tp true) (rest : Bytes) :
    TextProc.readUnicodeString (t.encodeZ true ++ rest) = pure t.text := by
  have h' : t.raw = utf16 t.text ∧ '\x00' ∉ t.text := by simpa [Text.Valid] using h
  have e : t.encodeZ true ++ rest = utf16 t.text ++ 0 :: 0 :: rest := by simp [Text.encodeZ, h'.1]
  rw [e]; exact readUnicodeString_utf16_nul h'.2 rest

theorem readZ {tp : TextProc} {u : Bool} {t : Text} (h : t.Valid tp u) (rest : Bytes) :
    (if u then TextProc.readUnicodeString (t.encodeZ u ++ rest) else tp.readString (t.encodeZ u ++ rest)) =
      pure t.text := by
  cases u
  · exact readString_encodeZ h rest
  · exact readUnicodeString_encodeZ h rest

@[simp] theorem encodeZ_length_ansi (t : Text) : (t.encodeZ false).length = t.unitsZ false := by
  simp [Text.encodeZ, Text.unitsZ]

theorem utf16_length_even (s : Str) : (utf16 s).length % 2 = 0 := by
  induction s with
  | nil => rfl
  | cons c t ih =>
    rw [utf16_cons, List.length_append]
    have : (utf16Char c).length % 2 = 0 := by unfold utf16Char; split <;> simp
    omega

theorem encodeZ_length_wide {tp : TextProc} {t : Text} (h : t.Valid tp true) :
    (t.encodeZ true).length = 2 * t.unitsZ true := by
  have h' : t.raw = utf16 t.text ∧ '\x00' ∉ t.text := by simpa [Text.Valid] using h
  have := utf16_length_even t.text
  simp [Text.encodeZ, Text.unitsZ, h'.1]; omega

/-- Evaluates `drop` of right-nested concatenations of parts of known length. -/
macro "drops" : tactic => `(tactic|
  simp (disch := len_disch) only [List.append_assoc, drop_append_right, List.drop_zero, le_length, leI_length,
    Guid_encode_length, Nat.reduceSub, Nat.sub_self, List.length_cons, List.length_nil, Nat.reduceAdd,
    List.length_append])

theorem slice_byte (x : UInt8) (y : Bytes) : slice ([x] ++ y) 0 1 = [x] := by simp [slice]

@[simp] theorem unpackU_byte (x : UInt8) : unpackU 1 [x] = pure x.toNat := by simp [unpackU, leNat]

theorem and_15 (n : Nat) : n &&& 15 = n % 16 := Nat.and_two_pow_sub_one_eq_mod n 4

/-! ### file entries -/

namespace Target

theorem getItemShellFsFolder_eq (typ : UInt8) :
    getItemShellFsFolder (typ.toNat &&& 15) = ⟨fsKindWarns typ, .ok (fsKindText typ)⟩ := by
  have key : ∀ k : Fin 16, (getItemShellFsFolder k.1).warns = (if fsKind k.1 = none then [.itemFlags k.1] else []) ∧
      (getItemShellFsFolder k.1).res.toOption = some ((fsKind k.1).getD "Unknown") := by decide
  have := key ⟨typ.toNat % 16, Nat.mod_lt _ (by decide)⟩
  rw [and_15]
  unfold fsKindWarns fsKindText
  ext1
  · exact this.1
  · have h2 := this.2
    generalize (getItemShellFsFolder (typ.toNat % 16)).res = r at h2
    cases r with
    | error e => simp [Except.toOption] at h2
    | ok a => simp [Except.toOption] at h2 ⊢; exact h2

theorem testBit2 (n : Nat) : (n &&& 4 != 0) = n.testBit 2 := and_two_pow_ne_zero n 2

theorem testBit0 (n : Nat) : (n &&& 1 != 0) = n.testBit 0 := and_two_pow_ne_zero n 0

theorem dostime_words (date time : UInt16) :
    parseDostime (le 2 date.toNat ++ le 2 time.toNat) =
      ⟨if (date.toNat = 0 ∧ time.toNat = 0) ∨ ValidDateTime (dosDateTime date.toNat time.toNat) then []
        else [.invalidDostime (le 2 date.toNat ++ le 2 time.toNat)],
       .ok (if date.toNat = 0 ∧ time.toNat = 0 then none
        else if ValidDateTime (dosDateTime date.toNat time.toNat) then some (dosDateTime date.toNat time.toNat)
        else none)⟩ := by
  rw [parseDostime_words _ _ date.toNat_lt time.toNat_lt]
  by_cases h0 : date.toNat = 0 ∧ time.toNat = 0
  · simp [h0]; rfl
  · simp only [h0, if_false, false_or]
    show (if ValidDateTime (dosDateTime date.toNat time.toNat) then _ else _) = _
    by_cases hv : ValidDateTime (dosDateTime date.toNat time.toNat)
    · simp only [hv, if_true]; rfl
    · simp only [hv, if_false]

theorem fsAsItem_payload (e : FileEntry) {tp : TextProc} (he : e.Valid tp) (t : Target) (ht : t.tp = tp)
    (extra : Bytes) (hw : t.rawTarget = e.payload ++ extra) (hc : t.cls = .shellFSFolder) :
    t.fsAsItem = ⟨e.warns, .ok e.report⟩ := by
  obtain ⟨h1, h2⟩ := he
  have s0 : slice t.rawTarget 0 1 = [e.typ] := by rw [hw]; unfold FileEntry.payload; slices
  have s1 : slice t.rawTarget 2 6 = le 4 e.fileSize.toNat := by rw [hw]; unfold FileEntry.payload; slices
  have s2 : slice t.rawTarget 6 10 = le 2 e.date.toNat ++ le 2 e.time.toNat := by
    rw [hw]; unfold FileEntry.payload; slices
  have s3 : slice t.rawTarget 10 12 = le 2 e.attributes.toNat := by rw [hw]; unfold FileEntry.payload; slices
  have s4 : t.rawTarget.drop 12 = e.name.encodeZ e.unicode ++ (e.trailing ++ extra) := by
    rw [hw]; unfold FileEntry.payload; drops
  unfold fsAsItem fsFlags classTypeIndicator fsFileSize fsModificationTime fsFileAttributeFlags fsPrimaryName
    hasUnicodeStrings classTypeIndicator
  simp only [s0, s1, s2, s3, s4, unpackU_byte, pure_bind, getItemShellFsFolder_eq, unpackU_le4, unpackU_le2,
    dostime_words, testBit2, ht]
  have hn := readZ h2 (e.trailing ++ extra)
  unfold FileEntry.unicode at hn ⊢
  rw [hn]
  unfold FileEntry.warns FileEntry.report FileEntry.modified
  simp only [hc, TargetClass.name, PyVal.lit, PyVal.nat, bind, Py.andThen, pure, Py.ret, List.append_nil]

/-! ### dispatch -/

/-- The model's class for a type byte. -/
def kindOf (t : Nat) : TargetClass :=
  if t / 16 % 8 = 2 then .myComputer
  else if t / 16 % 8 = 3 then .shellFSFolder
  else if t / 16 % 8 = 4 then .networkLocation
  else if t = 0x00 then .controlPanelCPL
  else if t = 0x01 then .controlPanelCategory
  else if t = 0x1E ∨ t = 0x1F then .rootFolder
  else if t = 0x52 then .compressedFolder
  else if t = 0x61 then .internet
  else if t = 0x70 ∨ t = 0x71 then .controlPanel
  else if t = 0x72 then .printers
  else if t = 0x73 then .commonPlacesFolder
  else if t = 0x74 then .usersFilesFolder
  else .unknown

theorem kindOf_name (t : Nat) : (kindOf t).name = (itemClass t).getD "Unknown" := by
  unfold kindOf itemClass
  simp only [apply_ite TargetClass.name, apply_ite (fun o : Option String => o.getD "Unknown")]
  simp only [TargetClass.name, Option.getD_some, Option.getD_none]

theorem kindOf_network {t : Nat} (h : kindOf t = .networkLocation) : t / 16 % 8 = 4 := by
  have key : ∀ (c : Prop) [Decidable c] (a b : TargetClass), (if c then a else b) = .networkLocation →
      a ≠ .networkLocation → b = .networkLocation := by
    intro c _ a b h1 h2
    split at h1
    · exact absurd h1 h2
    · exact h1
  by_contra h4
  unfold kindOf at h
  have h := key _ _ _ h (by decide)
  have h := key _ _ _ h (by decide)
  rw [if_neg h4] at h
  iterate 9 replace h := key _ _ _ h (by decide)
  exact absurd h (by decide)

theorem dispatch (t : UInt8) :
    (if t.toNat &&& 0x70 = 0x20 ∨ t.toNat &&& 0x70 = 0x30 ∨ t.toNat &&& 0x70 = 0x40
      then TargetFactory.getShellItemClasses (t.toNat &&& 0x70) else TargetFactory.getShellItemClasses t.toNat) =
      ⟨if itemClass t.toNat = none then [.itemType t.toNat] else [], .ok (kindOf t.toNat)⟩ := by
  have key : ∀ k : Fin 256,
      (if k.1 &&& 0x70 = 0x20 ∨ k.1 &&& 0x70 = 0x30 ∨ k.1 &&& 0x70 = 0x40
        then TargetFactory.getShellItemClasses (k.1 &&& 0x70) else TargetFactory.getShellItemClasses k.1).warns =
        (if itemClass k.1 = none then [.itemType k.1] else []) ∧
      (if k.1 &&& 0x70 = 0x20 ∨ k.1 &&& 0x70 = 0x30 ∨ k.1 &&& 0x70 = 0x40
        then TargetFactory.getShellItemClasses (k.1 &&& 0x70) else TargetFactory.getShellItemClasses k.1).res.toOption =
        some (kindOf k.1) := by decide +kernel
  have := key ⟨t.toNat, t.toNat_lt⟩
  simp only at this
  generalize (if t.toNat &&& 0x70 = 0x20 ∨ t.toNat &&& 0x70 = 0x30 ∨ t.toNat &&& 0x70 = 0x40
        then TargetFactory.getShellItemClasses (t.toNat &&& 0x70) else TargetFactory.getShellItemClasses t.toNat) = x at *
  obtain ⟨w, r⟩ := x
  cases r with
  | error e => simp [Except.toOption] at this
  | ok a => simp [Except.toOption] at this ⊢; exact this

end Target

theorem itemSize_itemBytes {p rest : Bytes} (h : p.length + 2 < 65536) :
    TargetFactory.itemSize (itemBytes p ++ rest) = pure (p.length + 2) := by
  unfold TargetFactory.itemSize itemBytes
  rw [List.append_assoc, slice_append_exact (by simp), unpackU_le (by omega)]

theorem targetClass_itemBytes {t : UInt8} {body rest : Bytes} (h : ([t] ++ body).length + 2 < 65536) :
    TargetFactory.targetClass (itemBytes ([t] ++ body) ++ rest) =
      ⟨if itemClass t.toNat = none then [.itemType t.toNat] else [], .ok (some (Target.kindOf t.toNat))⟩ := by
  unfold TargetFactory.targetClass TargetFactory.itemType
  rw [itemSize_itemBytes h]
  have hs : slice (itemBytes ([t] ++ body) ++ rest) 2 3 = [t] := by unfold itemBytes; slices
  have hd := Target.dispatch t
  simp only [pure_bind, hs, unpackU_byte]
  rw [if_neg (by omega)]
  by_cases hc : t.toNat &&& 112 = 32 ∨ t.toNat &&& 112 = 48 ∨ t.toNat &&& 112 = 64
  · rw [if_pos hc] at hd ⊢
    rw [hd]; simp [bind, Py.andThen, pure, Py.ret]
  · rw [if_neg hc] at hd ⊢
    rw [hd]; simp [bind, Py.andThen, pure, Py.ret]

theorem targetClass_terminal (rest : Bytes) : TargetFactory.targetClass (0 :: 0 :: rest) = pure none := by
  unfold TargetFactory.targetClass TargetFactory.itemSize
  have : slice (0 :: 0 :: rest) 0 2 = ([0, 0] : Bytes) := by simp [slice]
  rw [this]; rfl

namespace Target

theorem window_itemBytes {p rest : Bytes} (h : p.length + 2 < 65536) (cls : TargetClass) (tp : TextProc) :
    initBase cls tp (itemBytes p ++ rest) =
      pure { cls := cls, tp := tp, raw := itemBytes p ++ rest, rawTarget := p ++ rest.take 2 } := by
  unfold initBase sizeOf
  have := itemSize_itemBytes (rest := rest) h
  unfold TargetFactory.itemSize at this
  rw [this]
  simp only [pure_bind]
  congr 2
  unfold slice itemBytes
  rw [List.append_assoc, drop_append_exact (by simp)]
  rw [show 2 + (p.length + 2) - 2 = p.length + 2 by omega, List.take_append, List.take_of_length_le (by omega)]
  congr 2; omega

theorem hex0x_eq {n : Nat} (h : n < 16) : pyHex n = hex0x n := by
  have : ∀ k : Fin 16, pyHex k.1 = hex0x k.1 := by decide +kernel
  exact this ⟨n, h⟩

theorem category_lookup (n : Nat) : CATEGORIES.lookup n = categoryName n := by
  by_cases h : n < 12
  · have : ∀ k : Fin 12, CATEGORIES.lookup k.1 = categoryName k.1 := by decide
    exact this ⟨n, h⟩
  · have h2 : categoryName n = none := by
      unfold categoryName; exact List.getElem?_eq_none (by simpa using h)
    rw [h2, List.lookup_eq_none_iff]
    intro p hp
    have : ∀ q ∈ CATEGORIES, q.1 < 12 := by decide
    have := this p hp
    simp; omega

theorem sortIndex_lookup (v : UInt8) : SORT_INDEX.lookup v.toNat = sortIndexName v.toNat := by
  have : ∀ k : Fin 256, SORT_INDEX.lookup k.1 = sortIndexName k.1 := by decide +kernel
  exact this ⟨v.toNat, v.toNat_lt⟩

/-- What an item is built from and what it reports, given its class, contents and the bytes after it. -/
theorem asItem_root (typ si : UInt8) (g : Guid) (tr extra : Bytes) (tp : TextProc) (raw : Bytes) :
    asItem { cls := .rootFolder, tp := tp, raw := raw,
             rawTarget := (Item.root typ si g tr).payload ++ extra } =
      ⟨(Item.root typ si g tr).warns, .ok (Item.root typ si g tr).report⟩ := by
  have s1 : slice ((Item.root typ si g tr).payload ++ extra) 1 2 = [si] := by unfold Item.payload; slices
  have s2 : slice ((Item.root typ si g tr).payload ++ extra) 2 18 = g.encode := by unfold Item.payload; slices
  simp only [asItem, sortIndex, sortIndexValue, rootGuid, s1, s2, unpackU_byte, pure_bind, sortIndex_lookup,
    parseUuid_encode, Item.warns, Item.report]
  cases sortIndexName si.toNat <;>
    simp [bind, Py.andThen, pure, Py.ret, Py.warn, TargetClass.name, PyVal.lit, PyVal.nat]

theorem asItem_category (u : UInt8) (sig id : UInt32) (tr extra : Bytes) (tp : TextProc) (raw : Bytes) :
    asItem { cls := .controlPanelCategory, tp := tp, raw := raw,
             rawTarget := (Item.category u sig id tr).payload ++ extra } =
      ⟨(Item.category u sig id tr).warns, .ok (Item.category u sig id tr).report⟩ := by
  have s1 : slice ((Item.category u sig id tr).payload ++ extra) 6 10 = le 4 id.toNat := by
    unfold Item.payload; slices
  simp only [asItem, category, categoryId, s1, unpackU_le4, pure_bind, category_lookup, Item.warns, Item.report]
  cases categoryName id.toNat <;>
    simp [bind, Py.andThen, pure, Py.ret, Py.warn, TargetClass.name, PyVal.lit, PyVal.nat]

theorem asItem_volume (typ : UInt8) (name : Text) (pad tr extra : Bytes) (tp : TextProc) (raw : Bytes)
    (hv : (Item.volume typ name pad tr).Valid tp) :
    asItem { cls := .myComputer, tp := tp, raw := raw,
             rawTarget := (Item.volume typ name pad tr).payload ++ extra } =
      pure (Item.volume typ name pad tr).report := by
  obtain ⟨h1, h2, h3, h4, h5⟩ := hv
  have s1 : slice ((Item.volume typ name pad tr).payload ++ extra) 0 1 = [typ] := by unfold Item.payload; slices
  have s2 : slice ((Item.volume typ name pad tr).payload ++ extra) 1 21 = name.raw ++ pad := by
    unfold Item.payload
    rw [List.append_assoc, List.append_assoc]
    exact slice_mid rfl (by simp; omega)
  have h3' : CodePageText tp name.raw name.text := by simpa [Text.Valid] using h3
  have hr : tp.readString (name.raw ++ pad) = pure name.text := by
    rcases h5 with rfl | h5
    · rw [List.append_nil]; exact readString_text h3'
    · cases pad with
      | nil => simp at h5
      | cons x xs => simp at h5; subst h5; exact readString_text_nul h3' xs
  have h16 : typ.toNat % 16 < 16 := Nat.mod_lt _ (by decide)
  have hb : (typ.toNat % 16).testBit 0 = true := by
    rw [show (16 : Nat) = 2 ^ 4 from rfl, Nat.testBit_mod_two_pow]; simp [h2]
  simp only [asItem, volumeFlags, volumeHasName, volumeName, classTypeIndicator, s1, s2, unpackU_byte, pure_bind,
    and_15, testBit0, hb, hr, if_true, hex0x_eq h16, Item.report, TargetClass.name, PyVal.lit, PyVal.opt]

theorem asItem_volumeGuid (typ u : UInt8) (g : Guid) (tr extra : Bytes) (tp : TextProc) (raw : Bytes)
    (hv : (Item.volumeGuid typ u g tr).Valid tp) :
    asItem { cls := .myComputer, tp := tp, raw := raw,
             rawTarget := (Item.volumeGuid typ u g tr).payload ++ extra } =
      pure (Item.volumeGuid typ u g tr).report := by
  obtain ⟨h1, h2⟩ := hv
  have s1 : slice ((Item.volumeGuid typ u g tr).payload ++ extra) 0 1 = [typ] := by unfold Item.payload; slices
  have s2 : slice ((Item.volumeGuid typ u g tr).payload ++ extra) 2 18 = g.encode := by unfold Item.payload; slices
  have h16 : typ.toNat % 16 < 16 := Nat.mod_lt _ (by decide)
  have hb : (typ.toNat % 16).testBit 0 = false := by
    rw [show (16 : Nat) = 2 ^ 4 from rfl, Nat.testBit_mod_two_pow]; simp [h2]
  simp only [asItem, volumeFlags, volumeHasName, volumeIdentifier, classTypeIndicator, s1, s2, unpackU_byte, pure_bind,
    and_15, testBit0, hb, if_false, Bool.false_eq_true, parseUuid_encode, hex0x_eq h16, Item.report, TargetClass.name,
    PyVal.lit]

theorem asItem_controlPanel (typ : UInt8) (u13 : Bytes) (g : Guid) (tr extra : Bytes) (tp : TextProc) (raw : Bytes)
    (hv : (Item.controlPanel typ u13 g tr).Valid tp) :
    asItem { cls := .controlPanel, tp := tp, raw := raw,
             rawTarget := (Item.controlPanel typ u13 g tr).payload ++ extra } =
      pure (Item.controlPanel typ u13 g tr).report := by
  obtain ⟨h1, h2⟩ := hv
  have s2 : slice ((Item.controlPanel typ u13 g tr).payload ++ extra) 14 30 = g.encode := by
    unfold Item.payload
    have e : [typ] ++ u13 ++ g.encode ++ tr ++ extra = ([typ] ++ u13) ++ (g.encode ++ (tr ++ extra)) := by simp
    rw [e]
    exact slice_mid (by simp; omega) (by simp)
  simp only [asItem, controlPanelItemIdentifier, s2, pure_bind, parseUuid_encode, Item.report, TargetClass.name,
    PyVal.lit]

theorem asItem_file (e : FileEntry) (extra : Bytes) (tp : TextProc) (raw : Bytes) (hv : e.Valid tp) :
    asItem { cls := .shellFSFolder, tp := tp, raw := raw, rawTarget := e.payload ++ extra } =
      ⟨e.warns, .ok e.report⟩ :=
  fsAsItem_payload e hv _ rfl extra rfl rfl

theorem asItem_usersFiles (u : UInt8) (sig : Bytes) (e : FileEntry) (c f : Guid) (tr extra : Bytes) (tp : TextProc)
    (raw : Bytes) (hv : (Item.usersFiles u sig e c f tr).Valid tp)
    (hl : (Item.usersFiles u sig e c f tr).payload.length + 2 < 65536) :
    asItem { cls := .usersFilesFolder, tp := tp, raw := raw,
             rawTarget := (Item.usersFiles u sig e c f tr).payload ++ extra } =
      ⟨e.warns, .ok (Item.usersFiles u sig e c f tr).report⟩ := by
  obtain ⟨h1, h2, h3⟩ := hv
  have hlen : sig.length + (itemBytes e.payload).length + 36 ≤
      (Item.usersFiles u sig e c f tr).payload.length := by
    simp [Item.payload]; omega
  have hib : (itemBytes e.payload).length = e.payload.length + 2 := by simp [itemBytes]; omega
  generalize hw : (Item.usersFiles u sig e c f tr).payload ++ extra = w
  have s1 : slice w 2 4 = le 2 (sig.length + (itemBytes e.payload).length) := by
    rw [← hw]; unfold Item.payload; slices
  have s2 : slice w 4 8 = sig := by
    rw [← hw]; unfold Item.payload; slices
    rw [h1]; simp [slice]
  have s3 : w.drop 8 = itemBytes e.payload ++ (c.encode ++ f.encode ++ tr ++ extra) := by
    rw [← hw]; unfold Item.payload
    have : [0x74] ++ [u] ++ le 2 (sig.length + (itemBytes e.payload).length) ++ sig ++ itemBytes e.payload ++ c.encode ++
      f.encode ++ tr ++ extra = ([0x74] ++ [u] ++ le 2 (sig.length + (itemBytes e.payload).length) ++ sig) ++
        (itemBytes e.payload ++ (c.encode ++ f.encode ++ tr ++ extra)) := by simp
    rw [this, drop_append_exact (by simp; omega)]
  have s4 : slice w (4 + (sig.length + (itemBytes e.payload).length))
      (4 + (sig.length + (itemBytes e.payload).length) + 16) = c.encode := by
    rw [← hw]; unfold Item.payload
    have : [0x74] ++ [u] ++ le 2 (sig.length + (itemBytes e.payload).length) ++ sig ++ itemBytes e.payload ++ c.encode ++
      f.encode ++ tr ++ extra = ([0x74] ++ [u] ++ le 2 (sig.length + (itemBytes e.payload).length) ++ sig ++
        itemBytes e.payload) ++ (c.encode ++ (f.encode ++ tr ++ extra)) := by simp
    rw [this]
    exact slice_mid (by simp; omega) (by simp)
  have s5 : slice w (4 + (sig.length + (itemBytes e.payload).length) + 16)
      (4 + (sig.length + (itemBytes e.payload).length) + 16 + 16) = f.encode := by
    rw [← hw]; unfold Item.payload
    have : [0x74] ++ [u] ++ le 2 (sig.length + (itemBytes e.payload).length) ++ sig ++ itemBytes e.payload ++ c.encode ++
      f.encode ++ tr ++ extra = ([0x74] ++ [u] ++ le 2 (sig.length + (itemBytes e.payload).length) ++ sig ++
        itemBytes e.payload ++ c.encode) ++ (f.encode ++ (tr ++ extra)) := by simp
    rw [this]
    exact slice_mid (by simp; omega) (by simp)
  have hsig : asciiReplace sig = sig.map fun b => Char.ofNat b.toNat := by
    unfold asciiReplace
    apply List.map_congr_left
    intro b hb; rw [if_pos (h2 b hb)]
  have hfs : ∀ r x, fsAsItem { cls := .shellFSFolder, tp := tp, raw := r, rawTarget := e.payload ++ x } =
      ⟨e.warns, .ok e.report⟩ := fun r x => fsAsItem_payload e h3 _ rfl x rfl rfl
  simp only [asItem, fileEntry, delegateClassId, delegateFolderId, innerDataSize, s1, s2, s3,
    unpackU_le (n := 2) (show sig.length + (itemBytes e.payload).length < 256 ^ 2 by omega), pure_bind,
    window_itemBytes (show e.payload.length + 2 < 65536 by omega), s4, s5, parseUuid_encode, hsig,
    hfs, Item.report]
  simp [bind, Py.andThen, pure, Py.ret, TargetClass.name, PyVal.lit]

theorem asItem_cpl (u : UInt8) (sig : UInt32) (path name : Text) (comments : Option Text) (tr extra : Bytes)
    (tp : TextProc) (raw : Bytes) (hv : (Item.cpl u sig path name comments tr).Valid tp)
    (hl : (Item.cpl u sig path name comments tr).payload.length + 2 < 65536) :
    asItem { cls := .controlPanelCPL, tp := tp, raw := raw,
             rawTarget := (Item.cpl u sig path name comments tr).payload ++ extra } =
      pure (Item.cpl u sig path name comments tr).report := by
  obtain ⟨h1, h2, h3, h4⟩ := hv
  have hlen : path.unitsZ false + name.unitsZ false + 10 ≤ (Item.cpl u sig path name comments tr).payload.length := by
    simp [Item.payload]; omega
  have hp : 0 < path.unitsZ false := by simp [Text.unitsZ]
  have hn : 0 < name.unitsZ false := by simp [Text.unitsZ]
  generalize hco : (if comments.isSome then path.unitsZ false + name.unitsZ false else 0) = co
  have hco' : co < 256 ^ 2 := by rw [← hco]; split <;> omega
  generalize hw : (Item.cpl u sig path name comments tr).payload ++ extra = w
  simp only [Item.payload, hco] at hw
  have s1 : slice w 2 6 = le 4 sig.toNat := by rw [← hw]; slices
  have s2 : slice w 6 8 = le 2 (path.unitsZ false) := by rw [← hw]; slices
  have s3 : slice w 8 10 = le 2 co := by rw [← hw]; slices
  have hu : (w[10]? == some 0) = false := by
    have : path.encodeZ false = path.raw ++ [0] := by simp [Text.encodeZ]
    obtain ⟨x, xs, hx⟩ := List.exists_cons_of_ne_nil h2
    have h1' : CodePageText tp path.raw path.text := by simpa [Text.Valid] using h1
    have hx0 : x ≠ 0 := by
      rintro rfl
      exact h1'.1 (by rw [hx]; simp)
    rw [← hw, this, hx]
    have : ∀ (a b : Bytes), a.length = 10 → (a ++ (x :: b))[10]? = some x := by
      intro a b ha; rw [List.getElem?_append_right (by omega), ha]; rfl
    have e : [0x00] ++ [u] ++ le 4 sig.toNat ++ le 2 (path.unitsZ false) ++ le 2 co ++ (x :: xs ++ [0]) ++
        name.encodeZ false ++ encodeOptZ false comments ++ tr ++ extra =
        ([0x00] ++ [u] ++ le 4 sig.toNat ++ le 2 (path.unitsZ false) ++ le 2 co) ++
          (x :: (xs ++ [0] ++ name.encodeZ false ++ encodeOptZ false comments ++ tr ++ extra)) := by simp
    rw [e, this _ _ (by simp)]
    simpa using hx0
  have hd : w.drop 10 = path.encodeZ false ++ (name.encodeZ false ++ (encodeOptZ false comments ++ (tr ++ extra))) := by
    rw [← hw]; drops
  have hd2 : w.drop (10 + path.unitsZ false) = name.encodeZ false ++ (encodeOptZ false comments ++ (tr ++ extra)) := by
    rw [← List.drop_drop, hd, drop_append_exact (by simp)]
  have hd3 : w.drop (10 + (path.unitsZ false + name.unitsZ false)) = encodeOptZ false comments ++ (tr ++ extra) := by
    rw [← Nat.add_assoc, ← List.drop_drop, hd2, drop_append_exact (by simp)]
  have hiu : cplIsUnicode { cls := .controlPanelCPL, tp := tp, raw := raw, rawTarget := w } = false := by
    unfold cplIsUnicode; split
    · rfl
    · exact hu
  have hc : (if co = 0 then pure [] else tp.readString (w.drop (10 + co)) : Py Str) =
      pure ((comments.map (·.text)).getD []) := by
    cases comments with
    | none => simp at hco; rw [← hco]; rfl
    | some cm =>
      simp at hco
      rw [← hco, if_neg (by omega), hd3]
      exact readString_encodeZ (h4 cm rfl) _
  simp only [asItem, cplSignature, cplFilePath, cplNameString, cplComments, cplNameOffset, cplCommentsOffset,
    cplStringsStart, hiu, Bool.false_eq_true, if_false, s1, s2, s3, unpackU_le4, unpackU_le hco', pure_bind, hd, hd2,
    unpackU_le (n := 2) (show path.unitsZ false < 256 ^ 2 by omega), readString_encodeZ h1, readString_encodeZ h3, hc,
    fmtX_eq (w := 8) (by decide) (show sig.toNat < 16 ^ 8 from sig.toNat_lt), Item.report]
  rfl

theorem asItem_cplWide (u : UInt8) (sig : UInt32) (u12 : Bytes) (path name : Text) (comments : Option Text)
    (tr extra : Bytes) (tp : TextProc) (raw : Bytes) (hv : (Item.cplWide u sig u12 path name comments tr).Valid tp)
    (hl : (Item.cplWide u sig u12 path name comments tr).payload.length + 2 < 65536) :
    asItem { cls := .controlPanelCPL, tp := tp, raw := raw,
             rawTarget := (Item.cplWide u sig u12 path name comments tr).payload ++ extra } =
      pure (Item.cplWide u sig u12 path name comments tr).report := by
  obtain ⟨h12, h0, h1, h3, h4⟩ := hv
  have l1 := encodeZ_length_wide h1
  have l3 := encodeZ_length_wide h3
  have hlen : 2 * path.unitsZ true + 2 * name.unitsZ true + 22 ≤
      (Item.cplWide u sig u12 path name comments tr).payload.length := by
    simp [Item.payload]; omega
  have hp : 0 < path.unitsZ true := by simp [Text.unitsZ]
  have hn : 0 < name.unitsZ true := by simp [Text.unitsZ]
  generalize hco : (if comments.isSome then path.unitsZ true + name.unitsZ true else 0) = co
  have hco' : co < 256 ^ 2 := by rw [← hco]; split <;> omega
  generalize hw : (Item.cplWide u sig u12 path name comments tr).payload ++ extra = w
  have hwl : 22 ≤ w.length := by rw [← hw]; simp; omega
  simp only [Item.payload, hco] at hw
  have s1 : slice w 2 6 = le 4 sig.toNat := by rw [← hw]; slices
  have s2 : slice w 18 20 = le 2 (path.unitsZ true) := by
    rw [← hw]
    have e : [0x00] ++ [u] ++ le 4 sig.toNat ++ u12 ++ le 2 (path.unitsZ true) ++ le 2 co ++ path.encodeZ true ++
        name.encodeZ true ++ encodeOptZ true comments ++ tr ++ extra = ([0x00] ++ [u] ++ le 4 sig.toNat ++ u12) ++
        (le 2 (path.unitsZ true) ++ (le 2 co ++ path.encodeZ true ++ name.encodeZ true ++ encodeOptZ true comments ++
          tr ++ extra)) := by simp
    rw [e]; exact slice_mid (by simp; omega) (by simp)
  have s3 : slice w 20 22 = le 2 co := by
    rw [← hw]
    have e : [0x00] ++ [u] ++ le 4 sig.toNat ++ u12 ++ le 2 (path.unitsZ true) ++ le 2 co ++ path.encodeZ true ++
        name.encodeZ true ++ encodeOptZ true comments ++ tr ++ extra = ([0x00] ++ [u] ++ le 4 sig.toNat ++ u12 ++
        le 2 (path.unitsZ true)) ++ (le 2 co ++ (path.encodeZ true ++ name.encodeZ true ++ encodeOptZ true comments ++
          tr ++ extra)) := by simp
    rw [e]; exact slice_mid (by simp; omega) (by simp)
  have hu : (w[10]? == some 0) = true := by
    rw [← hw]
    have : ∀ (a b : Bytes), a.length = 6 → (a ++ (u12 ++ b))[10]? = some 0 := by
      intro a b ha
      rw [List.getElem?_append_right (by omega), ha, List.getElem?_append_left (by omega)]
      exact h0
    have e : [0x00] ++ [u] ++ le 4 sig.toNat ++ u12 ++ le 2 (path.unitsZ true) ++ le 2 co ++ path.encodeZ true ++
        name.encodeZ true ++ encodeOptZ true comments ++ tr ++ extra = ([0x00] ++ [u] ++ le 4 sig.toNat) ++ (u12 ++
        (le 2 (path.unitsZ true) ++ le 2 co ++ path.encodeZ true ++ name.encodeZ true ++ encodeOptZ true comments ++
          tr ++ extra)) := by simp
    rw [e, this _ _ (by simp)]; rfl
  have hd : w.drop 22 = path.encodeZ true ++ (name.encodeZ true ++ (encodeOptZ true comments ++ (tr ++ extra))) := by
    rw [← hw]
    have e : [0x00] ++ [u] ++ le 4 sig.toNat ++ u12 ++ le 2 (path.unitsZ true) ++ le 2 co ++ path.encodeZ true ++
        name.encodeZ true ++ encodeOptZ true comments ++ tr ++ extra = ([0x00] ++ [u] ++ le 4 sig.toNat ++ u12 ++
        le 2 (path.unitsZ true) ++ le 2 co) ++ (path.encodeZ true ++ (name.encodeZ true ++ (encodeOptZ true comments ++
          (tr ++ extra)))) := by simp
    rw [e, drop_append_exact (by simp; omega)]
  have hd2 : w.drop (22 + path.unitsZ true * 2) = name.encodeZ true ++ (encodeOptZ true comments ++ (tr ++ extra)) := by
    rw [← List.drop_drop, hd, drop_append_exact (by omega)]
  have hd3 : w.drop (22 + (path.unitsZ true + name.unitsZ true) * 2) = encodeOptZ true comments ++ (tr ++ extra) := by
    rw [Nat.add_mul, ← Nat.add_assoc, ← List.drop_drop, hd2, drop_append_exact (by omega)]
  have hiu : cplIsUnicode { cls := .controlPanelCPL, tp := tp, raw := raw, rawTarget := w } = true := by
    unfold cplIsUnicode; rw [if_neg (by show ¬ w.length < 22; omega)]; exact hu
  have hc : (if co = 0 then pure [] else TextProc.readUnicodeString (w.drop (22 + co * 2)) : Py Str) =
      pure ((comments.map (·.text)).getD []) := by
    cases comments with
    | none => simp at hco; rw [← hco]; rfl
    | some cm =>
      simp at hco
      rw [← hco, if_neg (by omega), hd3]
      exact readUnicodeString_encodeZ (h4 cm rfl) _
  simp only [asItem, cplSignature, cplFilePath, cplNameString, cplComments, cplNameOffset, cplCommentsOffset,
    cplStringsStart, hiu, if_true, s1, s2, s3, unpackU_le4, unpackU_le hco', pure_bind, hd, hd2,
    unpackU_le (n := 2) (show path.unitsZ true < 256 ^ 2 by omega), readUnicodeString_encodeZ h1,
    readUnicodeString_encodeZ h3, hc,
    fmtX_eq (w := 8) (by decide) (show sig.toNat < 16 ^ 8 from sig.toNat_lt), Item.report]
  rfl

theorem readStrings_encodeZ {tp : TextProc} {t : Text} (h : t.Valid tp false) (rest : Bytes) :
    tp.readStrings (t.encodeZ false ++ rest) = pure t.text :: tp.readStrings rest := by
  have h' : CodePageText tp t.raw t.text := by simpa [Text.Valid] using h
  have e : t.encodeZ false ++ rest = t.raw ++ 0 :: rest := by simp [Text.encodeZ]
  rw [e, readStrings_cons tp h'.1, ansiToStr_text h']

theorem next_pure (s : Str) (l : List (Py Str)) : TextProc.next (pure s :: l) = pure (s, l) := by
  simp [TextProc.next]

theorem initNetwork_payload (typ u cf : UInt8) (loc : Text) (desc comm : Option Text) (tr rest : Bytes)
    (tp : TextProc) (hv : (Item.network typ u cf loc desc comm tr).Valid tp)
    (hl : (Item.network typ u cf loc desc comm tr).payload.length + 2 < 65536) :
    initNetwork tp ((Item.network typ u cf loc desc comm tr).encode ++ rest) =
      pure { cls := .networkLocation, tp := tp, raw := (Item.network typ u cf loc desc comm tr).encode ++ rest,
             rawTarget := (Item.network typ u cf loc desc comm tr).payload ++ rest.take 2,
             location := loc.text, description := desc.map (·.text), comments := comm.map (·.text) } := by
  obtain ⟨h1, h2, h3, h4, h5, h6⟩ := hv
  unfold initNetwork Item.encode
  rw [window_itemBytes hl]
  generalize hw : (Item.network typ u cf loc desc comm tr).payload ++ rest.take 2 = w
  generalize itemBytes (Item.network typ u cf loc desc comm tr).payload ++ rest = raw
  generalize rest.take 2 = extra at hw
  have s1 : slice w 2 3 = [cf] := by rw [← hw]; unfold Item.payload; slices
  have hd : w.drop 3 = loc.encodeZ false ++ (encodeOptZ false desc ++ (encodeOptZ false comm ++ (tr ++ extra))) := by
    rw [← hw]; unfold Item.payload; drops
  have b7 : (cf.toNat &&& 0x80 ≠ 0) ↔ cf.toNat.testBit 7 = true := by
    rw [← and_two_pow_ne_zero]; simp
  have b6 : (cf.toNat &&& 0x40 ≠ 0) ↔ cf.toNat.testBit 6 = true := by
    rw [← and_two_pow_ne_zero]; simp
  simp only [pure_bind, hd, readStrings_encodeZ h2, next_pure, contentFlags, s1, unpackU_byte, b7, b6, ← h5, ← h6]
  cases desc with
  | none =>
    cases comm with
    | none => simp
    | some c => simp [encodeOptZ, readStrings_encodeZ (h4 c rfl), next_pure]
  | some d =>
    cases comm with
    | none => simp [encodeOptZ, readStrings_encodeZ (h3 d rfl), next_pure]
    | some c => simp [encodeOptZ, readStrings_encodeZ (h3 d rfl), readStrings_encodeZ (h4 c rfl), next_pure]

theorem asItem_network (typ u cf : UInt8) (loc : Text) (desc comm : Option Text) (tr extra raw : Bytes)
    (tp : TextProc) :
    asItem { cls := .networkLocation, tp := tp, raw := raw,
             rawTarget := (Item.network typ u cf loc desc comm tr).payload ++ extra,
             location := loc.text, description := desc.map (·.text), comments := comm.map (·.text) } =
      ⟨fsKindWarns typ, .ok (Item.network typ u cf loc desc comm tr).report⟩ := by
  have s0 : slice ((Item.network typ u cf loc desc comm tr).payload ++ extra) 0 1 = [typ] := by
    unfold Item.payload; slices
  have s1 : slice ((Item.network typ u cf loc desc comm tr).payload ++ extra) 2 3 = [cf] := by
    unfold Item.payload; slices
  simp only [asItem, networkFlags, contentFlags, s0, s1, unpackU_byte, pure_bind, getItemShellFsFolder_eq, Item.report]
  simp [bind, Py.andThen, pure, Py.ret, TargetClass.name, PyVal.lit, PyVal.nat, optText]

end Target

/-- The type byte of an item. -/
def Spec.Item.typ : Item → UInt8
  | .cpl .. => 0x00
  | .cplWide .. => 0x00
  | .category .. => 0x01
  | .root typ .. => typ
  | .volume typ .. => typ
  | .volumeGuid typ .. => typ
  | .file e => e.typ
  | .network typ .. => typ
  | .classOnly typ _ => typ
  | .controlPanel typ .. => typ
  | .usersFiles .. => 0x74
  | .other typ _ => typ

theorem payload_typ (it : Item) : ∃ body, it.payload = [it.typ] ++ body := by
  cases it <;> simp [Item.payload, Item.typ, FileEntry.payload]

theorem step_itemBytes {tp : TextProc} {t : UInt8} {body rest : Bytes} (h : ([t] ++ body).length + 2 < 65536) :
    LnkTargets.step tp (itemBytes ([t] ++ body) ++ rest) =
      (do
        (⟨if itemClass t.toNat = none then [.itemType t.toNat] else [], .ok ()⟩ : Py Unit)
        let target ← Target.init (Target.kindOf t.toNat) tp (itemBytes ([t] ++ body) ++ rest)
        pure (some (target, rest))) := by
  unfold LnkTargets.step
  rw [targetClass_itemBytes h]
  have hd : (itemBytes ([t] ++ body) ++ rest).drop (([t] ++ body).length + 2) = rest := by
    unfold itemBytes; rw [drop_append_exact (by simp; omega)]
  simp only [itemSize_itemBytes h, pure_bind, hd]
  simp [bind, Py.andThen]

theorem step_item {tp : TextProc} (it : Item) (hv : it.Valid tp) (hl : it.payload.length + 2 < 65536) (rest : Bytes) :
    ∃ t w1 w2, LnkTargets.step tp (it.encode ++ rest) = ⟨w1, .ok (some (t, rest))⟩ ∧
      t.asItem = ⟨w2, .ok it.report⟩ ∧ w1 ++ w2 = it.warns ∧ t.raw = it.encode ++ rest ∧
      t.rawTarget = it.payload ++ rest.take 2 ∧ t.cls = Target.kindOf it.typ.toNat := by
  obtain ⟨body, hb⟩ := payload_typ it
  have hs : LnkTargets.step tp (it.encode ++ rest) =
      (do
        (⟨if itemClass it.typ.toNat = none then [.itemType it.typ.toNat] else [], .ok ()⟩ : Py Unit)
        let target ← Target.init (Target.kindOf it.typ.toNat) tp (it.encode ++ rest)
        pure (some (target, rest))) := by
    unfold Item.encode; rw [hb]; exact step_itemBytes (by rw [← hb]; exact hl)
  have base : ∀ cls, cls ≠ .networkLocation → Target.init cls tp (it.encode ++ rest) =
      pure { cls := cls, tp := tp, raw := it.encode ++ rest, rawTarget := it.payload ++ rest.take 2 } := by
    intro cls hc
    have : Target.init cls tp (it.encode ++ rest) = Target.initBase cls tp (it.encode ++ rest) := by
      cases cls <;> first | rfl | exact absurd rfl hc
    rw [this]; exact Target.window_itemBytes hl cls tp
  have fin : ∀ cls, Target.kindOf it.typ.toNat = cls → cls ≠ .networkLocation → ∀ w2,
      Target.asItem { cls := cls, tp := tp, raw := it.encode ++ rest, rawTarget := it.payload ++ rest.take 2 } =
        ⟨w2, .ok it.report⟩ →
      (if itemClass it.typ.toNat = none then [.itemType it.typ.toNat] else []) ++ w2 = it.warns →
      ∃ t w1 w2, LnkTargets.step tp (it.encode ++ rest) = ⟨w1, .ok (some (t, rest))⟩ ∧
      t.asItem = ⟨w2, .ok it.report⟩ ∧ w1 ++ w2 = it.warns ∧ t.raw = it.encode ++ rest ∧
      t.rawTarget = it.payload ++ rest.take 2 ∧ t.cls = Target.kindOf it.typ.toNat := by
    intro cls hk hc w2 ha hw
    refine ⟨_, _, w2, ?_, ha, hw, rfl, rfl, hk.symm⟩
    rw [hs, hk, base cls hc]
    simp [bind, Py.andThen, pure, Py.ret]
  cases it with
  | cpl u sig path name comments tr =>
    exact fin .controlPanelCPL (by simp [Target.kindOf, Item.typ]) (by decide) [] (Target.asItem_cpl u sig path name comments tr _ tp _ hv hl) (by simp [itemClass, Item.typ, Item.warns])
  | cplWide u sig u12 path name comments tr =>
    exact fin .controlPanelCPL (by simp [Target.kindOf, Item.typ]) (by decide) [] (Target.asItem_cplWide u sig u12 path name comments tr _ tp _ hv hl) (by simp [itemClass, Item.typ, Item.warns])
  | category u sig id tr =>
    exact fin .controlPanelCategory (by simp [Target.kindOf, Item.typ]) (by decide) _ (Target.asItem_category u sig id tr _ tp _) (by simp [itemClass, Item.typ, Item.warns])
  | root typ si g tr =>
    have ht : typ = 0x1E ∨ typ = 0x1F := hv
    refine fin .rootFolder ?_ (by decide) _ (Target.asItem_root typ si g tr _ tp _) ?_
    · rcases ht with rfl | rfl <;> simp [Target.kindOf, Item.typ]
    · rcases ht with rfl | rfl <;> simp [itemClass, Item.typ, Item.warns]
  | volume typ name pad tr =>
    have ht : typ.toNat / 16 % 8 = 2 := hv.1
    refine fin .myComputer ?_ (by decide) [] (Target.asItem_volume typ name pad tr _ tp _ hv) ?_
    · simp [Target.kindOf, Item.typ, ht]
    · simp [itemClass, Item.typ, ht, Item.warns]
  | volumeGuid typ u g tr =>
    have ht : typ.toNat / 16 % 8 = 2 := hv.1
    refine fin .myComputer ?_ (by decide) [] (Target.asItem_volumeGuid typ u g tr _ tp _ hv) ?_
    · simp [Target.kindOf, Item.typ, ht]
    · simp [itemClass, Item.typ, ht, Item.warns]
  | file e =>
    have ht : e.typ.toNat / 16 % 8 = 3 := hv.1
    refine fin .shellFSFolder ?_ (by decide) e.warns (Target.asItem_file e _ tp _ hv) ?_
    · simp [Target.kindOf, Item.typ, ht]
    · simp [itemClass, Item.typ, ht, Item.warns]
  | network typ u cf loc desc comm tr =>
    have ht : typ.toNat / 16 % 8 = 4 := hv.1
    have hk : Target.kindOf typ.toNat = .networkLocation := by simp [Target.kindOf, ht]
    refine ⟨_, [], fsKindWarns typ, ?_, Target.asItem_network typ u cf loc desc comm tr (rest.take 2) _ tp, ?_, rfl,
      rfl, hk.symm⟩
    · rw [hs]
      simp only [Item.typ, hk, Target.init]
      rw [Target.initNetwork_payload typ u cf loc desc comm tr rest tp hv hl]
      simp [bind, Py.andThen, pure, Py.ret, itemClass, ht]
    · simp [Item.warns]
  | classOnly typ b =>
    have ht : typ = 0x52 ∨ typ = 0x61 ∨ typ = 0x72 ∨ typ = 0x73 := hv
    rcases ht with rfl | rfl | rfl | rfl
    · exact fin .compressedFolder (by simp [Target.kindOf, Item.typ]) (by decide) [] rfl (by simp [itemClass, Item.typ, Item.warns])
    · exact fin .internet (by simp [Target.kindOf, Item.typ]) (by decide) [] rfl (by simp [itemClass, Item.typ, Item.warns])
    · exact fin .printers (by simp [Target.kindOf, Item.typ]) (by decide) [] rfl (by simp [itemClass, Item.typ, Item.warns])
    · exact fin .commonPlacesFolder (by simp [Target.kindOf, Item.typ]) (by decide) [] rfl (by simp [itemClass, Item.typ, Item.warns])
  | controlPanel typ u13 g tr =>
    have ht : typ = 0x70 ∨ typ = 0x71 := hv.1
    refine fin .controlPanel ?_ (by decide) [] (Target.asItem_controlPanel typ u13 g tr _ tp _ hv) ?_
    · rcases ht with rfl | rfl <;> simp [Target.kindOf, Item.typ]
    · rcases ht with rfl | rfl <;> simp [itemClass, Item.typ, Item.warns]
  | usersFiles u sig e c f tr =>
    exact fin .usersFilesFolder (by simp [Target.kindOf, Item.typ]) (by decide) e.warns (Target.asItem_usersFiles u sig e c f tr _ tp _ hv hl) (by simp [itemClass, Item.typ, Item.warns])
  | other typ b =>
    have ht : itemClass typ.toNat = none := hv
    have hk : Target.kindOf typ.toNat = .unknown := by
      have := Target.kindOf_name typ.toNat
      rw [ht] at this
      generalize Target.kindOf typ.toNat = k at this
      cases k <;> first | rfl | simp [TargetClass.name] at this
    refine fin .unknown hk (by decide) [] ?_ ?_
    · have hsz := itemSize_itemBytes (p := (Item.other typ b).payload) (rest := rest) hl
      have hsz' : Target.sizeOf ((Item.other typ b).encode ++ rest) = pure ((Item.other typ b).payload.length + 2) := hsz
      simp only [Target.asItem, hsz', pure_bind, Item.report, Item.payload]
      simp [TargetClass.name, PyVal.lit, PyVal.nat, pure, Py.ret]
      omega
    · simp [Item.typ, ht, Item.warns]

/-! ### lists of items -/

theorem idLists_cons {tp : TextProc} {b : Bytes} {w : List Warn} {t : Target} {rest : Bytes}
    (h : LnkTargets.step tp b = ⟨w, .ok (some (t, rest))⟩) (hl : rest.length < b.length) :
    LnkTargets.idLists tp b = ⟨w, .ok t⟩ :: LnkTargets.idLists tp rest := by
  have hb : b ≠ [] := by rintro rfl; simp at hl
  rw [LnkTargets.idLists.eq_def, if_neg hb]
  have hg : LnkTargets.genBody (LnkTargets.step tp b) = ⟨w, .ok (some (t, rest))⟩ := by
    rw [h]; rfl
  simp only [hg, hl, if_true]

theorem idLists_none {tp : TextProc} {b : Bytes} {w : List Warn}
    (h : LnkTargets.step tp b = ⟨w, .ok none⟩) : LnkTargets.idLists tp b = [] := by
  rw [LnkTargets.idLists.eq_def]
  split
  · rfl
  · have hg : LnkTargets.genBody (LnkTargets.step tp b) = ⟨w, .ok none⟩ := by
      rw [h]; rfl
    simp only [hg]

theorem idLists_nil (tp : TextProc) : LnkTargets.idLists tp [] = [] := by
  rw [LnkTargets.idLists.eq_def, if_pos rfl]

theorem itemOf_ok {t : Target} {w : List Warn} {d : Dict} (h : t.asItem = ⟨w, .ok d⟩) :
    LnkTargets.itemOf t = ⟨w, .ok (some (.dict d))⟩ := by
  unfold LnkTargets.itemOf
  rw [h]
  simp [Py.tryExcept, bind, Py.andThen, pure, Py.ret]

theorem asListLoop_cons {t : Target} {w1 w2 w3 : List Warn} {d : Dict} {xs : List (Py Target)} {l : List PyVal}
    (h : t.asItem = ⟨w2, .ok d⟩) (hr : LnkTargets.asListLoop xs = ⟨w3, .ok l⟩) :
    LnkTargets.asListLoop (⟨w1, .ok t⟩ :: xs) = ⟨w1 ++ w2 ++ w3, .ok (.dict d :: l)⟩ := by
  rw [LnkTargets.asListLoop, hr]
  simp [bind, Py.andThen, pure, Py.ret, itemOf_ok h]

/-- What an ID list may end with: nothing, or a terminal ID and anything. -/
def Ends (tail : Bytes) : Prop := tail = [] ∨ ∃ rest, tail = 0 :: 0 :: rest

theorem idLists_ends {tp : TextProc} {tail : Bytes} (h : Ends tail) : LnkTargets.idLists tp tail = [] := by
  rcases h with rfl | ⟨rest, rfl⟩
  · exact idLists_nil tp
  · refine idLists_none (w := []) ?_
    unfold LnkTargets.step
    rw [targetClass_terminal]
    rfl

theorem encodeItems_cons (it : Item) (items : List Item) :
    encodeItems (it :: items) = it.encode ++ encodeItems items := by
  simp [encodeItems]

theorem idLists_items {tp : TextProc} (items : List Item) {tail : Bytes} (ht : Ends tail)
    (hv : ∀ it ∈ items, it.Valid tp ∧ it.payload.length + 2 < 65536) :
    (LnkTargets.idLists tp (encodeItems items ++ tail)).map (fun p => p.res.toOption.map (·.cls.name)) =
        items.map (fun it => some ((itemClass it.typ.toNat).getD "Unknown")) ∧
      LnkTargets.asListLoop (LnkTargets.idLists tp (encodeItems items ++ tail)) =
        ⟨items.flatMap Item.warns, .ok (items.map fun it => .dict it.report)⟩ := by
  induction items with
  | nil => simp [encodeItems, idLists_ends ht, LnkTargets.asListLoop, pure, Py.ret]
  | cons it items ih =>
    obtain ⟨h1, h2⟩ := ih fun i hi => hv i (List.mem_cons_of_mem _ hi)
    obtain ⟨hv1, hv2⟩ := hv it List.mem_cons_self
    obtain ⟨t, w1, w2, hs, ha, hw, -, -, hc⟩ := step_item it hv1 hv2 (encodeItems items ++ tail)
    have hb : encodeItems (it :: items) ++ tail = it.encode ++ (encodeItems items ++ tail) := by
      rw [encodeItems_cons, List.append_assoc]
    have hlen : (encodeItems items ++ tail).length < (it.encode ++ (encodeItems items ++ tail)).length := by
      have : it.encode.length = it.payload.length + 2 := by simp [Item.encode, itemBytes]; omega
      simp [this]
    rw [hb, idLists_cons hs hlen]
    constructor
    · rw [List.map_cons, h1, List.map_cons]
      simp only [hc, Except.toOption, Option.map_some, Target.kindOf_name]
    · rw [asListLoop_cons ha h2, hw]
      simp

theorem init_encodeIdList {tp : TextProc} (items : List Item) (rest : Bytes)
    (h : (encodeItems items).length + 2 < 65536) :
    LnkTargets.init tp (encodeIdList items ++ rest) =
      pure ⟨tp, encodeIdList items ++ rest, encodeItems items ++ [0, 0]⟩ := by
  have e0 : slice (encodeIdList items ++ rest) 0 2 = le 2 ((encodeItems items).length + 2) := by
    unfold encodeIdList; slices
  have e1 : slice (encodeIdList items ++ rest) 2 ((encodeItems items).length + 2 + 2) = encodeItems items ++ [0, 0] := by
    have : encodeIdList items ++ rest =
        le 2 ((encodeItems items).length + 2) ++ ((encodeItems items ++ [0, 0]) ++ rest) := by
      simp [encodeIdList, le]
    rw [this, slice_mid (by simp) (by simp; omega)]
  unfold LnkTargets.init LnkTargets.idListSizeOf
  rw [e0, unpackU_le (by omega)]
  simp only [pure_bind, e1]

end Verif
