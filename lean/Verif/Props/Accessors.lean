import Verif.Model.Accessors
import Verif.Props.Header
import Verif.Props.Targets
import Verif.Props.Extra

/-
C64: the public accessors no report uses.  C65: kinds of file entries.
-/

namespace Verif.Props

open Spec

/-- C64: `guid()` of a header is the class identifier. -/
theorem header_guid (hd : Header) (rest : Bytes) (hs : 76 ≤ hd.headerSize.toNat) :
    ∃ h, (LnkHeader.init (hd.encode ++ rest)).res = .ok h ∧ h.guid.res = .ok hd.linkCLSID.text := by
  obtain ⟨h, h1, -, h2, -⟩ := header_faithful hd rest hs
  exact ⟨h, by rw [h1], by rw [LnkHeader.guid, h2]⟩

example (rest : Bytes) : ∃ h, (LnkHeader.init (exampleHeader.encode ++ rest)).res = .ok h ∧
    h.guid.res = .ok "00021401-0000-0000-C000-000000000046".toList :=
  header_guid exampleHeader rest (by decide)

/-- C64: the signature of a control panel category item is the stored one. -/
theorem category_signature (tp : TextProc) (u : UInt8) (sig id : UInt32) (tr : Bytes)
    (hl : (Item.category u sig id tr).payload.length + 2 < 65536) (rest : Bytes) :
    ∃ t w, LnkTargets.step tp ((Item.category u sig id tr).encode ++ rest) = ⟨w, .ok (some (t, rest))⟩ ∧
      t.categorySignature = pure sig.toNat := by
  obtain ⟨t, w1, w2, h1, -, -, -, h2, -⟩ := step_item (tp := tp) (Item.category u sig id tr) trivial hl rest
  refine ⟨t, w1, h1, ?_⟩
  unfold Target.categorySignature
  rw [h2]
  have : slice ((Item.category u sig id tr).payload ++ rest.take 2) 2 6 = le 4 sig.toNat := by
    unfold Item.payload; slices
  rw [this]
  exact unpackU_le (by have := sig.toNat_lt; omega)

/-- C64: signature and size of the file entry nested in a users files folder item are the stored ones. -/
theorem users_files_accessors (tp : TextProc) (u : UInt8) (sig : Bytes) (e : FileEntry) (c f : Guid) (tr : Bytes)
    (hv : (Item.usersFiles u sig e c f tr).Valid tp)
    (hl : (Item.usersFiles u sig e c f tr).payload.length + 2 < 65536) (rest : Bytes) :
    ∃ t w, LnkTargets.step tp ((Item.usersFiles u sig e c f tr).encode ++ rest) = ⟨w, .ok (some (t, rest))⟩ ∧
      t.usersSignature = sig ∧ t.fileEntrySize = pure (e.payload.length + 2) := by
  obtain ⟨t, w1, w2, h1, -, -, -, h2, -⟩ := step_item (tp := tp) (Item.usersFiles u sig e c f tr) hv hl rest
  refine ⟨t, w1, h1, ?_, ?_⟩
  · unfold Target.usersSignature
    rw [h2]
    unfold Item.payload; slices
    have := hv.1
    simp [slice, this]
  · unfold Target.fileEntrySize
    rw [h2]
    have : slice ((Item.usersFiles u sig e c f tr).payload ++ rest.take 2) 8 10 = le 2 (e.payload.length + 2) := by
      have : (Item.usersFiles u sig e c f tr).payload ++ rest.take 2 =
          ([0x74] ++ [u] ++ le 2 (sig.length + (itemBytes e.payload).length) ++ sig) ++
            (le 2 (e.payload.length + 2) ++ (e.payload ++ c.encode ++ f.encode ++ tr ++ rest.take 2)) := by
        simp [Item.payload, itemBytes]
      rw [this]
      exact slice_mid (by have := hv.1; simp; omega) (by simp)
    rw [this]
    refine unpackU_le ?_
    have : e.payload.length ≤ (Item.usersFiles u sig e c f tr).payload.length := by
      simp [Item.payload, itemBytes]; omega
    omega

/-- A file entry of 21 bytes in a users files folder item. -/
example (env : Env) (rest : Bytes) : ∃ t w, LnkTargets.step (TextProc.mk' env none) ((Item.usersFiles 0 [1, 2, 3, 4]
      ⟨0x32, 0, 12, 0, 0, 0x20, asciiText "a.txt", [0, 0]⟩ shellLinkCLSID shellLinkCLSID []).encode ++ rest) =
        ⟨w, .ok (some (t, rest))⟩ ∧ t.usersSignature = [1, 2, 3, 4] ∧ t.fileEntrySize = pure 22 :=
  users_files_accessors _ 0 [1, 2, 3, 4] ⟨0x32, 0, 12, 0, 0, 0x20, asciiText "a.txt", [0, 0]⟩ shellLinkCLSID shellLinkCLSID []
    ⟨rfl, by decide, by decide, asciiText_valid env "a.txt" (by decide)⟩ (by decide +kernel) rest

/-- C64, violation: `extension_block()` of a root folder item never returns. -/
theorem extension_block_raises (t : Target) : t.extensionBlock.res = .error .attributeError := rfl

theorem piece_of {b : Bytes} {l : List Piece} {last : Bytes} (h : Cut b l last) (p : Piece) (hp : p ∈ l) :
    ∃ b' n, p = ⟨n, b'.take n, uAt 4 b' 4⟩ := by
  induction h with
  | stop h => simp at hp
  | @block b n l last h hn hl ih =>
    rcases List.mem_cons.1 hp with rfl | hp
    · exact ⟨b, n, rfl⟩
    · exact ih hp

/-- C64, violation: `store_size()` is not the size of the property store but the signature of the block: for every metadata
block of every extra data section it is 0xA0000009. -/
theorem store_size_is_signature (tp : TextProc) (allow : Bool) (b : Bytes) (e : ExtraData)
    (he : (ExtraData.init tp allow b).res = .ok e) (x : Extra) (hx : x ∈ e.data) (hm : x.cls = .metadata) (v : Nat)
    (hv : x.storeSize.res = .ok v) : v = 0xA0000009 := by
  obtain ⟨l, last, hc⟩ := ExtraData.cut_exists b
  rw [ExtraData.init_cut hc] at he
  simp only [Except.ok.injEq] at he
  subst he
  have hx : x ∈ ExtraData.objects tp l := by
    rcases List.mem_append.1 hx with h | h
    · exact h
    · split at h
      · rw [List.mem_singleton.1 h] at hm
        cases hm
      · simp at h
  obtain ⟨p, hp, hpx⟩ := List.mem_filterMap.1 hx
  obtain ⟨s, hs, rfl⟩ := Option.map_eq_some_iff.1 hpx
  have hk : s = 0xA0000009 := by
    have key : ∀ kv ∈ extraKinds, kv.2 = .metadata → kv.1 = 0xA0000009 := by decide +kernel
    unfold extraKind at hm
    rcases ho : extraKinds.lookup s with _ | c
    · rw [ho] at hm
      cases hm
    · rw [ho] at hm
      have hmem : (s, c) ∈ extraKinds := by
        obtain ⟨l1, l2, h1, -⟩ := List.lookup_eq_some_iff.1 ho
        rw [h1]
        simp
      exact key _ hmem hm
  subst hk
  obtain ⟨b', n, rfl⟩ := piece_of hc p hp
  simp only at hs hv
  have hv : (unpackU 4 (slice (b'.take n) 4 (4 + 4))).res = .ok v := hv
  rw [unpackU_slice _ _ _ (by decide)] at hv
  have hn : 8 ≤ n := by
    by_contra hn
    have : uAt 4 (b'.take n) 4 = none := by
      rcases h : uAt 4 (b'.take n) 4 with _ | w
      · rfl
      · have := ExtraData.uAt_some_length h
        simp at this
        omega
    rw [this] at hv
    cases hv
  rw [ExtraData.uAt_take 4 b' 4 n (by decide) hn, hs] at hv
  simpa using hv.symm

/-! ### C65 -/

/-- What the documentation names the low bits of the type byte of a file entry: directory 1, file 2, share 3, each with 4
for Unicode names. -/
def documentedKind (low : Nat) : Option String :=
  [ (1, "Is directory"), (2, "Is file"), (3, "Is share"), (4, "Has Unicode strings"), (5, "Is Unicode directory"),
    (6, "Is Unicode file"), (7, "Is Unicode share") ].lookup low

theorem kind_reported (low : Nat) (s : String) (h : (Target.getItemShellFsFolder (low &&& 0x0F)).res = .ok s) :
    s ≠ "Is Unicode share" ∧ s ≠ "Has CLSID" ∧ (low % 8 ≠ 7 → some s = documentedKind (low % 8) ∨ (low % 8 = 0 ∧ s = "Unknown")) ∧
      (low % 8 = 7 → s = "Is Unicode directory") := by
  have e : low &&& 15 = low % 16 := Nat.and_two_pow_sub_one_eq_mod low 4
  rw [e] at h
  have h8 : low % 8 = low % 16 % 8 := by omega
  rw [h8]
  have hlt : low % 16 < 16 := Nat.mod_lt _ (by decide)
  generalize low % 16 = k at h hlt
  have key : ∀ k < 16, ∀ s ∈ (Target.getItemShellFsFolder k).res.toOption, s ≠ "Is Unicode share" ∧ s ≠ "Has CLSID" ∧
      (k % 8 ≠ 7 → some s = documentedKind (k % 8) ∨ (k % 8 = 0 ∧ s = "Unknown")) ∧
      (k % 8 = 7 → s = "Is Unicode directory") := by decide +kernel
  exact key k hlt s (by rw [h]; rfl)

/-- C65: the kind of a file entry, of arbitrary bytes, is the documented one, except that a Unicode share is reported as a
Unicode directory (violation): "Is Unicode share" is never reported, nor is "Has CLSID". -/
theorem file_entry_kind (t : Target) (s : String) (h : t.fsFlags.res = .ok s) :
    s ≠ "Is Unicode share" ∧ s ≠ "Has CLSID" ∧ ∃ b rest, t.rawTarget = b :: rest ∧
      (b.toNat % 8 ≠ 7 → some s = documentedKind (b.toNat % 8) ∨ (b.toNat % 8 = 0 ∧ s = "Unknown")) ∧
      (b.toNat % 8 = 7 → s = "Is Unicode directory") := by
  unfold Target.fsFlags Target.classTypeIndicator at h
  obtain ⟨low, h1, h2⟩ := Py.bind_ok_iff.1 h
  obtain ⟨a1, a2, a3, a4⟩ := kind_reported low s h2
  rcases hr : t.rawTarget with _ | ⟨b, rest⟩
  · rw [hr] at h1
    cases h1
  · rw [hr] at h1
    have : slice (b :: rest) 0 1 = [b] := rfl
    rw [this] at h1
    have : low = b.toNat := by
      simp only [unpackU, List.length_singleton, if_true, Py.pure_res, Except.ok.injEq, leNat] at h1
      omega
    subst this
    exact ⟨a1, a2, b, rest, rfl, a3, a4⟩

/-- C65, the same for network locations. -/
theorem network_kind (t : Target) (s : String) (h : t.networkFlags.res = .ok s) :
    s ≠ "Is Unicode share" ∧ s ≠ "Has CLSID" ∧ ∃ b rest, t.rawTarget = b :: rest ∧
      (b.toNat % 8 ≠ 7 → some s = documentedKind (b.toNat % 8) ∨ (b.toNat % 8 = 0 ∧ s = "Unknown")) ∧
      (b.toNat % 8 = 7 → s = "Is Unicode directory") :=
  file_entry_kind t s h

/-- A network location that is a share, without and with Unicode names. -/
example (tp : TextProc) : some "Is share" = documentedKind (0xC3 % 8) ∧
    (Target.networkFlags { cls := .networkLocation, tp := tp, raw := [], rawTarget := [0xC3, 1, 0x81] }).res = .ok "Is share" ∧
    (Target.networkFlags { cls := .networkLocation, tp := tp, raw := [], rawTarget := [0xC7, 1, 0x81] }).res = .ok "Is Unicode directory" :=
  ⟨by decide, by simp only [Target.networkFlags]; decide +kernel, by simp only [Target.networkFlags]; decide +kernel⟩

/-- A share with a Unicode name, well formed, reported as a directory. -/
example (tp : TextProc) : ∃ e : FileEntry, e.Valid tp ∧ e.typ.toNat % 16 = 7 ∧
    Dict.get? e.report "flags" = some (.str "Is Unicode directory".toList) := by
  refine ⟨⟨0x37, 0, 0, 0, 0, 0, ⟨utf16 "x".toList, "x".toList⟩, []⟩, ⟨by decide, ?_⟩, by decide, rfl⟩
  show if _ then _ else _
  rw [if_pos (by decide)]
  exact ⟨rfl, by decide⟩

/-- A metadata block of 12 bytes without storages: its property store has 4 bytes, the accessor says 0xA0000009. -/
example (tp : TextProc) : ∃ e x, (ExtraData.init tp false (le 4 12 ++ le 4 0xA0000009 ++ le 4 0)).res = .ok e ∧ x ∈ e.data ∧
    x.cls = .metadata ∧ x.storeSize.res = .ok 0xA0000009 := by
  refine ⟨⟨[⟨.metadata, tp, le 4 12 ++ le 4 0xA0000009 ++ le 4 0⟩]⟩, ⟨.metadata, tp, _⟩, ?_, List.mem_singleton.2 rfl, rfl, rfl⟩
  have h : Cut (le 4 12 ++ le 4 0xA0000009 ++ le 4 0) [⟨12, le 4 12 ++ le 4 0xA0000009 ++ le 4 0, some 0xA0000009⟩] [] :=
    .block (n := 12) rfl (by decide) (.stop (.inl rfl))
  rw [ExtraData.init_cut h]
  rfl

/-- A control panel category item with its signature. -/
example (tp : TextProc) (rest : Bytes) : ∃ t w,
    LnkTargets.step tp ((Item.category 0 0x39DE2184 3 []).encode ++ rest) = ⟨w, .ok (some (t, rest))⟩ ∧
      t.categorySignature = pure 0x39DE2184 := category_signature tp 0 0x39DE2184 3 [] (by decide) rest

end Verif.Props
