import Verif.Spec.StoreTold
import Verif.Props.BlockTold

/-
C107: what the report tells about a property store.
-/

namespace Verif.Props

open Spec Py Verif.Values

namespace StoreTold

open InfoTold BlockTold

/-- Both fit lists whose entries, one by one, have the same key and leave no choice. -/
theorem all_eq {es es' : Entries} (h : List.Forall₂ (fun e e' => e.1 = e'.1 ∧ ∀ v v', e.2 v → e'.2 v' → v = v') es es') {d d' : Dict}
    (hd : Fits d es) (hd' : Fits d' es') : d = d' := by
  induction h generalizing d d' with
  | nil =>
    cases d <;> cases d' <;> simp_all [Fits]
  | cons e _ ih =>
    rcases d with _ | ⟨⟨k, v⟩, d⟩
    · simp [Fits] at hd
    · rcases d' with _ | ⟨⟨k', v'⟩, d'⟩
      · simp [Fits] at hd'
      · obtain ⟨h1, h2, h3⟩ := hd
        obtain ⟨h1', h2', h3'⟩ := hd'
        have hk : k = k' := h1.trans (e.1.trans h1'.symm)
        rw [hk, e.2 v v' h2 h2', ih h3 h3']

theorem nat_only {n : Nat} {b b' : Bytes} {off : Nat} (hn : 0 < n) (h : SameBytes b b' off (off + n)) {v v' : PyVal} (hv : NatAt n b off v)
    (hv' : NatAt n b' off v') : v = v' := by
  rw [nat_eq hn h] at hv
  obtain ⟨k, hk, rfl⟩ := hv
  obtain ⟨m, hm, rfl⟩ := hv'
  rw [hk] at hm
  cases hm
  rfl

theorem hex_only {b b' : Bytes} {off : Nat} (h : SameBytes b b' off (off + 4)) {v v' : PyVal} (hv : HexAt b off v) (hv' : HexAt b' off v') :
    v = v' := by
  obtain ⟨k, hk, rfl⟩ := hv
  obtain ⟨m, hm, rfl⟩ := hv'
  rw [bytes_num (by omega) h, hm] at hk
  cases hk
  rfl

theorem hex_same {b b' : Bytes} {off : Nat} (h : ∃ v, HexAt b off v ∧ HexAt b' off v) : SameBytes b b' off (off + 4) := by
  obtain ⟨v, ⟨k, hk, rfl⟩, ⟨m, hm, e⟩⟩ := h
  have : k = m := hex0x_inj.1 (PyVal.str.inj e)
  subst this
  exact num_bytes hk hm

theorem guid_only {b b' : Bytes} {off : Nat} (h : SameBytes b b' off (off + 16)) {v v' : PyVal} (hv : GuidAt b off v) (hv' : GuidAt b' off v') :
    v = v' := by
  obtain ⟨g, hg, rfl⟩ := hv
  obtain ⟨g', hg', rfl⟩ := hv'
  have : g.encode = g'.encode := by
    rw [← hg, ← hg']
    exact slice_same h
  exact congrArg PyVal.str (encode_inj_text this)

theorem wide_only {x y : Bytes} (h : ∀ s, WideText x s ↔ WideText y s) {v v' : PyVal} (hv : Wide x v) (hv' : Wide y v') : v = v' := by
  obtain ⟨s, hs, rfl⟩ := hv
  obtain ⟨t, ht, rfl⟩ := hv'
  rw [wideText_unique ((h s).1 hs) ht]

/-- The two typed values are reported alike. -/
theorem typed_same {v v' : Bytes} (h : List.Forall₂ (fun e e' => ∃ x, e.2 x ∧ e'.2 x) (typedEntries v) (typedEntries v')) :
    EqualTyped v v' := by
  simp only [typedEntries, List.forall₂_cons, List.Forall₂.nil, and_true] at h
  obtain ⟨⟨x, ⟨t, p, ht, hp, hx⟩, ⟨t', p', ht', hp', hx'⟩⟩, y, ⟨t2, n, ht2, hn, hy⟩, ⟨t2', n', ht2', hn', hy'⟩⟩ := h
  rw [ht] at ht2
  cases ht2
  rw [ht'] at ht2'
  cases ht2'
  have hnn : n = n' := by
    unfold Is at hy hy'
    rw [hy] at hy'
    exact String.toList_inj.1 (PyVal.str.inj hy')
  have htt : t = t' := (typeName_inj (by rw [hn]; rfl) (by rw [hn']; rfl)).1 (by rw [hn, hn', hnn])
  subst htt
  refine ⟨num_bytes ht ht', fun h1 => ?_, fun h1 h2 => ?_⟩
  · rw [ht] at h1
    cases h1
    rw [hp, hp']
    simp only [and_true, Option.some.injEq] at hx hx' ⊢
    by_cases h0 : p = 0 <;> by_cases h0' : p' = 0 <;> simp only [h0, h0', if_true, if_false, iff_self, iff_true, true_iff] at hx hx' ⊢
    · obtain ⟨m, -, s, -, e⟩ := hx
      rw [hx'] at e
      cases e
    · obtain ⟨m, -, s, -, e⟩ := hx'
      rw [hx] at e
      cases e
  · rw [ht] at h1
    cases h1
    rw [hp] at h2
    cases h2
    rw [if_pos ⟨rfl, rfl⟩] at hx
    obtain ⟨m, hm, hw⟩ := hx
    by_cases h0' : p' = 0
    · rw [if_pos ⟨h0', rfl⟩] at hx'
      obtain ⟨m', hm', hw'⟩ := hx'
      have e : u4 v 4 = m := by simp [u4, hm]
      have e' : u4 v' 4 = m' := by simp [u4, hm']
      rw [e, e']
      exact wide_same ⟨x, hw, hw'⟩
    · rw [if_neg (fun h => h0' h.1)] at hx'
      obtain ⟨s, -, e⟩ := hw
      rw [hx'] at e
      cases e

/-- The same typed values are reported alike. -/
theorem typed_only {v v' : Bytes} (h : EqualTyped v v') :
    List.Forall₂ (fun e e' : String × (PyVal → Prop) => e.1 = e'.1 ∧ ∀ x x', e.2 x → e'.2 x' → x = x') (typedEntries v) (typedEntries v') := by
  have ht := bytes_num (n := 2) (by omega) h.type
  simp only [typedEntries, List.forall₂_cons, List.Forall₂.nil, and_true, true_and]
  constructor
  · rintro x x' ⟨t, p, h1, h2, h3⟩ ⟨t', p', h1', h2', h3'⟩
    rw [← ht, h1] at h1'
    cases h1'
    by_cases e : t = 0x1F
    · subst e
      have hi := h.isText h1
      rw [h2, h2'] at hi
      simp only [Option.some.injEq] at hi
      by_cases h0 : p = 0
      · have h0' := hi.1 h0
        subst h0
        subst h0'
        rw [if_pos ⟨rfl, rfl⟩] at h3 h3'
        obtain ⟨m, hm, hw⟩ := h3
        obtain ⟨m', hm', hw'⟩ := h3'
        have ht := h.text h1 h2
        rw [show u4 v 4 = m by simp [u4, hm], show u4 v' 4 = m' by simp [u4, hm']] at ht
        exact wide_only ht hw hw'
      · rw [if_neg (fun h => h0 h.1)] at h3
        rw [if_neg (fun h => h0 (hi.2 h.1))] at h3'
        rw [h3, h3']
    · rw [if_neg (fun h => e h.2)] at h3 h3'
      rw [h3, h3']
  · rintro x x' ⟨t, n, h1, h2, h3⟩ ⟨t', n', h1', h2', h3'⟩
    rw [← ht, h1] at h1'
    cases h1'
    rw [h2] at h2'
    cases h2'
    exact h3.trans h3'.symm

theorem property_same {named : Bool} {v v' : Bytes} {d : Dict} (h : Fits d (propertyEntries named v)) (h' : Fits d (propertyEntries named v')) :
    EqualProperty named v v' := by
  have := each h h'
  unfold propertyEntries at this
  unfold EqualProperty
  cases named
  · simp only [Bool.false_eq_true, if_false, List.cons_append, List.nil_append, List.forall₂_cons] at this ⊢
    obtain ⟨h1, h2, h3⟩ := this
    exact ⟨sameBytes_append (nat_same h1) (nat_same h2), typed_same h3⟩
  · simp only [if_true, List.cons_append, List.nil_append, List.forall₂_cons] at this ⊢
    obtain ⟨h1, h2, h3, h4⟩ := this
    exact ⟨sameBytes_append (nat_same h1) (nat_same h2), wide_same h3, typed_same h4⟩

theorem property_only {named : Bool} {v v' : Bytes} (h : EqualProperty named v v') {d d' : Dict} (hd : Fits d (propertyEntries named v))
    (hd' : Fits d' (propertyEntries named v')) : d = d' := by
  refine all_eq ?_ hd hd'
  unfold EqualProperty at h
  have h1 : SameBytes v v' 0 4 := sameBytes_sub h.1 (by omega) (by omega)
  have h2 : SameBytes v v' 4 8 := sameBytes_sub h.1 (by omega) (by omega)
  unfold propertyEntries
  cases named
  · simp only [Bool.false_eq_true, if_false, List.cons_append, List.nil_append, List.forall₂_cons, true_and] at h ⊢
    exact ⟨fun _ _ => nat_only (by omega) h1, fun _ _ => nat_only (by omega) h2, typed_only h.2⟩
  · simp only [if_true, List.cons_append, List.nil_append, List.forall₂_cons, true_and] at h ⊢
    exact ⟨fun _ _ => nat_only (by omega) h1, fun _ _ => nat_only (by omega) h2, fun _ _ => wide_only h.2.1, typed_only h.2.2⟩

/-- One list is the report of two lists of records. -/
theorem fitsEach_same {f f' : Bytes → Entries} {R : Bytes → Bytes → Prop} (hR : ∀ {d b b'}, Fits d (f b) → Fits d (f' b') → R b b') :
    ∀ {vs : List PyVal} {l l' : List Bytes}, FitsEach f vs l → FitsEach f' vs l' → List.Forall₂ R l l'
  | [], [], [], _, _ => .nil
  | [], _ :: _, _, h, _ => h.elim
  | [], [], _ :: _, _, h => h.elim
  | _ :: _, [], _, h, _ => h.elim
  | _ :: _, _ :: _, [], _, h => h.elim
  | v :: vs, b :: l, b' :: l', ⟨⟨d, e, h1⟩, h2⟩, ⟨⟨d', e', h1'⟩, h2'⟩ => by
    rw [e] at e'
    cases e'
    exact .cons (hR h1 h1') (fitsEach_same hR h2 h2')

theorem fitsEach_only {f f' : Bytes → Entries} {R : Bytes → Bytes → Prop} (hR : ∀ {d d' b b'}, R b b' → Fits d (f b) → Fits d' (f' b') → d = d')
    {l l' : List Bytes} (h : List.Forall₂ R l l') {vs vs' : List PyVal} (hv : FitsEach f vs l) (hv' : FitsEach f' vs' l') : vs = vs' := by
  induction h generalizing vs vs' with
  | nil =>
    cases vs <;> cases vs' <;> simp_all [FitsEach]
  | cons r _ ih =>
    rcases vs with _ | ⟨v, vs⟩
    · exact hv.elim
    · rcases vs' with _ | ⟨v', vs'⟩
      · exact hv'.elim
      · obtain ⟨⟨d, rfl, h1⟩, h2⟩ := hv
        obtain ⟨⟨d', rfl, h1'⟩, h2'⟩ := hv'
        rw [hR r h1 h1', ih h2 h2']

theorem storage_same {s s' : Bytes} {d : Dict} (h : Fits d (storageEntries s)) (h' : Fits d (storageEntries s')) : EqualStorage s s' := by
  have := each h h'
  simp only [storageEntries, List.forall₂_cons, List.Forall₂.nil, and_true] at this
  obtain ⟨h1, h2, h3, v, ⟨vs, l, rfl, r, hf⟩, ⟨vs', l', e, r', hf'⟩⟩ := this
  cases e
  have a3 := guid_same h3
  refine ⟨sameBytes_append (nat_same h1) (sameBytes_append (hex_same h2) a3), l, l', r, r', ?_⟩
  rw [← show between s 8 24 = between s' 8 24 from slice_same (off := 8) (n := 16) a3] at hf'
  exact fitsEach_same property_same hf hf'

theorem storage_only {s s' : Bytes} (h : EqualStorage s s') {d d' : Dict} (hd : Fits d (storageEntries s)) (hd' : Fits d' (storageEntries s')) :
    d = d' := by
  refine all_eq ?_ hd hd'
  obtain ⟨h0, l, l', r, r', hl⟩ := h
  have h1 : SameBytes s s' 0 4 := sameBytes_sub h0 (by omega) (by omega)
  have h2 : SameBytes s s' 4 8 := sameBytes_sub h0 (by omega) (by omega)
  have h3 : SameBytes s s' 8 24 := sameBytes_sub h0 (by omega) (by omega)
  simp only [storageEntries, List.forall₂_cons, List.Forall₂.nil, and_true, true_and]
  refine ⟨fun _ _ => nat_only (by omega) h1, fun _ _ => hex_only h2, fun _ _ => guid_only h3, ?_⟩
  rintro v v' ⟨vs, k, rfl, q, hf⟩ ⟨vs', k', rfl, q', hf'⟩
  rw [records_unique q r] at hf
  rw [records_unique q' r', ← show between s 8 24 = between s' 8 24 from slice_same (off := 8) (n := 16) h3] at hf'
  refine congrArg PyVal.list (fitsEach_only ?_ hl hf hf')
  intro d d' b b' r h1 h2
  exact StoreTold.property_only r h1 h2

theorem blockName_store {s : Nat} (h : blockName s = "METADATA_PROPERTIES_BLOCK") : s = 0xA0000009 := by
  unfold blockName at h
  rcases hl : blockNames.lookup s with _ | x
  · rw [hl] at h
    exact absurd h (by decide)
  · rw [hl] at h
    cases h
    obtain ⟨l₁, l₂, h1, -⟩ := List.lookup_eq_some_iff.1 hl
    have hm : (s, "METADATA_PROPERTIES_BLOCK") ∈ blockNames := by
      rw [h1]
      simp
    simpa [blockNames] using hm

end StoreTold

open StoreTold Ends in
/-- C107: two files with a property store block: what their reports say of the last one that can be reported is the same exactly if the
declared sizes, the storages and their properties are the same. -/
theorem store_told (env : Env) (cp : Option String) (hcp : UsableCodePage (TextProc.mk' env cp)) (allow allow' : Bool) (src src' : Source)
    (f f' : LnkFile) (hf : (LnkFile.init env cp allow src).res = .ok f) (hf' : (LnkFile.init env cp allow' src').res = .ok f') (j j' : Dict)
    (hj : (f.getJson true).res = .ok j) (hj' : (f'.getJson true).res = .ok j') :
    ∃ L l last L' l' last' E E', layout src.bytes = some L ∧ Cut (src.bytes.drop L.extraAt) l last ∧
      layout src'.bytes = some L' ∧ Cut (src'.bytes.drop L'.extraAt) l' last' ∧
      Dict.get? j "extra" = some (.dict E) ∧ Dict.get? j' "extra" = some (.dict E') ∧
      ∀ p p', LastReadable "METADATA_PROPERTIES_BLOCK" l p → LastReadable "METADATA_PROPERTIES_BLOCK" l' p' →
        (Dict.get? E "METADATA_PROPERTIES_BLOCK" = Dict.get? E' "METADATA_PROPERTIES_BLOCK" ↔
          p.declared = p'.declared ∧ EqualStore p.bytes p'.bytes) := by
  have key : ∀ (allow : Bool) (src : Source) (f : LnkFile) (j : Dict), (LnkFile.init env cp allow src).res = .ok f →
      (f.getJson true).res = .ok j → ∃ L l last E, layout src.bytes = some L ∧ Cut (src.bytes.drop L.extraAt) l last ∧
        Dict.get? j "extra" = some (.dict E) ∧ ExtraReport (TextProc.mk' env cp) allow l last E := by
    intro allow src f j hf hj
    obtain ⟨L, l, last, hL, hc, hv⟩ := report_values env cp hcp allow src f hf
    obtain ⟨v, h1, E, rfl, h2⟩ := value_at (k := "extra") (P := fun v => ∃ d, v = .dict d ∧ ExtraReport (TextProc.mk' env cp) allow l last d)
      (hv j hj) (by
        unfold reportEntries
        cases L.flags.testBit 0 <;> simp)
    exact ⟨L, l, last, E, hL, hc, h1, h2⟩
  obtain ⟨L, l, last, E, hL, hc, hE, hx⟩ := key allow src f j hf hj
  obtain ⟨L', l', last', E', hL', hc', hE', hx'⟩ := key allow' src' f' j' hf' hj'
  refine ⟨L, l, last, L', l', last', E, E', hL, hc, hL', hc', hE, hE', ?_⟩
  rintro p p' ⟨pre, post, e1, e2, e3⟩ ⟨pre', post', e1', e2', e3'⟩
  have sig : ∀ q : Piece, ReportedAs "METADATA_PROPERTIES_BLOCK" q → q.signature = some 0xA0000009 := by
    rintro q ⟨s, h1, h2, -⟩
    rw [h1, blockName_store h2]
  obtain ⟨d, hd, r, rfl, hr⟩ := hx.named _ pre p post _ (by decide) e1 e2 (sig p e2) e3
  obtain ⟨d', hd', r', rfl, hr'⟩ := hx'.named _ pre' p' post' _ (by decide) e1' e2' (sig p' e2') e3'
  rw [hd, hd']
  simp only [Option.some.injEq, PyVal.dict.injEq, List.cons.injEq, Prod.mk.injEq, true_and, PyVal.int.injEq, Nat.cast_inj]
  refine and_congr_right fun _ => ?_
  unfold blockFields at hr hr'
  simp only [Nat.reduceEqDiff, or_self, if_false, if_true] at hr hr'
  constructor
  · rintro rfl
    have := BlockTold.each hr hr'
    simp only [List.forall₂_cons, List.Forall₂.nil, and_true] at this
    obtain ⟨v, ⟨vs, k, rfl, q, hv⟩, ⟨vs', k', e, q', hv'⟩⟩ := this
    cases e
    exact ⟨k, k', q, q', fitsEach_same StoreTold.storage_same hv hv'⟩
  · rintro ⟨k, k', q, q', h⟩
    refine all_eq ?_ hr hr'
    simp only [List.forall₂_cons, List.Forall₂.nil, and_true, true_and]
    rintro v v' ⟨vs, m, rfl, w, hv⟩ ⟨vs', m', rfl, w', hv'⟩
    rw [records_unique w q] at hv
    rw [records_unique w' q'] at hv'
    refine congrArg PyVal.list (fitsEach_only ?_ h hv hv')
    intro d d' b b' r h1 h2
    exact StoreTold.storage_only r h1 h2

/-- A property of type VT_LPWSTR with the text "a", which occupies `n` units followed by `rest`, and the end of the properties. -/
def textProperty (size reserved : UInt8) (n : Nat) (rest : Bytes) : Bytes :=
  le 4 size.toNat ++ le 4 5 ++ [reserved] ++ (le 2 0x1F ++ le 2 0 ++ le 4 n ++ [97, 0, 0, 0] ++ rest) ++ le 4 0

/-- The byte that is reserved, the length of the text and what stands behind its zero do not count. -/
example : EqualProperty false (textProperty 25 0 2 [1, 2, 3, 4]) (textProperty 25 7 4 [5, 6, 7, 8]) := by
  have ht : SameBytes ((textProperty 25 0 2 [1, 2, 3, 4]).drop 9) ((textProperty 25 7 4 [5, 6, 7, 8]).drop 9) 0 2 := by
    intro k _ h
    revert h k
    decide +kernel
  refine ⟨fun k _ h => ?_, ?_⟩
  · revert h k
    decide +kernel
  · rw [if_neg (by decide)]
    refine ⟨ht, fun _ => by decide +kernel, fun _ _ s => ?_⟩
    have text : ∀ rest : Bytes, WideText ([97, 0, 0, 0] ++ rest) ['a'] := fun rest =>
      ⟨[97], by decide, .inr ⟨rest, by simp [units, le], by
        have : Utf16Lenient (utf16 ['a']) ['a'] := .char 'a' .nil
        rwa [show utf16 ['a'] = units [97] by decide +kernel] at this⟩⟩
    have e1 : between ((textProperty 25 0 2 [1, 2, 3, 4]).drop 9) 8 (8 + u4 ((textProperty 25 0 2 [1, 2, 3, 4]).drop 9) 4 * 2) =
        [97, 0, 0, 0] ++ [] := by decide +kernel
    have e2 : between ((textProperty 25 7 4 [5, 6, 7, 8]).drop 9) 8 (8 + u4 ((textProperty 25 7 4 [5, 6, 7, 8]).drop 9) 4 * 2) =
        [97, 0, 0, 0] ++ [5, 6, 7, 8] := by decide +kernel
    rw [e1, e2]
    exact ⟨fun h => wideText_unique (text _) h ▸ text _, fun h => wideText_unique (text _) h ▸ text _⟩

/-- The size does. -/
example : ¬ EqualProperty false (textProperty 25 0 2 [1, 2, 3, 4]) (textProperty 21 0 2 [1, 2, 3, 4]) := by
  intro h
  have := h.1 0 (by omega) (by omega)
  revert this
  decide +kernel

/-- A store with one storage of one property is the last that can be reported under its name. -/
example :
    let b := le 4 68 ++ le 4 0xA0000009 ++ (le 4 56 ++ le 4 0x53505331 ++ List.replicate 16 3 ++ textProperty 25 0 2 [1, 2, 3, 4] ++ [0, 0, 0]) ++ le 4 0
    LastReadable "METADATA_PROPERTIES_BLOCK" [⟨68, b, some 0xA0000009⟩] ⟨68, b, some 0xA0000009⟩ := by
  refine ⟨[], [], rfl, ⟨0xA0000009, rfl, by decide +kernel, ?_⟩, by simp⟩
  unfold BlockReadable
  simp only [Nat.reduceEqDiff, if_false, if_true]
  refine ⟨[_], .next (n := 56) (by decide +kernel) (by decide) (.stop (by decide +kernel)), fun s hs => ?_⟩
  rw [List.mem_singleton] at hs
  subst hs
  refine ⟨by decide +kernel, [_], .next (n := 25) (by decide +kernel) (by decide) (.stop (by decide +kernel)), fun v hv => ?_⟩
  rw [List.mem_singleton] at hv
  subst hv
  exact ⟨5, by decide +kernel, 0x1F, 0, by decide +kernel, by decide +kernel, by decide +kernel, by decide +kernel⟩

end Verif.Props
