import Verif.Lemmas.ValuesItems

namespace Verif

open Spec Py

namespace Values

/-! ### packed GUIDs -/

theorem strFind_firstAt (s : Str) (c : Char) : strFind s c = match firstAt c s with
    | some i => (i : Int)
    | none => -1 := by
  unfold firstAt
  by_cases h : c ∈ s
  · rw [if_pos h]
    obtain ⟨pre, post, rfl, hn⟩ := List.eq_append_cons_of_mem h
    rw [Extra.strFind_append hn, List.takeWhile_append_of_pos]
    · simp
    · intro x hx
      simp only [ne_eq, decide_eq_true_eq]
      rintro rfl
      exact hn hx
  · rw [if_neg h, Extra.strFind_none h]

theorem strFind_digit (c : Char) : strFind base85 c = digit85 c := by
  rw [strFind_firstAt]
  rfl

theorem hexChar_upper {d : Nat} (h : d < 16) : hexChar true d = d.digitChar.toUpper := by
  have : ∀ d : Fin 16, hexChar true d.1 = d.1.digitChar.toUpper := by decide
  exact this ⟨d, h⟩

theorem hexStr_upper (n : Nat) : hexStr true n = (Nat.toDigits 16 n).map Char.toUpper := by
  induction n using Nat.strongRecOn with
  | ind n ih =>
    rw [hexStr]
    split
    · rename_i h
      rw [Nat.toDigits_of_lt_base h, hexChar_upper h]
      rfl
    · rename_i h
      rw [ih (n / 16) (by omega), hexChar_upper (by omega)]
      conv_rhs => rw [Nat.toDigits_eq_if (by omega), if_neg h]
      simp

theorem fmtXInt_hexWord (v : Int) : fmtXInt 8 v = hexWord v := by
  rcases v with n | n
  · show zpad 8 (hexStr true n) = _
    unfold hexWord zpad
    rw [hexStr_upper, if_neg (by simp)]
    rfl
  · show '-' :: zpad 7 (hexStr true (n + 1)) = _
    unfold hexWord zpad
    rw [hexStr_upper, if_pos (Int.negSucc_lt_zero n)]
    rfl

theorem quad_ok {q h : Str} (hl : q.length ≤ 5) (hq : (quadToHex q).res = .ok h) : q.length = 5 ∧ h = hexWord (word85 q) := by
  unfold quadToHex at hq
  obtain ⟨v, h1, h2⟩ := bind_ok_iff.1 hq
  rcases q with _ | ⟨a, _ | ⟨b, _ | ⟨c, _ | ⟨d, _ | ⟨e, _ | ⟨f, q⟩⟩⟩⟩⟩⟩
  all_goals simp [quadLoop, raise] at h1 hl
  · refine ⟨rfl, ?_⟩
    simp only [pure_res, Except.ok.injEq] at h2
    rw [← h2, fmtXInt_hexWord, ← h1]
    congr 1
    simp only [strFind_digit, word85, List.foldr_cons, List.foldr_nil]
    ring
  

theorem packed_ok {t : Str} {r : Option Str} (h : (parsePackedUuid (some t)).res = .ok r) : 20 ≤ t.length ∧ r = some (unpacked t) := by
  unfold parsePackedUuid at h
  obtain ⟨a, h1, h⟩ := bind_ok_iff.1 h
  obtain ⟨b, h2, h⟩ := bind_ok_iff.1 h
  obtain ⟨c, h3, h⟩ := bind_ok_iff.1 h
  obtain ⟨d, h4, h⟩ := bind_ok_iff.1 h
  have h1 := quad_ok (by simp [slice_length]) h1
  have h2 := quad_ok (by simp [slice_length]) h2
  have h3 := quad_ok (by simp [slice_length]) h3
  have h4 := quad_ok (by simp [slice_length]) h4
  refine ⟨?_, ?_⟩
  · have := h4.1
    rw [slice_length] at this
    omega
  · simp only [pure_res, Except.ok.injEq] at h
    rw [← h, h1.2, h2.2, h3.2, h4.2]
    unfold unpacked
    simp [slice]

theorem unpacked_packed (g : Guid) (rest : Str) : unpacked (g.packed ++ rest) = g.text := by
  have h := packed_ok (t := g.packed ++ rest) (r := some g.text) (by rw [parsePackedUuid_packed]; rfl)
  exact (Option.some.inj h.2).symm

/-! ### descriptors -/

theorem strFind_of_none {s : Str} {c : Char} (h : firstAt c s = none) : strFind s c = -1 := by rw [strFind_firstAt, h]

theorem strFind_of_some {s : Str} {c : Char} {i : Nat} (h : firstAt c s = some i) : strFind s c = i := by rw [strFind_firstAt, h]

theorem feature_values {x : Extra} {s : Str} {r : Option Str} (hs : x.darwinDataUnicode.res = .ok s) (h : x.featureName.res = .ok r) :
    PyVal.opt .str r = featureName s := by
  unfold Extra.featureName at h
  obtain ⟨s', h1, h⟩ := bind_ok_iff.1 h
  obtain rfl : s = s' := Except.ok.inj (hs.symm.trans h1)
  clear h1
  dsimp only at h
  have key : ∀ k : Nat, max (strFind s '>') (strFind s '<') = (k : Int) →
      PyVal.opt .str r = if k = 20 then PyVal.none else .str ((s.take k).drop 20) := by
    intro k hk
    rw [hk] at h
    split at h
    · rw [if_pos (by omega), ← Except.ok.inj h]
      rfl
    · rw [if_neg (by omega), ← Except.ok.inj h]
      show PyVal.str (Extra.sliceTo s 20 _) = _
      unfold Extra.sliceTo slice
      rw [if_neg (by omega)]
      simp [List.drop_take]
  unfold featureName
  rcases hi : firstAt '>' s with _ | i <;> rcases hj : firstAt '<' s with _ | j <;> dsimp only
  · rw [strFind_of_none hi, strFind_of_none hj, if_neg (by decide)] at h
    rw [← Except.ok.inj h]
    show PyVal.str (Extra.sliceTo s 20 (-1)) = _
    unfold Extra.sliceTo slice
    rw [if_pos (by decide), List.drop_take]
    congr 3
    omega
  · exact key j (by rw [strFind_of_none hi, strFind_of_some hj]; omega)
  · exact key i (by rw [strFind_of_some hi, strFind_of_none hj]; omega)
  · exact key (max i j) (by rw [strFind_of_some hi, strFind_of_some hj]; omega)

theorem darwin_values {x : Extra} {d : Dict} (h : x.darwinFields.res = .ok d) :
    ∃ s, WideText (between x.raw 268 788) s ∧
      Fits d (("darwin_data_ansi", Narrow x.tp (between x.raw 8 268)) :: descriptorEntries s) := by
  unfold Extra.darwinFields at h
  obtain ⟨a, h1, h⟩ := bind_ok_iff.1 h
  obtain ⟨s, h2, h⟩ := bind_ok_iff.1 h
  obtain ⟨p, h3, h⟩ := bind_ok_iff.1 h
  obtain ⟨f, h4, h⟩ := bind_ok_iff.1 h
  obtain ⟨c, h5, h⟩ := bind_ok_iff.1 h
  rw [← Except.ok.inj h]
  clear h
  refine ⟨s, (wideText_iff _ _).1 h2, rfl, narrow h1, rfl, rfl, rfl, ?_, rfl, feature_values h2 h4, rfl, ?_, trivial⟩
  · unfold Extra.productCodeId at h3
    obtain ⟨s', e, h3⟩ := bind_ok_iff.1 h3
    obtain rfl : s = s' := Except.ok.inj (h2.symm.trans e)
    obtain ⟨hl, hr⟩ := packed_ok h3
    show PyVal.opt PyVal.str p = PyVal.str (unpacked s)
    rw [hr]
    have : unpacked (slice s 0 20) = unpacked s := by
      unfold unpacked slice
      simp [List.drop_take, List.take_take]
    rw [this]
    rfl
  · unfold Extra.componentId at h5
    obtain ⟨s', e, h5⟩ := bind_ok_iff.1 h5
    obtain rfl : s = s' := Except.ok.inj (h2.symm.trans e)
    dsimp only at h5 ⊢
    rcases hi : firstAt '>' s with _ | i
    · rw [strFind_of_none hi, if_pos rfl] at h5
      rw [← Except.ok.inj h5]
      rfl
    · rw [strFind_of_some hi, if_neg (by omega)] at h5
      obtain ⟨hl, hr⟩ := packed_ok h5
      rw [hr]
      rfl

/-! ### properties -/

theorem records_ok {b : Bytes} {l : List Bytes} (h : (Metadata.sizeChain b).res = .ok l) : Records b l := by
  induction hn : b.length using Nat.strongRecOn generalizing b l with
  | ind n ih =>
    rw [Metadata.sizeChain_eq] at h
    obtain ⟨k, h1, h⟩ := bind_ok_iff.1 h
    have h1 : uAt 4 b 0 = some k := (uAt_iff_ok (by omega)).1 h1
    split at h
    · rename_i h0
      subst h0
      rw [← Except.ok.inj h]
      exact .stop h1
    · rename_i h0
      split at h
      · rename_i hlt
        obtain ⟨more, h2, h⟩ := bind_ok_iff.1 h
        rw [← Except.ok.inj h]
        exact .next h1 h0 (ih _ (by omega) h2 rfl)
      · simp [raise] at h

theorem collect_ok {f : Bytes → Py Dict} {es : Bytes → Entries} (hf : ∀ b d, (f b).res = .ok d → Fits d (es b)) {l : List Bytes}
    {vs : List PyVal} (h : (Metadata.collect f l).res = .ok vs) : FitsEach es vs l := by
  induction l generalizing vs with
  | nil =>
    rw [← Except.ok.inj h]
    trivial
  | cons x xs ih =>
    obtain ⟨d, h1, h⟩ := bind_ok_iff.1 h
    obtain ⟨ds, h2, h⟩ := bind_ok_iff.1 h
    rw [← Except.ok.inj h]
    exact ⟨⟨d, rfl, hf x d h1⟩, ih h2⟩

theorem typed_values {v : Bytes} {x : PyVal} {t : Nat} {name : String} (h : (Metadata.typedValue v).res = .ok x)
    (ht : (Metadata.valueType v).res = .ok t) (hn : (Metadata.propertyTypeName t).res = .ok name) :
    Fits [("value", x), ("value_type", .lit name)] (typedEntries v) := by
  have ht' : uAt 2 v 0 = some t := (uAt_iff_ok (by omega)).1 ht
  rw [Metadata.propertyTypeName_eq] at hn
  refine ⟨rfl, ?_, rfl, ⟨t, name, ht', ?_, rfl⟩, trivial⟩
  · unfold Metadata.typedValue at h
    obtain ⟨p, h1, h⟩ := bind_ok_iff.1 h
    have hp : uAt 2 v 2 = some p := (uAt_iff_ok (by omega)).1 h1
    refine ⟨t, p, ht', hp, ?_⟩
    split at h
    · rename_i h0
      rw [if_neg (fun hh => h0 hh.1)]
      exact (Except.ok.inj h).symm
    · rename_i h0
      obtain ⟨t', e, h⟩ := bind_ok_iff.1 h
      obtain rfl : t = t' := Except.ok.inj (ht.symm.trans e)
      split at h
      · obtain ⟨i, h2, h⟩ := bind_ok_iff.1 h
        obtain ⟨k, h2, -⟩ := unpackI_ok h2
        unfold unpackU at h2
        rw [if_neg (by rw [slice_length]; omega)] at h2
        simp [raise] at h2
      · split at h
        · rename_i h1F
          rw [if_pos ⟨by omega, h1F⟩]
          obtain ⟨n, h2, h⟩ := bind_ok_iff.1 h
          obtain ⟨text, h3, h⟩ := bind_ok_iff.1 h
          rw [← Except.ok.inj h]
          exact ⟨n, (uAt_iff_ok (by omega)).1 h2, wide h3⟩
        · rename_i h1F
          rw [if_neg (fun hh => h1F hh.2)]
          exact (Except.ok.inj h).symm
  · rcases hm : typeName t with _ | m
    · rw [hm] at hn
      simp [raise] at hn
    · rw [hm] at hn
      rw [← Except.ok.inj hn]

theorem integerName_values {v : Bytes} {d : Dict} (h : (Metadata.integerNameAsDict v).res = .ok d) : Fits d (propertyEntries false v) := by
  unfold Metadata.integerNameAsDict at h
  obtain ⟨a, h1, h⟩ := bind_ok_iff.1 h
  obtain ⟨b, h2, h⟩ := bind_ok_iff.1 h
  obtain ⟨x, h3, h⟩ := bind_ok_iff.1 h
  obtain ⟨t, h4, h⟩ := bind_ok_iff.1 h
  obtain ⟨n, h5, h⟩ := bind_ok_iff.1 h
  rw [← Except.ok.inj h]
  exact fits_append (d := [("value_size", .nat a), ("id", .nat b)])
    ⟨rfl, natAt (by omega) h1, rfl, natAt (by omega) h2, trivial⟩ (typed_values h3 h4 h5)

theorem stringName_values {v : Bytes} {d : Dict} (h : (Metadata.stringNameAsDict v).res = .ok d) : Fits d (propertyEntries true v) := by
  unfold Metadata.stringNameAsDict at h
  obtain ⟨a, h1, h⟩ := bind_ok_iff.1 h
  obtain ⟨b, h2, h⟩ := bind_ok_iff.1 h
  obtain ⟨s, hs, h⟩ := bind_ok_iff.1 h
  obtain ⟨x, h3, h⟩ := bind_ok_iff.1 h
  obtain ⟨t, h4, h⟩ := bind_ok_iff.1 h
  obtain ⟨n, h5, h⟩ := bind_ok_iff.1 h
  rw [← Except.ok.inj h]
  have e : u4 v 4 = b := by unfold u4; rw [(uAt_iff_ok (by omega)).1 h2]; rfl
  unfold propertyEntries
  rw [if_pos rfl, e]
  exact fits_append (d := [("value_size", .nat a), ("name_size", .nat b), ("name", .str s)])
    ⟨rfl, natAt (by omega) h1, rfl, natAt (by omega) h2, rfl, wide hs, trivial⟩ (typed_values h3 h4 h5)

theorem storage_values {b : Bytes} {d : Dict} (h : (Metadata.storageAsDict b).res = .ok d) : Fits d (storageEntries b) := by
  unfold Metadata.storageAsDict at h
  obtain ⟨n, h1, h⟩ := bind_ok_iff.1 h
  obtain ⟨v, h2, h⟩ := bind_ok_iff.1 h
  obtain ⟨i, h3, h⟩ := bind_ok_iff.1 h
  obtain ⟨i', h3', h⟩ := bind_ok_iff.1 h
  obtain rfl : i = i' := Except.ok.inj (h3.symm.trans h3')
  obtain ⟨l, h4, h⟩ := bind_ok_iff.1 h
  obtain ⟨vs, h5, h⟩ := bind_ok_iff.1 h
  rw [← Except.ok.inj h]
  clear h
  obtain ⟨g, hg, hi⟩ := guidAt h3
  refine ⟨rfl, natAt (by omega) h1, rfl, ⟨v, (uAt_iff_ok (by omega)).1 h2, by rw [pyHex_eq]⟩, rfl, ⟨g, hg, hi⟩, rfl,
    ⟨vs, l, rfl, records_ok h4, collect_ok (fun x dx hx => ?_) h5⟩, trivial⟩
  have hi : i = g.text := by simpa using hi
  have hg : between b 8 24 = g.encode := hg
  by_cases hf : g = stringNamedFormat
  · rw [if_pos (by rw [hi]; exact (Metadata.formatText_inj g).2 hf)] at hx
    rw [hg, hf, decide_eq_true rfl]
    exact stringName_values hx
  · rw [if_neg (by rw [hi]; exact fun h => hf ((Metadata.formatText_inj g).1 h))] at hx
    rw [hg, decide_eq_false]
    · exact integerName_values hx
    · intro he
      apply hf
      have := congrArg (fun b => (parseUuid b).res) he
      simp only [parseUuid_encode, pure_res, Except.ok.injEq] at this
      exact (Metadata.formatText_inj g).1 (this.trans ((Metadata.formatText_inj _).2 rfl))

/-! ### blocks -/

theorem extraKind_unknown {s : Nat} (h : s ∉ extraKinds.map Prod.fst) : extraKind s = .unknown := by
  unfold extraKind
  have : extraKinds.lookup s = none := by
    rw [List.lookup_eq_none_iff]
    intro kv hkv
    rw [bne_iff_ne]
    rintro rfl
    exact h (List.mem_map_of_mem hkv)
  rw [this]
  rfl

theorem block_values {tp : TextProc} (hcp : ∀ b, Only (fun e => e ≠ .keyError) (tp.ansiToStr b)) {s : Nat} {p : Piece} {d : Dict}
    (hu : uAt 4 p.bytes 0 = some p.declared) (hl : p.bytes.length ≤ p.declared)
    (h : (Extra.asDict ⟨extraKind s, tp, p.bytes⟩).res = .ok d) : BlockReport tp s p d := by
  unfold Extra.asDict at h
  rw [ExtraData.size_eq _ (Extra.extraKind_ne_terminal s), hu, pure_bind] at h
  obtain ⟨fs, h, h'⟩ := bind_ok_iff.1 h
  rw [← Except.ok.inj h']
  clear h'
  refine ⟨fs, rfl, ?_⟩
  unfold blockFields
  by_cases h1 : s = 0xA0000001
  · subst h1
    rw [if_pos (.inl rfl)]
    obtain ⟨a, e1, h⟩ := bind_ok_iff.1 h
    obtain ⟨w, e2, h⟩ := bind_ok_iff.1 h
    rw [← Except.ok.inj h]
    exact ⟨rfl, narrow e1, rfl, wide e2, trivial⟩
  by_cases h7 : s = 0xA0000007
  · subst h7
    rw [if_pos (.inr rfl)]
    obtain ⟨a, e1, h⟩ := bind_ok_iff.1 h
    obtain ⟨w, e2, h⟩ := bind_ok_iff.1 h
    rw [← Except.ok.inj h]
    exact ⟨rfl, narrow e1, rfl, wide e2, trivial⟩
  rw [if_neg (by omega)]
  by_cases h2 : s = 0xA0000002
  · subst h2
    rw [if_pos rfl]
    obtain ⟨a1, e1, h⟩ := bind_ok_iff.1 h
    obtain ⟨a2, e2, h⟩ := bind_ok_iff.1 h
    obtain ⟨a3, e3, h⟩ := bind_ok_iff.1 h
    obtain ⟨a4, e4, h⟩ := bind_ok_iff.1 h
    obtain ⟨a5, e5, h⟩ := bind_ok_iff.1 h
    obtain ⟨a6, e6, h⟩ := bind_ok_iff.1 h
    obtain ⟨a7, e7, h⟩ := bind_ok_iff.1 h
    obtain ⟨a8, e8, h⟩ := bind_ok_iff.1 h
    obtain ⟨a9, e9, h⟩ := bind_ok_iff.1 h
    obtain ⟨b1, f1, h⟩ := bind_ok_iff.1 h
    obtain ⟨b2, f2, h⟩ := bind_ok_iff.1 h
    obtain ⟨b3, f3, h⟩ := bind_ok_iff.1 h
    obtain ⟨b4, f4, h⟩ := bind_ok_iff.1 h
    obtain ⟨b5, f5, h⟩ := bind_ok_iff.1 h
    obtain ⟨b6, f6, h⟩ := bind_ok_iff.1 h
    obtain ⟨b7, f7, h⟩ := bind_ok_iff.1 h
    obtain ⟨b8, f8, h⟩ := bind_ok_iff.1 h
    obtain ⟨b9, f9, h⟩ := bind_ok_iff.1 h
    obtain ⟨c1, g1, h⟩ := bind_ok_iff.1 h
    obtain ⟨c2, g2, h⟩ := bind_ok_iff.1 h
    obtain ⟨c3, g3, h⟩ := bind_ok_iff.1 h
    rw [← Except.ok.inj h]
    exact ⟨rfl, natAt (by omega) e1, rfl, natAt (by omega) e2, rfl, intAt (by omega) e3, rfl, intAt (by omega) e4,
      rfl, intAt (by omega) e5, rfl, intAt (by omega) e6, rfl, intAt (by omega) e7, rfl, intAt (by omega) e8,
      rfl, natAt (by omega) e9, rfl, natAt (by omega) f1, rfl, natAt (by omega) f2, rfl, wide f3, rfl, natAt (by omega) f4,
      rfl, natAt (by omega) f5, rfl, natAt (by omega) f6, rfl, natAt (by omega) f7, rfl, natAt (by omega) f8,
      rfl, natAt (by omega) f9, rfl, natAt (by omega) g1, rfl, natAt (by omega) g2, rfl, natAt (by omega) g3, trivial⟩
  rw [if_neg h2]
  by_cases h3 : s = 0xA0000003
  · subst h3
    rw [if_pos rfl]
    obtain ⟨a1, e1, h⟩ := bind_ok_iff.1 h
    obtain ⟨a2, e2, h⟩ := bind_ok_iff.1 h
    obtain ⟨a3, e3, h⟩ := bind_ok_iff.1 h
    obtain ⟨a4, e4, h⟩ := bind_ok_iff.1 h
    obtain ⟨a5, e5, h⟩ := bind_ok_iff.1 h
    obtain ⟨a6, e6, h⟩ := bind_ok_iff.1 h
    obtain ⟨a7, e7, h⟩ := bind_ok_iff.1 h
    rw [← Except.ok.inj h]
    exact ⟨rfl, natAt (by omega) (mustBe_ok e1), rfl, natAt (by omega) (mustBe_ok e2), rfl, narrow e3, rfl, guidAt e4, rfl, guidAt e5,
      rfl, guidAt e6, rfl, guidAt e7, trivial⟩
  rw [if_neg h3]
  by_cases h4 : s = 0xA0000004
  · subst h4
    rw [if_pos rfl]
    obtain ⟨a1, e1, h⟩ := bind_ok_iff.1 h
    rw [← Except.ok.inj h]
    exact ⟨rfl, natAt (by omega) e1, trivial⟩
  rw [if_neg h4]
  by_cases h5 : s = 0xA0000005
  · subst h5
    rw [if_pos rfl]
    obtain ⟨a1, e1, h⟩ := bind_ok_iff.1 h
    obtain ⟨a2, e2, h⟩ := bind_ok_iff.1 h
    rw [← Except.ok.inj h]
    exact ⟨rfl, natAt (by omega) e1, rfl, natAt (by omega) e2, trivial⟩
  rw [if_neg h5]
  by_cases h6 : s = 0xA0000006
  · subst h6
    rw [if_pos rfl]
    exact darwin_values h
  rw [if_neg h6]
  by_cases h8 : s = 0xA0000008
  · subst h8
    rw [if_pos rfl]
    obtain ⟨a1, e1, h⟩ := bind_ok_iff.1 h
    rw [← Except.ok.inj h]
    exact ⟨rfl, narrow e1, trivial⟩
  rw [if_neg h8]
  by_cases h9 : s = 0xA0000009
  · subst h9
    rw [if_pos rfl]
    obtain ⟨vs, e1, h⟩ := bind_ok_iff.1 h
    rw [← Except.ok.inj h]
    obtain ⟨l, e2, e3⟩ := bind_ok_iff.1 e1
    exact ⟨rfl, ⟨vs, l, rfl, records_ok e2, collect_ok (fun _ _ hx => storage_values hx) e3⟩, trivial⟩
  rw [if_neg h9]
  by_cases hB : s = 0xA000000B
  · subst hB
    rw [if_pos rfl]
    obtain ⟨a1, e1, h⟩ := bind_ok_iff.1 h
    obtain ⟨a2, e2, h⟩ := bind_ok_iff.1 h
    rw [← Except.ok.inj h]
    exact ⟨rfl, guidAt e1, rfl, natAt (by omega) e2, trivial⟩
  rw [if_neg hB]
  by_cases hC : s = 0xA000000C
  · subst hC
    rw [if_pos rfl]
    obtain ⟨l, e1, h⟩ := bind_ok_iff.1 h
    rw [← Except.ok.inj h]
    refine ⟨rfl, ⟨l, rfl, ?_⟩, trivial⟩
    rw [Extra.shellItemIter_eq (n := p.declared) (by
      show unpackU 4 (slice p.bytes 0 4) = _
      rw [show slice p.bytes 0 4 = slice p.bytes 0 (0 + 4) from rfl, unpackU_slice p.bytes 4 0 (by omega), hu])] at e1
    have : slice p.bytes 8 p.declared = p.bytes.drop 8 := by
      unfold slice
      rw [List.take_of_length_le (by rw [List.length_drop]; omega)]
    rw [this] at e1
    exact items_values hcp e1
  rw [if_neg hC]
  have hk : extraKind s = .unknown := extraKind_unknown (by simp [extraKinds]; omega)
  rw [hk] at h
  rw [← Except.ok.inj h]
  exact ⟨rfl, rfl, trivial⟩

/-! ### the order of the names -/

theorem filter_firsts_firsts {l : List String} {K : List String} {a : String} (ha : a ∉ K) :
    (firsts (a :: l)).filter (· ∉ K) = a :: (firsts l).filter (· ∉ K ++ [a]) := by
  rw [firsts, List.filter_cons_of_pos (by simpa using ha), List.filter_filter]
  congr 1
  apply List.filter_congr
  intro x _
  simp only [List.mem_append, List.mem_singleton, not_or, ne_eq, decide_not, Bool.decide_and]

theorem filter_firsts_mem {l : List String} {K : List String} {a : String} (ha : a ∈ K) :
    (firsts (a :: l)).filter (· ∉ K) = (firsts l).filter (· ∉ K) := by
  rw [firsts, List.filter_cons_of_neg (by simpa using ha), List.filter_filter]
  apply List.filter_congr
  intro x _
  by_cases hx : x ∈ K
  · simp [hx]
  · have : x ≠ a := fun h => hx (h ▸ ha)
    simp [hx, this]

theorem mem_firsts {l : List String} {a : String} : a ∈ firsts l ↔ a ∈ l := by
  induction l with
  | nil => rfl
  | cons b l ih =>
    rw [firsts, List.mem_cons, List.mem_cons, List.mem_filter, ih]
    by_cases h : a = b <;> simp [h]

theorem nodup_firsts (l : List String) : (firsts l).Nodup := by
  induction l with
  | nil => exact .nil
  | cons b l ih =>
    rw [firsts, List.nodup_cons]
    exact ⟨by simp, ih.filter _⟩

/-- The names under which blocks are reported. -/
def okNames (xs : List Extra) : List String := xs.filterMap fun x => match x.asDict.res with
  | .ok _ => some x.cls.name
  | .error _ => none

theorem keys_set_firsts (res : Dict) (k : String) (v : PyVal) (l : List String) :
    (res.set k v).keys ++ (firsts l).filter (· ∉ (res.set k v).keys) = res.keys ++ (firsts (k :: l)).filter (· ∉ res.keys) := by
  rw [Dict.keys_set]
  by_cases h : k ∈ res.keys
  · rw [if_pos h, filter_firsts_mem h]
  · rw [if_neg h, filter_firsts_firsts h, List.append_assoc]
    rfl

theorem keys_set_set (d : Dict) (k : String) (v w : PyVal) : ((d.set k v).set k w).keys = (d.set k v).keys := by
  rw [Dict.keys_set, if_pos]
  rw [Dict.keys_set]
  split
  · assumption
  · simp

theorem asDictLoop_keys {xs : List Extra} (hu : ∀ x ∈ xs, x.cls = .unknown → ∃ d, x.asDict.res = .ok d) {res E : Dict}
    (h : (ExtraData.asDictLoop xs res).res = .ok E) : E.keys = res.keys ++ (firsts (okNames xs)).filter (· ∉ res.keys) := by
  induction xs generalizing res with
  | nil =>
    rw [← Except.ok.inj h]
    simp [okNames, firsts]
  | cons x xs ih =>
    have ih := @ih fun y hy => hu y (List.mem_cons_of_mem _ hy)
    rw [ExtraData.asDictLoop] at h
    obtain ⟨r, h1, h⟩ := bind_ok_iff.1 h
    rcases hx : x.asDict.res with e | d
    · have hc : x.cls ≠ .unknown := fun hc => by
        obtain ⟨d, hd⟩ := hu x List.mem_cons_self hc
        rw [hx] at hd
        cases hd
      rw [if_neg (fun h => hc h.1)] at h
      have hn : okNames (x :: xs) = okNames xs := by
        unfold okNames
        rw [List.filterMap_cons, hx]
      rw [hn]
      unfold Py.attempt at h1
      rw [hx] at h1
      dsimp only at h1
      split at h1
      · rw [← Except.ok.inj h1] at h
        obtain ⟨_, -, h⟩ := bind_ok_iff.1 h
        exact ih h
      · cases h1
    · have hn : okNames (x :: xs) = x.cls.name :: okNames xs := by
        unfold okNames
        rw [List.filterMap_cons, hx]
      have hr : r = .ok d := by
        unfold Py.attempt at h1
        rw [hx] at h1
        exact (Except.ok.inj h1).symm
      subst hr
      rw [hn]
      dsimp only at h
      by_cases hc : x.cls = .unknown
      · rw [if_pos hc] at h
        have h := ih h
        split at h
        · rw [keys_set_set, keys_set_firsts] at h
          exact h
        · rw [keys_set_firsts] at h
          exact h
      · rw [if_neg hc, if_neg (fun h => hc h.1)] at h
        rw [ih h, keys_set_firsts]

end Values

end Verif
