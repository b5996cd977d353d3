import Verif.Lemmas.FaultExtra
import Verif.Lemmas.FaultInfo
import Verif.Props.Guid
import Verif.Spec.Reported

/-
When an extra block can be reported.
-/

namespace Verif

open Spec Py

/-- `x` returns exactly if `c` holds. -/
def Py.OkIff (c : Prop) (x : Py α) : Prop := (∃ a, x.res = .ok a) ↔ c

namespace Py

theorem OkIff.congr {c d : Prop} {x : Py α} (h : OkIff c x) (hcd : c ↔ d) : OkIff d x := h.trans hcd

theorem When.okIff {c : Prop} {x : Py α} (h : When c x) : OkIff c x := by
  refine ⟨fun ⟨a, ha⟩ => ?_, h.ok⟩
  by_contra hc
  rw [h.err hc] at ha
  cases ha

theorem okIff_bind {c d : Prop} {x : Py α} {f : α → Py β} (hx : OkIff c x) (hf : ∀ a, x.res = .ok a → OkIff d (f a)) :
    OkIff (c ∧ d) (x >>= f) := by
  constructor
  · rintro ⟨b, hb⟩
    obtain ⟨a, ha, hb⟩ := bind_ok_iff.1 hb
    exact ⟨hx.1 ⟨a, ha⟩, (hf a ha).1 ⟨b, hb⟩⟩
  · rintro ⟨hc, hd⟩
    obtain ⟨a, ha⟩ := hx.2 hc
    obtain ⟨b, hb⟩ := (hf a ha).2 hd
    exact ⟨b, bind_ok_iff.2 ⟨a, ha, hb⟩⟩

theorem okIff_pure (a : α) : OkIff True (pure a : Py α) := (when_pure a).okIff

end Py

theorem uAt_iff_ok {n off : Nat} {b : Bytes} (hn : 0 < n) {v : Nat} :
    (unpackU n (slice b off (off + n))).res = .ok v ↔ uAt n b off = some v := by
  rw [unpackU_slice b n off hn]
  rcases uAt n b off with _ | w
  · simp [Py.raise]
  · simp

theorem Guid_encode_inj {g g' : Guid} (h : g.encode = g'.encode) : g = g' := by
  have h1 := parseUuid_encode g
  rw [h, parseUuid_encode] at h1
  have h2 : (pure g'.text : Py Str).res = (pure g.text : Py Str).res := by rw [h1]
  rw [pure_res, pure_res] at h2
  exact (Guid_text_inj (Except.ok.inj h2)).symm

namespace Metadata

theorem sizeChain_iff (b : Bytes) (l : List Bytes) : (sizeChain b).res = .ok l ↔ Records b l := by
  induction hb : b.length using Nat.strong_induction_on generalizing b l with
  | _ k ih =>
  subst hb
  rw [sizeChain_eq]
  have hu := unpackU_slice b 4 0 (by omega)
  rw [Nat.zero_add] at hu
  rw [hu]
  rcases h0 : uAt 4 b 0 with _ | _ | n
  · constructor
    · intro h; cases h
    · rintro (h | ⟨h, -, -⟩) <;> rw [h0] at h <;> cases h
  · dsimp only
    rw [pure_bind, if_pos rfl]
    constructor
    · intro h; cases h; exact .stop h0
    · rintro (h | ⟨h, hn, -⟩)
      · rfl
      · rw [h0] at h; cases h; exact absurd rfl hn
  · dsimp only
    have hl := ExtraData.uAt_some_length h0
    have hlt : (b.drop (n + 1)).length < b.length := by simp; omega
    rw [pure_bind, if_neg (by omega), if_pos hlt, bind_ok_iff]
    constructor
    · rintro ⟨more, h1, h2⟩
      cases h2
      exact .next h0 (by omega) ((ih _ hlt _ _ rfl).1 h1)
    · rintro (h | ⟨h, -, hr⟩)
      · rw [h0] at h; cases h
      · rw [h0] at h
        cases h
        exact ⟨_, (ih _ hlt _ _ rfl).2 hr, rfl⟩

theorem collect_okIff {f : Bytes → Py Dict} {P : Bytes → Prop} (l : List Bytes) (h : ∀ v ∈ l, OkIff (P v) (f v)) :
    OkIff (∀ v ∈ l, P v) (collect f l) := by
  induction l with
  | nil => exact (okIff_pure _).congr (by simp)
  | cons x l ih =>
    unfold collect
    refine (okIff_bind (h x (by simp)) fun _ _ => okIff_bind (ih fun v hv => h v (by simp [hv])) fun _ _ =>
      okIff_pure _).congr ?_
    simp

theorem chain_okIff {β : Type} {f : List Bytes → Py β} {P : List Bytes → Prop} (b : Bytes) (h : ∀ l, OkIff (P l) (f l)) :
    OkIff (∃ l, Records b l ∧ P l) (sizeChain b >>= f) := by
  constructor
  · rintro ⟨a, ha⟩
    obtain ⟨l, h1, h2⟩ := bind_ok_iff.1 ha
    exact ⟨l, (sizeChain_iff b l).1 h1, (h l).1 ⟨a, h2⟩⟩
  · rintro ⟨l, h1, h2⟩
    obtain ⟨a, ha⟩ := (h l).2 h2
    exact ⟨a, bind_ok_iff.2 ⟨l, (sizeChain_iff b l).2 h1, ha⟩⟩

theorem typed_okIff {β : Type} (v : Bytes) (g : PyVal → String → β) : OkIff (TypedReadable v) (do
    let value ← typedValue v
    let t ← valueType v
    let name ← propertyTypeName t
    pure (g value name)) := by
  have h0 := unpackU_slice v 2 0 (by omega)
  have h2 := unpackU_slice v 2 2 (by omega)
  rw [Nat.zero_add] at h0
  have e0 : valueType v = _ := h0
  have e2 : valuePadding v = _ := h2
  rcases ht : uAt 2 v 0 with _ | t
  · refine ⟨?_, fun ⟨t, p, h, _⟩ => by rw [ht] at h; cases h⟩
    rintro ⟨a, ha⟩
    obtain ⟨x, -, ha⟩ := bind_ok_iff.1 ha
    obtain ⟨y, hy, -⟩ := bind_ok_iff.1 ha
    rw [e0, ht] at hy
    cases hy
  rcases hp : uAt 2 v 2 with _ | pad
  · refine ⟨?_, fun ⟨t, p, _, h, _⟩ => by rw [hp] at h; cases h⟩
    rintro ⟨a, ha⟩
    obtain ⟨x, hx, -⟩ := bind_ok_iff.1 ha
    obtain ⟨y, hy, -⟩ := bind_ok_iff.1 hx
    rw [e2, hp] at hy
    cases hy
  rw [ht] at e0
  rw [hp] at e2
  dsimp only at e0 e2
  have hv : OkIff (pad = 0 → t ≠ 0x02 ∧ (t = 0x1F → 8 ≤ v.length)) (typedValue v) := by
    unfold typedValue
    rw [e2, pure_bind, e0]
    by_cases hpad : pad = 0
    · rw [if_neg (by simpa using hpad), pure_bind]
      by_cases h2 : t = 2
      · rw [if_pos h2]
        have hs : (slice v 4 6).length ≠ 4 := by simp; omega
        refine ((when_bind (when_unpackI 4 (slice v 4 6)) fun n _ => when_pure _).okIff).congr ?_
        simp only [hs, false_and, hpad, h2]
        simp
      · rw [if_neg h2]
        by_cases h1F : t = 0x1F
        · rw [if_pos h1F]
          refine ((when_bind (when_unpackU 4 (slice v 4 8)) fun n _ => when_bind (when_readUnicodeString _) fun _ _ =>
            when_pure _).okIff).congr ?_
          simp only [slice_length, and_true, hpad, h1F]
          simp
          omega
        · rw [if_neg h1F]
          exact (okIff_pure _).congr (by simp [hpad, h2, h1F])
    · rw [if_pos (by simpa using hpad)]
      exact (okIff_pure _).congr (by simp [hpad])
  have hn : OkIff (typeName t ≠ none) (propertyTypeName t) := by
    rw [propertyTypeName_eq]
    rcases typeName t with _ | s
    · exact ⟨fun ⟨a, ha⟩ => (by cases ha), fun h => absurd rfl h⟩
    · exact (okIff_pure _).congr (by simp)
  refine (okIff_bind hv fun _ _ => okIff_bind (c := True) (by rw [e0]; exact okIff_pure _) fun t' ht' => ?_).congr (d := TypedReadable v)
    (c := (pad = 0 → t ≠ 0x02 ∧ (t = 0x1F → 8 ≤ v.length)) ∧ True ∧ (typeName t ≠ none ∧ True)) ?_
  · rw [e0] at ht'
    cases ht'
    exact okIff_bind hn fun _ _ => okIff_pure _
  · unfold TypedReadable
    rw [ht, hp]
    constructor
    · rintro ⟨h1, -, h2, -⟩
      exact ⟨t, pad, rfl, rfl, h2, h1⟩
    · rintro ⟨t', p', h1, h2, h3, h4⟩
      cases h1; cases h2
      exact ⟨h4, trivial, h3, trivial⟩

theorem property_okIff (named : Bool) (v : Bytes) :
    OkIff (PropertyReadable named v) (if named = true then stringNameAsDict v else integerNameAsDict v) := by
  have h0 := unpackU_slice v 4 0 (by omega)
  have h4 := unpackU_slice v 4 4 (by omega)
  rw [Nat.zero_add] at h0
  unfold PropertyReadable
  rcases hn : uAt 4 v 4 with _ | n
  · rw [hn] at h4
    refine ⟨?_, fun ⟨n, h, _⟩ => by cases h⟩
    rintro ⟨a, ha⟩
    exfalso
    cases named
    · obtain ⟨x, -, ha⟩ := bind_ok_iff.1 ha
      obtain ⟨y, hy, -⟩ := bind_ok_iff.1 ha
      rw [h4] at hy
      cases hy
    · obtain ⟨x, -, ha⟩ := bind_ok_iff.1 ha
      obtain ⟨y, hy, -⟩ := bind_ok_iff.1 ha
      rw [h4] at hy
      cases hy
  · have hlen := ExtraData.uAt_some_length hn
    obtain ⟨m, hm⟩ := LnkInfo.uAt_exists (raw := v) (off := 0) (by omega)
    rw [hm] at h0
    rw [hn] at h4
    dsimp only at h0 h4
    have key : ∀ {P : Bytes → Prop}, (P (v.drop (9 + if named = true then n else 0)) ↔
        ∃ n', some n = some n' ∧ P (v.drop (9 + if named = true then n' else 0))) := by
      intro P
      exact ⟨fun h => ⟨n, rfl, h⟩, fun ⟨n', h, h'⟩ => by cases h; exact h'⟩
    cases named
    · unfold integerNameAsDict
      simp only [Bool.false_eq_true, if_false, Nat.add_zero] at key ⊢
      rw [h0, pure_bind, h4, pure_bind]
      exact (typed_okIff (v.drop 9) _).congr key
    · unfold stringNameAsDict
      simp only [if_true] at key ⊢
      rw [h0, pure_bind, h4, pure_bind]
      refine (okIff_bind (when_readUnicodeString _).okIff fun _ _ => typed_okIff (v.drop (9 + n)) _).congr ?_
      rw [true_and]
      exact key

theorem storage_okIff (s : Bytes) : OkIff (StorageReadable s) (storageAsDict s) := by
  unfold storageAsDict StorageReadable
  by_cases h24 : 24 ≤ s.length
  · obtain ⟨n0, hn0⟩ := LnkInfo.uAt_exists (raw := s) (off := 0) (by omega)
    obtain ⟨n4, hn4⟩ := LnkInfo.uAt_exists (raw := s) (off := 4) (by omega)
    have h0 := Target.leNat_slice (n := 4) (off := 0) (by omega) hn0
    have h4 := Target.leNat_slice (n := 4) (off := 4) (by omega) hn4
    rw [Nat.zero_add] at h0
    rw [h0, pure_bind, h4, pure_bind]
    obtain ⟨g, hg⟩ := Props.guid_every_16_bytes (slice s 8 24) (by simp; omega)
    have hf : formatId s = pure g.text := by
      unfold formatId
      rw [← hg, parseUuid_encode]
    rw [hf, pure_bind, pure_bind]
    have hd : (between s 8 24 = stringNamedFormat.encode) ↔ g.text = stringNameFormat := by
      rw [formatText_inj]
      have : between s 8 24 = g.encode := hg.symm
      rw [this]
      exact ⟨fun h => Guid_encode_inj h, fun h => by rw [h]⟩
    simp only [h24, true_and]
    have hP : ∀ v, OkIff (PropertyReadable (decide (between s 8 24 = stringNamedFormat.encode)) v)
        ((if g.text = stringNameFormat then stringNameAsDict else integerNameAsDict) v) := by
      intro v
      have := property_okIff (decide (between s 8 24 = stringNamedFormat.encode)) v
      by_cases h : g.text = stringNameFormat
      · rw [decide_eq_true (hd.2 h)] at this ⊢
        rw [if_pos h]
        exact this
      · rw [decide_eq_false (mt hd.1 h)] at this ⊢
        rw [if_neg h]
        exact this
    generalize PropertyReadable (decide (between s 8 24 = stringNamedFormat.encode)) = P at hP ⊢
    generalize (if g.text = stringNameFormat then stringNameAsDict else integerNameAsDict) = f at hP ⊢
    refine chain_okIff _ fun l => ?_
    exact (okIff_bind (collect_okIff l (P := P) fun v _ => hP v) fun _ _ => okIff_pure _).congr (and_iff_left trivial)
  · refine ⟨?_, fun h => absurd h.1 h24⟩
    rintro ⟨a, ha⟩
    exfalso
    obtain ⟨x, -, ha⟩ := bind_ok_iff.1 ha
    obtain ⟨x, -, ha⟩ := bind_ok_iff.1 ha
    obtain ⟨x, hx, -⟩ := bind_ok_iff.1 ha
    unfold formatId at hx
    rw [parseUuid_short (by simp; omega)] at hx
    cases hx

theorem store_okIff (b : Bytes) : OkIff (∃ l, Records (b.drop 8) l ∧ ∀ s ∈ l, StorageReadable s) (propertyStore b) :=
  chain_okIff _ fun l => collect_okIff l fun s _ => storage_okIff s

end Metadata

end Verif
