import Verif.Lemmas.PrintedValues
import Verif.Props.Unique
import Verif.Props.Printed

/-
C68: how long the text printed by `print_json` can be.
-/

namespace Verif.Props

open Spec Verif.Values Values

/-! ### the reduced report is no larger -/

/-- A tree is no larger than another. -/
structure NoMore (v w : PyVal) : Prop where
  weight : weight v ≤ weight w
  digits : digits v ≤ digits w
  slim : ∀ P n, Slim P n w → Slim P n v

theorem NoMore.refl (v : PyVal) : NoMore v v := ⟨le_refl _, le_refl _, fun _ _ h => h⟩

theorem NoMore.trans {u v w : PyVal} (h : NoMore u v) (h' : NoMore v w) : NoMore u w :=
  ⟨h.weight.trans h'.weight, h.digits.trans h'.digits, fun P n hw => h.slim P n (h'.slim P n hw)⟩

theorem noMore_without (ks : List String) (d : Dict) : NoMore (.dict (without ks d)) (.dict d) := by
  refine ⟨?_, ?_, ?_⟩
  · simp only [Spec.weight, Nat.add_le_add_iff_left, without]
    induction d with
    | nil => simp
    | cons x d ih =>
      rw [List.filter_cons]
      split
      · simp only [weightEntries]; omega
      · simp only [weightEntries]; omega
  · simp only [Verif.digits, without]
    induction d with
    | nil => simp
    | cons x d ih =>
      rw [List.filter_cons]
      split
      · simp only [digitsEntries]; omega
      · simp only [digitsEntries]; omega
  · intro P n h
    cases n with
    | zero => exact h.elim
    | succ n => exact fun kv hkv => h kv (List.mem_of_mem_filter hkv)

theorem noMore_map (g : String × PyVal → String × PyVal) (hg : ∀ kv, (g kv).1 = kv.1 ∧ NoMore (g kv).2 kv.2) (d : Dict) :
    NoMore (.dict (d.map g)) (.dict d) := by
  refine ⟨?_, ?_, ?_⟩
  · simp only [Spec.weight, Nat.add_le_add_iff_left]
    induction d with
    | nil => simp
    | cons x d ih =>
      have := (hg x).2.weight
      simp only [List.map_cons, weightEntries]
      omega
  · simp only [Verif.digits]
    induction d with
    | nil => simp
    | cons x d ih =>
      have := (hg x).2.digits
      simp only [List.map_cons, digitsEntries]
      omega
  · intro P n h
    cases n with
    | zero => exact h.elim
    | succ n =>
      intro kv hkv
      obtain ⟨x, hx, rfl⟩ := List.mem_map.1 hkv
      rw [(hg x).1]
      exact ⟨(h x hx).1, (hg x).2.slim P n (h x hx).2⟩

theorem noMore_under (k : String) (g : PyVal → PyVal) (hg : ∀ v, NoMore (g v) v) (d : Dict) :
    NoMore (.dict (under k g d)) (.dict d) := by
  refine noMore_map _ (fun kv => ?_) d
  split
  · exact ⟨rfl, hg _⟩
  · exact ⟨rfl, .refl _⟩

theorem noMore_onDict (g : Dict → Dict) (hg : ∀ d, NoMore (.dict (g d)) (.dict d)) (v : PyVal) : NoMore (onDict g v) v := by
  cases v with
  | dict d => exact hg d
  | _ => exact .refl _

theorem noMore_onList (g : PyVal → PyVal) (hg : ∀ v, NoMore (g v) v) (v : PyVal) : NoMore (onList g v) v := by
  cases v with
  | list l =>
    refine ⟨?_, ?_, ?_⟩
    · simp only [onList, Spec.weight, Nat.add_le_add_iff_left]
      induction l with
      | nil => simp
      | cons x l ih =>
        have := (hg x).weight
        simp only [List.map_cons, weightList]
        omega
    · simp only [onList, Verif.digits]
      induction l with
      | nil => simp
      | cons x l ih =>
        have := (hg x).digits
        simp only [List.map_cons, digitsList]
        omega
    · intro P n h
      cases n with
      | zero => exact h.elim
      | succ n =>
        intro v hv
        obtain ⟨x, hx, rfl⟩ := List.mem_map.1 hv
        exact (hg x).slim P n (h x hx)
  | _ => exact .refl _

theorem noMore_reduced (j : Dict) : NoMore (.dict (reduced j)) (.dict j) := by
  unfold reduced
  refine (noMore_under _ _ (noMore_onDict _ (noMore_without _)) _).trans ?_
  refine (noMore_under _ _ (noMore_onDict _ fun d => (noMore_under _ _ (noMore_onList _ (noMore_onDict _ (noMore_without _))) _).trans
    (noMore_without _ d)) _).trans ?_
  exact noMore_under _ _ (noMore_onDict _ fun d => (noMore_under _ _ (noMore_onDict _ (noMore_without _)) _).trans
    (noMore_without _ d)) _

/-! ### sizes -/

theorem cut_sum {b : Bytes} {l : List Piece} {last : Bytes} (h : Cut b l last) :
    (∀ p ∈ l, p.declared < 2 ^ 32) ∧ l.length + last.length ≤ b.length := by
  induction h with
  | stop h => simp
  | @block b n l last h hn hl ih =>
    have h4 := ExtraData.uAt_some_length h
    have hlt := uAt_lt h
    constructor
    · rintro p (_ | ⟨_, hp⟩)
      · exact hlt
      · exact ih.1 p hp
    · have := ih.2
      simp only [List.length_drop, List.length_cons] at *
      omega

theorem sum_declared {l : List Piece} (h : ∀ p ∈ l, p.declared < 2 ^ 32) :
    ((l.filter fun p => p.signature.isSome).map Piece.declared).sum ≤ 2 ^ 32 * l.length := by
  induction l with
  | nil => simp
  | cons p l ih =>
    have h1 := h p (by simp)
    have h2 := ih fun p hp => h p (by simp [hp])
    rw [List.filter_cons]
    split
    · simp only [List.map_cons, List.sum_cons, List.length_cons]
      omega
    · simp only [List.length_cons]
      omega

theorem stringsEnd_le (flags : Nat) (b : Bytes) (fs : List (Nat × Nat)) (pos : Nat) :
    stringsEnd flags b fs pos ≤ pos + 131074 * fs.length := by
  induction fs generalizing pos with
  | nil => simp [stringsEnd]
  | cons f fs ih =>
    obtain ⟨bit, limit⟩ := f
    rw [stringsEnd]
    split
    · split
      · omega
      · rename_i n hn
        have := uAt_lt hn
        have := ih (pos + 2 + min n limit * if flags.testBit 7 then 2 else 1)
        have : (min n limit * if flags.testBit 7 then 2 else 1) ≤ 131070 := by split <;> omega
        simp only [List.length_cons]
        omega
    · have := ih pos
      simp only [List.length_cons]
      omega

theorem layout_le {b : Bytes} {L : Layout} (h : layout b = some L) : L.headerSize < 2 ^ 32 ∧ L.extraAt < 3 * 2 ^ 32 := by
  unfold layout at h
  split at h
  · simp at h
  · rename_i hs hhs
    have h1 := uAt_lt hhs
    split at h
    · simp at h
    · rename_i flags _
      split at h
      · simp at h
      · rename_i infoAt hi
        have h2 : infoAt ≤ hs + 65537 := by
          split at hi
          · rw [Option.map_eq_some_iff] at hi
            obtain ⟨n, hn, rfl⟩ := hi
            have := uAt_lt hn
            omega
          · simp at hi
            omega
        simp only [Option.some.injEq] at h
        subst h
        refine ⟨h1, ?_⟩
        have h3 : (uAt 4 b infoAt).getD 0 < 2 ^ 32 := by
          rcases e : uAt 4 b infoAt with _ | k
          · simp
          · exact uAt_lt e
        have := stringsEnd_le flags b stringLimits
          (if infoAnnounced flags && (infoLocation b infoAt).isSome then infoAt + (uAt 4 b infoAt).getD 0 else infoAt)
        have h5 : stringLimits.length = 5 := rfl
        rw [h5] at this
        dsimp only
        refine lt_of_le_of_lt this ?_
        split <;> omega

theorem pow_room (n : Nat) : 2 * n + 5 < 10 ^ (n + 1) := by
  induction n with
  | zero => decide
  | succ n ih => rw [pow_succ]; omega

theorem digits_size {m n : Nat} (h : m ≤ 2 ^ 32 * (2 * n + 4)) : (decInt m).length ≤ n + 11 := by
  have h1 := pow_room n
  have h2 : m < 10 ^ (n + 10 + 1) := by
    have : 10 ^ (n + 10 + 1) = 10 ^ 10 * 10 ^ (n + 1) := by ring
    have h3 : 10 ^ 10 * (2 * n + 5) ≤ 10 ^ 10 * 10 ^ (n + 1) := Nat.mul_le_mul_left _ h1.le
    omega
  exact decStr_length (n + 10) m h2

/-! ### the extra blocks -/

theorem blockName_short (s : Nat) : (Json.quote (blockName s).toList).length ≤ 40 := by
  unfold blockName
  rcases e : blockNames.lookup s with _ | k
  · exact (by decide +kernel : (Json.quote "UNKNOWN_BLOCK".toList).length ≤ 40)
  · have : ∀ x ∈ blockNames, (Json.quote x.2.toList).length ≤ 40 := by decide +kernel
    rw [Option.getD_some]
    exact this _ (Verif.lookup_mem e)

theorem blockName_ne_terminal (s : Nat) : blockName s ≠ "TERMINAL_BLOCK" := by
  unfold blockName
  rcases e : blockNames.lookup s with _ | k
  · exact (by decide : "UNKNOWN_BLOCK" ≠ "TERMINAL_BLOCK")
  · have : ∀ x ∈ blockNames, x.2 ≠ "TERMINAL_BLOCK" := by decide
    rw [Option.getD_some]
    exact this _ (Verif.lookup_mem e)

theorem extra_nodup {tp : TextProc} {allow : Bool} {l : List Piece} {last : Bytes} {E : Dict} (h : ExtraReport tp allow l last E) :
    E.keys.Nodup := by
  rw [h.names]
  split
  · refine List.Nodup.append (nodup_firsts _) (by simp) ?_
    intro a ha hb
    simp only [List.mem_singleton] at hb
    subst hb
    obtain ⟨p, -, s, -, hs, -⟩ := mem_readableNames.1 (mem_firsts.1 ha)
    exact blockName_ne_terminal s hs
  · rw [List.append_nil]
    exact nodup_firsts _

theorem extra_slim {tp : TextProc} {allow : Bool} {l : List Piece} {last : Bytes} {E : Dict} (h : ExtraReport tp allow l last E)
    (hl : ∀ p ∈ l, p.declared < 2 ^ 32) {name : String} {v : PyVal} (hv : (name, v) ∈ E) (n : Nat) :
    (Json.quote name.toList).length ≤ 40 ∧ (name ≠ "TERMINAL_BLOCK" → Slim Small (n + 6) v) ∧
      (name = "TERMINAL_BLOCK" → Slim (fun _ => True) (n + 6) v ∧ digits v ≤ last.length + 1) := by
  have hg := Dict.get?_of_mem (extra_nodup h) hv
  have hk : name ∈ E.keys := List.mem_map_of_mem hv
  by_cases ht : name = "TERMINAL_BLOCK"
  · subst ht
    refine ⟨by decide +kernel, fun h => absurd rfl h, fun _ => ?_⟩
    obtain ⟨d, rfl, hd⟩ := h.terminal v hg
    rcases d with _ | ⟨⟨k1, v1⟩, _ | ⟨⟨k2, v2⟩, _ | ⟨_, _⟩⟩⟩
    · exact hd.elim
    · exact hd.2.2.elim
    · obtain ⟨h1, h2, h3, h4, -⟩ := hd
      simp only at h1 h2 h3 h4
      subst h1 h2 h3 h4
      refine ⟨?_, ?_⟩
      · intro kv hkv
        simp only [List.mem_cons, List.not_mem_nil, or_false] at hkv
        rcases hkv with rfl | rfl
        · refine ⟨?_, trivial⟩
          show (Json.quote "size".toList).length ≤ 40
          decide +kernel
        · refine ⟨?_, trivial⟩
          show (Json.quote "appended_data_sha256".toList).length ≤ 40
          decide +kernel
      · simp only [digits, digitsEntries]
        exact decStr_length last.length last.length (Nat.lt_trans (Nat.lt_pow_self (by decide)) (Nat.pow_lt_pow_right (by decide) (by omega)))
    · exact hd.2.2.2.2.elim
  · rcases (extra_mem_names h name).1 hk with hr | ⟨hr, -⟩
    · refine ⟨?_, fun _ => ?_, fun h => absurd h ht⟩
      · obtain ⟨p, -, s, -, rfl, -⟩ := hr
        exact blockName_short s
      · by_cases hu : name = "UNKNOWN_BLOCK"
        · subst hu
          obtain ⟨vs, rfl, hvs⟩ := h.unknown v hg
          exact slim_unknown (fun p hp => hl p (List.mem_of_mem_filter hp)) hvs n
        · obtain ⟨pre, p, post, e, hp, hpost⟩ := last_with (ReportedAs name) hr
          obtain ⟨s, hs, -⟩ := id hp
          obtain ⟨d, hd, hb⟩ := h.named name pre p post s hu e hp hs hpost
          rw [hg] at hd
          cases hd
          exact slim_report (hl p (by simp [e])) hb (n + 1)
    · exact absurd hr ht

/-! ### the whole report -/

theorem fits_split {d : Dict} {es fs : Entries} (h : Fits d (es ++ fs)) : ∃ d1 d2, d = d1 ++ d2 ∧ Fits d1 es ∧ Fits d2 fs := by
  induction es generalizing d with
  | nil => exact ⟨[], d, rfl, trivial, h⟩
  | cons e es ih =>
    cases d with
    | nil => exact h.elim
    | cons x d =>
      obtain ⟨h1, h2, h3⟩ := h
      obtain ⟨d1, d2, rfl, h4, h5⟩ := ih h3
      exact ⟨x :: d1, d2, rfl, ⟨h1, h2, h4⟩, h5⟩

theorem fits_single {d : Dict} {k : String} {p : PyVal → Prop} (h : Fits d [(k, p)]) : ∃ v, d = [(k, v)] ∧ p v := by
  rcases d with _ | ⟨⟨k', v⟩, _ | ⟨x, d⟩⟩
  · exact h.elim
  · obtain ⟨h1, h2, -⟩ := h
    exact ⟨v, by rw [show k' = k from h1], h2⟩
  · exact h.2.2.elim

/-- The report is at most nine levels deep, with short keys; its numbers have eleven digits each but for two, which have
together at most as many as two times the file has bytes, and twelve. -/
theorem report_slim {tp : TextProc} {b : Bytes} {L : Layout} {allow : Bool} {l : List Piece} {last : Bytes} {j : Dict}
    (hL : layout b = some L) (hc : Cut (b.drop L.extraAt) l last) (h : Fits j (reportEntries tp b L allow l last)) :
    Slim (fun _ => True) 9 (.dict j) ∧ digits (.dict j) ≤ 11 * weight (.dict j) + 2 * b.length + 12 := by
  obtain ⟨hs, hx⟩ := layout_le hL
  obtain ⟨hp, hn⟩ := cut_sum hc
  have hsum := sum_declared hp
  rw [List.length_drop] at hn
  have hsize : (decInt (sizeRead b L allow l last)).length ≤ b.length + 11 := by
    refine digits_size ?_
    have h1 : sizeRead b L allow l last ≤ 3 * 2 ^ 32 + 2 ^ 32 * l.length + last.length + 4 := by
      unfold sizeRead
      dsimp only
      split <;> omega
    omega
  obtain ⟨ie, hie, he⟩ : ∃ ie : Entries, SlimE 7 ie ∧
      reportEntries tp b L allow l last = [("size", fun v => v = PyVal.int (sizeRead b L allow l last))] ++
      (([("header", fun v => ∃ d, v = .dict d ∧ Fits d (headerEntries b))] ++
        (if L.flags.testBit 0 then [("target", fun v => ∃ d, v = PyVal.dict d ∧ Fits d (targetEntries tp b L))] else []) ++
        [ ("link_info", fun v => ∃ d, v = .dict d ∧ Fits d ie),
          ("data", fun v => ∃ d, v = .dict d ∧ Fits d (stringEntries tp L.flags b stringKeys L.stringsAt)) ]) ++
      [("extra", fun v => ∃ d, v = .dict d ∧ ExtraReport tp allow l last d)]) := by
    unfold reportEntries
    generalize (if infoAnnounced L.flags then infoLocation b L.infoAt else none) = k
    cases k with
    | none => exact ⟨[], SlimE.nil, by simp only [List.append_assoc, List.cons_append, List.nil_append]⟩
    | some kind =>
      exact ⟨infoEntries tp (b.drop L.infoAt) kind, slim_info tp _ _ 6,
        by simp only [List.append_assoc, List.cons_append, List.nil_append]⟩
  rw [he] at h
  obtain ⟨d1, d', rfl, h1, h'⟩ := fits_split h
  obtain ⟨d2, d3, rfl, h2, h3⟩ := fits_split h'
  obtain ⟨v1, rfl, rfl⟩ := fits_single h1
  obtain ⟨v3, rfl, E, rfl, hE⟩ := fits_single h3
  have hm : SlimD 8 d2 := by
    refine SlimE.fits ?_ h2
    refine SlimE.append (SlimE.append ?_ ?_) ?_
    · refine SlimE.cons (by decide +kernel) ?_ SlimE.nil
      rintro v ⟨d, rfl, hd⟩
      exact (slim_header b 6).dict hd
    · split
      · refine SlimE.cons (by decide +kernel) ?_ SlimE.nil
        rintro v ⟨d, rfl, hd⟩
        exact (slim_target tp b L hs 4).dict hd
      · exact SlimE.nil
    · refine SlimE.cons (by decide +kernel) ?_ (SlimE.cons (by decide +kernel) ?_ SlimE.nil)
      · rintro v ⟨d, rfl, hd⟩
        exact hie.dict hd
      · rintro v ⟨d, rfl, hd⟩
        exact (slim_strings tp _ b 7 stringKeys (by decide +kernel) _).dict hd
  have hx1 : Slim (fun _ => True) 8 (.dict E) := by
    intro kv hkv
    obtain ⟨h1, h2, h3⟩ := extra_slim hE hp (show (kv.1, kv.2) ∈ E from hkv) 1
    refine ⟨h1, ?_⟩
    by_cases ht : kv.1 = "TERMINAL_BLOCK"
    · exact (h3 ht).1
    · exact Slim.mono (fun _ _ => trivial) _ _ (h2 ht)
  have hx2 : digitsEntries E ≤ 11 * weightEntries E + (last.length + 1) := by
    refine digitsEntries_except (k := "TERMINAL_BLOCK") (extra_nodup hE)
      (fun kv hkv ht => (extra_slim hE hp (show (kv.1, kv.2) ∈ E from hkv) 0).2.1 ht) fun v hv => ?_
    have := ((extra_slim hE hp hv 0).2.2 rfl).2
    omega
  have hm2 := digitsEntries_le 8 d2 fun kv hkv => (hm kv hkv).2
  constructor
  · intro kv hkv
    simp only [List.cons_append, List.nil_append, List.mem_cons, List.mem_append, List.not_mem_nil, or_false] at hkv
    rcases hkv with rfl | hkv | rfl
    · refine ⟨?_, trivial⟩
      show (Json.quote "size".toList).length ≤ 40
      decide +kernel
    · exact ⟨(hm kv hkv).1, Slim.mono (fun _ _ => trivial) _ _ (hm kv hkv).2⟩
    · refine ⟨?_, hx1⟩
      show (Json.quote "extra".toList).length ≤ 40
      decide +kernel
  · have e1 : ∀ d e : Dict, digitsEntries (d ++ e) = digitsEntries d + digitsEntries e := by
      intro d e
      induction d with
      | nil => simp [digitsEntries]
      | cons x d ih => simp only [List.cons_append, digitsEntries, ih]; omega
    simp only [digits, weight, e1, weightEntries_append, digitsEntries, weightEntries]
    omega

/-- C68, upper bound: whatever the bytes, the text `print_json` prints of an accepted file of `n` bytes has at most
`263 (n + 20)^3` characters. -/
theorem printed_bounded (env : Env) (cp : Option String) (allow : Bool) (src : Source) (f : LnkFile) (all : Bool) (t : Str)
    (hcp : Frugal (TextProc.mk' env cp)) (hu : UsableCodePage (TextProc.mk' env cp)) (hsha : ∀ b, (env.sha256hex b).length ≤ 64)
    (hf : (LnkFile.init env cp allow src).res = .ok f) (ht : (f.printJson all).res = .ok t) :
    t.length ≤ 263 * (src.bytes.length + 20) ^ 3 := by
  obtain ⟨j, hj, rfl⟩ := printed_text ht
  obtain ⟨j', hj', hle⟩ : ∃ j', (f.getJson true).res = .ok j' ∧ NoMore (.dict j) (.dict j') := by
    cases all with
    | true => exact ⟨j, hj, .refl _⟩
    | false =>
      rw [f.getJson_false] at hj
      rw [show (reduced <$> f.getJson true) = (f.getJson true >>= fun j => pure (reduced j)) from rfl, Py.bind_ok_iff] at hj
      obtain ⟨j', h1, h2⟩ := hj
      simp only [Py.pure_res, Except.ok.injEq] at h2
      subst h2
      exact ⟨j', h1, noMore_reduced j'⟩
  obtain ⟨L, l, last, hL, hc, hfit⟩ := report_values env cp hu allow src f hf
  obtain ⟨h1, h2⟩ := report_slim hL hc (hfit j' hj')
  have h3 := report_bounded env cp allow src f true j' hcp hsha hf hj'
  have h4 := dumps_length_le (hle.slim _ _ h1)
  have h5 := hle.weight
  have h6 := hle.digits
  have h7 : src.bytes.length + 20 ≤ (src.bytes.length + 20) ^ 3 := Nat.le_self_pow (by decide) _
  have h8 : 20 * (src.bytes.length + 20) ≤ (src.bytes.length + 20) ^ 3 := by
    have : (src.bytes.length + 20) ^ 3 = (src.bytes.length + 20) * ((src.bytes.length + 20) * (src.bytes.length + 20)) := by ring
    rw [this, Nat.mul_comm 20]
    refine Nat.mul_le_mul_left _ ?_
    nlinarith
  omega

/-- With the default code page: the text printed of a 300 byte file has at most 8.7 GB. -/
example (lookup : String → Option Codec) (allow all : Bool) (src : Source) (f : LnkFile) (t : Str) (hn : src.bytes.length = 300)
    (hf : (LnkFile.init ⟨lookup, fun _ => []⟩ none allow src).res = .ok f) (ht : (f.printJson all).res = .ok t) :
    t.length ≤ 8617984000 := by
  have := printed_bounded _ none allow src f all t (default_frugal _) (usable_default _) (by simp) hf ht
  rw [hn] at this
  simpa using this

end Verif.Props
