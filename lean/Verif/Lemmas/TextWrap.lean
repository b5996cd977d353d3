import Verif.Py.TextWrap
import Mathlib.Data.List.Infix

/-
Facts about `replace` and `indent`.
-/

namespace Verif.TextWrap

theorem replace_nil (old new : Str) : replace old new [] = [] := by rw [replace]

theorem replace_hit (old new : Str) (hne : old ≠ []) (y : Str) : replace old new (old ++ y) = new ++ replace old new y := by
  rcases old with _ | ⟨c, old⟩
  · exact absurd rfl hne
  · rw [List.cons_append, replace, if_pos (by simp)]
    simp

theorem replace_miss (old new : Str) (c : Char) (cs : Str) (h : ¬ old <+: c :: cs) :
    replace old new (c :: cs) = c :: replace old new cs := by
  rw [replace, if_neg]
  rwa [List.isPrefixOf_iff_prefix]

/-- No part at the beginning of `p` is also at its end. -/
def Borderless (p : Str) : Prop := ∀ q, q ≠ [] → q <+: p → q <:+ p → q = p

theorem replace_skip (old new : Str) (hne : old ≠ []) (hb : Borderless old) (x y : Str) (hx : ¬ old <:+: x) :
    replace old new (x ++ (old ++ y)) = x ++ (new ++ replace old new y) := by
  induction x with
  | nil => exact replace_hit old new hne y
  | cons c x ih =>
    rw [List.cons_append, replace_miss, ih (fun h => hx (h.trans (List.suffix_cons c x).isInfix)), List.cons_append]
    intro h
    rw [← List.cons_append] at h
    rcases Nat.le_total old.length (c :: x).length with hl | hl
    · exact hx (List.prefix_of_prefix_length_le h (List.prefix_append _ _) hl).isInfix
    · obtain ⟨q, hq⟩ := List.prefix_of_prefix_length_le (List.prefix_append _ _) h hl
      have hqp : q <+: old ++ y := by
        rw [← hq] at h
        exact (List.prefix_append_right_inj _).1 (by rw [hq] at h ⊢; exact h)
      have hlen : q.length < old.length := by rw [← hq]; simp; omega
      have hq' : q <+: old := List.prefix_of_prefix_length_le hqp (List.prefix_append _ _) hlen.le
      by_cases h0 : q = []
      · subst h0
        rw [List.append_nil] at hq
        exact hx (hq ▸ List.infix_refl _)
      · have := hb q h0 hq' ⟨_, hq⟩
        rw [this] at hlen
        omega

theorem replace_none (old new : Str) (x : Str) (hx : ¬ old <:+: x) : replace old new x = x := by
  induction x with
  | nil => exact replace_nil old new
  | cons c x ih =>
    rw [replace_miss _ _ _ _ (fun h => hx h.isInfix), ih (fun h => hx (h.trans (List.suffix_cons c x).isInfix))]

theorem replace_intercalate (old new : Str) (hne : old ≠ []) (hb : Borderless old) (pieces : List Str)
    (h : ∀ x ∈ pieces, ¬ old <:+: x) : replace old new (old.intercalate pieces) = new.intercalate pieces := by
  induction pieces with
  | nil => exact replace_nil old new
  | cons x l ih =>
    rcases l with _ | ⟨y, l⟩
    · simpa using replace_none old new x (h x (by simp))
    · rw [List.intercalate_cons_cons, List.intercalate_cons_cons, List.append_assoc,
        replace_skip _ _ hne hb _ _ (h x (by simp)), ih fun z hz => h z (by simp [hz]), List.append_assoc]

/-- What starts the result and has nothing of the replacement starts the text. -/
theorem prefix_replace (old : Str) (n : Char) (t q : Str) (hq : n ∉ q) (h : q <+: replace old [n] t) : q <+: t := by
  induction q generalizing t with
  | nil => simp
  | cons c q ih =>
    rcases t with _ | ⟨d, t⟩
    · rw [replace_nil] at h; simp at h
    · simp only [List.mem_cons, not_or] at hq
      by_cases hp : old <+: d :: t
      · rw [replace, if_pos (by rwa [List.isPrefixOf_iff_prefix])] at h
        rw [List.singleton_append, List.cons_prefix_cons] at h
        exact absurd h.1.symm hq.1
      · rw [replace_miss _ _ _ _ hp, List.cons_prefix_cons] at h
        rw [List.cons_prefix_cons]
        exact ⟨h.1, ih _ hq.2 h.2⟩

theorem not_infix_replace (old : Str) (n : Char) (hn : n ∉ old) (hne : old ≠ []) (t : Str) :
    ¬ old <:+: replace old [n] t := by
  induction ht : t.length using Nat.strong_induction_on generalizing t with
  | _ k ih =>
    subst ht
    intro h
    rcases t with _ | ⟨d, t⟩
    · rw [replace_nil] at h
      simp at h
      exact hne h
    · by_cases hp : old <+: d :: t
      · rw [replace, if_pos (by rwa [List.isPrefixOf_iff_prefix]), List.singleton_append, List.infix_cons_iff] at h
        rcases h with h | h
        · rcases old with _ | ⟨c, old⟩
          · exact hne rfl
          · rw [List.cons_prefix_cons] at h
            exact hn (by rw [h.1]; simp)
        · exact ih _ (by simp; omega) _ rfl h
      · have h0 := h
        rw [replace_miss _ _ _ _ hp, List.infix_cons_iff] at h
        rcases h with h | h
        · rw [← replace_miss _ _ _ _ hp] at h
          exact hp (prefix_replace old n _ _ hn h)
        · exact ih t.length (by simp) t rfl h

/-! ### lines -/

/-- Lists of lines with their ends, as `splitlines(True)` makes them. -/
inductive Lines : List Str → Prop
  | nil : Lines []
  | last (b : Str) : b ≠ [] → (∀ c ∈ b, isBreak c = false) → Lines [b]
  | crlf (b : Str) (l : List Str) : (∀ c ∈ b, isBreak c = false) → Lines l → Lines ((b ++ ['\r', '\n']) :: l)
  | cr (b : Str) (l : List Str) : (∀ c ∈ b, isBreak c = false) → l.flatten.head? ≠ some '\n' → Lines l →
      Lines ((b ++ ['\r']) :: l)
  | brk (b : Str) (c : Char) (l : List Str) : (∀ c ∈ b, isBreak c = false) → c ≠ '\r' → isBreak c = true → Lines l →
      Lines ((b ++ [c]) :: l)

theorem go_crlf (cur cs : Str) : splitLinesGo cur ('\r' :: '\n' :: cs) = (cur ++ ['\r', '\n']) :: splitLinesGo [] cs := by
  rw [splitLinesGo.eq_def]
  simp

theorem go_cr (cur cs : Str) (h : cs.head? ≠ some '\n') :
    splitLinesGo cur ('\r' :: cs) = (cur ++ ['\r']) :: splitLinesGo [] cs := by
  rw [splitLinesGo.eq_def]
  simp only [if_true]
  split
  · simp at h
  · rfl

theorem go_break (cur cs : Str) (c : Char) (hr : c ≠ '\r') (hb : isBreak c = true) :
    splitLinesGo cur (c :: cs) = (cur ++ [c]) :: splitLinesGo [] cs := by
  rw [splitLinesGo.eq_def]
  simp only [hr, hb, if_true, if_false]

theorem go_char (cur cs : Str) (c : Char) (hr : c ≠ '\r') (hb : isBreak c ≠ true) :
    splitLinesGo cur (c :: cs) = splitLinesGo (cur ++ [c]) cs := by
  rw [splitLinesGo.eq_def]
  simp only [hr, hb, if_false]
  rfl

theorem lines_splitGo (cur s : Str) (h : ∀ c ∈ cur, isBreak c = false) :
    Lines (splitLinesGo cur s) ∧ (splitLinesGo cur s).flatten = cur ++ s := by
  induction hs : s.length using Nat.strong_induction_on generalizing cur s with
  | _ k ih =>
    subst hs
    rcases s with _ | ⟨c, cs⟩
    · by_cases hc : cur = []
      · subst hc; exact ⟨by simpa [splitLinesGo] using Lines.nil, by simp [splitLinesGo]⟩
      · simp only [splitLinesGo, hc, if_false]
        exact ⟨.last _ hc h, by simp⟩
    · by_cases hr : c = '\r'
      · subst hr
        rcases cs with _ | ⟨d, cs⟩
        · rw [go_cr _ _ (by simp)]
          refine ⟨.cr _ _ h ?_ ?_, ?_⟩
          · simp [splitLinesGo]
          · simpa [splitLinesGo] using Lines.nil
          · simp [splitLinesGo]
        · by_cases hd : d = '\n'
          · subst hd
            have := ih cs.length (by simp; omega) [] cs (by simp) rfl
            rw [go_crlf]
            refine ⟨.crlf _ _ h this.1, ?_⟩
            simp [this.2]
          · have := ih (d :: cs).length (by simp) [] (d :: cs) (by simp) rfl
            rw [go_cr _ _ (by simpa using hd)]
            refine ⟨.cr _ _ h ?_ this.1, ?_⟩
            · rw [this.2]; simpa using hd
            · simp [this.2]
      · by_cases hb : isBreak c = true
        · have := ih cs.length (by simp) [] cs (by simp) rfl
          rw [go_break _ _ _ hr hb]
          refine ⟨.brk _ _ _ h hr hb this.1, ?_⟩
          simp [this.2]
        · have := ih cs.length (by simp) (cur ++ [c]) cs (by
            intro x hx
            rw [List.mem_append, List.mem_singleton] at hx
            rcases hx with hx | rfl
            · exact h x hx
            · simpa using hb) rfl
          rw [go_char _ _ _ hr hb]
          refine ⟨this.1, ?_⟩
          simp [this.2]

theorem lines_splitLines (s : Str) : Lines (splitLines s) := (lines_splitGo [] s (by simp)).1

theorem flatten_splitLines (s : Str) : (splitLines s).flatten = s := by
  have := (lines_splitGo [] s (by simp)).2
  rwa [List.nil_append] at this

theorem isBreak_cr : isBreak '\r' = true := by decide

theorem splitGo_body (cur b rest : Str) (h : ∀ c ∈ b, isBreak c = false) :
    splitLinesGo cur (b ++ rest) = splitLinesGo (cur ++ b) rest := by
  induction b generalizing cur with
  | nil => simp
  | cons c b ih =>
    have hc := h c (by simp)
    have hr : c ≠ '\r' := by rintro rfl; rw [isBreak_cr] at hc; exact absurd hc (by simp)
    rw [List.cons_append, go_char _ _ _ hr (by simp [hc]), ih _ fun x hx => h x (by simp [hx])]
    simp

theorem splitLines_flatten {l : List Str} (h : Lines l) : splitLines l.flatten = l := by
  unfold splitLines
  induction h with
  | nil => simp [splitLinesGo]
  | last b h0 hb =>
    have := splitGo_body [] b [] hb
    simp only [List.append_nil, List.nil_append] at this
    simp [this, splitLinesGo, h0]
  | crlf b l hb _ ih =>
    rw [List.flatten_cons, List.append_assoc, splitGo_body _ _ _ hb]
    simp [go_crlf, ih]
  | cr b l hb hn _ ih =>
    rw [List.flatten_cons, List.append_assoc, splitGo_body _ _ _ hb, List.singleton_append, go_cr _ _ hn, ih]
    simp
  | brk b c l hb hr hc _ ih =>
    rw [List.flatten_cons, List.append_assoc, splitGo_body _ _ _ hb, List.singleton_append, go_break _ _ _ hr hc, ih]
    simp

/-- What `indent` does to a line. -/
def indentLine (pre line : Str) : Str := if line.all isSpace then line else pre ++ line

theorem indent_eq (text pre : Str) : indent text pre = ((splitLines text).map (indentLine pre)).flatten := by
  rw [indent, List.flatMap_def]
  rfl

theorem head_indent (l : List Str) (pre : Str) (hp : pre.head? ≠ some '\n') (h : l.flatten.head? ≠ some '\n') :
    ((l.map (indentLine pre)).flatten).head? ≠ some '\n' := by
  induction l with
  | nil => simp
  | cons x l ih =>
    rcases x with _ | ⟨c, x⟩
    · simpa [indentLine] using ih (by simpa using h)
    · have hc : c ≠ '\n' := by simpa using h
      rw [List.map_cons, List.flatten_cons, indentLine]
      split
      · simpa using hc
      · rcases pre with _ | ⟨d, pre⟩
        · simpa using hc
        · simpa using hp

theorem lines_indent {l : List Str} (h : Lines l) (pre : Str) (hp : ∀ c ∈ pre, isBreak c = false) :
    Lines (l.map (indentLine pre)) := by
  have happ : ∀ b : Str, (∀ c ∈ b, isBreak c = false) → ∀ c ∈ pre ++ b, isBreak c = false := by
    intro b hb c hc
    rw [List.mem_append] at hc
    exact hc.elim (hp c) (hb c)
  have hh : pre.head? ≠ some '\n' := by
    rcases pre with _ | ⟨d, pre⟩
    · simp
    · have := hp d (by simp)
      simp only [List.head?_cons, ne_eq, Option.some.injEq]
      rintro rfl
      exact absurd this (by decide)
  induction h with
  | nil => exact .nil
  | last b h0 hb =>
    rw [List.map_cons, List.map_nil, indentLine]
    split
    · exact .last _ h0 hb
    · exact .last _ (by simp [h0]) (happ b hb)
  | crlf b l hb _ ih =>
    rw [List.map_cons, indentLine]
    split
    · exact .crlf _ _ hb ih
    · rw [← List.append_assoc]
      exact .crlf _ _ (happ b hb) ih
  | cr b l hb hn _ ih =>
    rw [List.map_cons, indentLine]
    split
    · exact .cr _ _ hb (head_indent _ _ hh hn) ih
    · rw [← List.append_assoc]
      exact .cr _ _ (happ b hb) (head_indent _ _ hh hn) ih
  | brk b c l hb hr hc _ ih =>
    rw [List.map_cons, indentLine]
    split
    · exact .brk _ _ _ hb hr hc ih
    · rw [← List.append_assoc]
      exact .brk _ _ _ (happ b hb) hr hc ih

theorem indentLine_inj (pre a b : Str) (h : indentLine pre a = indentLine pre b) : a = b := by
  unfold indentLine at h
  split at h <;> split at h
  · exact h
  · rename_i ha hb
    rw [h, List.all_append] at ha
    simp only [Bool.and_eq_true] at ha
    exact absurd ha.2 hb
  · rename_i ha hb
    rw [← h, List.all_append] at hb
    simp only [Bool.and_eq_true] at hb
    exact absurd hb.2 ha
  · exact List.append_cancel_left h

theorem indent_inj (pre : Str) (hp : ∀ c ∈ pre, isBreak c = false) (s t : Str) (h : indent s pre = indent t pre) : s = t := by
  rw [indent_eq, indent_eq] at h
  have := congrArg splitLines h
  rw [splitLines_flatten (lines_indent (lines_splitLines s) pre hp),
    splitLines_flatten (lines_indent (lines_splitLines t) pre hp)] at this
  have := List.map_injective_iff.2 (fun a b => indentLine_inj pre a b) this
  rw [← flatten_splitLines s, this, flatten_splitLines]

/-- What starts the indented text, after the part `x`, and has no blank starts the text. -/
theorem prefix_indent (n : Nat) (q x : Str) (hq : ' ' ∉ q) (l : List Str)
    (h : q <+: x ++ (l.map (indentLine (List.replicate n ' '))).flatten) : q <+: x ++ l.flatten := by
  induction l generalizing q x with
  | nil => simpa using h
  | cons y l ih =>
    rw [List.map_cons, List.flatten_cons, indentLine] at h
    rw [List.flatten_cons]
    split at h
    · rw [← List.append_assoc] at h ⊢
      exact ih q _ hq h
    · rcases n with _ | n
      · rw [List.replicate_zero, List.nil_append, ← List.append_assoc] at h
        rw [← List.append_assoc]
        exact ih q _ hq h
      · have hx : q <+: x := by
          rw [List.append_assoc, List.replicate_succ, List.cons_append] at h
          clear ih
          induction x generalizing q with
          | nil =>
            rcases q with _ | ⟨c, q⟩
            · simp
            · rw [List.nil_append, List.cons_prefix_cons] at h
              exact absurd (by simp [h.1]) hq
          | cons d x ihx =>
            rcases q with _ | ⟨c, q⟩
            · simp
            · rw [List.cons_append, List.cons_prefix_cons] at h
              rw [List.cons_prefix_cons]
              exact ⟨h.1, ihx q (fun hm => hq (by simp [hm])) h.2⟩
        exact hx.trans (List.prefix_append _ _)

theorem infix_indent_lines (n : Nat) (q : Str) (hne : q ≠ []) (hq : ' ' ∉ q) (l : List Str)
    (h : q <:+: (l.map (indentLine (List.replicate n ' '))).flatten) : q <:+: l.flatten := by
  induction l with
  | nil => simpa using h
  | cons y l ih =>
    rw [List.map_cons, List.flatten_cons] at h
    rw [List.flatten_cons]
    -- an occurrence starts in the line or after it
    have key : ∀ x : Str, q <:+: x ++ (l.map (indentLine (List.replicate n ' '))).flatten →
        (∃ u v, x = u ++ v ∧ v ≠ [] ∧ q <+: v ++ (l.map (indentLine (List.replicate n ' '))).flatten) ∨
          q <:+: (l.map (indentLine (List.replicate n ' '))).flatten := by
      intro x
      induction x with
      | nil => intro h; exact .inr (by simpa using h)
      | cons c x ihx =>
        intro h
        rw [List.cons_append, List.infix_cons_iff] at h
        rcases h with h | h
        · exact .inl ⟨[], c :: x, rfl, by simp, by simpa using h⟩
        · rcases ihx h with ⟨u, v, rfl, hv, hp⟩ | h
          · exact .inl ⟨c :: u, v, rfl, hv, hp⟩
          · exact .inr h
    rcases key _ h with ⟨u, v, huv, hv, hp⟩ | h
    · have hp' := prefix_indent n q v hq l hp
      -- the part `v` of the indented line is a part of the line, as the text does not start with a blank
      have hend : ∃ u', y = u' ++ v := by
        unfold indentLine at huv
        split at huv
        · exact ⟨u, huv⟩
        · clear hp' h ih key
          rcases List.append_eq_append_iff.1 huv with ⟨w, hw, hw'⟩ | ⟨w, hw, hw'⟩
          · exact ⟨w, hw'⟩
          · rcases w with _ | ⟨c, w⟩
            · exact ⟨[], by simpa using hw'.symm⟩
            · exfalso
              have hc : c = ' ' := by
                have : c ∈ List.replicate n ' ' := by rw [hw]; simp
                exact List.eq_of_mem_replicate this
              subst hc
              rcases q with _ | ⟨d, q⟩
              · exact hne rfl
              · rw [hw', List.cons_append, List.cons_append, List.cons_prefix_cons] at hp
                exact hq (by simp [hp.1])
      obtain ⟨u', rfl⟩ := hend
      rw [List.append_assoc]
      exact hp'.isInfix.trans (List.suffix_append _ _).isInfix
    · exact (ih h).trans (List.suffix_append _ _).isInfix

end Verif.TextWrap
