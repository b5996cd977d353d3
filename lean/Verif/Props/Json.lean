import Verif.Lemmas.Json
import Verif.Props.File

/-
C37: what `print_json` writes.
-/

namespace Verif.Props

open Spec

mutual
theorem distinct_documented (v : PyVal) (h : Documented v) : Json.Distinct v := by
  match v with
  | .none => trivial
  | .int _ => trivial
  | .str _ => trivial
  | .dt _ => trivial
  | .list l => exact distinct_documentedList l h
  | .dict d => exact ⟨h.1.nodup, distinct_documentedEntries d h.2⟩
theorem distinct_documentedList (l : List PyVal) (h : DocumentedList l) : Json.DistinctList l := by
  match l with
  | [] => trivial
  | v :: l => exact ⟨distinct_documented v h.1, distinct_documentedList l h.2⟩
theorem distinct_documentedEntries (d : List (String × PyVal)) (h : DocumentedEntries d) : Json.DistinctEntries d := by
  match d with
  | [] => trivial
  | (k, v) :: d => exact ⟨distinct_documented v h.1, distinct_documentedEntries d h.2.2⟩
end

theorem distinct_documentedFile (j : Dict) (h : DocumentedFile j) : Json.Distinct (.dict j) := by
  refine ⟨h.1.nodup (by decide +kernel), ?_⟩
  have : ∀ d : Dict, (∀ kv ∈ d, Json.Distinct kv.2) → Json.DistinctEntries d := by
    intro d
    induction d with
    | nil => exact fun _ => trivial
    | cons kv d ih => exact fun hd => ⟨hd kv (by simp), ih fun x hx => hd x (by simp [hx])⟩
  refine this j fun kv hkv => ?_
  by_cases hk : kv.1 = "header"
  · obtain ⟨k, v⟩ := kv
    simp only at hk
    subst hk
    obtain ⟨hd, rfl, h1, h2⟩ := h.2.2 v hkv
    exact ⟨h1.nodup LnkFile.headerKeys_nodup, this hd fun x hx => distinct_documented _ (h2 x hx)⟩
  · exact distinct_documented _ (h.2.1 kv hkv hk)

/-- C37: when `get_json` returns, so does `print_json`, with the same warnings; the text is ASCII, it is JSON, and it tells
the tree.  (`UsableCodePage` as in C49: the configured code page, if any, can decode something.) -/
theorem print_json_tells (env : Env) (cp : Option String) (hcp : UsableCodePage (TextProc.mk' env cp)) (allow all : Bool)
    (src : Source) (f : LnkFile) (hf : (LnkFile.init env cp allow src).res = .ok f) (j : Dict) (w : List Warn)
    (hj : f.getJson all = ⟨w, .ok j⟩) :
    ∃ text jv, f.printJson all = ⟨w, .ok text⟩ ∧ (∀ c ∈ text, c.toNat < 128) ∧ Spec.Json.decode text = some jv ∧
      Tells jv (.dict j) := by
  have hd := json_documented env cp hcp allow all src f hf j (by rw [hj])
  refine ⟨Json.dumps (.dict j), Json.toJ (Json.sortKeys (.dict j)), ?_, Json.ascii_dump _ _, Json.decode_dump _,
    Json.tells_sort _ (distinct_documentedFile _ hd)⟩
  unfold LnkFile.printJson
  rw [hj]
  simp [bind, Py.andThen, pure, Py.ret]

/-- C37: when `get_json` raises, so does `print_json`, and nothing is written. -/
theorem print_json_raises (f : LnkFile) (all : Bool) (w : List Warn) (e : PyErr) (hj : f.getJson all = ⟨w, .error e⟩) :
    f.printJson all = ⟨w, .error e⟩ := by
  unfold LnkFile.printJson
  rw [hj]
  rfl

/-- C37 for any tree without repeated keys, whether or not it comes from a link. -/
theorem json_text_tells (v : PyVal) (h : Json.Distinct v) :
    ∃ jv, Spec.Json.decode (Json.dumps v) = some jv ∧ Tells jv v :=
  ⟨_, Json.decode_dump _, Json.tells_sort v h⟩

theorem lookup_mem {α β : Type} [BEq α] [LawfulBEq α] (l : List (α × β)) (h : (l.map (·.1)).Nodup) (a : α) (b : β) :
    l.lookup a = some b ↔ (a, b) ∈ l := by
  induction l with
  | nil => simp
  | cons e l ih =>
    rw [List.map_cons, List.nodup_cons] at h
    rw [List.lookup_cons, List.mem_cons]
    by_cases hk : a = e.1
    · subst hk
      simp only [beq_self_eq_true, Option.some.injEq]
      constructor
      · rintro rfl; exact .inl rfl
      · rintro (h' | h')
        · rw [← h']
        · exact absurd (List.mem_map_of_mem h') h.1
    · simp only [beq_false_of_ne hk]
      rw [ih h.2]
      constructor
      · exact .inr
      · rintro (rfl | h')
        · exact absurd rfl hk
        · exact h'

/-- C37: in an object that tells a dictionary, the member of a name tells what is under the key. -/
theorem tells_get {o : List (List Char × JVal)} {d : Dict} (h : Tells (.obj o) (.dict d)) (k : String) :
    match Dict.get? d k with
    | some v => ∃ j, o.lookup k.toList = some j ∧ Tells j v
    | none => o.lookup k.toList = none := by
  cases h with
  | obj _ o' _ hp hk hv hs =>
    have hno : (o.map (·.1)).Nodup := by
      refine List.pairwise_map.2 (hs.imp ?_)
      intro a b hab he
      rw [he] at hab
      exact List.lt_irrefl _ hab
    have hl : o.lookup k.toList = o'.lookup k.toList := by
      have hno' : (o'.map (·.1)).Nodup := (hp.map _).nodup_iff.2 hno
      apply Option.ext
      intro j
      rw [lookup_mem _ hno, lookup_mem _ hno', hp.mem_iff]
    rw [hl]
    clear hl hno hs hp o
    induction d generalizing o' with
    | nil =>
      obtain rfl : o' = [] := by simpa using hk
      rfl
    | cons e d ih =>
      rcases o' with _ | ⟨⟨k', j⟩, o'⟩
      · simp at hk
      · simp only [List.map_cons, List.cons.injEq] at hk
        rw [List.map_cons, List.map_cons, List.forall₂_cons] at hv
        obtain ⟨rfl, hk⟩ := hk
        rw [List.lookup_cons]
        obtain ⟨k', v⟩ := e
        unfold Dict.get?
        by_cases hkk : k' = k
        · subst hkk
          simp only [beq_self_eq_true, if_true]
          exact ⟨j, rfl, hv.1⟩
        · have : (k.toList == k'.toList) = false := by
            rw [beq_eq_false_iff_ne]
            intro h
            exact hkk (String.toList_inj.1 h).symm
          simp only [this, hkk, if_false]
          exact ih o' hk hv.2

theorem padded_length (w n : Nat) (hw : 0 < w) (h : n < 10 ^ w) : (padded w n).length = w := by
  have := (Nat.length_toDigits_le_iff (b := 10) (by decide) hw).2 h
  simp [padded]
  omega

theorem padded_inj (w a b : Nat) (h : padded w a = padded w b) : a = b := by
  have key : ∀ n, Nat.ofDigitChars 10 (padded w n) 0 = n := by
    intro n
    have hz : ∀ k (l : List Char), Nat.ofDigitChars 10 (List.replicate k '0' ++ l) 0 = Nat.ofDigitChars 10 l 0 := by
      intro k l
      induction k with
      | zero => rfl
      | succ k ih => rw [List.replicate_succ, List.cons_append, Nat.ofDigitChars_cons]; exact ih
    rw [padded, hz, Nat.ofDigitChars_ten_toDigits]
  rw [← key a, h, key b]

/-- C37: the text of a date determines it to the second. -/
theorem isoText_inj (d d' : DateTime) (h : ValidDateTime d) (h' : ValidDateTime d') (he : isoText d = isoText d') :
    d.year = d'.year ∧ d.month = d'.month ∧ d.day = d'.day ∧ d.hour = d'.hour ∧ d.minute = d'.minute ∧
      d.second = d'.second := by
  have hd : ∀ d : DateTime, ValidDateTime d → d.day < 10 ^ 2 := by
    intro d h
    have h1 := h.2.2.1.2
    have h2 : ∀ n ∈ monthLengths d.year, n ≤ 31 := by
      intro n hn
      simp only [monthLengths, List.mem_cons, List.not_mem_nil, or_false] at hn
      have : (if LeapYear d.year then 29 else 28) ≤ 31 := by split <;> omega
      omega
    have h3 : (monthLengths d.year).getD (d.month - 1) 0 ≤ 31 := by
      rw [List.getD_eq_getElem?_getD]
      rcases hg : (monthLengths d.year)[d.month - 1]? with _ | x
      · simp
      · exact h2 x (List.mem_of_getElem? hg)
    omega
  have hd1 := hd d h
  have hd2 := hd d' h'
  obtain ⟨a1, a2, -, a4, a5, a6, -⟩ := h
  obtain ⟨b1, b2, -, b4, b5, b6, -⟩ := h'
  have len : ∀ w n m, 0 < w → n < 10 ^ w → m < 10 ^ w → (padded w n).length = (padded w m).length :=
    fun w n m hw hn hm => by rw [padded_length w n hw hn, padded_length w m hw hm]
  unfold isoText at he
  simp only [List.append_assoc, List.cons_append, List.nil_append] at he
  obtain ⟨e1, he⟩ := List.append_inj he (len 4 _ _ (by decide) (by omega) (by omega))
  rw [List.cons.injEq] at he
  obtain ⟨e2, he⟩ := List.append_inj he.2 (len 2 _ _ (by decide) (by omega) (by omega))
  rw [List.cons.injEq] at he
  obtain ⟨e3, he⟩ := List.append_inj he.2 (len 2 _ _ (by decide) hd1 hd2)
  rw [List.cons.injEq] at he
  obtain ⟨e4, he⟩ := List.append_inj he.2 (len 2 _ _ (by decide) (by omega) (by omega))
  rw [List.cons.injEq] at he
  obtain ⟨e5, he⟩ := List.append_inj he.2 (len 2 _ _ (by decide) (by omega) (by omega))
  rw [List.cons.injEq] at he
  obtain ⟨e6, -⟩ := List.append_inj he.2 (len 2 _ _ (by decide) (by omega) (by omega))
  exact ⟨padded_inj _ _ _ e1, padded_inj _ _ _ e2, padded_inj _ _ _ e3, padded_inj _ _ _ e4, padded_inj _ _ _ e5,
    padded_inj _ _ _ e6⟩

/-- C37 for `print_shortcut_target(pjson=True)`: JSON, ASCII, with the command line. -/
theorem shortcut_target_json (f : LnkFile) (c : Str) (w : List Warn) (h : f.lnkCommand = ⟨w, .ok c⟩) :
    ∃ text, f.printShortcutTarget true = ⟨w, .ok text⟩ ∧ (∀ c ∈ text, c.toNat < 128) ∧
      Spec.Json.decode text = some (.obj [("shortcut_target".toList, .str c)]) := by
  refine ⟨Json.dumpsTarget c, ?_, ?_, ?_⟩
  · unfold LnkFile.printShortcutTarget
    rw [h]
    simp [bind, Py.andThen, pure, Py.ret]
  · exact Json.Ascii.cons (by decide) ((((Json.ascii_quote _).append (by unfold Json.Ascii; decide)).append (Json.ascii_quote _)).append
      (.cons (by decide) .nil))
  · generalize hk : "shortcut_target".toList = k
    have e : Json.dumpsTarget c = '{' :: (Json.quote k ++ (": ".toList ++ (Json.dump 0 (.str c) ++ ['}']))) := by
      rw [Json.dumpsTarget, hk]
      simp [Json.dump]
    obtain ⟨n, hn⟩ : ∃ n, (Json.dumpsTarget c).length + 1 = n + 1 + 1 + 1 :=
      ⟨(Json.dumpsTarget c).length - 2, by rw [e]; simp [Json.quote]⟩
    have h1 := Json.member_dump (n + 1) k 0 (.str c) ['}'] (Json.value_str n c ['}'])
    have hs : Spec.Json.skipWs (Json.quote k ++ (": ".toList ++ (Json.dump 0 (.str c) ++ ['}']))) =
        Json.quote k ++ (": ".toList ++ (Json.dump 0 (.str c) ++ ['}'])) := Json.skipWs_cons '"' _ (by decide)
    unfold Spec.Json.decode
    rw [hn, e, Json.skipWs_cons _ _ (by decide), Spec.Json.value, if_neg (by decide), if_neg (by decide), if_pos rfl]
    simp only [hs]
    rw [if_neg (by simp [Json.quote]), h1]
    rfl

/-- A tree with a repeated letter case, a character outside the basic plane, a date, a negative number and nesting. -/
def exampleTree : PyVal :=
  .dict [("b", .list [.none, .int (-7), .dict []]), ("a", .str "\"😀ß\n".toList), ("B", .dt ⟨987, 1, 2, 3, 4, 5, 678⟩)]

example : Json.Distinct exampleTree := by
  simp [exampleTree, Json.Distinct, Json.DistinctEntries, Json.DistinctList]

example : Json.dumps exampleTree = ("{\n    \"B\": \"0987-01-02T03:04:05+00:00\",\n    \"a\": \"\\\"\\ud83d\\ude00\\u00df\\n\",\n" ++
    "    \"b\": [\n        null,\n        -7,\n        {}\n    ]\n}").toList := by
  decide +kernel

end Verif.Props
