import Verif.Lemmas.Hex
import Verif.Lemmas.Header
import Verif.Model.Messages
import Verif.Spec.Messages

namespace Verif

open Spec

namespace Messages

open Spec.Messages

theorem after_append (p s : List Char) : after p (p ++ s) = some s := by
  induction p with
  | nil => rfl
  | cons c p ih => simp [after, ih]

/-- The two differ at a common position. -/
def conflict : List Char → List Char → Bool
  | c :: p, d :: q => c != d || conflict p q
  | _, _ => false

theorem after_conflict {p q : List Char} (h : conflict p q = true) (s : List Char) : after p (q ++ s) = none := by
  induction p generalizing q with
  | nil => simp [conflict] at h
  | cons c p ih =>
    cases q with
    | nil => simp [conflict] at h
    | cons d q =>
      by_cases e : c = d
      · subst e
        simp only [conflict, bne_self_eq_false, Bool.false_or] at h
        simp [after, ih h]
      · simp [after, e]

theorem upTo_append {c : Char} {s : List Char} (h : c ∉ s) (rest : List Char) : upTo c (s ++ c :: rest) = s := by
  unfold upTo
  rw [List.takeWhile_append_of_pos (fun a ha => by simp only [ne_eq, decide_eq_true_eq]; rintro rfl; exact h ha)]
  simp

/-- The first letter used for digits. -/
def letter (u : Bool) : Char := if u then 'A' else 'a'

theorem digit_hexChar (u : Bool) {d : Nat} (h : d < 16) : digit (letter u) (hexChar u d) = some d := by
  have : ∀ u : Bool, ∀ d : Fin 16, digit (letter u) (hexChar u d) = some d.1 := by decide +kernel
  exact this u ⟨d, h⟩

theorem hexChar_ne (u : Bool) {d : Nat} (h : d < 16) : hexChar u d ≠ ' ' := by
  have : ∀ u : Bool, ∀ d : Fin 16, hexChar u d ≠ ' ' := by decide +kernel
  exact this u ⟨d, h⟩

theorem fmtX_byte {n : Nat} (h : n < 256) : byte 'A' (fmtX 2 n) = some n ∧ ' ' ∉ fmtX 2 n := by
  have : ∀ n : Fin 256, byte 'A' (fmtX 2 n) = some n.1 ∧ ' ' ∉ fmtX 2 n := by decide +kernel
  exact this ⟨n, h⟩

theorem digit_dec {d : Nat} (h : d < 10) : digit 'A' (Char.ofNat (48 + d)) = some d := by
  have : ∀ d : Fin 10, digit 'A' (Char.ofNat (48 + d)) = some d.1 := by decide +kernel
  exact this ⟨d, h⟩

theorem dec_ne {d : Nat} (h : d < 10) :
    Char.ofNat (48 + d) ≠ ' ' ∧ Char.ofNat (48 + d) ≠ ':' ∧ (Char.ofNat (48 + d)).isDigit = true := by
  have : ∀ d : Fin 10, Char.ofNat (48 + d) ≠ ' ' ∧ Char.ofNat (48 + d) ≠ ':' ∧ (Char.ofNat (48 + d)).isDigit = true := by
    decide +kernel
  exact this ⟨d, h⟩

theorem marks_decStr (n : Nat) : ' ' ∉ decStr n ∧ ':' ∉ decStr n ∧ (decStr n).all Char.isDigit = true := by
  induction n using Nat.strongRecOn with
  | ind n ih =>
    rw [decStr]
    split
    · rename_i h
      simpa using ⟨(dec_ne h).1.symm, (dec_ne h).2.1.symm, (dec_ne h).2.2⟩
    · have := ih (n / 10) (by omega)
      have h2 := dec_ne (show n % 10 < 10 by omega)
      rw [List.all_append, this.2.2]
      simp [this, h2.1.symm, h2.2.1.symm, h2.2.2]

theorem decimal_decStr (n : Nat) : decimal (decStr n) = some n := by
  unfold decimal
  rw [if_pos (marks_decStr n).2.2]
  induction n using Nat.strongRecOn with
  | ind n ih =>
    rw [decStr]
    split
    · rename_i h
      simp [digit_dec h]
    · rw [List.foldl_append, ih _ (by omega)]
      simp only [List.foldl_cons, List.foldl_nil, digit_dec (show n % 10 < 10 by omega)]
      congr 1
      omega

theorem byte_hex (x : UInt8) :
    (byte 'a' [hexChar false (x.toNat / 16), hexChar false (x.toNat % 16)]) = some x.toNat := by
  have hx := x.toNat_lt
  have h1 := digit_hexChar false (show x.toNat / 16 < 16 by omega)
  have h2 := digit_hexChar false (show x.toNat % 16 < 16 by omega)
  simp only [letter, Bool.false_eq_true, if_false] at h1 h2
  unfold byte
  dsimp only
  rw [h1, h2]
  show some _ = _
  congr 1
  omega

theorem bytes_hex (b : Bytes) : bytes (bytesHexSep b) = some b := by
  induction b with
  | nil => rfl
  | cons x b ih =>
    cases b with
    | nil =>
      show bytes [hexChar false (x.toNat / 16), hexChar false (x.toNat % 16)] = _
      rw [bytes, byte_hex]
      simp
    | cons y b =>
      show bytes (hexChar false (x.toNat / 16) :: hexChar false (x.toNat % 16) :: ' ' :: bytesHexSep (y :: b)) = _
      rw [bytes, byte_hex, ih]
      simp

theorem numberThen_eq {number : List Char → Option Nat} {s : List Char} {n : Nat} (hs : ' ' ∉ s) (hn : number s = some n)
    (tail : String) (k : Nat → Notice) (t : List Char) (ht : tail.toList = ' ' :: t) :
    numberThen number tail k (s ++ ' ' :: t) = some (k n) := by
  unfold numberThen
  rw [upTo_append hs, List.drop_left, if_pos ht.symm, hn]
  rfl

theorem nameThen_eq {s : List Char} (hs : '`' ∉ s) (next : String) (k : List Char → Notice) (t e : List Char)
    (ht : next.toList = '`' :: t) : nameThen next k (s ++ ('`' :: t ++ (e ++ [')']))) = some (k s) := by
  unfold nameThen
  have h1 : upTo '`' (s ++ ('`' :: t ++ (e ++ [')']))) = s := upTo_append hs _
  rw [h1, List.drop_left, ht, after_append]
  simp

/-- The fields `must_be` checks. -/
def fieldNames : List String := ["size", "link_cls_id", "reserved0", "reserved1", "reserved2", "length", "version"]

/-- What is read from the message of a warning. -/
def noticeOf (q : Quote) : Warn → Notice
  | .mustBe func expected got => .mustBe func.toList expected.text got.text
  | .invalidFiletime b => .filetime b
  | .invalidDostime b => .dostime b
  | .decode s => .text (s ++ "` (".toList ++ q.exc ++ ")".toList)
  | .itemType t => .itemType t
  | .itemFlags f => .kind f
  | .sortIndex v => .sortIndex v
  | .category c => .category c
  | .targetKey name => .item name.toList
  | .infoClass => .infoFlags
  | .stringData => .strings
  | .extraSize => .blockSize
  | .extraSignature => .blockSignature
  | .extraBlock name _ => .block name.toList

/-- Messages whose parts can be told apart. -/
def Clear : Warn → Prop
  | .mustBe func expected got => func ∈ fieldNames ∧ ':' ∉ expected.text ∧
      ((∃ n, got = .int n) ↔ func ≠ "link_cls_id") ∧ ((∃ n, expected = .int n) ↔ func ≠ "link_cls_id")
  | .itemType t => t < 256
  | .itemFlags f => f < 256
  | .sortIndex v => v < 256
  | .targetKey name => '`' ∉ name.toList
  | .extraBlock name _ => '`' ∉ name.toList
  | _ => True

theorem read_form (i : Nat) (p : String) (k : List Char → Option Notice) (s : List Char) (hi : forms[i]? = some (p, k))
    (hc : ∀ f ∈ forms.take i, conflict f.1.toList p.toList = true) : readMessage (p.toList ++ s) = k s := by
  have h1 : ∀ (l : List (String × (List Char → Option Notice))) (i : Nat), l[i]? = some (p, k) →
      (∀ f ∈ l.take i, conflict f.1.toList p.toList = true) → firstForm (p.toList ++ s) l = k s := by
    intro l
    induction l with
    | nil => intro i h; simp at h
    | cons f l ih =>
      intro i h hc
      cases i with
      | zero =>
        simp only [List.getElem?_cons_zero, Option.some.injEq] at h
        subst h
        simp [firstForm, after_append]
      | succ i =>
        simp only [List.getElem?_cons_succ] at h
        obtain ⟨fp, fk⟩ := f
        have hf := hc (fp, fk) (by simp)
        simp only [firstForm, after_conflict hf]
        exact ih i h fun f hf => hc f (by simp [hf])
  unfold readMessage
  rw [if_pos, h1 forms i hi hc]
  rw [List.any_eq_true]
  exact ⟨(p, k), List.mem_of_getElem? hi, by simp [after_append]⟩

theorem read_mustBe (func : String) (hf : func ∈ fieldNames) (e g : List Char) (he : ':' ∉ e) :
    readMessage (func.toList ++ " must be ".toList ++ e ++ ": ".toList ++ g) = some (.mustBe func.toList e g) := by
  have h1 : ∀ func ∈ fieldNames, ' ' ∉ func.toList ∧ ∀ f ∈ forms.map (·.1.toList), conflict f func.toList = true := by decide +kernel
  obtain ⟨hb, hn⟩ := h1 func hf
  unfold readMessage
  rw [if_neg]
  · unfold readMustBe
    have e1 : upTo ' ' (func.toList ++ " must be ".toList ++ e ++ ": ".toList ++ g) = func.toList := by
      have := upTo_append hb ("must be ".toList ++ (e ++ (": ".toList ++ g)))
      simp only [List.append_assoc]
      exact this
    dsimp only
    rw [e1]
    have e2 : (func.toList ++ " must be ".toList ++ e ++ ": ".toList ++ g).drop func.toList.length =
        " must be ".toList ++ (e ++ (": ".toList ++ g)) := by
      simp only [List.append_assoc, List.drop_left]
    rw [e2, after_append]
    dsimp only
    have e3 : upTo ':' (e ++ (": ".toList ++ g)) = e := upTo_append he (' ' :: g)
    rw [e3, List.drop_left, after_append]
  · rw [List.any_eq_true]
    rintro ⟨f, hf, h⟩
    rw [List.append_assoc, List.append_assoc, List.append_assoc, after_conflict (hn _ (List.mem_map.2 ⟨f, hf, rfl⟩))] at h
    cases h

theorem forms_conflict : ∀ i : Fin 14, ∀ f ∈ (forms.map (·.1)).take i.1,
    conflict f.toList (((forms.map (·.1))[i.1]?.getD "").toList) = true := by
  decide +kernel

theorem forms_before (i : Nat) (hi : i < 14) (p : String) (hp : (forms.map (·.1))[i]?.getD "" = p) :
    ∀ f ∈ forms.take i, conflict f.1.toList p.toList = true := by
  intro f hf
  have h1 : f.1 ∈ (forms.map (·.1)).take i := by
    rw [← List.map_take]
    exact List.mem_map.2 ⟨f, hf, rfl⟩
  rw [← hp]
  exact forms_conflict ⟨i, hi⟩ f.1 h1

theorem assoc4 (a b c d : List Char) : a ++ b ++ c ++ d = a ++ (b ++ (c ++ d)) := by
  simp only [List.append_assoc]

theorem assoc5 (a b c d e : List Char) : a ++ b ++ c ++ d ++ e = a ++ (b ++ (c ++ (d ++ e))) := by
  simp only [List.append_assoc]

theorem read_text (q : Quote) (w : Warn) (h : Clear w) : readMessage (w.text q) = some (noticeOf q w) := by
  cases w with
  | mustBe func expected got => exact read_mustBe func h.1 _ _ h.2.1
  | invalidFiletime b =>
    have := read_form 0 "Invalid filetime: " (fun s => (bytes s).map .filetime) (bytesHexSep b) rfl (forms_before 0 (by omega) _ rfl)
    rw [bytes_hex] at this
    exact this
  | invalidDostime b =>
    have := read_form 1 "Invalid dostime: " (fun s => (bytes s).map .dostime) (bytesHexSep b) rfl (forms_before 1 (by omega) _ rfl)
    rw [bytes_hex] at this
    exact this
  | decode s =>
    refine (congrArg readMessage (assoc5 ..)).trans
      ((read_form 2 "Error while decoding string `" (fun s => some (.text s)) _ rfl (forms_before 2 (by omega) _ rfl)).trans ?_)
    rw [noticeOf, assoc4]
  | itemType t =>
    exact (congrArg readMessage (assoc4 ..)).trans ((read_form 3 "Not implemented item_type 0x" _ _ rfl (forms_before 3 (by omega) _ rfl)).trans
      (numberThen_eq (fmtX_byte h).2 (fmtX_byte h).1 " in TargetFactory.SHELL_ITEM_CLASSES. Use fallback value: <class 'LnkParse3.target.unknown.Unknown'>." _
        "in TargetFactory.SHELL_ITEM_CLASSES. Use fallback value: <class 'LnkParse3.target.unknown.Unknown'>.".toList rfl))
  | itemFlags f =>
    exact (congrArg readMessage (assoc4 ..)).trans ((read_form 4 "Not implemented flags 0x" _ _ rfl (forms_before 4 (by omega) _ rfl)).trans
      (numberThen_eq (fmtX_byte h).2 (fmtX_byte h).1 " in LnkTargetBase.SHELL_ITEM_SHELL_FS_FOLDER. Use fallback value: \"Unknown\"." _
        "in LnkTargetBase.SHELL_ITEM_SHELL_FS_FOLDER. Use fallback value: \"Unknown\".".toList rfl))
  | sortIndex v =>
    exact (congrArg readMessage (assoc4 ..)).trans ((read_form 5 "Not implemented sort_index_value " _ _ rfl (forms_before 5 (by omega) _ rfl)).trans
      (numberThen_eq (fmtX_byte h).2 (fmtX_byte h).1 " in RootFolder.SORT_INDEX. Use fallback value: \"Unknown\"." _
        "in RootFolder.SORT_INDEX. Use fallback value: \"Unknown\".".toList rfl))
  | category c =>
    exact (congrArg readMessage (assoc4 ..)).trans ((read_form 6 "Not implemented category_id " _ _ rfl (forms_before 6 (by omega) _ rfl)).trans
      (numberThen_eq (marks_decStr c).1 (decimal_decStr c) " in ControlPanelCategory.CATEGORIES. Use fallback value: \"Unknown\"." _
        "in ControlPanelCategory.CATEGORIES. Use fallback value: \"Unknown\".".toList rfl))
  | targetKey name =>
    refine (congrArg readMessage (assoc5 ..)).trans ?_
    have e := fun k => nameThen_eq h "` (KeyError " k " (KeyError ".toList q.exc rfl
    cases q.inBlock
    · exact (read_form 7 "Error while parsing TargetID `" _ _ rfl (forms_before 7 (by omega) _ rfl)).trans (e _)
    · exact (read_form 8 "Error while parsing extra TargetID `" _ _ rfl (forms_before 8 (by omega) _ rfl)).trans (e _)
  | infoClass => exact read_form 9 "Error while selecting proper Info class: " (fun _ => some .infoFlags) _ rfl (forms_before 9 (by omega) _ rfl)
  | stringData => exact read_form 10 "Error while parsing String data: " (fun _ => some .strings) _ rfl (forms_before 10 (by omega) _ rfl)
  | extraSize => exact read_form 11 "Error while parsing extra data: " (fun _ => some .blockSize) _ rfl (forms_before 11 (by omega) _ rfl)
  | extraSignature => exact read_form 12 "Error while parsing extra's signature " (fun _ => some .blockSignature) _ rfl (forms_before 12 (by omega) _ rfl)
  | extraBlock name e =>
    exact (congrArg readMessage (assoc5 ..)).trans
      ((read_form 13 "Error while parsing `" _ _ rfl (forms_before 13 (by omega) _ rfl)).trans
        (nameThen_eq h "` (" _ " (".toList q.exc rfl))

theorem notice_inj {w w' : Warn} (h : Clear w) (h' : Clear w') {q q' : Quote} (he : noticeOf q w = noticeOf q' w') :
    blurred w = blurred w' := by
  have dec : ∀ {a b : Nat}, decStr a = decStr b → a = b := fun h => by
    have := congrArg decimal h
    rw [decimal_decStr, decimal_decStr] at this
    exact Option.some.inj this
  have val : ∀ {u v : MustVal} {P : Prop}, ((∃ n, u = .int n) ↔ P) → ((∃ n, v = .int n) ↔ P) → u.text = v.text → u = v := by
    intro u v P hu hv h
    cases u with
    | int a =>
      obtain ⟨b, rfl⟩ := hv.2 (hu.1 ⟨a, rfl⟩)
      rw [dec h]
    | str a =>
      cases v with
      | int b =>
        obtain ⟨n, hn⟩ := hu.2 (hv.1 ⟨b, rfl⟩)
        cases hn
      | str b => exact congrArg _ h
  cases w <;> cases w' <;> first | (cases he; done) | skip
  case mustBe.mustBe f e g f' e' g' =>
    obtain ⟨-, -, h3, h4⟩ := h
    obtain ⟨-, -, h5, h6⟩ := h'
    simp only [noticeOf, Notice.mustBe.injEq] at he
    obtain ⟨h1, h2, h7⟩ := he
    obtain rfl := String.ext_iff.2 h1
    rw [val h3 h5 h7, val h4 h6 h2]
  all_goals simp_all [noticeOf, blurred]
  all_goals exact String.ext_iff.2 he

end Messages

end Verif
