import Verif.Lemmas.JsonVisible
import Verif.Props.Main

/-
C83: which characters the tool writes to the terminal.
-/

namespace Verif.Props

open Spec

theorem Out.after_text {α : Type} {P : Str → Prop} (h0 : P []) (x : Py α) (k : α → Out)
    (h : ∀ a, x.res = .ok a → P (k a).text) : P (Out.after x k).text := by
  rcases x with ⟨w, e | a⟩
  · exact h0
  · exact h a rfl

theorem main_json_text {P : Str → Prop} (h0 : P []) (env : Env) (dump : Dict → Str) (args : Args) (hj : args.json = true)
    (content : Option Bytes) (ht : args.target = true → ∀ s, P (Json.dumpsTarget s ++ ['\n']))
    (hr : args.target = false → ∀ j, P (Json.dumps (.dict j) ++ ['\n'])) : P (main env dump args content).text := by
  unfold main
  refine Out.after_text h0 _ _ fun b _ => Out.after_text h0 _ _ fun f _ => ?_
  cases hb : args.target
  · rw [if_neg (by simp), if_pos hj]
    refine Out.after_text h0 _ _ fun s hs => ?_
    obtain ⟨j, -, hs⟩ := Py.bind_ok_iff.1 hs
    cases hs
    exact hr hb j
  · rw [if_pos rfl]
    refine Out.after_text h0 _ _ fun s hs => ?_
    obtain ⟨c, -, hs⟩ := Py.bind_ok_iff.1 hs
    rw [hj] at hs
    cases hs
    exact ht hb c

/-- C83: with `-j` the tool writes printable ASCII characters and line feeds only, whatever the file, the code page and the
other options. -/
theorem json_characters (env : Env) (dump : Dict → Str) (args : Args) (hj : args.json = true) (content : Option Bytes) :
    ∀ c ∈ (main env dump args content).text, (32 ≤ c.toNat ∧ c.toNat ≤ 126) ∨ c = '\n' := by
  have hl : ∀ {s : Str}, Json.Prints true s → Json.Prints true (s ++ ['\n']) :=
    fun h => h.append fun c hc => .inr ⟨rfl, by simpa using hc⟩
  have h : Json.Prints true (main env dump args content).text :=
    main_json_text .nil env dump args hj content
      (fun _ s => hl fun c hc => (Json.prints_dumpsTarget s c hc).imp_right fun h => absurd h.1 (by decide))
      (fun _ j => hl (Json.prints_dump _ _))
  exact fun c hc => (h c hc).imp_right And.right

/-- C83: with `-t -j` the tool writes nothing or a single line. -/
theorem json_target_line (env : Env) (dump : Dict → Str) (args : Args) (ht : args.target = true) (hj : args.json = true)
    (content : Option Bytes) : (main env dump args content).text = [] ∨
      ∃ line, (main env dump args content).text = line ++ ['\n'] ∧ ∀ c ∈ line, 32 ≤ c.toNat ∧ c.toNat ≤ 126 :=
  main_json_text (P := fun s => s = [] ∨ ∃ line, s = line ++ ['\n'] ∧ ∀ c ∈ line, 32 ≤ c.toNat ∧ c.toNat ≤ 126) (.inl rfl)
    env dump args hj content
    (fun _ s => .inr ⟨_, rfl, fun c hc => (Json.prints_dumpsTarget s c hc).resolve_right fun h => absurd h.1 (by decide)⟩)
    (fun h => by rw [ht] at h; cases h)

theorem mem_replace (old new s : Str) (c : Char) (hc : c ∈ TextWrap.replace old new s) : c ∈ new ∨ c ∈ s := by
  induction hs : s.length using Nat.strong_induction_on generalizing s with
  | _ k ih =>
    subst hs
    rcases s with _ | ⟨d, s⟩
    · rw [TextWrap.replace_nil] at hc
      exact .inr hc
    · rw [TextWrap.replace] at hc
      split at hc
      · rcases List.mem_append.1 hc with hc | hc
        · exact .inl hc
        · exact (ih _ (by simp; omega) _ hc rfl).imp_right fun h => List.mem_cons_of_mem _ (List.mem_of_mem_drop h)
      · rcases List.mem_cons.1 hc with rfl | hc
        · simp
        · exact (ih _ (by simp) _ hc rfl).imp_right (List.mem_cons_of_mem _)

theorem mem_indent (s pre : Str) (c : Char) (hc : c ∈ TextWrap.indent s pre) : c ∈ pre ∨ c ∈ s := by
  obtain ⟨l, hl, hc⟩ := List.mem_flatMap.1 hc
  have hl : c ∈ l → c ∈ s := fun h => by
    rw [← TextWrap.flatten_splitLines s]
    exact List.mem_flatten.2 ⟨l, hl, h⟩
  split at hc
  · exact .inr (hl hc)
  · exact (List.mem_append.1 hc).imp_right hl

/-- C83: without `-t` and `-j` nothing is added to the YAML text but printable characters and line feeds: the tool writes
no other character unless `yaml.dump` does. -/
theorem readable_characters (env : Env) (dump : Dict → Str) (args : Args) (ht : args.target = false)
    (hj : args.json = false) (content : Option Bytes) (c : Char) (hc : c ∈ (main env dump args content).text) :
    (32 ≤ c.toNat ∧ c.toNat ≤ 126) ∨ c = '\n' ∨ ∃ d, c ∈ dump d := by
  revert hc
  have h0 : c ∈ ([] : Str) → (32 ≤ c.toNat ∧ c.toNat ≤ 126) ∨ c = '\n' ∨ ∃ d, c ∈ dump d := by simp
  refine Out.after_text (P := fun s => c ∈ s → _) h0 _ _ fun b _ =>
    Out.after_text (P := fun s => c ∈ s → _) h0 _ _ fun f _ => ?_
  rw [ht, hj, if_neg (by simp), if_neg (by simp)]
  intro hc
  rcases hn : f.niceJson args.print_all with ⟨w, e | d⟩
  · rw [printLnkFile_error dump f _ w e hn] at hc
    simp at hc
  · rw [printLnkFile_ok dump f _ w d hn] at hc
    rcases List.mem_append.1 hc with hc | hc
    · exact (by decide : ∀ c ∈ "Windows Shortcut Information:\n".toList, (32 ≤ c.toNat ∧ c.toNat ≤ 126) ∨ c = '\n') c hc
        |>.imp_right .inl
    · rcases List.mem_append.1 hc with hc | hc
      · rcases mem_indent _ _ _ hc with hc | hc
        · exact .inl ((by decide : ∀ c ∈ "   ".toList, 32 ≤ c.toNat ∧ c.toNat ≤ 126) c hc)
        · rcases mem_replace _ _ _ _ hc with hc | hc
          · exact .inr (.inl (by simpa using hc))
          · exact .inr (.inr ⟨d, hc⟩)
      · exact .inr (.inl (by simpa using hc))

/-- A link with command line arguments only. -/
def argumentsLink (u : List Char) : ShellLink :=
  ⟨⟨76, shellLinkCLSID, 0xA0, 0, 0, 0, 0, 0, 0, 1, 0, 0, 0, 0, 0⟩, none, none, ⟨none, none, none, some (utf16 u, u), none⟩, []⟩

theorem argumentsLink_valid (tp : TextProc) (u : List Char) (h0 : '\x00' ∉ u) (hl : (utf16 u).length ≤ 2 * 65535) :
    (argumentsLink u).Valid tp := by
  have h7 : (argumentsLink u).flags.testBit 7 = true := by
    show Nat.testBit 160 7 = true
    decide
  refine ⟨rfl, ?_, fun l h => (by cases h), ?_, fun i h => (by cases h), ?_, ?_, fun b h => (by cases h)⟩
  · show false = Nat.testBit 160 0
    decide
  · show false = (Nat.testBit 160 1 && !Nat.testBit 160 8)
    decide
  · intro f hf
    show Nat.testBit 160 _ = _
    simp only [Strings.fields, argumentsLink, List.mem_cons, List.not_mem_nil, or_false] at hf
    rcases hf with rfl | rfl | rfl | rfl | rfl <;> first | decide | exact (by decide : Nat.testBit 160 5 = true)
  · intro f hf raw text hc
    rw [h7, if_pos rfl]
    simp only [Strings.fields, argumentsLink, List.mem_cons, List.not_mem_nil, or_false] at hf
    rcases hf with rfl | rfl | rfl | rfl | rfl
    · cases hc
    · cases hc
    · cases hc
    · cases hc
      refine ⟨rfl, h0, ?_⟩
      show _ ≤ 65535
      omega
    · cases hc

/-- C83, violation: with `-t` and without `-j` whoever makes the file decides what is written to the terminal: every text
without NUL that fits into the arguments is written as it is, escape sequences and line feeds included, and nothing
else. -/
theorem target_characters (env : Env) (dump : Dict → Str) (cp : String) (all : Bool) (u : List Char) (h0 : '\x00' ∉ u)
    (hl : (utf16 u).length ≤ 2 * 65535) :
    ∃ b, main env dump ⟨true, false, cp, all⟩ (some b) = ⟨u ++ ['\n'], ⟨[], .ok ()⟩⟩ := by
  obtain ⟨c, text, h, ht, hc⟩ := tool_target env dump cp false all (argumentsLink u) (argumentsLink_valid _ u h0 hl) []
  have hc : c = u := hc true
  have ht : text = c := by simpa using ht
  rw [ht, hc] at h
  exact ⟨_, h⟩

/-- An escape sequence that clears the screen, then two lines. -/
example (env : Env) (dump : Dict → Str) :
    ∃ b, main env dump { target := true } (some b) = ⟨"\x1b[2JA\nB\n".toList, ⟨[], .ok ()⟩⟩ :=
  target_characters env dump "cp1252" false "\x1b[2JA\nB".toList (by decide) (by decide)

/-- The same file with `-j`: nothing of it is lost, and the line is printable. -/
example (env : Env) (dump : Dict → Str) : ∃ line,
    main env dump { target := true, json := true } (some (argumentsLink "\x1b[2JA\nB".toList).encode) =
      ⟨line ++ ['\n'], ⟨[], .ok ()⟩⟩ ∧ (∀ c ∈ line, 32 ≤ c.toNat ∧ c.toNat ≤ 126) ∧
    Spec.Json.decode line = some (.obj [("shortcut_target".toList, .str "\x1b[2JA\nB".toList)]) := by
  obtain ⟨c, text, h, ht, hc⟩ := tool_target env dump "cp1252" true false (argumentsLink "\x1b[2JA\nB".toList)
    (argumentsLink_valid _ _ (by decide) (by decide)) []
  have hc : c = "\x1b[2JA\nB".toList := hc true
  rw [List.append_nil] at h
  refine ⟨text, h, ?_, by rw [hc] at ht; simpa using ht⟩
  rcases json_target_line env dump { target := true, json := true } rfl rfl
    (some (argumentsLink "\x1b[2JA\nB".toList).encode) with h' | ⟨line, h', hp⟩
  · rw [h] at h'; simp at h'
  · rw [h] at h'
    have : text = line := List.append_cancel_right h'
    rw [this]; exact hp

end Verif.Props
