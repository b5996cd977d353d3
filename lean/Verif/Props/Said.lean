import Verif.Lemmas.Said
import Verif.Props.Log
import Verif.Props.Text
import Verif.Lemmas.Trailer

/-
C91: which characters the messages of the warnings are made of.
-/

namespace Verif.Props

open Spec Py Spec.Log

namespace Said

open Verif.Said

theorem plain_append {e s t : Str} (hs : ∀ c ∈ s, Harmless c ∨ c ∈ e) (ht : ∀ c ∈ t, Harmless c ∨ c ∈ e) :
    ∀ c ∈ s ++ t, Harmless c ∨ c ∈ e := by
  intro c hc
  rcases List.mem_append.1 hc with hc | hc
  · exact hs c hc
  · exact ht c hc

theorem plain {e s : Str} (h : ∀ c ∈ s, Harmless c) : ∀ c ∈ s, Harmless c ∨ c ∈ e := fun c hc => .inl (h c hc)

theorem plain_quote (e : Str) : ∀ c ∈ e, Harmless c ∨ c ∈ e := fun _ hc => .inr hc

theorem harmless_hexChar (u : Bool) {d : Nat} (h : d < 16) : Harmless (hexChar u d) := by
  have : ∀ u : Bool, ∀ d : Fin 16, Harmless (hexChar u d) := by decide +kernel
  exact this u ⟨d, h⟩

theorem harmless_hexStr (u : Bool) (n : Nat) : ∀ c ∈ hexStr u n, Harmless c := by
  induction n using Nat.strong_induction_on with
  | _ n ih =>
    intro c hc
    rw [hexStr] at hc
    split at hc
    · rw [List.mem_singleton.1 hc]
      exact harmless_hexChar u ‹_›
    · rcases List.mem_append.1 hc with hc | hc
      · exact ih _ (by omega) c hc
      · rw [List.mem_singleton.1 hc]
        exact harmless_hexChar u (by omega)

theorem harmless_fmtX (w n : Nat) : ∀ c ∈ fmtX w n, Harmless c := by
  intro c hc
  rcases List.mem_append.1 hc with hc | hc
  · rw [(List.mem_replicate.1 hc).2]
    decide
  · exact harmless_hexStr true n c hc

theorem harmless_decStr (n : Nat) : ∀ c ∈ decStr n, Harmless c := by
  have hd : ∀ d : Fin 10, Harmless (Char.ofNat (48 + d.1)) := by decide +kernel
  induction n using Nat.strong_induction_on with
  | _ n ih =>
    intro c hc
    rw [decStr] at hc
    split at hc
    · rw [List.mem_singleton.1 hc]
      exact hd ⟨n, ‹_›⟩
    · rcases List.mem_append.1 hc with hc | hc
      · exact ih _ (by omega) c hc
      · rw [List.mem_singleton.1 hc]
        exact hd ⟨n % 10, by omega⟩

theorem harmless_byteHex (x : UInt8) : ∀ c ∈ byteHex x, Harmless c := by
  intro c hc
  have h := x.toNat_lt
  simp only [byteHex, List.mem_cons, List.not_mem_nil, or_false] at hc
  rcases hc with rfl | rfl
  · exact harmless_hexChar _ (by omega)
  · exact harmless_hexChar _ (by omega)

theorem harmless_bytes (b : Bytes) : ∀ c ∈ bytesHexSep b, Harmless c := by
  induction b with
  | nil => simp [bytesHexSep]
  | cons x b ih =>
    cases b with
    | nil => exact harmless_byteHex x
    | cons y b =>
      intro c hc
      rw [bytesHexSep] at hc
      · rcases List.mem_append.1 hc with hc | hc
        · exact harmless_byteHex x c hc
        · rcases List.mem_cons.1 hc with rfl | hc
          · decide
          · exact ih c hc
      · simp

theorem harmless_hexFixed (w n : Nat) : ∀ c ∈ hexFixed w n, Harmless c := by
  have hd : ∀ d : Fin 16, Harmless (hexDigit d.1) := by decide +kernel
  induction w generalizing n with
  | zero => simp [hexFixed]
  | succ w ih =>
    intro c hc
    rw [hexFixed] at hc
    rcases List.mem_append.1 hc with hc | hc
    · exact ih _ c hc
    · rw [List.mem_singleton.1 hc]
      exact hd ⟨n % 16, by omega⟩

theorem harmless_guid (g : Guid) : ∀ c ∈ g.text, Harmless c := by
  intro c hc
  simp only [Guid.text, Guid.hex2, List.mem_append, List.mem_singleton] at hc
  have h := harmless_hexFixed
  have hm : c = '-' → Harmless c := by rintro rfl; decide
  rcases hc with ((((((((((((((hc | hc) | hc) | hc) | hc) | hc) | hc) | hc) | hc) | hc) | hc) | hc) | hc) | hc) | hc)
  all_goals first | exact h _ _ c hc | exact hm hc

theorem harmless_blockName (s : Nat) : ∀ c ∈ (blockName s).toList, Harmless c := by
  have h : ∀ x ∈ blockNames.map (·.2), ∀ c ∈ x.toList, Harmless c := by decide +kernel
  unfold blockName
  rcases hl : blockNames.lookup s with _ | x
  · decide +kernel
  · rw [Option.getD_some]
    obtain ⟨l₁, l₂, hs, -⟩ := List.lookup_eq_some_iff.1 hl
    refine h x (List.mem_map.2 ⟨(s, x), ?_, rfl⟩)
    rw [hs]
    simp

/-- A warning that quotes a text of the file, or one whose message is made of printable ASCII characters and of what the exception in it
is made of. -/
def Plain (w : Warn) : Prop := (∃ s, w = .decode s) ∨ ∀ q : Quote, ∀ c ∈ w.text q, Harmless c ∨ c ∈ q.exc

theorem plain_all : Holds Plain where
  decode s := .inl ⟨s, rfl⟩
  number name hn m n := by
    refine .inr fun q => plain_append (plain_append (plain_append (plain ?_) (plain (by decide +kernel))) (plain (harmless_decStr m)) |> fun h =>
      plain_append h (plain (by decide +kernel))) (plain (harmless_decStr n))
    have : ∀ name ∈ ["size", "reserved0", "reserved1", "reserved2", "length", "version"], ∀ c ∈ name.toList, Harmless c := by decide +kernel
    exact this name hn
  classId g := .inr fun q => plain_append (plain_append (plain_append (plain_append (plain (by decide +kernel)) (plain (by decide +kernel)))
      (plain (harmless_guid _))) (plain (by decide +kernel))) (plain (harmless_guid g))
  filetime b := .inr fun q => plain_append (plain (by decide +kernel)) (plain (harmless_bytes b))
  dostime b := .inr fun q => plain_append (plain (by decide +kernel)) (plain (harmless_bytes b))
  itemType n _ := .inr fun q => plain_append (plain_append (plain_append (plain (by decide +kernel)) (plain (harmless_fmtX 2 n)))
    (plain (by decide +kernel))) (plain (by decide +kernel))
  itemFlags n _ := .inr fun q => plain_append (plain_append (plain_append (plain (by decide +kernel)) (plain (harmless_fmtX 2 n)))
    (plain (by decide +kernel))) (plain (by decide +kernel))
  sortIndex n _ := .inr fun q => plain_append (plain_append (plain_append (plain (by decide +kernel)) (plain (harmless_fmtX 2 n)))
    (plain (by decide +kernel))) (plain (by decide +kernel))
  category n := .inr fun q => plain_append (plain_append (plain_append (plain (by decide +kernel)) (plain (harmless_decStr n)))
    (plain (by decide +kernel))) (plain (by decide +kernel))
  block s x := .inr fun q => plain_append (plain_append (plain_append (plain_append (plain (by decide +kernel)) (plain (harmless_blockName s)))
    (plain (by decide +kernel))) (plain_quote _)) (plain (by decide +kernel))
  infoClass := .inr fun q => plain_append (plain (by decide +kernel)) (plain_quote _)
  stringData := .inr fun q => plain_append (plain (by decide +kernel)) (plain_quote _)
  extraSize := .inr fun q => plain_append (plain (by decide +kernel)) (plain_quote _)
  extraSignature := .inr fun q => plain_append (plain (by decide +kernel)) (plain_quote _)

end Said

open Props.Said Verif.Said

/-- C91: whatever the file and the arguments, a message of the command-line tool is made of printable ASCII characters and of what the
exception it quotes is made of, unless it says that a text cannot be decoded. -/
theorem messages_harmless (env : Env) (dump : Dict → Str) (args : Args) (ht : Tame (TextProc.mk' env (some args.cp)))
    (content : Option Bytes) (w : Warn) (hw : w ∈ (main env dump args content).py.warns) :
    (∃ s, w = .decode s) ∨ ∀ q : Quote, ∀ c ∈ w.text q, (32 ≤ c.toNat ∧ c.toNat ≤ 126) ∨ c ∈ q.exc := by
  cases content with
  | none => cases hw
  | some b =>
    have h := tool_logged env dump args ht b (main env dump args (some b)).py.warns
    have hl : ∃ e, tool (TextProc.mk' env (some args.cp)) args.target b (main env dump args (some b)).py.warns e := by
      rcases hr : (main env dump args (some b)).py with ⟨W, e | a⟩
      · rw [hr] at h
        exact ⟨_, (h.2 e).2 rfl⟩
      · rw [hr] at h
        exact ⟨_, h.1.2 rfl⟩
    obtain ⟨e, he⟩ := hl
    exact each_tool plain_all _ _ _ _ e he w hw

/-- C91: the same of the constructor and of the report. -/
theorem object_messages_harmless (env : Env) (cp : Option String) (ht : Tame (TextProc.mk' env cp)) (allow : Bool) (src : Source)
    (w : Warn) (hw : w ∈ (LnkFile.init env cp allow src).warns ∨
      ∃ f all, (LnkFile.init env cp allow src).res = .ok f ∧ w ∈ (f.getJson all).warns) :
    (∃ s, w = .decode s) ∨ ∀ q : Quote, ∀ c ∈ w.text q, (32 ≤ c.toNat ∧ c.toNat ≤ 126) ∨ c ∈ q.exc := by
  rcases hw with hw | ⟨f, all, hf, hw⟩
  · by_cases hb : src.bytes = []
    · cases src with
      | indata b =>
        have : b = [] := hb
        subst this
        cases hw
      | fhandle b =>
        have : b = [] := hb
        subst this
        cases hw
    · exact each_construction plain_all _ _ _ _ (LnkFile.logs_init ht allow hb) w hw
  · obtain ⟨L, l, last, hl, hc, hP, h4⟩ := LnkFile.parts_tame ht (LnkFile.init_ok hf)
    exact each_report plain_all _ _ _ _ _ _ (LnkFile.logs_report ht hl hc hP h4 all) w hw

/-! ### the exception -/

/-- A header that announces nothing but Unicode arguments. -/
def argumentsHeader : Bytes := le 4 76 ++ shellLinkCLSID.encode ++ le 4 0xA0 ++ List.replicate 52 0

/-- Arguments that end with half a surrogate pair. -/
def brokenArguments (u : List Char) : Bytes := argumentsHeader ++ (le 2 ((utf16 u).length / 2 + 1) ++ (utf16 u ++ [0x00, 0xD8]))

theorem utf16_even (u : List Char) : ∃ us : List UInt16, utf16 u = units us := by
  induction u with
  | nil => exact ⟨[], rfl⟩
  | cons c u ih =>
    obtain ⟨us, h⟩ := ih
    obtain ⟨vs, hv, -⟩ := utf16Char_units c
    exact ⟨vs ++ us, by rw [units_append, ← hv, ← h]; rfl⟩

theorem lenient_text (t : List Char) : Utf16Lenient (utf16 t) t := by
  induction t with
  | nil => exact .nil
  | cons c t ih => exact .char c ih

theorem lenient_half (u : List Char) : Utf16Lenient (utf16 u ++ [0x00, 0xD8]) (u ++ ['\uFFFD']) := by
  induction u with
  | nil => exact .highEnd 0xD800 (b := []) ⟨by decide, by decide⟩ (by decide)
  | cons c u ih =>
    have := Utf16Lenient.char c ih
    rw [← List.append_assoc] at this
    exact this

theorem wide_half (u : List Char) (h0 : '\x00' ∉ u) : wide (utf16 u ++ [0x00, 0xD8]) [.decode (u ++ ['\uFFFD'])] none := by
  obtain ⟨us, h, hz⟩ := utf16_units u h0
  refine ⟨us ++ [0xD800], ?_, .inl ⟨[], by decide, ?_, .inr ⟨?_, _, lenient_half u, rfl, rfl⟩⟩⟩
  · simp only [List.mem_append, List.mem_singleton, not_or]
    exact ⟨hz, by decide⟩
  · rw [units_append, ← h, List.append_nil]
    rfl
  · intro t ht
    obtain ⟨s, -, hs⟩ := wide_lenient_unique (utf16 u ++ [0x00, 0xD8])
    have h1 := hs _ (lenient_half u)
    have h2 := hs t (ht ▸ lenient_text t)
    rw [h2, ← h1] at ht
    unfold utf16 at ht
    rw [List.flatMap_append] at ht
    exact absurd (List.append_cancel_left ht) (by decide)

theorem broken_layout (u : List Char) (hl : (utf16 u).length ≤ 2 * 65534) :
    layout (brokenArguments u) = some ⟨76, 0xA0, 76, 76, 80 + (utf16 u).length⟩ ∧
    uAt 2 (brokenArguments u) 76 = some ((utf16 u).length / 2 + 1) ∧ (brokenArguments u).length = 80 + (utf16 u).length := by
  obtain ⟨us, hu⟩ := utf16_even u
  have he : (utf16 u).length = 2 * us.length := by
    rw [hu]
    simp [units, le, Nat.mul_comm]
  have h1 : uAt 4 (brokenArguments u) 0 = some 76 := Trailer.uAt_some_more _ (by decide +kernel)
  have h2 : uAt 4 ((brokenArguments u).take 76) 20 = some 0xA0 := by
    unfold brokenArguments
    rw [List.take_append_of_le_length (by decide +kernel)]
    decide +kernel
  have h3 : uAt 2 (brokenArguments u) 76 = some ((utf16 u).length / 2 + 1) :=
    uAt_le (n := 2) (v := (utf16 u).length / 2 + 1) (by omega) argumentsHeader _
  refine ⟨?_, h3, ?_⟩
  · unfold layout
    rw [h1]
    dsimp only
    rw [h2]
    dsimp only
    rw [if_neg (by decide)]
    dsimp only
    have hi : infoAnnounced 0xA0 = false := by decide
    rw [hi, Bool.false_and, if_neg (by decide)]
    have : stringsEnd 0xA0 (brokenArguments u) stringLimits 76 = 80 + (utf16 u).length := by
      unfold stringLimits
      simp only [stringsEnd, h3]
      rw [if_neg (by decide), if_neg (by decide), if_neg (by decide), if_pos (by decide), if_neg (by decide), if_pos (by decide)]
      omega
    rw [this]
  · unfold brokenArguments
    have : argumentsHeader.length = 76 := by decide +kernel
    simp only [List.length_append, this, le_length]
    simp
    omega

/-- What is said: the text once, when the object is made. -/
theorem broken_logged (tp : TextProc) (target : Bool) (u : List Char) (h0 : '\x00' ∉ u) (hl : (utf16 u).length ≤ 2 * 65534) :
    tool tp target (brokenArguments u) [.decode (u ++ ['\uFFFD'])] none := by
  obtain ⟨hL, hn, hlen⟩ := broken_layout u hl
  have hc : Cut ((brokenArguments u).drop (80 + (utf16 u).length)) [] [] := by
    rw [List.drop_eq_nil_of_le (by omega)]
    exact .stop (.inl (by decide))
  have h4 : u4 (brokenArguments u) 0 = 76 := by
    unfold u4 brokenArguments
    rw [Trailer.uAt_some_more _ (by decide +kernel : uAt 4 argumentsHeader 0 = some 76)]
    rfl
  have ht : (brokenArguments u).take 76 = argumentsHeader := List.take_left' (by decide +kernel)
  have hmute : ∀ (name : String) (v k : Nat), v = k → say (unlessEqual name (.int k) (.int v)) [] none := by
    rintro name v k rfl
    exact ⟨by simp [unlessEqual], rfl⟩
  have htime : ∀ off, sAt 8 argumentsHeader off = some 0 → time argumentsHeader off [] none :=
    fun off h => ⟨0, h, .inr ⟨by simp, rfl, rfl⟩⟩
  have hcut : ¬ stringsCut 0xA0 (brokenArguments u) (stringLimits.take 4) 76 = true := by
    show ¬ stringsCut 0xA0 (brokenArguments u) [(2, 260), (3, 260), (4, 260), (5, 65535)] 76 = true
    simp only [stringsCut, hn]
    rw [if_neg (by decide), if_neg (by decide), if_neg (by decide), if_pos (by decide)]
    decide
  unfold tool
  rw [if_neg fun h => by rw [h] at hlen; simp at hlen; omega]
  refine .inr ⟨[.decode (u ++ ['\uFFFD'])], [], rfl, ?_, _, _, _, hL, hc, ?_⟩
  · unfold construction
    rw [h4, ht]
    refine all_pass (room_there (by omega)) (all_pass (hmute _ _ _ rfl) (all_pass (room_there (by decide +kernel))
      (all_pass (hmute _ _ _ rfl) (all_pass ⟨rfl, .inl ⟨by rw [hL]; simp, rfl⟩⟩ (all_step (u := [_]) (v := []) ?_ ⟨rfl, rfl⟩)))))
    refine ⟨_, _, _, hL, hc, ?_⟩
    refine all_pass ⟨?_, rfl⟩ (all_step (u := [_]) (v := []) ?_ (all_pass ?_ ⟨rfl, rfl⟩))
    · rw [if_neg fun h => absurd h.1 (by show ¬ infoAnnounced 0xA0 = true; decide)]
    · unfold stringLimits
      simp only [strings, hn]
      rw [if_neg (by decide), if_neg (by decide), if_neg (by decide), if_pos (by decide)]
      refine all_step (u := [_]) (v := []) ?_ (all_pass ?_ ⟨rfl, rfl⟩)
      · unfold either
        rw [if_pos (by show Nat.testBit 0xA0 7 = true; decide)]
        have hb : between (brokenArguments u) (76 + 2) (76 + 2 + min ((utf16 u).length / 2 + 1) 65535 * 2) = utf16 u ++ [0x00, 0xD8] := by
          obtain ⟨us, hu⟩ := utf16_even u
          have he : (utf16 u).length = 2 * us.length := by
            rw [hu]
            simp [units, le, Nat.mul_comm]
          have hh : argumentsHeader.length = 76 := by decide +kernel
          unfold between brokenArguments
          rw [← List.append_assoc, List.drop_left' (by simp [hh]), List.take_of_length_le]
          simp
          omega
        rw [if_pos (by decide), hb]
        exact wide_half u h0
      · rw [if_neg (by decide)]
        exact ⟨rfl, rfl⟩
    · exact all_pass ⟨rfl, rfl⟩ (all_pass ⟨rfl, rfl⟩ (all_pass ⟨rfl, .inl ⟨by simp, rfl⟩⟩ ⟨rfl, rfl⟩))
  · cases target
    · rw [if_neg (by decide)]
      unfold report
      rw [ht]
      refine all_pass ?_ (all_pass ?_ (all_pass ?_ (all_pass ⟨rfl, rfl⟩ ⟨rfl, rfl⟩)))
      · unfold header
        refine all_pass (room_there (by decide +kernel)) (all_pass ?_ (all_pass (room_there (by decide +kernel)) (all_pass (htime _ (by decide +kernel))
          (all_pass (room_there (by decide +kernel)) (all_pass (htime _ (by decide +kernel)) (all_pass (room_there (by decide +kernel))
          (all_pass (htime _ (by decide +kernel)) (all_pass (room_there (by decide +kernel)) (all_pass (hmute _ _ _ (by decide +kernel)) ?_)))))))))
        · exact ⟨shellLinkCLSID, by decide +kernel, by simp [unlessEqual], rfl⟩
        · exact all_pass (room_there (by decide +kernel)) (all_pass (hmute _ _ _ (by decide +kernel)) (all_pass (room_there (by decide +kernel))
            (all_pass (hmute _ _ _ (by decide +kernel)) (all_pass (room_there (by decide +kernel)) (all_pass (hmute _ _ _ (by decide +kernel)) ⟨rfl, rfl⟩)))))
      · rw [given_neg (by show ¬ Nat.testBit 0xA0 0 = true; decide)]
        exact ⟨rfl, rfl⟩
      · rw [given_neg (by show ¬ infoAnnounced 0xA0 = true; decide)]
        exact ⟨rfl, rfl⟩
    · rw [if_pos rfl]
      exact ⟨rfl, .inl ⟨⟨fun h => absurd h (by show ¬ Nat.testBit 0xA0 3 = true; decide), fun _ => hcut⟩, rfl⟩⟩

/-- C91, violation: for every text without NUL that fits into the arguments there is a file for which the tool, whatever the options,
issues exactly one warning, and the message contains that text as it is. -/
theorem message_hostile (env : Env) (dump : Dict → Str) (u : List Char) (h0 : '\x00' ∉ u) (hl : (utf16 u).length ≤ 2 * 65534) :
    ∃ b w, (∀ q : Quote, w.text q = "Error while decoding string `".toList ++ u ++ "\uFFFD` (".toList ++ q.exc ++ [')']) ∧
      ∀ args : Args, Tame (TextProc.mk' env (some args.cp)) → (main env dump args (some b)).py = ⟨[w], .ok ()⟩ := by
  refine ⟨brokenArguments u, .decode (u ++ ['\uFFFD']), fun q => ?_, fun args ht =>
    (tool_logged env dump args ht _ _).1.1 (broken_logged _ _ u h0 hl)⟩
  have h1 : "\uFFFD` (".toList = '\uFFFD' :: "` (".toList := by decide
  have h2 : ")".toList = [')'] := by decide
  rw [h1, ← h2]
  show _ ++ (u ++ ['\uFFFD']) ++ _ ++ _ ++ _ = _
  simp only [List.append_assoc, List.nil_append, List.cons_append]

/-- A sequence that clears the screen, with the default code page. -/
example (env : Env) (dump : Dict → Str) : ∃ b w, (∀ q : Quote, '\x1b' ∈ w.text q) ∧
    ∀ json all target, (main env dump ⟨target, json, "cp1252", all⟩ (some b)).py = ⟨[w], .ok ()⟩ := by
  obtain ⟨b, w, h1, h2⟩ := message_hostile env dump "\x1b[2J".toList (by decide) (by decide)
  refine ⟨b, w, fun q => ?_, fun json all target => h2 ⟨target, json, "cp1252", all⟩ (tame_usable (usable_cp1252 rfl))⟩
  rw [h1 q]
  have : '\x1b' ∈ "\x1b[2J".toList := by decide
  simp only [List.mem_append]
  exact .inl (.inl (.inl (.inr this)))

end Verif.Props
