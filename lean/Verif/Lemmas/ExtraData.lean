import Verif.Lemmas.Metadata

namespace Verif

open Spec

namespace ExtraData

theorem itemSize_eq (b : Bytes) : ExtraFactory.itemSize b = match uAt 4 b 0 with
    | some n => pure n
    | none => Py.raise .structError := by
  unfold ExtraFactory.itemSize
  have := unpackU_slice b 4 0 (by omega)
  rw [Nat.zero_add] at this
  rw [this]
  rcases uAt 4 b 0 <;> rfl

/-- The objects for the pieces. -/
def objects (tp : TextProc) (l : List Piece) : List Extra :=
  l.filterMap fun p => p.signature.map fun s => ⟨extraKind s, tp, p.bytes⟩

/-- The warnings: one for every piece without signature, one for an incomplete size at the end. -/
def cutWarns (l : List Piece) (last : Bytes) : List Warn :=
  (l.filterMap fun p => if p.signature = none then some .extraSignature else none) ++
    if last ≠ [] ∧ uAt 4 last 0 = none then [.extraSize] else []

theorem loop_eq (tp : TextProc) (rest : Bytes) : loop tp rest =
    (if rest = [] then pure ([], [])
    else do
      let r ← Py.attempt (ExtraFactory.itemSize rest) (fun e => e = .structError)
      match r with
      | .error _ => do
        Py.warn .extraSize
        pure ([], rest)
      | .ok size =>
        if size = 0 then pure ([], rest)
        else do
          let cls ← ExtraFactory.extraClass rest
          let new : List Extra := match cls with
            | some c => [⟨c, tp, rest.take size⟩]
            | none => []
          if (rest.drop size).length < rest.length then do
            let (more, last) ← loop tp (rest.drop size)
            pure (new ++ more, last)
          else Py.raise .diverge) := by
  rw [loop.eq_def]
  congr 1

theorem uAt_nil (n : Nat) (h : 0 < n) (off : Nat) : uAt n [] off = none := by
  unfold uAt
  rw [if_neg (by simp; omega)]

theorem uAt_some_length {n off v : Nat} {b : Bytes} (h : uAt n b off = some v) : off + n ≤ b.length := by
  unfold uAt at h
  split at h
  · assumption
  · simp at h

theorem loop_cut {tp : TextProc} {b : Bytes} {l : List Piece} {last : Bytes} (h : Cut b l last) :
    loop tp b = ⟨cutWarns l last, .ok (objects tp l, last)⟩ := by
  induction h with
  | @stop b h =>
    rw [loop_eq]
    by_cases hb : b = []
    · subst hb; rfl
    · rw [if_neg hb, itemSize_eq]
      rcases h with h | h
      · rw [h]
        simp [bind, Py.andThen, pure, Py.ret, Py.warn, Py.raise, Py.attempt, cutWarns, objects, hb, h]
      · rw [h]
        simp [bind, Py.andThen, pure, Py.ret, Py.attempt, cutWarns, objects, h]
  | @block b n l last h hn hl ih =>
    have hlen := uAt_some_length h
    rw [loop_eq, if_neg (by intro hb; subst hb; simp at hlen), itemSize_eq, h, extraClass_eq]
    rcases hs : uAt 4 b 4 with _ | s
    · have hd : b.length - n < b.length := by omega
      simp [bind, Py.andThen, pure, Py.ret, Py.attempt, cutWarns, objects, hn, hd, ih]
    · have hd : b.length - n < b.length := by omega
      simp [bind, Py.andThen, pure, Py.ret, Py.attempt, cutWarns, objects, hn, hd, ih]

theorem cut_exists (b : Bytes) : ∃ l last, Cut b l last := by
  generalize hk : b.length = k
  induction k using Nat.strong_induction_on generalizing b with
  | _ k ih =>
    rcases h : uAt 4 b 0 with _ | n
    · exact ⟨_, _, .stop (.inl h)⟩
    · by_cases hn : n = 0
      · exact ⟨_, _, .stop (.inr (by rw [h, hn]))⟩
      · have := uAt_some_length h
        obtain ⟨l, last, hl⟩ := ih (b.drop n).length (by simp; omega) _ rfl
        exact ⟨_, _, .block h hn hl⟩

theorem cut_flatten {b : Bytes} {l : List Piece} {last : Bytes} (h : Cut b l last) :
    (l.map Piece.bytes).flatten ++ last = b := by
  induction h with
  | stop h => rfl
  | block h hn hl ih =>
    rw [List.map_cons, List.flatten_cons, List.append_assoc, ih, List.take_append_drop]

theorem cut_last {b : Bytes} {l : List Piece} {last : Bytes} (h : Cut b l last) :
    last.length < 4 ∨ ∃ rest, last = le 4 0 ++ rest := by
  induction h with
  | @stop b h =>
    rcases h with h | h
    · left
      unfold uAt at h
      split at h
      · simp at h
      · omega
    · right
      have hlen := uAt_some_length h
      have h1 := unpackU_slice b 4 0 (by omega)
      rw [h] at h1
      simp only [Nat.zero_add] at h1
      unfold unpackU at h1
      rw [if_pos (by simp; omega)] at h1
      have h2 : leNat (slice b 0 4) = 0 := by
        have := congrArg Py.res h1
        simpa using this
      have h3 : slice b 0 4 = le 4 0 := by
        apply leNat_inj (by simp; omega)
        rw [h2]; rfl
      refine ⟨b.drop 4, ?_⟩
      rw [← h3]
      simp [slice]
  | block h hn hl ih => exact ih

/-! ### whole blocks -/

theorem uAt_le4 (n : Nat) (h : n < 2 ^ 32) (rest : Bytes) : uAt 4 (le 4 n ++ rest) 0 = some n := by
  have h1 := unpackU_slice (le 4 n ++ rest) 4 0 (by omega)
  have h0 : slice (le 4 n ++ rest) 0 (0 + 4) = le 4 n := by slices
  rw [h0, unpackU_le h] at h1
  rcases hu : uAt 4 (le 4 n ++ rest) 0 with _ | m
  · rw [hu] at h1
    simpa using congrArg Py.res h1
  · rw [hu] at h1
    simpa using (congrArg Py.res h1).symm

theorem uAt_append_right (n : Nat) (a b : Bytes) (k : Nat) (h : 0 < n) (hk : a.length ≤ k) :
    uAt n (a ++ b) k = uAt n b (k - a.length) := by
  have h1 := unpackU_slice (a ++ b) n k h
  have h2 := unpackU_slice b n (k - a.length) h
  rw [slice_append_right hk, show k + n - a.length = k - a.length + n by omega, h2] at h1
  rcases u1 : uAt n (a ++ b) k with _ | x <;> rcases u2 : uAt n b (k - a.length) with _ | y
  · rfl
  · rw [u1, u2] at h1; simpa using congrArg Py.res h1
  · rw [u1, u2] at h1; simpa using congrArg Py.res h1
  · rw [u1, u2] at h1; simpa using (congrArg Py.res h1).symm

/-- The piece a block is. -/
def pieceOf (b : RawBlock) : Piece := ⟨8 + b.payload.length, b.encode, some b.signature.toNat⟩

theorem RawBlock_length (b : RawBlock) : b.encode.length = 8 + b.payload.length := by
  simp [RawBlock.encode]; omega

theorem cut_raw (raws : List RawBlock) (hf : ∀ b ∈ raws, b.Fits) {tail : Bytes} {l : List Piece} {last : Bytes}
    (ht : Cut tail l last) : Cut (raws.flatMap RawBlock.encode ++ tail) (raws.map pieceOf ++ l) last := by
  induction raws with
  | nil => exact ht
  | cons b raws ih =>
    have hb := hf b List.mem_cons_self
    have e : (b :: raws).flatMap RawBlock.encode ++ tail = b.encode ++ (raws.flatMap RawBlock.encode ++ tail) := by simp
    rw [e, List.map_cons, List.cons_append]
    have h1 : uAt 4 (b.encode ++ (raws.flatMap RawBlock.encode ++ tail)) 0 = some (8 + b.payload.length) := by
      rw [RawBlock.encode, List.append_assoc, List.append_assoc]
      exact uAt_le4 _ hb _
    have h2 : uAt 4 (b.encode ++ (raws.flatMap RawBlock.encode ++ tail)) 4 = some b.signature.toNat := by
      rw [RawBlock.encode, List.append_assoc, List.append_assoc, uAt_append_right 4 _ _ _ (by omega) (by simp)]
      simp only [le_length, Nat.sub_self]
      exact uAt_le4 _ b.signature.toNat_lt _
    have h3 := Cut.block h1 (by omega) (l := raws.map pieceOf ++ l) (last := last) (by
      rw [drop_append_exact (RawBlock_length b)]
      exact ih fun x hx => hf x (List.mem_cons_of_mem _ hx))
    rw [h2, List.take_append_of_le_length (by rw [RawBlock_length]),
      List.take_of_length_le (by rw [RawBlock_length])] at h3
    exact h3

/-- What may end the extra data: a terminal block (and anything after it), or fewer than four bytes. -/
def Stops (tail : Bytes) : Prop := (∃ rest, tail = le 4 0 ++ rest) ∨ tail.length < 4

theorem cut_stops {tail : Bytes} (h : Stops tail) : Cut tail [] tail := by
  rcases h with ⟨rest, rfl⟩ | h
  · exact .stop (.inr (uAt_le4 0 (by omega) rest))
  · refine .stop (.inl ?_)
    unfold uAt
    rw [if_neg (by omega)]

theorem objects_raw (tp : TextProc) (raws : List RawBlock) : objects tp (raws.map pieceOf) = raws.map (Extra.ofRaw tp) := by
  induction raws with
  | nil => rfl
  | cons b raws ih =>
    rw [List.map_cons, List.map_cons, ← ih]
    rfl

theorem cutWarns_raw (raws : List RawBlock) (last : Bytes) : cutWarns (raws.map pieceOf) last = cutWarns [] last := by
  induction raws with
  | nil => rfl
  | cons b raws ih => exact ih

/-! ### construction -/

theorem init_cut {tp : TextProc} {allow : Bool} {b : Bytes} {l : List Piece} {last : Bytes} (h : Cut b l last) :
    init tp allow b = ⟨cutWarns l last,
      .ok ⟨objects tp l ++ if allow = true ∧ 4 < last.length then [⟨.terminal, tp, last⟩] else []⟩⟩ := by
  unfold init
  rw [loop_cut h]
  cases allow
  · simp [bind, Py.andThen, pure, Py.ret]
  · by_cases hl : 4 < last.length
    · rcases cut_last h with h | ⟨rest, h⟩
      · omega
      · have : unpackU 4 (last.take 4) = pure 0 := by
          have : last.take 4 = le 4 0 := by rw [h]; rfl
          rw [this, unpackU_le (by omega)]
        simp [bind, Py.andThen, pure, Py.ret, hl, this]
    · simp [bind, Py.andThen, pure, Py.ret, hl]

/-! ### sizes -/

theorem size_eq (x : Extra) (h : x.cls ≠ .terminal) : x.size = match uAt 4 x.raw 0 with
    | some n => pure n
    | none => Py.raise .structError := by
  have h1 : x.size = x.uint 0 4 := by
    unfold Extra.size
    cases hcls : x.cls <;> first | rfl | exact absurd hcls h
  rw [h1]
  have := unpackU_slice x.raw 4 0 (by omega)
  rw [Nat.zero_add] at this
  unfold Extra.uint
  rw [Nat.sub_zero, this]
  rcases uAt 4 x.raw 0 <;> rfl

theorem uAt_take (n : Nat) (b : Bytes) (k m : Nat) (hn : 0 < n) (hm : k + n ≤ m) : uAt n (b.take m) k = uAt n b k := by
  have h1 := unpackU_slice (b.take m) n k hn
  have h2 := unpackU_slice b n k hn
  have hs : slice (b.take m) k (k + n) = slice b k (k + n) := by
    unfold slice
    rw [List.drop_take, List.take_take]
    congr 1
    omega
  rw [hs, h2] at h1
  rcases u1 : uAt n (b.take m) k with _ | x <;> rcases u2 : uAt n b k with _ | y
  · rfl
  · rw [u1, u2] at h1; simpa using congrArg Py.res h1
  · rw [u1, u2] at h1; simpa using congrArg Py.res h1
  · rw [u1, u2] at h1; simpa using (congrArg Py.res h1).symm

/-- The declared size of every piece is the one its bytes start with, if it is at least four. -/
theorem cut_declared {b : Bytes} {l : List Piece} {last : Bytes} (h : Cut b l last) :
    ∀ p ∈ l, p.declared ≠ 0 ∧ (uAt 4 p.bytes 0 = if 4 ≤ p.declared then some p.declared else none) ∧
      p.bytes.length ≤ p.declared ∧ 0 < p.bytes.length := by
  induction h with
  | stop h => simp
  | @block b n l last h hn hl ih =>
    intro p hp
    rcases List.mem_cons.1 hp with rfl | hp
    · have := uAt_some_length h
      refine ⟨hn, ?_, by simp, by simp; omega⟩
      show uAt 4 (b.take n) 0 = if 4 ≤ n then some n else none
      split
      · rw [uAt_take 4 b 0 n (by omega) (by omega), h]
      · unfold uAt
        rw [if_neg (by simp; omega)]
    · exact ih p hp

theorem sizeLoop_append (a b : List Extra) : sizeLoop (a ++ b) = (do
    let n ← sizeLoop a
    let m ← sizeLoop b
    pure (n + m)) := by
  induction a with
  | nil => simp only [sizeLoop, List.nil_append, pure_bind, Nat.zero_add, bind_pure]
  | cons x a ih =>
    simp only [List.cons_append, sizeLoop, ih, bind_assoc, pure_bind, Nat.add_assoc]

/-- The pieces that become blocks. -/
def signed (l : List Piece) : List Piece := l.filter fun p => p.signature.isSome

theorem sizeLoop_objects (tp : TextProc) (l : List Piece)
    (h : ∀ p ∈ l, uAt 4 p.bytes 0 = if 4 ≤ p.declared then some p.declared else none) :
    sizeLoop (objects tp l) = if ∀ p ∈ signed l, 4 ≤ p.declared then pure ((signed l).map Piece.declared).sum
      else Py.raise .structError := by
  induction l with
  | nil => rfl
  | cons p l ih =>
    have ih := ih fun q hq => h q (List.mem_cons_of_mem _ hq)
    have hp := h p List.mem_cons_self
    rcases hs : p.signature with _ | s
    · have e1 : objects tp (p :: l) = objects tp l := by simp [objects, hs]
      have e2 : signed (p :: l) = signed l := by simp [signed, hs]
      rw [e1, e2, ih]
    · have e1 : objects tp (p :: l) = ⟨extraKind s, tp, p.bytes⟩ :: objects tp l := by simp [objects, hs]
      have e2 : signed (p :: l) = p :: signed l := by simp [signed, hs]
      rw [e1, e2, sizeLoop, size_eq _ (Extra.extraKind_ne_terminal s), ih, hp]
      by_cases h4 : 4 ≤ p.declared
      · rw [if_pos h4]
        simp only [pure_bind, List.mem_cons, forall_eq_or_imp, h4, true_and]
        split <;> simp
      · rw [if_neg h4]
        simp [h4]

theorem size_terminal (tp : TextProc) (last : Bytes) (h : 4 ≤ last.length) :
    Extra.size ⟨.terminal, tp, last⟩ = pure last.length := by
  show pure (4 + (last.drop 4).length) = _
  congr 1
  simp; omega

/-- The size of the extra data as counted. -/
theorem size_cut {tp : TextProc} {allow : Bool} {b : Bytes} {l : List Piece} {last : Bytes} (h : Cut b l last) :
    size ⟨objects tp l ++ if allow = true ∧ 4 < last.length then [⟨.terminal, tp, last⟩] else []⟩ =
      if ∀ p ∈ signed l, 4 ≤ p.declared then
        pure (((signed l).map Piece.declared).sum + if allow = true ∧ 4 < last.length then last.length else 0)
      else Py.raise .structError := by
  unfold size
  rw [sizeLoop_append, sizeLoop_objects tp l fun p hp => (cut_declared h p hp).2.1]
  split
  · rw [pure_bind]
    split
    · rename_i hl
      rw [sizeLoop, size_terminal tp last (by omega)]
      simp [sizeLoop]
    · simp [sizeLoop]
  · rfl

end ExtraData

end Verif
