import Verif.Lemmas.PrintedLength

namespace Verif

open Spec

/-! ### reports are slim -/

/-- A number, a text, a date or nothing. -/
abbrev Leaf (v : PyVal) : Prop := ∀ n, Slim Small n v

theorem Leaf.none : Leaf .none := fun n => by cases n <;> trivial

theorem Leaf.str (s : Str) : Leaf (.str s) := fun n => by cases n <;> trivial

theorem Leaf.int {i : Int} (h : Small i) : Leaf (.int i) := fun n => by cases n <;> exact h

theorem Leaf.dt {d : DateTime} (h : ValidDateTime d) : Leaf (.dt d) := fun n => by cases n <;> exact isoSeconds_quote h

theorem uAt_small {n : Nat} (hn : n ≤ 4) {b : Bytes} {off k : Nat} (h : uAt n b off = some k) : k < 2 ^ 32 := by
  have h1 := uAt_lt h
  have h2 : 256 ^ n ≤ 256 ^ 4 := Nat.pow_le_pow_right (by decide) hn
  have h3 : 256 ^ 4 = 2 ^ 32 := by decide
  omega

theorem leaf_nat {n : Nat} (hn : n ≤ 4) {b : Bytes} {off : Nat} {v : PyVal} (h : NatAt n b off v) : Leaf v := by
  obtain ⟨k, hk, rfl⟩ := h
  have := uAt_small hn hk
  exact .int (by unfold Small; omega)

theorem leaf_int {n : Nat} (hn : n ≤ 4) {b : Bytes} {off : Nat} {v : PyVal} (h : IntAt n b off v) : Leaf v := by
  obtain ⟨i, hi, rfl⟩ := h
  unfold sAt at hi
  rw [Option.map_eq_some_iff] at hi
  obtain ⟨k, hk, rfl⟩ := hi
  have := uAt_small hn hk
  have h2 : 2 ^ (8 * n) ≤ 2 ^ 32 := Nat.pow_le_pow_right (by decide) (by omega)
  refine .int ?_
  unfold Small
  split
  · omega
  · have h3 : ((2 : Int) ^ (8 * n)) = ((2 ^ (8 * n) : Nat) : Int) := by push_cast; rfl
    rw [h3]
    generalize 2 ^ (8 * n) = m at *
    omega

theorem leaf_hex {b : Bytes} {off : Nat} {v : PyVal} (h : HexAt b off v) : Leaf v := by
  obtain ⟨_, _, rfl⟩ := h; exact .str _

theorem leaf_guid {b : Bytes} {off : Nat} {v : PyVal} (h : GuidAt b off v) : Leaf v := by
  obtain ⟨_, _, rfl⟩ := h; exact .str _

theorem leaf_is {s : String} {v : PyVal} (h : Is s v) : Leaf v := by
  rw [show v = _ from h]; exact .str _

theorem leaf_filetime {b : Bytes} {off : Nat} {v : PyVal} (h : FiletimeAt b off v) : Leaf v := by
  obtain ⟨t, -, -, ⟨rfl, -⟩ | ⟨d, rfl, -, -, hd, -⟩⟩ := h
  · exact .none
  · exact .dt hd

theorem leaf_dostime {b : Bytes} {off : Nat} {v : PyVal} (h : DostimeAt b off v) : Leaf v := by
  obtain ⟨date, time, -, -, rfl⟩ := h
  split
  · rename_i h
    exact .dt h.2
  · exact .none

theorem leaf_narrow {tp : TextProc} {b : Bytes} {v : PyVal} (h : Narrow tp b v) : Leaf v := by
  obtain ⟨_, _, rfl⟩ := h; exact .str _

theorem leaf_wide {b : Bytes} {v : PyVal} (h : Wide b v) : Leaf v := by
  obtain ⟨_, _, rfl⟩ := h; exact .str _

theorem leaf_either {tp : TextProc} {w : Bool} {b : Bytes} {v : PyVal} (h : Either tp w b v) : Leaf v := by
  unfold Either at h
  split at h
  · exact leaf_wide h
  · exact leaf_narrow h

theorem leaf_piece {tp : TextProc} {a : Bool} {p : Option Bytes} {v : PyVal} (h : PieceText tp a p v) : Leaf v := by
  unfold PieceText at h
  split at h
  · obtain ⟨b, -, h⟩ := h
    exact leaf_narrow h
  · exact h ▸ .none

theorem leaf_cpl {tp : TextProc} {w : Bytes} {u : Nat} {v : PyVal} (h : CplText tp w u v) : Leaf v := by
  unfold CplText at h
  split at h
  · exact leaf_wide h
  · exact leaf_narrow h

theorem leaf_cplAt {tp : TextProc} {w : Bytes} {i k : Nat} {v : PyVal} (h : CplTextAt tp w i k v) : Leaf v := by
  obtain ⟨n, -, h⟩ := h
  exact leaf_cpl h

theorem leaf_optName {o : Option String} : Leaf (optName o) := by
  cases o
  · exact .none
  · exact .str _

theorem leaf_feature (s : Str) : Leaf (featureName s) := by
  unfold featureName
  repeat' split
  all_goals first | exact .str _ | exact .none

/-- What these entries describe is slim. -/
def SlimE (n : Nat) (es : Entries) : Prop := ∀ e ∈ es, (Json.quote e.1.toList).length ≤ 40 ∧ ∀ v, e.2 v → Slim Small n v

def SlimD (n : Nat) (d : Dict) : Prop := ∀ kv ∈ d, (Json.quote kv.1.toList).length ≤ 40 ∧ Slim Small n kv.2

theorem SlimE.nil {n : Nat} : SlimE n [] := by simp [SlimE]

theorem SlimE.cons {n : Nat} {k : String} {p : PyVal → Prop} {es : Entries} (hk : (Json.quote k.toList).length ≤ 40)
    (hp : ∀ v, p v → Slim Small n v) (hes : SlimE n es) : SlimE n ((k, p) :: es) := by
  rintro e (_ | ⟨_, he⟩)
  · exact ⟨hk, hp⟩
  · exact hes e he

theorem SlimE.append {n : Nat} {es fs : Entries} (h : SlimE n es) (h' : SlimE n fs) : SlimE n (es ++ fs) := by
  intro e he
  rcases List.mem_append.1 he with he | he
  · exact h e he
  · exact h' e he

theorem SlimE.fits {n : Nat} {d : Dict} {es : Entries} (hes : SlimE n es) (h : Fits d es) : SlimD n d := by
  induction d generalizing es with
  | nil => intro kv hkv; simp at hkv
  | cons x d ih =>
    cases es with
    | nil => exact h.elim
    | cons e es =>
      obtain ⟨h1, h2, h3⟩ := h
      have := hes e (by simp)
      rintro kv (_ | ⟨_, hkv⟩)
      · rw [h1]
        exact ⟨this.1, this.2 _ h2⟩
      · exact ih (fun e he => hes e (by simp [he])) h3 kv hkv

theorem SlimE.dict {n : Nat} {es : Entries} (hes : SlimE n es) {d : Dict} (h : Fits d es) : Slim Small (n + 1) (.dict d) :=
  hes.fits h

theorem SlimE.each {n : Nat} {f : Bytes → Entries} (hf : ∀ b, SlimE n (f b)) {vs : List PyVal} {l : List Bytes}
    (h : FitsEach f vs l) : Slim Small (n + 2) (.list vs) := by
  induction vs generalizing l with
  | nil => intro v hv; simp at hv
  | cons x vs ih =>
    cases l with
    | nil => exact h.elim
    | cons b l =>
      obtain ⟨⟨d, rfl, hd⟩, h⟩ := h
      rintro v (_ | ⟨_, hv⟩)
      · exact (hf b).dict hd
      · exact ih h v hv

/-- A condition that is met by leaves only. -/
macro "leaf" h:ident : tactic => `(tactic| first
  | ((with_reducible refine leaf_nat ?_ $h _); decide)
  | ((with_reducible refine leaf_int ?_ $h _); decide)
  | with_reducible exact leaf_hex $h _
  | with_reducible exact leaf_guid $h _
  | with_reducible exact leaf_is $h _
  | with_reducible exact leaf_filetime $h _
  | with_reducible exact leaf_dostime $h _
  | with_reducible exact leaf_narrow $h _
  | with_reducible exact leaf_wide $h _
  | with_reducible exact leaf_either $h _
  | with_reducible exact leaf_piece $h _
  | with_reducible exact leaf_cpl $h _
  | with_reducible exact leaf_cplAt $h _
  | (obtain ⟨_, _, rfl⟩ := $h; exact Leaf.str _ _)
  | (obtain ⟨_, _, _, _, rfl⟩ := $h; exact Leaf.str _ _)
  | (obtain ⟨_, _, rfl⟩ := $h; exact leaf_optName _)
  | (obtain ⟨_, _, h'⟩ := $h; first
      | with_reducible exact leaf_is h' _
      | with_reducible exact leaf_either h' _
      | with_reducible exact leaf_guid h' _
      | with_reducible exact leaf_piece h' _)
  | (subst $h; first
      | exact Leaf.str _ _
      | with_reducible exact leaf_feature _ _))

macro "slims" : tactic => `(tactic| (
  repeat' first
    | exact SlimE.nil
    | refine SlimE.cons (by decide +kernel) (fun v h => ?_) ?_
    | refine SlimE.append ?_ ?_
  all_goals try leaf h))

theorem slim_bits {names : List String} {b : Bytes} {off : Nat} {v : PyVal} (h : BitsAt names b off v) (n : Nat) :
    Slim Small (n + 1) v := by
  obtain ⟨k, -, rfl⟩ := h
  intro v hv
  obtain ⟨s, -, rfl⟩ := List.mem_map.1 hv
  exact Leaf.str _ _

theorem slim_header (b : Bytes) (n : Nat) : SlimE (n + 1) (headerEntries b) := by
  unfold headerEntries
  slims
  all_goals rename_i h
  · obtain ⟨_, _, -, -, rfl⟩ := h
    exact Leaf.str _ _
  all_goals exact slim_bits h n

theorem slim_file (tp : TextProc) (w : Bytes) (n : Nat) : SlimE n (fileEntries tp w) := by
  unfold fileEntries
  slims

theorem slim_item (tp : TextProc) (k : Nat) (t : UInt8) (w : Bytes) (cls : String) (hk : k < 65536) (n : Nat) :
    SlimE (n + 1) (itemFields tp k t w cls) := by
  unfold itemFields
  split
  · slims
    rename_i h
    by_cases hz : uAt 2 w (if cplWide w then 20 else 8) = some 0
    · rw [if_pos hz] at h
      exact h ▸ Leaf.str _ _
    · rw [if_neg hz] at h
      exact leaf_cplAt h _
  split
  · slims
  split
  · slims
  split
  · split <;> slims
  split
  · exact fun e he => slim_file tp w _ e (List.mem_of_mem_tail he)
  split
  · slims
  split
  · slims
  split
  · slims
    rename_i h
    obtain ⟨m, d, -, rfl, hd⟩ := h
    exact (slim_file tp _ _).dict hd
  split
  · slims
    rename_i h
    subst h
    exact Leaf.int (by unfold Small; omega) _
  · exact SlimE.nil

theorem slim_items {tp : TextProc} {b : Bytes} {l : List PyVal} (h : ItemsAt tp b l) (n : Nat) : Slim Small (n + 3) (.list l) := by
  induction h with
  | stop _ => intro v hv; simp at hv
  | @item b k t d l hk _ _ hd _ ih =>
    have hk : k < 65536 := by
      have := uAt_lt hk
      omega
    rintro v (_ | ⟨_, hv⟩)
    · refine SlimE.dict (SlimE.cons (by decide +kernel) (fun v h => leaf_is h _) ?_) hd
      exact slim_item tp _ _ _ _ hk n
    · exact ih v hv

theorem slim_target (tp : TextProc) (b : Bytes) (L : Layout) (hL : L.headerSize < 2 ^ 32) (n : Nat) :
    SlimE (n + 3) (targetEntries tp b L) := by
  unfold targetEntries
  slims
  · rename_i h
    obtain ⟨l, rfl, h⟩ := h
    exact slim_items h n
  · rename_i h
    subst h
    exact Leaf.int (by unfold Small; omega) _

theorem slim_volume (tp : TextProc) (i : Bytes) (o n : Nat) : SlimE n (volumeEntries tp i o) := by
  unfold volumeEntries
  refine SlimE.append ?_ ?_
  · slims
    all_goals
      rename_i h
      obtain ⟨k, -, h⟩ := h
    · exact h ▸ leaf_optName _
    · split at h
      · exact h ▸ Leaf.none _
      · exact leaf_narrow h _
  · split <;> slims

theorem slim_numbers (i : Bytes) (o n : Nat) : SlimE n (networkNumbers i o) := by
  unfold networkNumbers
  refine SlimE.append ?_ ?_
  · slims
  · generalize (if (u4 i (o + 4)).testBit 1 = true then reportedProvider (u4 i (o + 16)) else none) = r
    cases r <;> slims

theorem slim_network {tp : TextProc} {i : Bytes} {o : Nat} {d : Dict} (h : NetworkReport tp i o d) (n : Nat) : SlimD n d := by
  unfold NetworkReport at h
  split at h
  · refine SlimE.fits ?_ h
    refine SlimE.append (SlimE.append (slim_numbers i o n) ?_) ?_
    · split <;> slims
    · split <;> slims
  · obtain ⟨name, device, -, -, h⟩ := h
    refine SlimE.fits ?_ h
    refine SlimE.append (SlimE.append (slim_numbers i o n) ?_) ?_
    · split <;> slims
    · split <;> slims

theorem slim_info (tp : TextProc) (i : Bytes) (kind : String) (n : Nat) : SlimE (n + 1) (infoEntries tp i kind) := by
  unfold infoEntries
  refine SlimE.append (SlimE.append (SlimE.append (SlimE.append (SlimE.append ?_ ?_) ?_) ?_) ?_) ?_
  · slims
  · split <;> slims
  · split <;> slims
  · split <;> slims
  · split <;> slims
  · slims
    rename_i h
    obtain ⟨d, rfl, h⟩ := h
    split at h
    · exact (slim_volume tp i _ n).dict h
    · exact slim_network h n

theorem slim_strings (tp : TextProc) (flags : Nat) (b : Bytes) (n : Nat) (fs : List (String × Nat × Nat))
    (hf : ∀ f ∈ fs, (Json.quote f.1.toList).length ≤ 40) (pos : Nat) : SlimE n (stringEntries tp flags b fs pos) := by
  induction fs generalizing pos with
  | nil => exact SlimE.nil
  | cons f fs ih =>
    obtain ⟨key, bit, limit⟩ := f
    have ih := ih fun f hf' => hf f (by simp [hf'])
    rw [stringEntries]
    split
    · split
      · exact SlimE.nil
      · exact SlimE.cons (hf (key, bit, limit) (by simp)) (fun v h => leaf_either h n) (ih _)
    · exact ih _

/-! ### extra blocks -/

theorem slim_typed (v : Bytes) (n : Nat) : SlimE n (typedEntries v) := by
  unfold typedEntries
  slims
  · rename_i h
    obtain ⟨t, p, -, -, h⟩ := h
    split at h
    · obtain ⟨_, -, h⟩ := h
      exact leaf_wide h _
    · exact h ▸ Leaf.none _
  · rename_i h
    obtain ⟨t, name, -, -, h⟩ := h
    exact leaf_is h _

theorem slim_property (named : Bool) (v : Bytes) (n : Nat) : SlimE n (propertyEntries named v) := by
  unfold propertyEntries
  split
  · refine SlimE.append ?_ (slim_typed _ _)
    slims
  · refine SlimE.append ?_ (slim_typed _ _)
    slims

theorem slim_storage (s : Bytes) (n : Nat) : SlimE (n + 2) (storageEntries s) := by
  unfold storageEntries
  slims
  rename_i h
  obtain ⟨vs, l, rfl, -, h⟩ := h
  exact SlimE.each (fun b => slim_property _ b n) h

theorem slim_block {tp : TextProc} {s : Nat} {b : Bytes} {d : Dict} (h : blockFields tp s b d) (n : Nat) : SlimD (n + 4) d := by
  unfold blockFields at h
  split at h
  · exact SlimE.fits (by slims) h
  split at h
  · exact SlimE.fits (by slims) h
  split at h
  · exact SlimE.fits (by slims) h
  split at h
  · exact SlimE.fits (by slims) h
  split at h
  · exact SlimE.fits (by slims) h
  split at h
  · obtain ⟨t, -, h⟩ := h
    refine SlimE.fits ?_ h
    unfold descriptorEntries
    slims
    rename_i h
    subst h
    split
    · exact Leaf.none _
    · exact Leaf.str _ _
  split at h
  · exact SlimE.fits (by slims) h
  split at h
  · refine SlimE.fits ?_ h
    slims
    rename_i h
    obtain ⟨vs, l, rfl, -, h⟩ := h
    exact SlimE.each (fun b => slim_storage b n) h
  split at h
  · exact SlimE.fits (by slims) h
  split at h
  · refine SlimE.fits ?_ h
    slims
    rename_i h
    obtain ⟨l, rfl, h⟩ := h
    exact slim_items h (n + 1)
  · exact SlimE.fits (by slims) h

theorem slim_report {tp : TextProc} {s : Nat} {p : Piece} (hp : p.declared < 2 ^ 32) {d : Dict} (h : BlockReport tp s p d) (n : Nat) :
    Slim Small (n + 5) (.dict d) := by
  obtain ⟨rest, rfl, h⟩ := h
  rintro kv (_ | ⟨_, hkv⟩)
  · refine ⟨?_, Leaf.int (by unfold Small; omega) _⟩
    show (Json.quote "size".toList).length ≤ 40
    decide +kernel
  · exact slim_block h n kv hkv

theorem slim_unknown {tp : TextProc} {vs : List PyVal} {ps : List Piece} (hp : ∀ p ∈ ps, p.declared < 2 ^ 32)
    (h : UnknownReports tp vs ps) (n : Nat) : Slim Small (n + 6) (.list vs) := by
  induction vs generalizing ps with
  | nil => intro v hv; simp at hv
  | cons x vs ih =>
    cases ps with
    | nil => exact h.elim
    | cons p ps =>
      obtain ⟨⟨s, d, -, rfl, hd⟩, h⟩ := h
      rintro v (_ | ⟨_, hv⟩)
      · exact slim_report (hp p (by simp)) hd n
      · exact ih (fun p hp' => hp p (by simp [hp'])) h v hv

end Verif
