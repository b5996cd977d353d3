import Verif.Lemmas.Weight
import Verif.Lemmas.Process
import Verif.Lemmas.Metadata

/-
Bounds on the size of the parts of a report.
-/

namespace Verif

open Spec

/-- The length of an optional text. -/
def optLen : Option Str → Nat
  | none => 0
  | some s => s.length

@[simp] theorem weight_none : weight .none = 1 := rfl
@[simp] theorem weight_int (i : Int) : weight (.int i) = 1 := rfl
@[simp] theorem weight_nat (n : Nat) : weight (.nat n) = 1 := rfl
@[simp] theorem weight_dt (d : DateTime) : weight (.dt d) = 1 := rfl
@[simp] theorem weight_str (s : Str) : weight (.str s) = 1 + s.length := rfl
@[simp] theorem weight_lit (s : String) : weight (.lit s) = 1 + s.toList.length := rfl
@[simp] theorem weight_list (l : List PyVal) : weight (.list l) = 1 + weightList l := rfl
@[simp] theorem weight_dict (d : Dict) : weight (.dict d) = 1 + weightEntries d := rfl
@[simp] theorem weight_opt_str (o : Option Str) : weight (PyVal.opt .str o) = 1 + optLen o := by cases o <;> rfl
@[simp] theorem weight_opt_dt (o : Option DateTime) : weight (PyVal.opt .dt o) = 1 := by cases o <;> rfl
@[simp] theorem weight_opt_nat (o : Option Nat) : weight (PyVal.opt .nat o) = 1 := by cases o <;> rfl
@[simp] theorem weight_opt_lit (o : Option String) : weight (PyVal.opt .lit o) = 1 + optLen (o.map String.toList) := by
  cases o <;> rfl

@[simp] theorem weightEntries_nil : weightEntries [] = 0 := rfl
@[simp] theorem weightEntries_cons (k : String) (v : PyVal) (d : Dict) :
    weightEntries ((k, v) :: d) = weight v + weightEntries d := rfl
@[simp] theorem weightList_nil : weightList [] = 0 := rfl
@[simp] theorem weightList_cons (v : PyVal) (l : List PyVal) : weightList (v :: l) = weight v + weightList l := rfl

theorem slice_length_le {α : Type} (b : List α) (i j : Nat) : (slice b i j).length ≤ b.length := by
  simp [slice]

theorem weightList_le {l : List PyVal} {n : Nat} (h : ∀ v ∈ l, weight v ≤ n) : weightList l ≤ l.length * n := by
  induction l with
  | nil => simp
  | cons v l ih =>
    have h1 := h v List.mem_cons_self
    have h2 := ih fun w hw => h w (List.mem_cons_of_mem _ hw)
    rw [weightList_cons, List.length_cons, Nat.succ_mul]
    omega

theorem weightEntries_le {d : Dict} {n : Nat} (h : ∀ kv ∈ d, weight kv.2 ≤ n) : weightEntries d ≤ d.length * n := by
  induction d with
  | nil => simp
  | cons kv d ih =>
    obtain ⟨k, v⟩ := kv
    have h1 := h (k, v) List.mem_cons_self
    have h2 := ih fun w hw => h w (List.mem_cons_of_mem _ hw)
    rw [weightEntries_cons, List.length_cons, Nat.succ_mul]
    simp only at h1
    omega

/-! ### ID lists -/

namespace Target

/-- Everything a target reads has at most `n` bytes. -/
structure Within (n : Nat) (t : Target) : Prop where
  frugal : Frugal t.tp
  raw : t.rawTarget.length ≤ n
  location : t.location.length ≤ n
  description : optLen t.description ≤ n
  comments : optLen t.comments ≤ n

theorem within_initBase {tp : TextProc} (h : Frugal tp) (c : TargetClass) (b : Bytes) :
    Py.Ret (Within b.length) (initBase c tp b) := by
  unfold initBase
  ret
  exact ⟨h, slice_length_le _ _ _, Nat.zero_le _, Nat.zero_le _, Nat.zero_le _⟩

theorem within_init {tp : TextProc} (h : Frugal tp) (c : TargetClass) (b : Bytes) :
    Py.Ret (Within b.length) (init c tp b) := by
  unfold init
  split
  · unfold initNetwork
    refine Py.ret_bind_of (within_initBase h _ b) fun t ht => ?_
    have h0 : ∀ x ∈ tp.readStrings (t.rawTarget.drop 3), Py.Ret (fun s => s.length ≤ b.length) x := by
      intro x hx
      refine Py.ret_mono (len_readStringsGo h [] _ x hx) fun s hs => ?_
      have := ht.raw
      simp at hs
      omega
    refine Py.ret_bind_of (len_next h0) fun r hr => ?_
    refine Py.ret_bind fun cf _ => ?_
    refine Py.ret_bind_of (P := fun r : Option Str × List (Py Str) => optLen r.1 ≤ b.length ∧
      ∀ x ∈ r.2, Py.Ret (fun s => s.length ≤ b.length) x) ?_ fun r2 hr2 => ?_
    · split
      · exact Py.ret_bind_of (len_next hr.2) fun r hr => Py.ret_pure hr
      · exact Py.ret_pure ⟨Nat.zero_le _, hr.2⟩
    refine Py.ret_bind fun cf _ => ?_
    refine Py.ret_bind_of (P := fun o : Option Str => optLen o ≤ b.length) ?_ fun o ho => ?_
    · split
      · exact Py.ret_bind_of (len_next hr2.2) fun r hr => Py.ret_pure hr.1
      · exact Py.ret_pure (Nat.zero_le _)
    exact Py.ret_pure ⟨ht.frugal, ht.raw, hr.1, hr2.1, ho⟩
  · exact within_initBase h c b

theorem name_length (c : TargetClass) : c.name.toList.length ≤ 40 := by
  cases c <;> decide +kernel

theorem len_fsFolder (n : Nat) : Py.Ret (fun s => s.toList.length ≤ 40) (getItemShellFsFolder n) := by
  unfold getItemShellFsFolder
  split
  · rename_i fn h
    have : ∀ fn ∈ SHELL_ITEM_SHEL_FS_FOLDER, fn.2.toList.length ≤ 40 := by decide +kernel
    exact Py.ret_pure (this fn (List.mem_of_find?_eq_some h))
  · exact Py.ret_bind fun _ _ => Py.ret_pure (by decide +kernel)

end Target

theorem lookup_mem {α β : Type} [BEq α] [LawfulBEq α] {l : List (α × β)} {a : α} {b : β} (h : l.lookup a = some b) : (a, b) ∈ l := by
  induction l with
  | nil => simp at h
  | cons x l ih =>
    obtain ⟨a', b'⟩ := x
    rw [List.lookup_cons] at h
    split at h
    · rename_i he
      cases h
      rw [eq_of_beq he]
      exact List.mem_cons_self
    · exact List.mem_cons_of_mem _ (ih h)

namespace Target

variable {t : Target} {n : Nat}

theorem len_category : Py.Ret (fun s => s.toList.length ≤ 40) t.category := by
  unfold category
  refine Py.ret_bind fun c _ => ?_
  split
  · rename_i s h
    have : ∀ fn ∈ CATEGORIES, fn.2.toList.length ≤ 40 := by decide +kernel
    exact Py.ret_pure (this _ (lookup_mem h))
  · exact Py.ret_bind fun _ _ => Py.ret_pure (by decide +kernel)

theorem len_sortIndex : Py.Ret (fun s => s.toList.length ≤ 40) t.sortIndex := by
  unfold sortIndex
  refine Py.ret_bind fun c _ => ?_
  split
  · rename_i s h
    have : ∀ fn ∈ SORT_INDEX, fn.2.toList.length ≤ 40 := by decide +kernel
    exact Py.ret_pure (this _ (lookup_mem h))
  · exact Py.ret_bind fun _ _ => Py.ret_pure (by decide +kernel)

theorem len_cplFilePath (h : t.Within n) : Py.Ret (fun s => s.length ≤ n) t.cplFilePath := by
  have := h.raw
  unfold cplFilePath
  dsimp only
  split
  · exact Py.ret_mono (len_readUnicodeString _) fun s hs => by rw [List.length_drop] at hs; omega
  · exact Py.ret_mono (len_readString h.frugal _) fun s hs => by rw [List.length_drop] at hs; omega

theorem len_cplNameString (h : t.Within n) : Py.Ret (fun s => s.length ≤ n) t.cplNameString := by
  have := h.raw
  unfold cplNameString
  refine Py.ret_bind fun _ _ => ?_
  dsimp only
  split
  · exact Py.ret_mono (len_readUnicodeString _) fun s hs => by rw [List.length_drop] at hs; omega
  · exact Py.ret_mono (len_readString h.frugal _) fun s hs => by rw [List.length_drop] at hs; omega

theorem len_cplComments (h : t.Within n) : Py.Ret (fun s => s.length ≤ n) t.cplComments := by
  have := h.raw
  unfold cplComments
  refine Py.ret_bind fun _ _ => ?_
  dsimp only
  split
  · exact Py.ret_pure (Nat.zero_le _)
  · split
    · exact Py.ret_mono (len_readUnicodeString _) fun s hs => by rw [List.length_drop] at hs; omega
    · exact Py.ret_mono (len_readString h.frugal _) fun s hs => by rw [List.length_drop] at hs; omega

theorem len_volumeName (h : t.Within n) : Py.Ret (fun o => optLen o ≤ n) t.volumeName := by
  have := h.raw
  unfold volumeName
  refine Py.ret_bind fun _ _ => ?_
  split
  · refine Py.ret_bind_of (len_readString h.frugal _) fun s hs => Py.ret_pure ?_
    have := slice_length_le t.rawTarget 1 21
    simp only [optLen]
    omega
  · exact Py.ret_pure (Nat.zero_le _)

theorem len_volumeIdentifier : Py.Ret (fun s => s.length ≤ 64) t.volumeIdentifier := by
  unfold volumeIdentifier
  refine Py.ret_bind fun _ _ => ?_
  split
  · exact Py.ret_raise _
  · exact len_parseUuid _

theorem len_fsPrimaryName (h : t.Within n) : Py.Ret (fun s => s.length ≤ n) t.fsPrimaryName := by
  have := h.raw
  unfold fsPrimaryName
  dsimp only
  refine Py.ret_bind fun _ _ => ?_
  split
  · exact Py.ret_mono (len_readUnicodeString _) fun s hs => by rw [List.length_drop] at hs; omega
  · exact Py.ret_mono (len_readString h.frugal _) fun s hs => by rw [List.length_drop] at hs; omega

theorem lt_volumeFlags : Py.Ret (fun f => f < 2 ^ 32) t.volumeFlags := by
  unfold volumeFlags
  refine Py.ret_bind fun c _ => Py.ret_pure ?_
  have : c &&& 0x0F ≤ 0x0F := Nat.and_le_right
  omega

theorem len_delegateClassId : Py.Ret (fun s => s.length ≤ 64) t.delegateClassId :=
  Py.ret_bind fun _ _ => len_parseUuid _

theorem len_delegateFolderId : Py.Ret (fun s => s.length ≤ 64) t.delegateFolderId :=
  Py.ret_bind fun _ _ => len_parseUuid _

theorem weight_fsAsItem (h : t.Within n) : Py.Ret (fun d => weight (.dict d) ≤ n + 100) t.fsAsItem := by
  unfold fsAsItem
  have hc := name_length t.cls
  refine Py.ret_bind_of (P := fun s => s.toList.length ≤ 40) (Py.ret_bind fun _ _ => len_fsFolder _) fun s hs => ?_
  refine Py.ret_bind fun _ _ => Py.ret_bind fun _ _ => Py.ret_bind fun _ _ => ?_
  refine Py.ret_bind_of (len_fsPrimaryName h) fun name hn => Py.ret_pure ?_
  simp
  omega

theorem weight_asItem (h : t.Within n) : Py.Ret (fun d => weight (.dict d) ≤ 4 * n + 400) t.asItem := by
  have hc := name_length t.cls
  have hraw := h.raw
  unfold asItem
  split
  · refine Py.ret_bind_of (lt_unpackU 4 _) fun sig hsig => Py.ret_bind_of (len_cplFilePath h) fun a ha =>
      Py.ret_bind_of (len_cplNameString h) fun b hb => Py.ret_bind_of (len_cplComments h) fun c hc => Py.ret_pure ?_
    have := fmtX_length (w := 8) (by omega) (n := sig) (by omega)
    simp
    omega
  · refine Py.ret_bind fun _ _ => Py.ret_bind_of len_category fun c hc => Py.ret_pure ?_
    simp
    omega
  · refine Py.ret_bind_of len_sortIndex fun _ _ => Py.ret_bind fun _ _ => Py.ret_bind_of (len_parseUuid _) fun c hc => Py.ret_pure ?_
    simp
    omega
  · refine Py.ret_bind_of lt_volumeFlags fun f hf => Py.ret_bind fun _ _ => ?_
    have := pyHex_length hf
    split
    · refine Py.ret_bind_of (len_volumeName h) fun o ho => Py.ret_pure ?_
      simp
      omega
    · refine Py.ret_bind_of len_volumeIdentifier fun o ho => Py.ret_pure ?_
      simp
      omega
  · exact Py.ret_mono (weight_fsAsItem h) fun d hd => by omega
  · refine Py.ret_bind_of (P := fun s => s.toList.length ≤ 40) (Py.ret_bind fun _ _ => len_fsFolder _) fun s hs =>
      Py.ret_bind fun _ _ => Py.ret_pure ?_
    have := h.location
    have := h.description
    have := h.comments
    simp
    omega
  · refine Py.ret_bind_of (len_parseUuid _) fun c hc => Py.ret_pure ?_
    simp
    omega
  · refine Py.ret_bind_of (within_initBase h.frugal _ _) fun fe hfe => Py.ret_bind_of (weight_fsAsItem hfe) fun d hd =>
      Py.ret_bind_of len_delegateClassId fun a ha => Py.ret_bind_of len_delegateFolderId fun b hb => Py.ret_pure ?_
    have h8 : (asciiReplace (slice t.rawTarget 4 8)).length ≤ 4 := by simp [asciiReplace, slice]
    rw [List.length_drop] at hd
    simp only [weight_dict] at hd
    simp
    omega
  · refine Py.ret_bind fun _ _ => Py.ret_pure ?_
    simp
    omega
  · refine Py.ret_pure ?_
    simp
    omega

end Target

namespace LnkTargets

theorem within_idLists {tp : TextProc} (h : Frugal tp) (rest : Bytes) :
    (idLists tp rest).length ≤ rest.length ∧ ∀ x ∈ idLists tp rest, Py.Ret (Target.Within rest.length) x := by
  induction hk : rest.length using Nat.strong_induction_on generalizing rest with
  | _ k ih =>
    subst hk
    rw [idLists.eq_def]
    by_cases h0 : rest = []
    · simp [h0]
    · rw [if_neg h0]
      have hpos : 0 < rest.length := List.length_pos_iff.2 h0
      dsimp only
      split
      · exact ⟨by rw [List.length_singleton]; omega, fun x hx => by
          rw [List.mem_singleton] at hx; subst hx; exact ⟨fun a ha => by simp at ha⟩⟩
      · simp
      · rename_i t rest' hs
        split
        · rename_i hlt
          obtain ⟨h1, h2⟩ := ih rest'.length hlt rest' rfl
          refine ⟨by rw [List.length_cons]; omega, fun x hx => ?_⟩
          rcases List.mem_cons.1 hx with rfl | hx
          · constructor
            intro a ha
            simp only [Except.ok.injEq] at ha
            subst ha
            have hg : Py.Ret (fun o : Option (Target × Bytes) => ∀ p ∈ o, p.1.Within rest.length) (genBody (step tp rest)) := by
              unfold genBody
              refine Py.ret_try ?_ fun _ => Py.ret_raise _
              unfold step
              refine Py.ret_bind fun c _ => ?_
              split
              · exact Py.ret_pure (by simp)
              · refine Py.ret_bind_of (Target.within_init h _ _) fun t ht => Py.ret_bind fun _ _ => Py.ret_pure ?_
                simpa using ht
            exact hg.out _ hs (t, rest') rfl
          · refine Py.ret_mono (h2 x hx) fun a ha => ?_
            exact ⟨ha.frugal, by have := ha.raw; omega, by have := ha.location; omega, by have := ha.description; omega,
              by have := ha.comments; omega⟩
        · exact ⟨by rw [List.length_singleton]; omega, fun x hx => by
            rw [List.mem_singleton] at hx; subst hx; exact ⟨fun a ha => by simp at ha⟩⟩

theorem weight_itemOf {t : Target} {n : Nat} (h : t.Within n) :
    Py.Ret (fun o => ∀ v ∈ o, weight v ≤ 4 * n + 400) (itemOf t) := by
  unfold itemOf
  refine Py.ret_try ?_ fun _ => Py.ret_bind fun _ _ => Py.ret_pure (by simp)
  refine Py.ret_bind_of (Target.weight_asItem h) fun d hd => Py.ret_pure ?_
  simpa using hd

theorem weight_asListLoop {n : Nat} (xs : List (Py Target)) (h : ∀ x ∈ xs, Py.Ret (Target.Within n) x) :
    Py.Ret (fun l => weightList l ≤ xs.length * (4 * n + 400)) (asListLoop xs) := by
  induction xs with
  | nil => exact Py.ret_pure (by simp)
  | cons x xs ih =>
    refine Py.ret_bind_of (h x List.mem_cons_self) fun t ht => Py.ret_bind_of (weight_itemOf ht) fun o ho =>
      Py.ret_bind_of (ih fun y hy => h y (List.mem_cons_of_mem _ hy)) fun l hl => Py.ret_pure ?_
    rw [weightList_append, List.length_cons, Nat.succ_mul]
    have : weightList o.toList ≤ 4 * n + 400 := by
      cases o with
      | none => simp
      | some v => simpa using ho v rfl
    omega

theorem weight_items {tp : TextProc} (h : Frugal tp) (b : Bytes) {n : Nat} (hn : b.length ≤ n) :
    Py.Ret (fun l => weightList l ≤ n * (4 * n + 400)) (asListLoop (idLists tp b)) := by
  obtain ⟨h1, h2⟩ := within_idLists h b
  refine Py.ret_mono (weight_asListLoop _ h2) fun l hl => Nat.le_trans hl ?_
  exact Nat.mul_le_mul (by omega) (by omega)

end LnkTargets

/-! ### property stores -/

namespace Metadata

theorem len_propertyTypeName (n : Nat) : Py.Ret (fun s => s.toList.length ≤ 40) (propertyTypeName n) := by
  unfold propertyTypeName
  split
  · rename_i s h
    have : ∀ fn ∈ PROPERTY_TYPES, fn.2.toList.length ≤ 40 := by decide +kernel
    exact Py.ret_pure (this _ (lookup_mem h))
  · exact Py.ret_raise _

theorem weight_typedValue (b : Bytes) : Py.Ret (fun v => weight v ≤ b.length + 1) (typedValue b) := by
  unfold typedValue
  refine Py.ret_bind fun _ _ => ?_
  split
  · exact Py.ret_pure (by simp)
  · refine Py.ret_bind fun _ _ => ?_
    split
    · exact Py.ret_bind fun _ _ => Py.ret_pure (by simp)
    · split
      · refine Py.ret_bind fun n _ => Py.ret_bind_of (len_readUnicodeString _) fun s hs => Py.ret_pure ?_
        have := slice_length_le b 8 (8 + n * 2)
        simp
        omega
      · exact Py.ret_pure (by simp)

theorem weight_integerName (b : Bytes) : Py.Ret (fun d => weight (.dict d) ≤ 2 * b.length + 50) (integerNameAsDict b) := by
  unfold integerNameAsDict
  refine Py.ret_bind fun _ _ => Py.ret_bind fun _ _ => Py.ret_bind_of (weight_typedValue _) fun v hv => Py.ret_bind fun _ _ =>
    Py.ret_bind_of (len_propertyTypeName _) fun s hs => Py.ret_pure ?_
  rw [List.length_drop] at hv
  simp
  omega

theorem weight_stringName (b : Bytes) : Py.Ret (fun d => weight (.dict d) ≤ 2 * b.length + 50) (stringNameAsDict b) := by
  unfold stringNameAsDict
  refine Py.ret_bind fun _ _ => Py.ret_bind fun n _ => Py.ret_bind_of (len_readUnicodeString _) fun s hs =>
    Py.ret_bind_of (weight_typedValue _) fun v hv => Py.ret_bind fun _ _ =>
    Py.ret_bind_of (len_propertyTypeName _) fun s hs => Py.ret_pure ?_
  have := slice_length_le b 9 (9 + n)
  rw [List.length_drop] at hv
  simp
  omega

theorem weight_storage (b : Bytes) {n : Nat} (hn : b.length ≤ n) :
    Py.Ret (fun d => weight (.dict d) ≤ n * (2 * n + 50) + 100) (storageAsDict b) := by
  unfold storageAsDict
  refine Py.ret_bind fun _ _ => Py.ret_bind_of (lt_unpackU 4 _) fun v hv => Py.ret_bind_of (len_parseUuid _) fun g hg =>
    Py.ret_bind fun f _ => Py.ret_bind fun vals hvals => Py.ret_bind fun items hitems => Py.ret_pure ?_
  obtain ⟨c1, c2⟩ := sizeChain_length _ _ hvals
  rw [List.length_drop] at c1 c2
  obtain ⟨d1, d2⟩ := collect_length (P := fun v => weight v ≤ 2 * n + 50) vals items hitems fun x hx d hd => by
    have hx := c2 x hx
    have : weight (.dict d) ≤ 2 * x.length + 50 := by
      split at hd
      · exact (weight_stringName x).out d hd
      · exact (weight_integerName x).out d hd
    omega
  have h1 := weightList_le d2
  have h2 : items.length * (2 * n + 50) ≤ n * (2 * n + 50) := Nat.mul_le_mul_right _ (by omega)
  have h3 := pyHex_length (n := v) (by omega)
  simp
  omega

theorem weight_store (b : Bytes) : Py.Ret (fun l => weightList l ≤ b.length * (b.length * (2 * b.length + 50) + 100)) (propertyStore b) := by
  unfold propertyStore
  refine Py.ret_bind fun sts hs => ⟨fun l hl => ?_⟩
  obtain ⟨a1, a2⟩ := sizeChain_length _ _ hs
  rw [List.length_drop] at a1 a2
  obtain ⟨b1, b2⟩ := collect_length (P := fun v => weight v ≤ b.length * (2 * b.length + 50) + 100) sts l hl fun x hx d hd =>
    (weight_storage x (by have := a2 x hx; omega)).out d hd
  exact Nat.le_trans (weightList_le b2) (Nat.mul_le_mul_right _ (by omega))

end Metadata

/-! ### extra blocks -/

/-- The length of digests. -/
def Digests (env : Env) : Prop := ∀ b, (env.sha256hex b).length ≤ 64

namespace Extra

/-- The bound for a block of `n` bytes. -/
def bound (n : Nat) : Nat := 2 * (n * n * n) + 60 * (n * n) + 600 * n + 700

theorem bound_mono {m n : Nat} (h : m ≤ n) : bound m ≤ bound n := by
  have h2 : m * m ≤ n * n := Nat.mul_le_mul h h
  have h3 : m * m * m ≤ n * n * n := Nat.mul_le_mul h2 h
  unfold bound
  omega

theorem len_darwinDataUnicode (x : Extra) : Py.Ret (fun s => s.length ≤ x.raw.length) x.darwinDataUnicode := by
  unfold darwinDataUnicode
  refine Py.ret_mono (len_readUnicodeString _) fun s hs => ?_
  have := slice_length_le x.raw 268 (268 + 520)
  omega

theorem len_productCodeId (x : Extra) : Py.Ret (fun o => optLen o ≤ 64) x.productCodeId := by
  unfold productCodeId
  refine Py.ret_bind fun _ _ => Py.ret_mono (len_parsePackedUuid _) fun o ho => ?_
  cases o with
  | none => exact Nat.zero_le _
  | some s => exact ho s rfl

theorem len_componentId (x : Extra) : Py.Ret (fun o => optLen o ≤ 64) x.componentId := by
  unfold componentId
  refine Py.ret_bind fun _ _ => ?_
  dsimp only
  split
  all_goals
    refine Py.ret_mono (len_parsePackedUuid _) fun o ho => ?_
    cases o with
    | none => exact Nat.zero_le _
    | some s => exact ho s rfl

theorem len_featureName (x : Extra) : Py.Ret (fun o => optLen o ≤ x.raw.length) x.featureName := by
  unfold featureName
  refine Py.ret_bind_of x.len_darwinDataUnicode fun s hs => ?_
  dsimp only
  split
  · exact Py.ret_pure (Nat.zero_le _)
  · refine Py.ret_pure ?_
    simp only [optLen, sliceTo]
    exact Nat.le_trans (slice_length_le _ _ _) hs

theorem weight_unknown (x : Extra) (hd : Digests x.tp.env) (h : x.cls = .unknown) :
    Py.Ret (fun d => weight (.dict d) ≤ 67) x.asDict := by
  have := hd (x.raw.drop 4)
  unfold asDict fields
  rw [h]
  refine Py.ret_bind fun _ _ => Py.ret_pure ?_
  simp
  omega

theorem weight_asDict (x : Extra) (h : Frugal x.tp) (hd : Digests x.tp.env) :
    Py.Ret (fun d => weight (.dict d) ≤ bound x.raw.length) x.asDict := by
  have hx := hd (x.raw.drop 4)
  have h1 := slice_length_le x.raw 8 (8 + 260)
  have h2 := slice_length_le x.raw 268 (268 + 520)
  unfold asDict
  refine Py.ret_bind fun n _ => ?_
  refine Py.ret_bind_of (P := fun d => weightEntries d ≤ bound x.raw.length - 2) ?_ fun d hd => Py.ret_pure ?_
  swap
  · have : 2 ≤ bound x.raw.length := by unfold bound; omega
    simp
    omega
  unfold fields bound
  split
  case h_9 =>
    refine Py.ret_bind_of (Metadata.weight_store _) fun l hl => Py.ret_pure ?_
    have e : x.raw.length * (x.raw.length * (2 * x.raw.length + 50) + 100) =
      2 * (x.raw.length * x.raw.length * x.raw.length) + 50 * (x.raw.length * x.raw.length) + 100 * x.raw.length := by ring
    rw [e] at hl
    simp
    omega
  case h_11 =>
    unfold shellItemFields shellItemIter
    refine Py.ret_bind_of (P := fun l => weightList l ≤ x.raw.length * (4 * x.raw.length + 400)) ?_ fun l hl => Py.ret_pure ?_
    · dsimp only
      split
      · exact ⟨fun l hl => by simp [LnkTargets.asListLoop, bind, Py.andThen] at hl⟩
      · exact LnkTargets.weight_items h _ (slice_length_le _ _ _)
    · have e : x.raw.length * (4 * x.raw.length + 400) = 4 * (x.raw.length * x.raw.length) + 400 * x.raw.length := by ring
      rw [e] at hl
      simp
      omega
  · refine Py.ret_bind_of (len_readString h _) fun a ha => Py.ret_bind_of (len_readUnicodeString _) fun b hb => Py.ret_pure ?_
    simp
    omega
  · unfold consoleFields
    refine Py.ret_bind fun _ _ => Py.ret_bind fun _ _ => Py.ret_bind fun _ _ => Py.ret_bind fun _ _ => Py.ret_bind fun _ _ =>
      Py.ret_bind fun _ _ => Py.ret_bind fun _ _ => Py.ret_bind fun _ _ => Py.ret_bind fun _ _ => Py.ret_bind fun _ _ =>
      Py.ret_bind fun _ _ => Py.ret_bind_of (len_readUnicodeString _) fun b hb => ?_
    have := slice_length_le x.raw 44 (44 + 64)
    ret
    simp
    omega
  · refine Py.ret_bind fun _ _ => Py.ret_bind fun _ _ => Py.ret_bind_of (len_readString h _) fun a ha =>
      Py.ret_bind_of (len_parseUuid _) fun _ _ => Py.ret_bind_of (len_parseUuid _) fun _ _ =>
      Py.ret_bind_of (len_parseUuid _) fun _ _ => Py.ret_bind_of (len_parseUuid _) fun _ _ => Py.ret_pure ?_
    have := slice_length_le x.raw 16 (16 + 16)
    simp
    omega
  · unfold codePageFields
    ret
    simp
  · unfold specialFolderFields
    ret
    simp
  · refine Py.ret_bind_of (len_readString h _) fun a ha => Py.ret_bind_of x.len_darwinDataUnicode fun b hb =>
      Py.ret_bind_of x.len_productCodeId fun _ _ => Py.ret_bind_of x.len_featureName fun _ _ =>
      Py.ret_bind_of x.len_componentId fun _ _ => Py.ret_pure ?_
    simp
    omega
  · refine Py.ret_bind_of (len_readString h _) fun a ha => Py.ret_bind_of (len_readUnicodeString _) fun b hb => Py.ret_pure ?_
    simp
    omega
  · refine Py.ret_bind_of (len_readString h _) fun a ha => Py.ret_pure ?_
    rw [List.length_drop] at ha
    simp
    omega
  · refine Py.ret_bind_of (len_parseUuid _) fun a ha => Py.ret_bind fun _ _ => Py.ret_pure ?_
    simp
    omega
  · refine Py.ret_pure ?_
    simp
    omega
  · refine Py.ret_pure ?_
    simp
    omega

end Extra

namespace ExtraData

/-- The bound for blocks of `n` bytes in all. -/
def cost (n : Nat) : Nat := 2 * (n * n * n) + 60 * (n * n) + 1400 * n

theorem cost_add (a b : Nat) : cost a + cost b ≤ cost (a + b) := by
  have h2 : (a + b) * (a + b) = a * a + b * b + 2 * (a * b) := by ring
  have h3 : (a + b) * (a + b) * (a + b) = a * a * a + b * b * b + 3 * (a * a * b) + 3 * (a * b * b) := by ring
  unfold cost
  rw [h3, h2]
  omega

theorem cost_mono {m n : Nat} (h : m ≤ n) : cost m ≤ cost n := by
  obtain ⟨k, rfl⟩ := Nat.exists_eq_add_of_le h
  exact Nat.le_trans (Nat.le_add_right _ _) (cost_add m k)

/-- The bytes of all blocks. -/
def total (l : List Extra) : Nat := (l.map fun x => x.raw.length).sum

/-- Blocks from at most `n` bytes, none empty. -/
def Within (tp : TextProc) (n : Nat) (l : List Extra) : Prop := total l ≤ n ∧ ∀ x ∈ l, x.tp = tp ∧ 0 < x.raw.length

theorem total_objects (tp : TextProc) (l : List Piece) : total (objects tp l) ≤ (l.map Piece.bytes).flatten.length := by
  induction l with
  | nil => simp [total, objects]
  | cons p l ih =>
    unfold total objects at ih ⊢
    rcases hs : p.signature with _ | s
    · simp only [List.filterMap_cons, hs, Option.map_none, List.map_cons, List.flatten_cons, List.length_append]
      omega
    · simp only [List.filterMap_cons, hs, Option.map_some, List.map_cons, List.flatten_cons, List.length_append,
        List.sum_cons]
      omega

theorem cut_pos {b : Bytes} {l : List Piece} {last : Bytes} (h : Cut b l last) : ∀ p ∈ l, 0 < p.bytes.length := by
  induction h with
  | stop h => simp
  | @block b n l last h hn hl ih =>
    intro p hp
    have := uAt_some_length h
    rcases List.mem_cons.1 hp with rfl | hp
    · simp
      omega
    · exact ih p hp

theorem within_objects (tp : TextProc) {b : Bytes} {l : List Piece} {last : Bytes} (h : Cut b l last) :
    Within tp (b.length - last.length) (objects tp l) := by
  have h1 := total_objects tp l
  have h2 := congrArg List.length (cut_flatten h)
  rw [List.length_append] at h2
  refine ⟨by omega, fun x hx => ?_⟩
  unfold objects at hx
  obtain ⟨p, hp, hx⟩ := List.mem_filterMap.1 hx
  obtain ⟨s, hs, rfl⟩ := Option.map_eq_some_iff.1 hx
  exact ⟨rfl, cut_pos h p hp⟩

theorem within_init (tp : TextProc) (allow : Bool) (b : Bytes) :
    Py.Ret (fun e => Within tp b.length e.data) (init tp allow b) := by
  obtain ⟨l, last, hc⟩ := cut_exists b
  have h1 := within_objects tp hc
  have h2 := congrArg List.length (cut_flatten hc)
  rw [List.length_append] at h2
  have h3 : Within tp b.length (objects tp l) := ⟨by have := h1.1; omega, h1.2⟩
  unfold init
  rw [loop_cut hc]
  refine Py.ret_bind_of (P := fun r => r = (objects tp l, last)) ⟨fun r hr => by simpa using hr.symm⟩ fun r hr => ?_
  subst hr
  dsimp only
  split
  · rename_i ha
    simp only [Bool.and_eq_true, decide_eq_true_eq] at ha
    refine Py.ret_bind fun _ _ => ?_
    split
    · refine Py.ret_pure ⟨?_, fun x hx => ?_⟩
      · have := h1.1
        simp only [total, List.map_append, List.sum_append] at this ⊢
        simp
        omega
      · rcases List.mem_append.1 hx with hx | hx
        · exact h1.2 x hx
        · simp only [List.mem_singleton] at hx
          subst hx
          exact ⟨rfl, by simp; omega⟩
    · exact Py.ret_pure h3
  · exact Py.ret_pure h3

theorem weightEntries_set (d : Dict) (k : String) (v : PyVal) :
    weightEntries (d.set k v) ≤ weightEntries d + weight v := by
  induction d with
  | nil => simp [Dict.set]
  | cons x d ih =>
    obtain ⟨k', v'⟩ := x
    simp only [Dict.set]
    split
    · simp only [weightEntries_cons]
      omega
    · simp only [weightEntries_cons]
      omega

theorem weightEntries_set_get {d : Dict} {k : String} {v w : PyVal} (h : Dict.get? d k = some w) :
    weightEntries (d.set k v) + weight w = weightEntries d + weight v := by
  induction d with
  | nil => simp [Dict.get?] at h
  | cons x d ih =>
    obtain ⟨k', v'⟩ := x
    simp only [Dict.set]
    simp only [Dict.get?] at h
    split
    · rw [if_pos (by assumption)] at h
      simp only [Option.some.injEq] at h
      subst h
      simp only [weightEntries_cons]
      omega
    · rw [if_neg (by assumption)] at h
      have := ih h
      simp only [weightEntries_cons]
      omega

theorem weight_asDictLoop {tp : TextProc} (h : Frugal tp) (hd : Digests tp.env) (xs : List Extra) (res : Dict)
    (hx : ∀ x ∈ xs, x.tp = tp ∧ 0 < x.raw.length) :
    Py.Ret (fun d => weightEntries d ≤ weightEntries res + cost (total xs)) (asDictLoop xs res) := by
  induction xs generalizing res with
  | nil => exact Py.ret_pure (Nat.le_add_right _ _)
  | cons x xs ih =>
    obtain ⟨ht, hpos⟩ := hx x List.mem_cons_self
    have ih := fun res => ih res fun y hy => hx y (List.mem_cons_of_mem _ hy)
    have htot : cost x.raw.length + cost (total xs) ≤ cost (total (x :: xs)) := by
      have : total (x :: xs) = x.raw.length + total xs := by simp [total]
      rw [this]
      exact cost_add _ _
    have hb : Extra.bound x.raw.length + 2 ≤ cost x.raw.length := by
      unfold Extra.bound cost
      omega
    unfold asDictLoop
    have h0 : weightEntries (if x.cls = .unknown ∧ ¬ res.has x.cls.name then res.set x.cls.name (.list []) else res) ≤
        weightEntries res + 1 := by
      split
      · exact weightEntries_set _ _ _
      · omega
    generalize (if x.cls = .unknown ∧ ¬ res.has x.cls.name then res.set x.cls.name (.list []) else res) = res' at h0
    refine Py.ret_bind fun r hr => ?_
    rcases r with e | d
    · refine Py.ret_bind fun _ _ => Py.ret_mono (ih _) fun d hd => ?_
      omega
    · have hd : weight (.dict d) ≤ Extra.bound x.raw.length := by
        refine (x.weight_asDict (ht ▸ h) (ht ▸ hd)).out d ?_
        unfold Py.attempt at hr
        rcases hx : x.asDict.res with e | d'
        · rw [hx] at hr
          simp only at hr
          split at hr <;> simp at hr
        · rw [hx] at hr
          simp only [Except.ok.injEq] at hr
          rw [hr]
      dsimp only
      split
      · refine Py.ret_mono (ih _) fun d' hd' => ?_
        have : weightEntries (res'.set x.cls.name (.list (listAt res' x.cls.name ++ [.dict d]))) ≤
            weightEntries res' + 1 + weight (.dict d) := by
          unfold listAt
          split
          · rename_i l hl
            have h1 := weightEntries_set_get (v := .list (l ++ [.dict d])) hl
            rw [weight_list, weight_list, weightList_append, weightList_cons, weightList_nil] at h1
            omega
          · have h1 := weightEntries_set res' x.cls.name (.list [.dict d])
            rw [weight_list, weightList_cons, weightList_nil] at h1
            simp only [List.nil_append]
            omega
        omega
      · refine Py.ret_mono (ih _) fun d' hd' => ?_
        have := weightEntries_set res' x.cls.name (.dict d)
        omega

theorem weight_asDict {tp : TextProc} (h : Frugal tp) (hd : Digests tp.env) {n : Nat} {e : ExtraData}
    (he : Within tp n e.data) : Py.Ret (fun d => weight (.dict d) ≤ 1 + cost n) e.asDict := by
  refine Py.ret_mono (weight_asDictLoop h hd e.data [] he.2) fun d hd => ?_
  have := cost_mono he.1
  simp only [weightEntries_nil, weight_dict] at hd ⊢
  omega

end ExtraData

/-! ### strings -/

namespace StringData

theorem len_read (h : LnkHeader) {tp : TextProc} (hf : Frugal tp) (b : Bytes) (l : Bool) :
    Py.Ret (fun r => r.1.length ≤ b.length) (read h tp b l) := by
  unfold read
  refine Py.ret_bind fun _ _ => Py.ret_bind fun _ _ => ?_
  dsimp only
  split
  · refine Py.ret_bind_of (len_readUnicodeString _) fun s hs => Py.ret_pure ?_
    exact Nat.le_trans (by omega) (slice_length_le _ _ _)
  · refine Py.ret_bind_of (len_readString hf _) fun s hs => Py.ret_pure ?_
    exact Nat.le_trans (by omega) (slice_length_le _ _ _)

theorem weight_loop (h : LnkHeader) {tp : TextProc} (hf : Frugal tp) (raw : Bytes) (fs : List (String × String × Bool))
    (data : List (String × Str)) (start : Nat) :
    Py.Ret (fun s => weightEntries s.asDict ≤ weightEntries (data.map fun kv => (kv.1, PyVal.str kv.2)) + fs.length * (1 + raw.length))
      (loop h tp raw fs data start) := by
  induction fs generalizing data start with
  | nil => exact Py.ret_pure (Nat.le_add_right _ _)
  | cons f fs ih =>
    obtain ⟨flag, key, limit⟩ := f
    unfold loop
    refine Py.ret_bind fun r hr => ?_
    rw [List.length_cons, Nat.succ_mul]
    rcases r with e | _ | ⟨text, length⟩
    · exact Py.ret_bind fun _ _ => Py.ret_pure (Nat.le_add_right _ _)
    · exact Py.ret_mono (ih _ _) fun s hs => by omega
    · refine Py.ret_mono (ih _ _) fun s hs => ?_
      have ht : text.length ≤ raw.length := by
        unfold Py.attempt at hr
        split at hr
        · split at hr <;> simp at hr
        · rename_i hx
          simp only [Except.ok.injEq] at hr
          subst hr
          simp only [Py.bind_ok_iff] at hx
          obtain ⟨b, hb, hx⟩ := hx
          split at hx
          · rw [Py.bind_ok_iff] at hx
            obtain ⟨r, hr, hx⟩ := hx
            have h1 := (len_read h hf (raw.drop start) limit).out r hr
            have h2 : r = (text, length) := by simpa [pure, Py.ret] using hx
            subst h2
            rw [List.length_drop] at h1
            simp only at h1
            omega
          · simp [pure, Py.ret] at hx
      rw [List.map_append, weightEntries_append] at hs
      simp at hs
      omega

theorem weight_init (h : LnkHeader) {tp : TextProc} (hf : Frugal tp) (raw : Bytes) :
    Py.Ret (fun s => weight (.dict s.asDict) ≤ 6 + 5 * raw.length) (init h tp raw) := by
  unfold init
  refine Py.ret_mono (weight_loop h hf raw fields [] 0) fun s hs => ?_
  have : fields.length = 5 := rfl
  rw [this] at hs
  simp at hs ⊢
  omega

end StringData

/-! ### link info -/

namespace LnkInfo

theorem lt_u32 (i : LnkInfo) (off : Nat) : Py.Ret (fun n => n < 2 ^ 32) (i.u32 off) := by
  exact Py.ret_mono (lt_unpackU 4 _) fun n hn => by simpa using hn

theorem len_text {i : LnkInfo} (h : Frugal i.tp) (k : Nat) :
    Py.Ret (fun s => s.length ≤ i.raw.length) (i.tp.readString (i.raw.drop k)) := by
  refine Py.ret_mono (len_readString h _) fun s hs => ?_
  rw [List.length_drop] at hs
  omega

theorem len_wide (i : LnkInfo) (k : Nat) :
    Py.Ret (fun s => s.length ≤ i.raw.length) (TextProc.readUnicodeString (i.raw.drop k)) := by
  refine Py.ret_mono (len_readUnicodeString _) fun s hs => ?_
  rw [List.length_drop] at hs
  omega

theorem len_commonPathSuffix {i : LnkInfo} (h : Frugal i.tp) : Py.Ret (fun o => optLen o ≤ i.raw.length) i.commonPathSuffix := by
  unfold commonPathSuffix
  refine Py.ret_bind fun _ _ => Py.ret_ite (fun _ => Py.ret_pure (Nat.zero_le _)) fun _ => ?_
  exact Py.ret_bind_of (len_text h _) fun s hs => Py.ret_pure hs

theorem len_localBasePath {i : LnkInfo} (h : Frugal i.tp) : Py.Ret (fun o => optLen o ≤ i.raw.length) i.localBasePath := by
  unfold localBasePath
  refine Py.ret_bind fun _ _ => Py.ret_ite (fun _ => Py.ret_pure (Nat.zero_le _)) fun _ => ?_
  exact Py.ret_bind_of (len_text h _) fun s hs => Py.ret_pure hs

theorem len_localBasePathUnicode (i : LnkInfo) : Py.Ret (fun o => optLen o ≤ i.raw.length) i.localBasePathUnicode := by
  unfold localBasePathUnicode
  refine Py.ret_bind fun _ _ => ?_
  split
  · exact Py.ret_pure (Nat.zero_le _)
  · exact Py.ret_pure (Nat.zero_le _)
  · exact Py.ret_bind_of (i.len_wide _) fun s hs => Py.ret_pure hs

theorem len_commonPathSuffixUnicode (i : LnkInfo) : Py.Ret (fun o => optLen o ≤ i.raw.length) i.commonPathSuffixUnicode := by
  unfold commonPathSuffixUnicode
  refine Py.ret_bind fun _ _ => ?_
  split
  · exact Py.ret_pure (Nat.zero_le _)
  · exact Py.ret_pure (Nat.zero_le _)
  · exact Py.ret_bind_of (i.len_wide _) fun s hs => Py.ret_pure hs

theorem len_volumeLabel {i : LnkInfo} (h : Frugal i.tp) : Py.Ret (fun o => optLen o ≤ i.raw.length) i.volumeLabel := by
  unfold volumeLabel
  refine Py.ret_bind fun _ _ => Py.ret_ite (fun _ => Py.ret_pure (Nat.zero_le _)) fun _ => (Py.ret_bind fun _ _ => Py.ret_bind fun _ _ => ?_)
  exact Py.ret_bind_of (len_text h _) fun s hs => Py.ret_pure hs

theorem len_volumeLabelUnicode (i : LnkInfo) : Py.Ret (fun o => optLen o ≤ i.raw.length) i.volumeLabelUnicode := by
  unfold volumeLabelUnicode
  refine Py.ret_bind fun _ _ => ?_
  split
  · exact Py.ret_pure (Nat.zero_le _)
  · exact Py.ret_pure (Nat.zero_le _)
  · exact Py.ret_bind fun _ _ => Py.ret_bind_of (i.len_wide _) fun s hs => Py.ret_pure hs

theorem len_driveSerialNumber (i : LnkInfo) : Py.Ret (fun s => s.length ≤ 10) i.driveSerialNumber := by
  unfold driveSerialNumber
  exact Py.ret_bind fun _ _ => Py.ret_bind_of (i.lt_u32 _) fun n hn => Py.ret_pure (pyHex_length hn)

theorem len_driveType (i : LnkInfo) : Py.Ret (fun o => optLen (o.map String.toList) ≤ 40) i.driveType := by
  unfold driveType
  refine Py.ret_bind fun n _ => Py.ret_pure ?_
  rcases h : DRIVE_TYPES[n]? with _ | s
  · exact Nat.zero_le _
  · have : ∀ s ∈ DRIVE_TYPES, s.toList.length ≤ 40 := by decide +kernel
    exact this s (List.mem_of_getElem? h)

theorem len_rNetworkProviderType (i : LnkInfo) : Py.Ret (fun s => s.length ≤ 10) i.rNetworkProviderType := by
  unfold rNetworkProviderType
  exact Py.ret_bind fun _ _ => Py.ret_bind_of (i.lt_u32 _) fun n hn => Py.ret_pure (pyHex_length hn)

theorem len_networkProviderType (i : LnkInfo) :
    Py.Ret (fun o => optLen (o.map String.toList) ≤ 40) i.networkProviderType := by
  unfold networkProviderType
  refine Py.ret_bind fun _ _ => Py.ret_ite (fun _ => Py.ret_pure (Nat.zero_le _)) fun _ => (Py.ret_bind fun key _ => Py.ret_pure ?_)
  rcases h : NETWORK_PROVIDER_TYPES.find? fun kv => decide (kv.1.toList = key) with _ | kv
  · rw [h]
    exact Nat.zero_le _
  · have : ∀ kv ∈ NETWORK_PROVIDER_TYPES, kv.2.toList.length ≤ 40 := by decide +kernel
    rw [h]
    exact this kv (List.mem_of_find?_eq_some h)

theorem len_netNameUnicode (i : LnkInfo) : Py.Ret (fun o => optLen o ≤ i.raw.length) i.netNameUnicode := by
  unfold netNameUnicode
  refine Py.ret_bind fun _ _ => Py.ret_ite (fun _ => Py.ret_pure (Nat.zero_le _)) fun _ => (Py.ret_bind fun _ _ => Py.ret_bind fun _ _ => ?_)
  split
  · exact Py.ret_raise _
  · exact Py.ret_bind_of (i.len_wide _) fun s hs => Py.ret_pure hs

theorem len_deviceNameUnicode (i : LnkInfo) : Py.Ret (fun o => optLen o ≤ i.raw.length) i.deviceNameUnicode := by
  unfold deviceNameUnicode
  refine Py.ret_bind fun _ _ => Py.ret_ite (fun _ => Py.ret_pure (Nat.zero_le _)) fun _ => (Py.ret_bind fun _ _ => Py.ret_bind fun _ _ => ?_)
  split
  · exact Py.ret_raise _
  · exact Py.ret_bind_of (i.len_wide _) fun s hs => Py.ret_pure hs

theorem len_netName {i : LnkInfo} (h : Frugal i.tp) : Py.Ret (fun o => optLen o ≤ i.raw.length) i.netName := by
  unfold netName
  refine Py.ret_bind fun _ _ => Py.ret_ite (fun _ => Py.ret_pure (Nat.zero_le _)) fun _ => (Py.ret_bind fun _ _ => ?_)
  exact Py.ret_bind_of (len_text h _) fun s hs => Py.ret_pure hs

theorem len_deviceName {i : LnkInfo} (h : Frugal i.tp) : Py.Ret (fun o => optLen o ≤ i.raw.length) i.deviceName := by
  unfold deviceName
  refine Py.ret_bind fun _ _ => Py.ret_ite (fun _ => Py.ret_pure (Nat.zero_le _)) fun _ => (Py.ret_bind fun _ _ => Py.ret_bind fun _ _ => ?_)
  exact Py.ret_bind_of (len_text h _) fun s hs => Py.ret_pure hs

end LnkInfo

namespace LnkFile

theorem weight_entryIf {n : Nat} {b : Bool} {x : Py Dict} (h : Py.Ret (fun d => weightEntries d ≤ n) x) :
    Py.Ret (fun d => weightEntries d ≤ n) (entryIf b x) := by
  unfold entryIf
  split
  · exact h
  · exact Py.ret_pure (Nat.zero_le _)

theorem weight_jsonLocal {i : LnkInfo} (h : Frugal i.tp) :
    Py.Ret (fun d => weightEntries d ≤ 2 * i.raw.length + 100) (jsonLocal i) := by
  unfold jsonLocal
  refine Py.ret_bind fun _ _ => Py.ret_bind fun _ _ => Py.ret_bind fun _ _ =>
    Py.ret_bind_of i.len_driveSerialNumber fun _ h1 => Py.ret_bind_of i.len_driveType fun _ h2 =>
    Py.ret_bind_of (LnkInfo.len_volumeLabel h) fun _ h3 => Py.ret_bind fun _ _ =>
    Py.ret_bind_of (weight_entryIf (n := 2 + i.raw.length) ?_) fun _ h4 => Py.ret_pure ?_
  · refine Py.ret_bind fun _ _ => Py.ret_bind_of i.len_volumeLabelUnicode fun _ h5 => Py.ret_pure ?_
    simp
    omega
  · simp
    omega

theorem weight_jsonNetwork {i : LnkInfo} (h : Frugal i.tp) :
    Py.Ret (fun d => weightEntries d ≤ 4 * i.raw.length + 100) (jsonNetwork i) := by
  unfold jsonNetwork
  refine Py.ret_bind fun _ _ => Py.ret_bind fun _ _ => Py.ret_bind fun _ _ => Py.ret_bind fun _ _ =>
    Py.ret_bind_of i.len_rNetworkProviderType fun _ h1 => Py.ret_bind fun _ _ =>
    Py.ret_bind_of (weight_entryIf (n := 41) ?_) fun _ h2 => Py.ret_bind fun _ _ =>
    Py.ret_bind_of (weight_entryIf (n := 2 + i.raw.length) ?_) fun _ h3 => Py.ret_bind fun _ _ =>
    Py.ret_bind_of (weight_entryIf (n := 2 + i.raw.length) ?_) fun _ h4 => Py.ret_bind fun _ _ =>
    Py.ret_bind_of (weight_entryIf (n := 1 + i.raw.length) ?_) fun _ h5 => Py.ret_bind fun _ _ =>
    Py.ret_bind_of (weight_entryIf (n := 1 + i.raw.length) ?_) fun _ h6 => Py.ret_pure ?_
  · refine Py.ret_bind_of i.len_networkProviderType fun _ h => Py.ret_pure ?_
    simp
    omega
  · refine Py.ret_bind fun _ _ => Py.ret_bind_of i.len_netNameUnicode fun _ h5 => Py.ret_pure ?_
    simp
    omega
  · refine Py.ret_bind fun _ _ => Py.ret_bind_of i.len_deviceNameUnicode fun _ h5 => Py.ret_pure ?_
    simp
    omega
  · refine Py.ret_bind_of (LnkInfo.len_netName h) fun _ h5 => Py.ret_pure ?_
    simp
    omega
  · refine Py.ret_bind_of (LnkInfo.len_deviceName h) fun _ h5 => Py.ret_pure ?_
    simp
    omega
  · simp only [weightEntries_append]
    simp
    omega

theorem weight_jsonInfo {n : Nat} (f : LnkFile) (h : ∀ c i, f.info = some (c, i) → Frugal i.tp ∧ i.raw.length ≤ n) :
    Py.Ret (fun d => weight (.dict d) ≤ 8 * n + 200) f.jsonInfo := by
  unfold jsonInfo
  split
  · exact Py.ret_pure (by simp)
  · rename_i cls i hi
    obtain ⟨hf, hn⟩ := h _ _ hi
    refine Py.ret_bind fun _ _ => Py.ret_bind fun _ _ => Py.ret_bind fun _ _ => Py.ret_bind fun _ _ =>
      Py.ret_bind fun _ _ => Py.ret_bind fun _ _ => Py.ret_bind fun _ _ =>
      Py.ret_bind_of (weight_entryIf (n := 1 + i.raw.length) ?_) fun _ h1 =>
      Py.ret_bind_of (weight_entryIf (n := 1 + i.raw.length) ?_) fun _ h2 => Py.ret_bind fun _ _ =>
      Py.ret_bind_of (weight_entryIf (n := 2 + i.raw.length) ?_) fun _ h3 => Py.ret_bind fun _ _ =>
      Py.ret_bind_of (weight_entryIf (n := 2 + i.raw.length) ?_) fun _ h4 => ?_
    · refine Py.ret_bind_of (LnkInfo.len_localBasePath hf) fun _ h5 => Py.ret_pure ?_
      simp
      omega
    · refine Py.ret_bind_of (LnkInfo.len_commonPathSuffix hf) fun _ h5 => Py.ret_pure ?_
      simp
      omega
    · refine Py.ret_bind fun _ _ => Py.ret_bind_of i.len_localBasePathUnicode fun _ h5 => Py.ret_pure ?_
      simp
      omega
    · refine Py.ret_bind fun _ _ => Py.ret_bind_of i.len_commonPathSuffixUnicode fun _ h5 => Py.ret_pure ?_
      simp
      omega
    · have : (locationName cls).toList.length ≤ 7 := by cases cls <;> decide +kernel
      cases cls
      · refine Py.ret_bind_of (weight_jsonLocal hf) fun _ h5 => Py.ret_pure ?_
        simp only [weight_dict, weightEntries_append, weightEntries_cons, weight_nat, weight_lit, weightEntries_nil]
        omega
      · refine Py.ret_bind_of (weight_jsonNetwork hf) fun _ h5 => Py.ret_pure ?_
        simp only [weight_dict, weightEntries_append, weightEntries_cons, weight_nat, weight_lit, weightEntries_nil]
        omega

/-! ### header -/

theorem weight_strList {l : List String} {n : Nat} (h : ∀ s ∈ l, s.toList.length ≤ n) :
    weight (strList l) ≤ 1 + l.length * (1 + n) := by
  unfold strList
  rw [weight_list]
  have := weightList_le (l := l.map .lit) (n := 1 + n) (by
    intro v hv
    obtain ⟨s, hs, rfl⟩ := List.mem_map.1 hv
    rw [weight_lit]
    have := h s hs
    omega)
  rw [List.length_map] at this
  omega

theorem weight_flagNames {t : List (Nat × String)} (h : ∀ kv ∈ t, kv.2.toList.length ≤ 40) (n : Nat) :
    weight (strList (LnkHeader.flagNames t n)) ≤ 1 + t.length * 41 := by
  have h1 := weight_strList (l := LnkHeader.flagNames t n) (n := 40) (by
    intro s hs
    unfold LnkHeader.flagNames at hs
    obtain ⟨kv, hkv, rfl⟩ := List.mem_map.1 hs
    exact h kv (List.mem_filter.1 hkv).1)
  have h2 : (LnkHeader.flagNames t n).length ≤ t.length := by
    unfold LnkHeader.flagNames
    rw [List.length_map]
    exact List.length_filter_le _ _
  omega

theorem weight_jsonHeader (f : LnkFile) : Py.Ret (fun d => weight (.dict d) ≤ 2200) f.jsonHeader := by
  unfold jsonHeader
  refine Py.ret_bind_of (P := fun s => s.length ≤ 64) ?_ fun _ h1 => Py.ret_bind fun _ _ => Py.ret_bind fun _ _ => Py.ret_bind fun _ _ =>
    Py.ret_bind fun _ _ => Py.ret_bind fun _ _ => Py.ret_bind fun _ _ => Py.ret_bind fun _ _ =>
    Py.ret_bind_of (P := fun s => s.toList.length ≤ 40) ?_ fun _ h2 =>
    Py.ret_bind_of (P := fun s => s.length ≤ 64) ?_ fun _ h3 => Py.ret_bind fun _ _ =>
    Py.ret_bind_of (P := fun l => weight (strList l) ≤ 1 + 27 * 41) ?_ fun _ h4 =>
    Py.ret_bind_of (P := fun l => weight (strList l) ≤ 1 + 18 * 41) ?_ fun _ h5 =>
    Py.ret_bind fun _ _ => Py.ret_bind fun _ _ => Py.ret_bind fun _ _ => Py.ret_bind fun _ _ => Py.ret_pure ?_
  · unfold LnkHeader.linkClsId
    exact Py.ret_mustBe (len_parseUuid _)
  · unfold LnkHeader.windowStyle
    refine Py.ret_bind fun n _ => Py.ret_pure ?_
    rcases h : LnkHeader.WINDOW_STYLES.lookup n with _ | s
    · decide +kernel
    · have : ∀ kv ∈ LnkHeader.WINDOW_STYLES, kv.2.toList.length ≤ 40 := by decide +kernel
      exact this _ (lookup_mem h)
  · unfold LnkHeader.hotKey
    dsimp only
    split
    · rename_i a b hab
      rw [hab]
      have hh : (bytesHex [a, b]).length = 4 := rfl
      split
      · rename_i x y hx hy
        have h1 : ∀ kv ∈ LnkHeader.HOTKEY_VALUES_HIGH, kv.2.toList.length ≤ 20 := by decide +kernel
        have h2 : ∀ kv ∈ LnkHeader.HOTKEY_VALUES_LOW, kv.2.toList.length ≤ 20 := by decide +kernel
        have h1 := h1 _ (lookup_mem hx)
        have h2 := h2 _ (lookup_mem hy)
        refine Py.ret_pure ?_
        simp only [List.length_append, hh]
        simp at h1 h2 ⊢
        omega
      · exact Py.ret_pure (by omega)
    · exact Py.ret_raise _
  · unfold LnkHeader.linkFlags
    exact Py.ret_bind fun n _ => Py.ret_pure (weight_flagNames (by decide +kernel) n)
  · unfold LnkHeader.fileFlags
    exact Py.ret_bind fun n _ => Py.ret_pure (weight_flagNames (by decide +kernel) n)
  · simp at h1 h2 h3 h4 h5 ⊢
    omega

theorem weight_jsonTarget {n : Nat} (f : LnkFile) (h : ∀ t, f.targets = some t → Frugal t.tp ∧ t.rawTargets.length ≤ n) :
    Py.Ret (fun o => ∀ d, o = some d → weight (.dict d) ≤ n * (4 * n + 400) + 10) f.jsonTarget := by
  unfold jsonTarget
  split
  · exact Py.ret_pure fun d hd => by simp at hd
  · rename_i t ht
    obtain ⟨hf, hn⟩ := h t ht
    refine Py.ret_bind fun _ _ => Py.ret_bind_of (LnkTargets.weight_items hf t.rawTargets hn) fun l hl => Py.ret_pure ?_
    intro d hd
    simp only [Option.some.injEq] at hd
    subst hd
    simp
    omega

/-! ### what is left out -/

theorem weightEntries_erase (d : Dict) (k : String) : weightEntries (d.erase k) ≤ weightEntries d := by
  induction d with
  | nil => simp [Dict.erase]
  | cons x d ih =>
    obtain ⟨k', v'⟩ := x
    simp only [Dict.erase]
    split
    · simp only [weightEntries_cons]
      omega
    · simp only [weightEntries_cons]
      omega

theorem weightEntries_popAll (d : Dict) (ks : List String) : weightEntries (popAll d ks) ≤ weightEntries d := by
  unfold popAll
  induction ks generalizing d with
  | nil => exact Nat.le_refl _
  | cons k ks ih => exact Nat.le_trans (ih _) (weightEntries_erase d k)

theorem weightEntries_map {g : String × PyVal → String × PyVal} (h : ∀ kv, weight (g kv).2 ≤ weight kv.2) (d : Dict) :
    weightEntries (d.map g) ≤ weightEntries d := by
  induction d with
  | nil => exact Nat.le_refl _
  | cons x d ih =>
    have h1 := h x
    rw [List.map_cons]
    show weight (g x).2 + weightEntries (d.map g) ≤ weight x.2 + weightEntries d
    omega

theorem weightEntries_atKey (k : String) {g : Dict → Dict} (h : ∀ d, weightEntries (g d) ≤ weightEntries d) (d : Dict) :
    weightEntries (atKey k g d) ≤ weightEntries d := by
  refine weightEntries_map ?_ d
  rintro ⟨k', v⟩
  dsimp only
  split
  · cases v with
    | dict e => simpa using h e
    | _ => exact Nat.le_refl _
  · exact Nat.le_refl _

theorem weightEntries_pruneInfo (d : Dict) : weightEntries (pruneInfo d) ≤ weightEntries d := by
  unfold pruneInfo
  refine Nat.le_trans ?_ (weightEntries_popAll d ["link_info_size", "link_info_header_size", "volume_id_offset",
    "local_base_path_offset", "common_network_relative_link_offset", "common_path_suffix_offset"])
  generalize popAll d ["link_info_size", "link_info_header_size", "volume_id_offset",
    "local_base_path_offset", "common_network_relative_link_offset", "common_path_suffix_offset"] = d
  dsimp only
  split
  · split
    · exact weightEntries_atKey _ (fun e => weightEntries_popAll e _) d
    · split
      · exact weightEntries_atKey _ (fun e => weightEntries_popAll e _) d
      · exact Nat.le_refl _
  · exact Nat.le_refl _

theorem weight_pruneItem (v : PyVal) : weight (pruneItem v) ≤ weight v := by
  cases v with
  | dict e => simpa [pruneItem] using weightEntries_erase e _
  | _ => exact Nat.le_refl _

theorem weightList_pruneItem (l : List PyVal) : weightList (l.map pruneItem) ≤ weightList l := by
  induction l with
  | nil => exact Nat.le_refl _
  | cons v l ih =>
    have := weight_pruneItem v
    rw [List.map_cons, weightList_cons, weightList_cons]
    omega

theorem weightEntries_pruneTarget (d : Dict) : weightEntries (pruneTarget d) ≤ weightEntries d := by
  unfold pruneTarget
  refine Nat.le_trans (weightEntries_map ?_ _) (weightEntries_popAll d _)
  rintro ⟨k', v⟩
  dsimp only
  split
  · cases v with
    | list l => simpa using weightList_pruneItem l
    | _ => exact Nat.le_refl _
  · exact Nat.le_refl _

/-! ### the whole report -/

/-- What a file object holds is no longer than the file. -/
structure Within (tp : TextProc) (n : Nat) (f : LnkFile) : Prop where
  targets : ∀ t, f.targets = some t → Frugal t.tp ∧ t.rawTargets.length ≤ n
  info : ∀ c i, f.info = some (c, i) → Frugal i.tp ∧ i.raw.length ≤ n
  strings : weight (.dict f.stringData.asDict) ≤ 6 + 5 * n
  extras : ExtraData.Within tp n f.extras.data

theorem within_process {env : Env} {cp : Option String} (h : Frugal (TextProc.mk' env cp)) (allow : Bool) (data : Bytes) :
    Py.Ret (Within (TextProc.mk' env cp) data.length) (process env cp allow data) := by
  unfold process
  dsimp only
  refine Py.ret_bind fun hdr _ => Py.ret_bind fun index _ => Py.ret_bind_of (P := fun r : Option LnkTargets × Nat =>
      ∀ t, r.1 = some t → Frugal t.tp ∧ t.rawTargets.length ≤ data.length) ?_ fun r1 h1 =>
    Py.ret_bind_of (P := fun r : Option (InfoClass × LnkInfo) × Nat =>
      ∀ c i, r.1 = some (c, i) → Frugal i.tp ∧ i.raw.length ≤ data.length) ?_ fun r2 h2 =>
    Py.ret_bind_of (StringData.weight_init hdr h _) fun s h3 => Py.ret_bind_of (ExtraData.within_init _ allow _) fun e h4 =>
    Py.ret_bind fun _ _ => Py.ret_pure ⟨h1, h2, ?_, ?_⟩
  · unfold processTargets
    refine Py.ret_bind fun _ _ => Py.ret_ite (fun _ => ?_) fun _ => Py.ret_pure fun t ht => by simp at ht
    unfold LnkTargets.init
    refine Py.ret_bind_of (P := fun t : LnkTargets => Frugal t.tp ∧ t.rawTargets.length ≤ data.length) ?_ fun t ht =>
      Py.ret_bind fun _ _ => Py.ret_pure fun t' ht' => ?_
    · refine Py.ret_bind fun n _ => Py.ret_pure ⟨h, Nat.le_trans (slice_length_le _ _ _) ?_⟩
      rw [List.length_drop]
      omega
    · simp only [Option.some.injEq] at ht'
      exact ht' ▸ ht
  · unfold processInfo
    have hn : ∀ k, Py.Ret (fun r : Option (InfoClass × LnkInfo) × Nat => ∀ c i, r.1 = some (c, i) → Frugal i.tp ∧ i.raw.length ≤ data.length)
        (pure (none, k)) := fun k => Py.ret_pure fun c i hi => by simp at hi
    refine Py.ret_bind fun _ _ => Py.ret_bind fun _ _ => Py.ret_ite (fun _ => ?_) fun _ => hn _
    refine Py.ret_bind fun cls _ => ?_
    cases cls with
    | none => exact hn _
    | some c =>
      refine Py.ret_bind fun n _ => Py.ret_pure fun c' i hi => ?_
      simp only [Option.some.injEq, Prod.mk.injEq] at hi
      obtain ⟨_, rfl⟩ := hi
      refine ⟨h, ?_⟩
      simp
  · rw [List.length_drop] at h3
    dsimp only
    omega
  · refine ⟨Nat.le_trans h4.1 ?_, h4.2⟩
    rw [List.length_drop]
    omega

theorem weight_getJson {tp : TextProc} (h : Frugal tp) (hd : Digests tp.env) {n : Nat} {f : LnkFile} (hf : Within tp n f) (all : Bool) :
    Py.Ret (fun d => weight (.dict d) ≤ 2 * (n + 20) ^ 3) (f.getJson all) := by
  unfold getJson
  refine Py.ret_bind_of f.weight_jsonHeader fun hdr h1 => Py.ret_bind_of (weight_jsonTarget f hf.targets) fun tgt h2 =>
    Py.ret_bind_of (weight_jsonInfo f hf.info) fun inf h3 => Py.ret_bind_of (ExtraData.weight_asDict h hd hf.extras) fun ext h4 =>
    Py.ret_pure ?_
  have h5 := hf.strings
  have h1' : weight (.dict (if all then hdr else pruneHeader hdr)) ≤ 2200 := by
    split
    · exact h1
    · have := weightEntries_popAll hdr ["header_size", "reserved0", "reserved1", "reserved2"]
      unfold pruneHeader
      simp only [weight_dict] at h1 ⊢
      omega
  have h3' : weight (.dict (if all then inf else pruneInfo inf)) ≤ 8 * n + 200 := by
    split
    · exact h3
    · have := weightEntries_pruneInfo inf
      simp only [weight_dict] at h3 ⊢
      omega
  have h2' : weightEntries ((tgt.map fun t => if all then t else pruneTarget t).toList.map fun t => ("target", PyVal.dict t)) ≤
      n * (4 * n + 400) + 10 := by
    cases tgt with
    | none => simp
    | some t =>
      have h2 := h2 t rfl
      simp only [Option.map_some, Option.toList_some, List.map_cons, List.map_nil, weightEntries_cons, weightEntries_nil, Nat.add_zero]
      split
      · exact h2
      · have := weightEntries_pruneTarget t
        simp only [weight_dict] at h2 ⊢
        omega
  generalize (if all then hdr else pruneHeader hdr) = x1 at *
  generalize (if all then inf else pruneInfo inf) = x2 at *
  generalize ((tgt.map fun t => if all then t else pruneTarget t).toList.map fun t => ("target", PyVal.dict t)) = x3 at *
  simp only [weight_dict (_ ++ _), weightEntries_append, weightEntries_cons, weightEntries_nil, weight_nat]
  have e1 : n * (4 * n + 400) = 4 * (n * n) + 400 * n := by ring
  have e2 : 2 * (n + 20) ^ 3 = 2 * (n * n * n) + 120 * (n * n) + 2400 * n + 16000 := by ring
  unfold ExtraData.cost at h4
  rw [e1] at h2'
  rw [e2]
  omega

end LnkFile

end Verif
