import Verif.Lemmas.ExtraData
import Verif.Lemmas.Dict

namespace Verif

open Spec

/-! ### exceptions -/

namespace Py

theorem only_quadLoop (q : Str) (n : Nat) (d : Int) (h : P .indexError) : Only P (quadLoop q n d) := by
  induction n generalizing d with
  | zero => unfold quadLoop; only
  | succ n ih =>
    unfold quadLoop
    split
    · only
    · exact ih _

theorem only_parsePackedUuid (t : Option Str) (h : P .indexError) : Only P (parsePackedUuid t) := by
  have hq : ∀ q, Only P (quadToHex q) := fun q => by
    unfold quadToHex
    exact only_bind (only_quadLoop _ _ _ h) fun _ => only_pure _
  cases t with
  | none => exact only_pure _
  | some t =>
    unfold parsePackedUuid
    refine only_bind (hq _) fun _ => only_bind (hq _) fun _ => only_bind (hq _) fun _ => only_bind (hq _) fun _ => ?_
    only

end Py

namespace Metadata

open Py

theorem only_sizeChain (b : Bytes) (h : P .structError) : Only P (sizeChain b) := by
  generalize hk : b.length = k
  induction k using Nat.strong_induction_on generalizing b with
  | _ k ih =>
    rw [sizeChain_eq]
    refine only_bind' (only_unpackU _ _ h) ?_
    intro n hn
    by_cases h0 : n = 0
    · rw [if_pos h0]; only
    · have hl : 4 ≤ b.length := by
        unfold unpackU at hn
        split at hn
        · rename_i hl
          simp at hl; omega
        · simp at hn
      have hd : (b.drop n).length < b.length := by simp; omega
      rw [if_neg h0, if_pos hd]
      exact only_bind (ih _ (by omega) _ rfl) fun _ => only_pure _

theorem only_collect {f : Bytes → Py Dict} (hf : ∀ b, Only P (f b)) (l : List Bytes) : Only P (collect f l) := by
  induction l with
  | nil => unfold collect; only
  | cons x l ih =>
    unfold collect
    exact only_bind (hf x) fun _ => only_bind ih fun _ => only_pure _

theorem only_typedValue (b : Bytes) (h : P .structError) : Only P (typedValue b) := by
  unfold typedValue valuePadding valueType
  refine only_bind (only_unpackU _ _ h) fun _ => only_ite (fun _ => only_pure _) fun _ => only_bind (only_unpackU _ _ h)
    fun _ => only_ite (fun _ => only_bind (only_unpackI _ _ h) fun _ => only_pure _) fun _ => only_ite (fun _ =>
      only_bind (only_unpackU _ _ h) fun _ => only_bind (only_readUnicodeString _) fun _ => only_pure _) fun _ => only_pure _

theorem only_propertyTypeName (n : Nat) (h : P .valueError) : Only P (propertyTypeName n) := by
  unfold propertyTypeName
  split <;> only

theorem only_integerName (b : Bytes) (h : P .structError) (hv : P .valueError) : Only P (integerNameAsDict b) := by
  unfold integerNameAsDict
  refine only_bind (only_unpackU _ _ h) fun _ => only_bind (only_unpackU _ _ h) fun _ =>
    only_bind (only_typedValue _ h) fun _ => only_bind (only_unpackU _ _ h) fun _ =>
    only_bind (only_propertyTypeName _ hv) fun _ => only_pure _

theorem only_stringName (b : Bytes) (h : P .structError) (hv : P .valueError) : Only P (stringNameAsDict b) := by
  unfold stringNameAsDict
  refine only_bind (only_unpackU _ _ h) fun _ => only_bind (only_unpackU _ _ h) fun _ =>
    only_bind (only_readUnicodeString _) fun _ =>
    only_bind (only_typedValue _ h) fun _ => only_bind (only_unpackU _ _ h) fun _ =>
    only_bind (only_propertyTypeName _ hv) fun _ => only_pure _

theorem only_storage (b : Bytes) (h : P .structError) (hv : P .valueError) : Only P (storageAsDict b) := by
  unfold storageAsDict
  refine only_bind (only_unpackU _ _ h) fun _ => only_bind (only_unpackU _ _ h) fun _ =>
    only_bind (only_parseUuid _ h) fun _ => only_bind (only_parseUuid _ h) fun _ =>
    only_bind (only_sizeChain _ h) fun _ => only_bind (only_collect ?_ _) fun _ => only_pure _
  intro b
  split
  · exact only_stringName b h hv
  · exact only_integerName b h hv

theorem only_propertyStore (b : Bytes) (h : P .structError) (hv : P .valueError) : Only P (propertyStore b) := by
  unfold propertyStore
  exact only_bind (only_sizeChain _ h) fun _ => only_collect (fun b => only_storage b h hv) _

end Metadata

namespace Extra

open Py

theorem only_uint (x : Extra) (s e : Nat) (h : P .structError) : Only P (x.uint s e) := only_unpackU _ _ h

theorem only_sint (x : Extra) (s e : Nat) (h : P .structError) : Only P (x.sint s e) := only_unpackI _ _ h

theorem only_size (x : Extra) (h : P .structError) : Only P x.size := by
  unfold size
  split
  · only
  · exact only_uint _ _ _ h

/-- Which exceptions the fields of a class can raise besides `struct.error`. -/
def extraErr : ExtraClass → PyErr → Prop
  | .darwin, e => e = .indexError
  | .metadata, e => e = .valueError
  | .shellItem, e => e = .runtimeError
  | _, _ => False

theorem only_darwinDataUnicode (x : Extra) : Only P x.darwinDataUnicode := only_readUnicodeString _

theorem only_fields (x : Extra) (h : P .structError) (hx : ∀ e, extraErr x.cls e → P e)
    (hcp : ∀ b, Only P (x.tp.ansiToStr b)) : Only P x.fields := by
  have hu := fun s e => only_uint (P := P) x s e h
  have hi := fun s e => only_sint (P := P) x s e h
  have hrs := fun b => only_readString (P := P) hcp b
  have hw : ∀ b, Only P (TextProc.readUnicodeString b) := fun b => only_readUnicodeString b
  have hp := fun b => only_parseUuid (P := P) b h
  unfold fields
  cases hc : x.cls <;> rw [hc] at hx <;> simp only
  case environment => exact only_bind (hrs _) fun _ => only_bind (hw _) fun _ => only_pure _
  case icon => exact only_bind (hrs _) fun _ => only_bind (hw _) fun _ => only_pure _
  case codePage => exact only_bind (hu _ _) fun _ => only_pure _
  case specialFolder => exact only_bind (hu _ _) fun _ => only_bind (hu _ _) fun _ => only_pure _
  case knownFolder => exact only_bind (hp _) fun _ => only_bind (hu _ _) fun _ => only_pure _
  case shimLayer => exact only_bind (hrs _) fun _ => only_pure _
  case unknown => exact only_pure _
  case terminal => exact only_pure _
  case console =>
    unfold consoleFields
    repeat' first
      | exact only_pure _
      | exact hu _ _
      | exact hi _ _
      | exact hw _
      | apply only_bind
      | intro _
  case distributedTracker =>
    unfold trackerFields
    repeat' first
      | exact only_pure _
      | exact only_mustBe _ _ _ (hu _ _)
      | exact hrs _
      | exact hp _
      | apply only_bind
      | intro _
  case darwin =>
    have hie : P .indexError := hx _ rfl
    have hpk := fun t => only_parsePackedUuid (P := P) t hie
    unfold darwinFields productCodeId featureName componentId
    repeat' first
      | exact only_pure _
      | exact only_darwinDataUnicode x
      | exact hrs _
      | exact hpk _
      | apply only_bind
      | intro _
      | apply only_ite
      | dsimp only
  case metadata =>
    exact only_bind (Metadata.only_propertyStore _ h (hx _ rfl)) fun _ => only_pure _
  case shellItem =>
    unfold shellItemFields
    refine only_bind ?_ fun _ => only_pure _
    unfold shellItemIter
    have := hu 0 4
    dsimp only
    rcases hn : x.uint 0 4 with ⟨w, e | n⟩
    · dsimp only
      rw [hn] at this
      refine LnkTargets.only_asListLoop h ?_
      intro y hy
      simp only [List.mem_singleton] at hy
      subst hy
      exact ⟨⟨fun e' he' => this.out e' (by simpa using he')⟩, by simp⟩
    · exact LnkTargets.only_idLists_loop _ h (hx _ rfl) hcp

theorem only_asDict (x : Extra) (h : P .structError) (hx : ∀ e, extraErr x.cls e → P e)
    (hcp : ∀ b, Only P (x.tp.ansiToStr b)) : Only P x.asDict :=
  only_bind (only_size x h) fun _ => only_bind (only_fields x h hx hcp) fun _ => only_pure _

end Extra

/-! ### reporting -/

namespace ExtraData

/-- The exceptions `as_dict` of the extra data catches. -/
def caught (e : PyErr) : Bool := e = .structError ∨ e.isValueError

/-- Warnings about one block. -/
def blockWarns (x : Extra) : List Warn :=
  x.asDict.warns ++ match x.asDict.res with
    | .error e => if caught e then [.extraBlock x.cls.name e] else []
    | .ok _ => []

/-- The dictionary a block gives, if it gives one. -/
def good (x : Extra) : Option Dict := x.asDict.res.toOption

/-- The dictionaries of the blocks of a class, in order. -/
def goods (c : ExtraClass) (xs : List Extra) : List Dict := xs.filterMap fun x => if x.cls = c then good x else none

theorem goods_cons (c : ExtraClass) (x : Extra) (xs : List Extra) :
    goods c (x :: xs) = (if x.cls = c then (good x).toList else []) ++ goods c xs := by
  unfold goods
  rw [List.filterMap_cons]
  by_cases h : x.cls = c
  · simp only [h, if_true]
    rcases good x <;> rfl
  · simp [h]

/-- What the dictionary holds after the blocks `xs`, in terms of what it held before. -/
structure After (xs : List Extra) (res res' : Dict) : Prop where
  named : ∀ c : ExtraClass, c ≠ .unknown →
    res'.get? c.name = (((goods c xs).getLast?).map PyVal.dict).or (res.get? c.name)
  unknown : ∀ U : Option (List PyVal), res.get? ExtraClass.unknown.name = U.map PyVal.list →
    res'.get? ExtraClass.unknown.name =
      (if ∃ x ∈ xs, x.cls = .unknown then some (U.getD [] ++ (goods .unknown xs).map PyVal.dict) else U).map PyVal.list
  others : ∀ k, (∀ c : ExtraClass, k ≠ c.name) → res'.get? k = res.get? k
  nodup : res.keys.Nodup → res'.keys.Nodup

theorem name_ne {c d : ExtraClass} (h : c ≠ d) : c.name ≠ d.name := fun he => h (ExtraClass.name_inj he)

theorem asDictLoop_ok (xs : List Extra) (res : Dict) (hn : ∀ x ∈ xs, ∀ e, x.asDict.res = .error e → caught e = true)
    (hU : ∃ U : Option (List PyVal), res.get? ExtraClass.unknown.name = U.map PyVal.list) :
    ∃ res', asDictLoop xs res = ⟨xs.flatMap blockWarns, .ok res'⟩ ∧ After xs res res' := by
  induction xs generalizing res with
  | nil =>
    refine ⟨res, rfl, ?_, ?_, fun _ _ => rfl, id⟩
    · intro c _; simp [goods]
    · intro U hU; simpa using hU
  | cons x xs ih =>
    obtain ⟨U, hU⟩ := hU
    have hx := hn x List.mem_cons_self
    have hn' : ∀ y ∈ xs, ∀ e, y.asDict.res = .error e → caught e = true := fun y hy => hn y (List.mem_cons_of_mem _ hy)
    by_cases hu : x.cls = .unknown
    · -- an Unknown block
      have hlist : ∃ res1 : Dict, (if x.cls = .unknown ∧ ¬ res.has x.cls.name then res.set x.cls.name (.list []) else res) = res1 ∧
          res1.get? ExtraClass.unknown.name = some (.list (U.getD [])) ∧
          (∀ k, k ≠ ExtraClass.unknown.name → res1.get? k = res.get? k) ∧ (res.keys.Nodup → res1.keys.Nodup) := by
        refine ⟨_, rfl, ?_⟩
        rw [hu]
        by_cases hh : res.has ExtraClass.unknown.name = true
        · rw [if_neg (by simp [hh])]
          refine ⟨?_, fun _ _ => rfl, id⟩
          rw [Dict.has, hU] at hh
          rw [hU]
          rcases U with _ | U
          · simp at hh
          · rfl
        · rw [if_pos ⟨rfl, by simpa using hh⟩]
          rw [Dict.has, hU] at hh
          have hUn : U = none := by
            rcases U with _ | U
            · rfl
            · simp at hh
          refine ⟨by rw [Dict.get?_set, if_pos rfl, hUn]; rfl, ?_, fun h => Dict.nodup_set h _ _⟩
          intro k hk
          rw [Dict.get?_set, if_neg (fun h => hk h.symm)]
      obtain ⟨res1, hr1, h1, h2, h3⟩ := hlist
      have hx1 : ∃ y ∈ x :: xs, y.cls = .unknown := ⟨x, List.mem_cons_self, hu⟩
      rw [asDictLoop, hr1]
      rcases hd : x.asDict with ⟨w, e | d⟩
      · have he : caught e = true := hx e (by rw [hd])
        obtain ⟨res', hr, ha⟩ := ih res1 hn' ⟨some (U.getD []), h1⟩
        refine ⟨res', ?_, ?_, ?_, ?_, ?_⟩
        · have he' : e = .structError ∨ e.isValueError = true := by simpa [caught] using he
          simp [Py.attempt, he', bind, Py.andThen, Py.warn, hr, blockWarns, hd, he]
        · intro c hc
          rw [ha.named c hc, h2 _ (name_ne hc), goods_cons, hu, if_neg (fun h => hc h.symm)]
          simp
        · intro V hV
          have hVU : V = U := by
            rw [hU] at hV
            rcases U with _ | U <;> rcases V with _ | V <;> simp_all
          subst hVU
          rw [ha.unknown (some (V.getD [])) h1, if_pos hx1, goods_cons, if_pos hu]
          have : good x = none := by simp [good, hd, Except.toOption]
          rw [this]
          split
          · simp
          · rename_i hno
            have : goods .unknown xs = [] := by
              unfold goods
              rw [List.filterMap_eq_nil_iff]
              intro y hy
              rw [if_neg (fun hyu => hno ⟨y, hy, hyu⟩)]
            simp [this]
        · intro k hk
          rw [ha.others k hk, h2 k (hk _)]
        · exact fun h => ha.nodup (h3 h)
      · have hl : listAt res1 x.cls.name = U.getD [] := by
          rw [listAt, hu, h1]
        obtain ⟨res', hr, ha⟩ := ih (res1.set x.cls.name (.list (U.getD [] ++ [.dict d]))) hn'
          ⟨some (U.getD [] ++ [.dict d]), by rw [Dict.get?_set, hu, if_pos rfl]; rfl⟩
        have hg : good x = some d := by simp [good, hd, Except.toOption]
        refine ⟨res', ?_, ?_, ?_, ?_, ?_⟩
        · rw [← hl] at hr
          simp only [Py.attempt, bind, Py.andThen, blockWarns, hd, List.flatMap_cons]
          rw [if_pos hu, hr]
          simp
        · intro c hc
          rw [ha.named c hc, Dict.get?_set, hu, if_neg (name_ne (fun h => hc h.symm)), h2 _ (name_ne hc), goods_cons, hu,
            if_neg (fun h => hc h.symm)]
          simp
        · intro V hV
          have hVU : V = U := by
            rw [hU] at hV
            rcases U with _ | U <;> rcases V with _ | V <;> simp_all
          subst hVU
          rw [ha.unknown (some (V.getD [] ++ [.dict d])) (by rw [Dict.get?_set, hu, if_pos rfl]; rfl),
            if_pos hx1, goods_cons, if_pos hu, hg]
          split
          · simp
          · rename_i hno
            have : goods .unknown xs = [] := by
              unfold goods
              rw [List.filterMap_eq_nil_iff]
              intro y hy
              rw [if_neg (fun hyu => hno ⟨y, hy, hyu⟩)]
            simp [this]
        · intro k hk
          rw [ha.others k hk, Dict.get?_set, if_neg (fun h => hk _ h.symm), h2 k (hk _)]
        · exact fun h => ha.nodup (Dict.nodup_set (h3 h) _ _)
    · -- any other block
      have hr1 : (if x.cls = .unknown ∧ ¬ res.has x.cls.name then res.set x.cls.name (.list []) else res) = res := by
        rw [if_neg (fun h => hu h.1)]
      rw [asDictLoop, hr1]
      have hex : (∃ y ∈ x :: xs, y.cls = .unknown) ↔ ∃ y ∈ xs, y.cls = .unknown := by
        simp [hu]
      rcases hd : x.asDict with ⟨w, e | d⟩
      · have he : caught e = true := hx e (by rw [hd])
        obtain ⟨res', hr, ha⟩ := ih res hn' ⟨U, hU⟩
        have hg : good x = none := by simp [good, hd, Except.toOption]
        refine ⟨res', ?_, ?_, ?_, ha.others, ha.nodup⟩
        · have he' : e = .structError ∨ e.isValueError = true := by simpa [caught] using he
          simp [Py.attempt, he', bind, Py.andThen, Py.warn, hr, blockWarns, hd, he]
        · intro c hc
          rw [ha.named c hc, goods_cons, hg]
          simp
        · intro V hV
          rw [ha.unknown V hV, goods_cons, if_neg hu]
          simp only [hex, List.nil_append]
      · have hg : good x = some d := by simp [good, hd, Except.toOption]
        obtain ⟨res', hr, ha⟩ := ih (res.set x.cls.name (.dict d)) hn'
          ⟨U, by rw [Dict.get?_set, if_neg (name_ne hu), hU]⟩
        refine ⟨res', ?_, ?_, ?_, ?_, ?_⟩
        · simp only [Py.attempt, bind, Py.andThen, blockWarns, hd, List.flatMap_cons]
          rw [if_neg hu, hr]
          simp
        · intro c hc
          rw [ha.named c hc, goods_cons, hg, Dict.get?_set]
          by_cases hxc : x.cls = c
          · rw [if_pos hxc, if_pos (by rw [hxc])]
            rcases hgl : goods c xs with _ | ⟨a, l⟩
            · simp
            · simp [List.getLast?_cons]
          · rw [if_neg hxc, if_neg (name_ne hxc)]
            simp
        · intro V hV
          rw [ha.unknown V (by rw [Dict.get?_set, if_neg (name_ne hu), hV]), goods_cons, if_neg hu]
          simp only [hex, List.nil_append]
        · intro k hk
          rw [ha.others k hk, Dict.get?_set, if_neg (fun h => hk _ h.symm)]
        · exact fun h => ha.nodup (Dict.nodup_set h _ _)

/-- Another exception goes through. -/
theorem asDictLoop_error (pre post : List Extra) (x : Extra) (res : Dict) (e : PyErr)
    (hn : ∀ y ∈ pre, ∀ e, y.asDict.res = .error e → caught e = true) (hx : x.asDict.res = .error e)
    (he : caught e = false) : (asDictLoop (pre ++ x :: post) res).res = .error e := by
  induction pre generalizing res with
  | nil =>
    have he' : ¬ (e = .structError ∨ e.isValueError = true) := by simpa [caught] using he
    simp only [List.nil_append, asDictLoop]
    rw [Py.bind_res]
    simp [Py.attempt, hx, he']
  | cons y pre ih =>
    have ih := fun res => ih res fun z hz => hn z (List.mem_cons_of_mem _ hz)
    simp only [List.cons_append, asDictLoop]
    rw [Py.bind_res]
    rcases hd : y.asDict with ⟨w, e' | d⟩
    · have he' := hn y List.mem_cons_self e' (by rw [hd])
      have he' : e' = .structError ∨ e'.isValueError = true := by simpa [caught] using he'
      simp [Py.attempt, he', Py.bind_res, ih]
    · simp only [Py.attempt]
      split <;> exact ih _

theorem only_asDictLoop {xs : List Extra} (h : ∀ x ∈ xs, Py.Only (fun e => caught e = true ∨ P e) x.asDict) (res : Dict) :
    Py.Only P (asDictLoop xs res) := by
  induction xs generalizing res with
  | nil => exact Py.only_pure _
  | cons x xs ih =>
    have ih := ih fun y hy => h y (List.mem_cons_of_mem _ hy)
    unfold asDictLoop
    refine Py.only_bind (Py.only_attempt ?_) ?_
    · exact (h x List.mem_cons_self).mono fun e he => by simpa [caught] using he
    · intro r
      rcases r with e | d
      · exact Py.only_bind (Py.only_warn _) fun _ => ih _
      · dsimp only
        split <;> exact ih _

end ExtraData

end Verif
