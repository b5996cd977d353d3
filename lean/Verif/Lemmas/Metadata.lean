import Verif.Lemmas.Extra

namespace Verif

open Spec

/-! ### property store -/

namespace Metadata

theorem sizeChain_eq (rest : Bytes) : sizeChain rest = (do
    let n ← unpackU 4 (slice rest 0 4)
    if n = 0 then pure []
    else if (rest.drop n).length < rest.length then do
      let more ← sizeChain (rest.drop n)
      pure (rest :: more)
    else Py.raise .diverge) := by
  rw [sizeChain.eq_def]
  congr 1

/-- Records that start with their own size. -/
def Sized (e : Bytes) : Prop := ∃ b, e = le 4 (4 + b.length) ++ b ∧ 4 + b.length < 2 ^ 32

theorem sizeChain_end (rest : Bytes) : sizeChain (le 4 0 ++ rest) = pure [] := by
  rw [sizeChain_eq]
  have : slice (le 4 0 ++ rest) 0 4 = le 4 0 := by slices
  rw [this, unpackU_le (by omega)]
  rfl

theorem sizeChain_cons {e rest : Bytes} (h : Sized e) {l : List Bytes} (hl : sizeChain rest = pure l) :
    sizeChain (e ++ rest) = pure ((e ++ rest) :: l) := by
  obtain ⟨b, rfl, hb⟩ := h
  rw [sizeChain_eq]
  have h0 : slice (le 4 (4 + b.length) ++ b ++ rest) 0 4 = le 4 (4 + b.length) := by slices
  have hd : (le 4 (4 + b.length) ++ b ++ rest).drop (4 + b.length) = rest := drop_append_exact (by simp)
  rw [h0, unpackU_le hb, pure_bind, if_neg (by omega), hd, if_pos (by simp; omega), hl, pure_bind]

theorem collect_cons {f : Bytes → Py Dict} {x : Bytes} {xs : List Bytes} {d : Dict} {ds : List PyVal}
    (h : f x = pure d) (hs : collect f xs = pure ds) : collect f (x :: xs) = pure (.dict d :: ds) := by
  rw [collect, h, hs]
  rfl

theorem sizeChain_length (rest : Bytes) (l : List Bytes) (h : (sizeChain rest).res = .ok l) :
    l.length ≤ rest.length ∧ ∀ x ∈ l, x.length ≤ rest.length := by
  generalize hk : rest.length = k
  induction k using Nat.strong_induction_on generalizing rest l with
  | _ k ih =>
    rw [sizeChain_eq] at h
    obtain ⟨n, -, h⟩ := Py.bind_ok_iff.1 h
    split at h
    · simp only [Py.pure_res, Except.ok.injEq] at h
      subst h
      simp
    · split at h
      · rename_i hlt
        obtain ⟨more, hm, h⟩ := Py.bind_ok_iff.1 h
        simp only [Py.pure_res, Except.ok.injEq] at h
        subst h
        obtain ⟨h1, h2⟩ := ih _ (hk ▸ hlt) _ _ hm rfl
        refine ⟨by rw [List.length_cons]; omega, fun x hx => ?_⟩
        rcases List.mem_cons.1 hx with rfl | hx
        · omega
        · have := h2 x hx
          omega
      · simp at h

theorem collect_length {f : Bytes → Py Dict} {P : PyVal → Prop} (l : List Bytes) (ds : List PyVal)
    (h : (collect f l).res = .ok ds) (hf : ∀ x ∈ l, ∀ d, (f x).res = .ok d → P (.dict d)) :
    ds.length = l.length ∧ ∀ d ∈ ds, P d := by
  induction l generalizing ds with
  | nil =>
    simp only [collect, Py.pure_res, Except.ok.injEq] at h
    subst h
    simp
  | cons x l ih =>
    rw [collect] at h
    obtain ⟨d, hd, h⟩ := Py.bind_ok_iff.1 h
    obtain ⟨ds', hds, h⟩ := Py.bind_ok_iff.1 h
    simp only [Py.pure_res, Except.ok.injEq] at h
    subst h
    obtain ⟨h1, h2⟩ := ih ds' hds fun y hy => hf y (List.mem_cons_of_mem _ hy)
    refine ⟨by simp [h1], fun v hv => ?_⟩
    rcases List.mem_cons.1 hv with rfl | hv
    · exact hf x List.mem_cons_self d hd
    · exact h2 v hv

/-- The bytes from each record on. -/
def suffixes {α : Type} (enc : α → Bytes) (tail : Bytes) : List α → List Bytes
  | [] => []
  | a :: l => (enc a ++ (l.flatMap enc ++ tail)) :: suffixes enc tail l

theorem sizeChain_suffixes {α : Type} (enc : α → Bytes) (tail : Bytes) (l : List α) (hs : ∀ a ∈ l, Sized (enc a)) :
    sizeChain (l.flatMap enc ++ (le 4 0 ++ tail)) = pure (suffixes enc (le 4 0 ++ tail) l) := by
  induction l with
  | nil => exact sizeChain_end tail
  | cons a l ih =>
    rw [List.flatMap_cons, List.append_assoc]
    exact sizeChain_cons (hs a List.mem_cons_self) (ih fun x hx => hs x (List.mem_cons_of_mem _ hx))

theorem collect_suffixes {α : Type} (enc : α → Bytes) (rep : α → Dict) (f : Bytes → Py Dict) (tail : Bytes) (l : List α)
    (hf : ∀ a ∈ l, ∀ rest, f (enc a ++ rest) = pure (rep a)) :
    collect f (suffixes enc tail l) = pure (l.map fun a => .dict (rep a)) := by
  induction l with
  | nil => rfl
  | cons a l ih =>
    exact collect_cons (hf a List.mem_cons_self _) (ih fun x hx => hf x (List.mem_cons_of_mem _ hx))

/-- A record that cannot be reported makes the whole chain unreportable. -/
theorem collect_error {α : Type} (enc : α → Bytes) (rep : α → Dict) (f : Bytes → Py Dict) (tail : Bytes) (pre post : List α)
    (x : α) (e : PyErr) (hf : ∀ a ∈ pre, ∀ rest, f (enc a ++ rest) = pure (rep a))
    (hx : ∀ rest, (f (enc x ++ rest)).res = .error e) :
    (collect f (suffixes enc tail (pre ++ x :: post))).res = .error e := by
  induction pre with
  | nil =>
    simp only [List.nil_append, suffixes, collect]
    rw [Py.bind_res, hx]
  | cons a pre ih =>
    simp only [List.cons_append, suffixes, collect]
    rw [hf a List.mem_cons_self, pure_bind, Py.bind_res, ih fun y hy => hf y (List.mem_cons_of_mem _ hy)]

/-! #### types -/

/-- The types with a name are those of the table. -/
theorem typeName_key {t : Nat} {s : String} (h : typeName t = some s) : t ∈ PROPERTY_TYPES.map Prod.fst := by
  have h1 : ∀ kv ∈ baseTypes, kv.1 = 0x0C ∨ kv.1 ∈ PROPERTY_TYPES.map Prod.fst := by decide +kernel
  have h2 : ∀ x ∈ vectorTypes, x + 0x1000 ∈ PROPERTY_TYPES.map Prod.fst := by decide +kernel
  have h3 : ∀ x ∈ arrayTypes, x + 0x2000 ∈ PROPERTY_TYPES.map Prod.fst := by decide +kernel
  unfold typeName at h
  split at h
  · split at h
    · cases h
    · rename_i hc
      obtain ⟨v, hv, -⟩ := Option.map_eq_some_iff.1 h
      obtain ⟨l1, l2, he, -⟩ := List.lookup_eq_some_iff.1 hv
      exact (h1 (t, v) (by rw [he]; simp)).resolve_left hc
  · split at h
    · rename_i hm
      have := h2 _ hm
      rwa [Nat.sub_add_cancel (by omega)] at this
    · split at h
      · rename_i hm
        have := h3 _ hm.2
        rwa [Nat.sub_add_cancel hm.1] at this
      · cases h

theorem lookup_types (t : Nat) : PROPERTY_TYPES.lookup t = typeName t := by
  by_cases ht : t ∈ PROPERTY_TYPES.map Prod.fst
  · have : ∀ k ∈ PROPERTY_TYPES.map Prod.fst, PROPERTY_TYPES.lookup k = typeName k := by decide +kernel
    exact this t ht
  · rcases hn : typeName t with _ | s
    · rw [List.lookup_eq_none_iff]
      intro kv hkv
      rw [bne_iff_ne]
      rintro rfl
      exact ht (List.mem_map_of_mem hkv)
    · exact absurd (typeName_key hn) ht

theorem propertyTypeName_eq (t : Nat) : propertyTypeName t = match typeName t with
    | some s => pure s
    | none => Py.raise .valueError := by
  unfold propertyTypeName
  rw [lookup_types]
  rfl

/-! #### values -/

theorem valueType_of (t : UInt16) (rest : Bytes) : valueType (le 2 t.toNat ++ rest) = pure t.toNat := by
  unfold valueType
  have : slice (le 2 t.toNat ++ rest) 0 2 = le 2 t.toNat := by slices
  rw [this, unpackU_le2]

theorem valuePadding_of (t : Nat) (p : UInt16) (rest : Bytes) :
    valuePadding (le 2 t ++ (le 2 p.toNat ++ rest)) = pure p.toNat := by
  unfold valuePadding
  have : slice (le 2 t ++ (le 2 p.toNat ++ rest)) 2 4 = le 2 p.toNat := by slices
  rw [this, unpackU_le2]

theorem valueType_encode (v : TypedValue) (rest : Bytes) : valueType (v.encode ++ rest) = pure v.typ := by
  cases v with
  | str f more => 
    simp only [TypedValue.encode, List.append_assoc]
    exact valueType_of 0x1F _
  | other t p data =>
    simp only [TypedValue.encode, List.append_assoc]
    exact valueType_of t _

theorem typedValue_encode {tp : TextProc} {v : TypedValue} (h : v.Valid tp) (rest : Bytes) :
    typedValue (v.encode ++ rest) = pure v.value := by
  cases v with
  | str f more =>
    obtain ⟨h1, h2, h3⟩ := h
    unfold typedValue
    rw [valueType_encode]
    simp only [TypedValue.encode, List.append_assoc]
    have hp := valuePadding_of 0x1F 0 (le 4 ((f.encode true).length / 2) ++ (f.encode true ++ (more ++ rest)))
    have h0 : (0 : UInt16).toNat = 0 := rfl
    rw [h0] at hp
    rw [hp]
    have e1 : slice (le 2 31 ++ (le 2 0 ++ (le 4 ((f.encode true).length / 2) ++ (f.encode true ++ (more ++ rest))))) 4 8 =
        le 4 ((f.encode true).length / 2) := by slices
    have e2 : slice (le 2 31 ++ (le 2 0 ++ (le 4 ((f.encode true).length / 2) ++ (f.encode true ++ (more ++ rest))))) 8
        (8 + (f.encode true).length / 2 * 2) = f.encode true := by
      have : le 2 31 ++ (le 2 0 ++ (le 4 ((f.encode true).length / 2) ++ (f.encode true ++ (more ++ rest)))) =
          (le 2 31 ++ le 2 0 ++ le 4 ((f.encode true).length / 2)) ++ (f.encode true ++ (more ++ rest)) := by simp
      rw [this]
      exact slice_mid (by simp) (by omega)
    rw [e1, unpackU_le (by omega)]
    simp only [pure_bind, TypedValue.typ, ne_eq, not_true_eq_false, if_false]
    simp only [e2, Extra.readUnicodeString_field h1]
    rfl
  | other t p data =>
    obtain ⟨-, h2⟩ := h
    unfold typedValue
    rw [valueType_encode]
    simp only [TypedValue.encode, List.append_assoc]
    rw [valuePadding_of, pure_bind]
    by_cases hp : p.toNat = 0
    · obtain ⟨h3, h4⟩ := h2 (UInt16.toNat_inj.1 hp)
      have h5 : ¬ t.toNat = 2 := fun h => h3 (UInt16.toNat_inj.1 h)
      have h6 : ¬ t.toNat = 31 := fun h => h4 (UInt16.toNat_inj.1 h)
      simp only [hp, TypedValue.typ, pure_bind, h5, h6, ne_eq, not_true_eq_false, if_false]
      rfl
    · rw [if_pos hp]
      rfl

theorem valueTypeName {tp : TextProc} {v : TypedValue} (h : v.Valid tp) :
    propertyTypeName v.typ = pure ((typeName v.typ).getD "") := by
  rw [propertyTypeName_eq]
  have : (typeName v.typ).isSome := by
    cases v with
    | str f more => exact (by decide : (typeName 0x1F).isSome)
    | other t p data => exact h.1
  obtain ⟨s, hs⟩ := Option.isSome_iff_exists.1 this
  rw [hs]
  rfl

/-! #### properties -/

theorem integerName_of {tp : TextProc} {id : UInt32} {r : UInt8} {v : TypedValue} (hv : v.Valid tp)
    (hs : 4 + (Property.int id r v).body.length < 2 ^ 32) (rest : Bytes) :
    integerNameAsDict ((Property.int id r v).encode ++ rest) = pure (Property.int id r v).report := by
  have hl : (Property.int id r v).body = le 4 id.toNat ++ ([r] ++ v.encode) := by simp [Property.body]
  have he : (Property.int id r v).encode ++ rest =
      le 4 (4 + (Property.int id r v).body.length) ++ (le 4 id.toNat ++ ([r] ++ (v.encode ++ rest))) := by
    rw [Property.encode, hl]
    simp
  unfold integerNameAsDict
  have e0 : slice ((Property.int id r v).encode ++ rest) 0 4 = le 4 (4 + (Property.int id r v).body.length) := by
    rw [he]; slices
  have e1 : slice ((Property.int id r v).encode ++ rest) 4 8 = le 4 id.toNat := by rw [he]; slices
  have e2 : ((Property.int id r v).encode ++ rest).drop 9 = v.encode ++ rest := by
    rw [he, ← List.append_assoc, ← List.append_assoc]
    exact drop_append_exact (by simp)
  rw [e0, e1, e2, unpackU_le hs, unpackU_le4, typedValue_encode hv, valueType_encode, pure_bind, pure_bind, pure_bind,
    pure_bind, valueTypeName hv]
  rfl

theorem stringName_of {tp : TextProc} {n : Field} {r : UInt8} {v : TypedValue} (hn : n.text.Valid tp true) (hv : v.Valid tp)
    (hs : 4 + (Property.str n r v).body.length < 2 ^ 32) (rest : Bytes) :
    stringNameAsDict ((Property.str n r v).encode ++ rest) = pure (Property.str n r v).report := by
  have hl : (Property.str n r v).body = le 4 (n.encode true).length ++ ([r] ++ (n.encode true ++ v.encode)) := by
    simp [Property.body]
  have hlen : (n.encode true).length < 2 ^ 32 := by
    rw [hl] at hs
    simp at hs
    omega
  have he : (Property.str n r v).encode ++ rest =
      le 4 (4 + (Property.str n r v).body.length) ++
        (le 4 (n.encode true).length ++ ([r] ++ (n.encode true ++ (v.encode ++ rest)))) := by
    rw [Property.encode, hl]
    simp
  unfold stringNameAsDict
  have e0 : slice ((Property.str n r v).encode ++ rest) 0 4 = le 4 (4 + (Property.str n r v).body.length) := by
    rw [he]; slices
  have e1 : slice ((Property.str n r v).encode ++ rest) 4 8 = le 4 (n.encode true).length := by rw [he]; slices
  have e2 : slice ((Property.str n r v).encode ++ rest) 9 (9 + (n.encode true).length) = n.encode true := by
    rw [he, ← List.append_assoc, ← List.append_assoc]
    exact slice_mid (by simp) (by simp)
  have e3 : ((Property.str n r v).encode ++ rest).drop (9 + (n.encode true).length) = v.encode ++ rest := by
    rw [he, ← List.append_assoc, ← List.append_assoc, ← List.append_assoc]
    exact drop_append_exact (by simp; omega)
  rw [e0, e1, unpackU_le hs, unpackU_le hlen, pure_bind, pure_bind, e2, e3, Extra.readUnicodeString_field hn,
    typedValue_encode hv, valueType_encode, pure_bind, pure_bind, pure_bind, valueTypeName hv]
  rfl

/-! #### storages -/

theorem property_sized {p : Property} (h : 4 + p.body.length < 2 ^ 32) : Sized p.encode := ⟨p.body, rfl, h⟩

theorem storage_sized {s : Storage} (h : 4 + s.body.length < 2 ^ 32) : Sized s.encode := ⟨s.body, rfl, h⟩

theorem flatMap_part {α : Type} (enc : α → Bytes) {l : List α} {a : α} (h : a ∈ l) :
    (enc a).length ≤ (l.flatMap enc).length := by
  induction l with
  | nil => simp at h
  | cons b l ih =>
    rw [List.flatMap_cons, List.length_append]
    rcases List.mem_cons.1 h with rfl | h
    · omega
    · have := ih h; omega

theorem formatText_inj (g : Guid) : g.text = stringNameFormat ↔ g = stringNamedFormat := by
  have h : stringNamedFormat.text = stringNameFormat := by decide +kernel
  rw [← h]
  exact ⟨Guid_text_inj, fun h => by rw [h]⟩

theorem property_of {tp : TextProc} {g : Guid} {p : Property} (hv : p.Valid tp (decide (g = stringNamedFormat)))
    (hp : 4 + p.body.length < 2 ^ 32) (rest : Bytes) :
    (if g.text = stringNameFormat then stringNameAsDict else integerNameAsDict) (p.encode ++ rest) = pure p.report := by
  cases p with
  | int id r v =>
    have : ¬ g.text = stringNameFormat := by
      rw [formatText_inj]; simpa using hv.1
    rw [if_neg this]
    exact integerName_of hv.2 hp rest
  | str n r v =>
    have : g.text = stringNameFormat := by
      rw [formatText_inj]; simpa using hv.1
    rw [if_pos this]
    exact stringName_of hv.2.1 hv.2.2 hp rest

theorem properties_small {s : Storage} (hs : 4 + s.body.length < 2 ^ 32) : ∀ p ∈ s.properties, 4 + p.body.length < 2 ^ 32 := by
  intro p hp
  have h1 := flatMap_part Property.encode hp
  have h2 : p.encode.length = 4 + p.body.length := by simp [Property.encode]
  have h3 : s.body.length = 24 + (s.properties.flatMap Property.encode).length := by
    simp [Storage.body]; omega
  omega

/-- Reading a storage, in terms of reading its properties. -/
theorem storage_eq {s : Storage} (hs : 4 + s.body.length < 2 ^ 32) (rest : Bytes) :
    storageAsDict (s.encode ++ rest) = (do
      let items ← collect (if s.format.text = stringNameFormat then stringNameAsDict else integerNameAsDict)
        (suffixes Property.encode (le 4 0 ++ rest) s.properties)
      pure [("storage_size", .nat (4 + s.body.length)), ("version", .str (pyHex s.version.toNat)),
        ("format_id", .str s.format.text), ("serialized_property_values", .list items)]) := by
  have he : s.encode ++ rest = le 4 (4 + s.body.length) ++ (le 4 s.version.toNat ++ (s.format.encode ++
      (s.properties.flatMap Property.encode ++ (le 4 0 ++ rest)))) := by
    have : s.body = le 4 s.version.toNat ++ (s.format.encode ++ (s.properties.flatMap Property.encode ++ le 4 0)) := by
      simp [Storage.body]
    unfold Storage.encode
    generalize 4 + s.body.length = n
    rw [this]
    simp
  have hp := properties_small hs
  have e0 : slice (s.encode ++ rest) 0 4 = le 4 (4 + s.body.length) := by rw [he]; slices
  have e1 : slice (s.encode ++ rest) 4 8 = le 4 s.version.toNat := by rw [he]; slices
  have e2 : formatId (s.encode ++ rest) = pure s.format.text := by
    refine Extra.parseUuid_at ?_
    rw [he]; slices
  have e3 : (s.encode ++ rest).drop 24 = s.properties.flatMap Property.encode ++ (le 4 0 ++ rest) := by
    rw [he, ← List.append_assoc, ← List.append_assoc]
    exact drop_append_exact (by simp)
  have c1 := sizeChain_suffixes Property.encode rest s.properties fun p h => property_sized (hp p h)
  unfold storageAsDict
  rw [e0, e1, e2, e3, unpackU_le hs, unpackU_le4]
  simp only [pure_bind, c1]

theorem storage_of {tp : TextProc} {s : Storage} (hv : s.Valid tp) (hs : 4 + s.body.length < 2 ^ 32) (rest : Bytes) :
    storageAsDict (s.encode ++ rest) = pure s.report := by
  rw [storage_eq hs, collect_suffixes Property.encode Property.report _ (le 4 0 ++ rest) s.properties
    fun p h rest => property_of (hv p h) (properties_small hs p h) rest, pure_bind, pyHex_eq]
  rfl

theorem storages_small {l : List Storage} (hs : (encodeStore l).length < 2 ^ 32) : ∀ s ∈ l, 4 + s.body.length < 2 ^ 32 := by
  intro s h
  have h1 := flatMap_part Storage.encode h
  have h2 : s.encode.length = 4 + s.body.length := by simp [Storage.encode]
  have h3 : (encodeStore l).length = (l.flatMap Storage.encode).length + 4 := by simp [encodeStore]
  omega

/-- Reading a store, in terms of reading its storages. -/
theorem propertyStore_eq {l : List Storage} {hd more : Bytes} (hh : hd.length = 8) (hs : (encodeStore l).length < 2 ^ 32) :
    propertyStore (hd ++ (encodeStore l ++ more)) = collect storageAsDict (suffixes Storage.encode (le 4 0 ++ more) l) := by
  unfold propertyStore
  have hd' : (hd ++ (encodeStore l ++ more)).drop 8 = l.flatMap Storage.encode ++ (le 4 0 ++ more) := by
    rw [drop_append_exact hh, encodeStore, List.append_assoc]
  rw [hd', sizeChain_suffixes _ _ _ fun s h => storage_sized (storages_small hs s h), pure_bind]

theorem propertyStore_of {tp : TextProc} {l : List Storage} (hv : ∀ s ∈ l, s.Valid tp) {hd more : Bytes}
    (hh : hd.length = 8) (hs : (encodeStore l).length < 2 ^ 32) :
    propertyStore (hd ++ (encodeStore l ++ more)) = pure (l.map fun s => .dict s.report) := by
  rw [propertyStore_eq hh hs]
  exact collect_suffixes Storage.encode Storage.report storageAsDict _ l
    fun s h rest => storage_of (hv s h) (storages_small hs s h) rest

/-! #### values that cannot be reported -/

theorem typedValue_i2 (data rest : Bytes) :
    typedValue ((TypedValue.other 2 0 data).encode ++ rest) = Py.raise .structError := by
  unfold typedValue
  rw [valueType_encode]
  simp only [TypedValue.encode, List.append_assoc]
  rw [valuePadding_of, pure_bind]
  have hl : ∀ b : Bytes, unpackI 4 (slice b 4 6) = Py.raise .structError := by
    intro b
    unfold unpackI
    rw [if_neg (by simp; omega)]
  have h2 : (TypedValue.other 2 0 data).typ = 2 := rfl
  have h0 : ¬ (0 : UInt16).toNat ≠ 0 := by decide
  rw [if_neg h0, h2, pure_bind, if_pos rfl, hl]
  rfl

theorem typedValue_unnamed {t p : UInt16} (h : typeName t.toNat = none) (data rest : Bytes) :
    typedValue ((TypedValue.other t p data).encode ++ rest) = pure .none := by
  have h5 : ¬ t.toNat = 2 := fun he => by rw [he] at h; revert h; decide
  have h6 : ¬ t.toNat = 31 := fun he => by rw [he] at h; revert h; decide
  unfold typedValue
  rw [valueType_encode]
  simp only [TypedValue.encode, List.append_assoc]
  rw [valuePadding_of, pure_bind]
  by_cases hp : p.toNat = 0
  · simp only [hp, TypedValue.typ, pure_bind, h5, h6, ne_eq, not_true_eq_false, if_false]
  · rw [if_pos hp]

/-- Value and type of a value that cannot be reported. -/
theorem bad_of {v : TypedValue} {e : PyErr} (h : v.unreportable = some e) (rest : Bytes) :
    (do
      let value ← typedValue (v.encode ++ rest)
      let t ← valueType (v.encode ++ rest)
      let value_type ← propertyTypeName t
      pure (value, value_type)).res = .error e := by
  cases v with
  | str f more => simp [TypedValue.unreportable] at h
  | other t p data =>
    simp only [TypedValue.unreportable] at h
    split at h
    · rename_i hc
      obtain ⟨rfl, rfl⟩ := hc
      simp only [Option.some.injEq] at h
      rw [typedValue_i2, ← h]
      rfl
    · split at h
      · rename_i hc
        simp only [Option.some.injEq] at h
        rw [typedValue_unnamed hc, valueType_encode, pure_bind, pure_bind]
        simp only [TypedValue.typ]
        rw [propertyTypeName_eq, hc, ← h]
        rfl
      · simp at h

theorem bind3_error {x : Py α} {y : Py β} {z : β → Py γ} {g : α → β → γ → Py δ} {e : PyErr}
    (h : (do
      let a ← x
      let b ← y
      let c ← z b
      pure (a, c)).res = .error e) :
    (do
      let a ← x
      let b ← y
      let c ← z b
      g a b c).res = .error e := by
  rw [Py.bind_res] at h ⊢
  rcases x with ⟨w, e' | a⟩
  · simpa using h
  · simp only at h ⊢
    rw [Py.bind_res] at h ⊢
    rcases y with ⟨w, e' | b⟩
    · simpa using h
    · simp only at h ⊢
      rw [Py.bind_res] at h ⊢
      rcases hz : z b with ⟨w, e' | c⟩
      · rw [hz] at h; simpa using h
      · rw [hz] at h; simp at h

theorem property_bad {tp : TextProc} {g : Guid} {p : Property} (hn : p.NameValid tp g) {e : PyErr}
    (hv : p.value.unreportable = some e) (hs : 4 + p.body.length < 2 ^ 32) (rest : Bytes) :
    ((if g.text = stringNameFormat then stringNameAsDict else integerNameAsDict) (p.encode ++ rest)).res = .error e := by
  have hb := bad_of hv rest
  cases p with
  | int id r v =>
    have hg : ¬ g.text = stringNameFormat := by
      rw [formatText_inj]; exact hn
    rw [if_neg hg]
    have hl : (Property.int id r v).body = le 4 id.toNat ++ ([r] ++ v.encode) := by simp [Property.body]
    have he : (Property.int id r v).encode ++ rest =
        le 4 (4 + (Property.int id r v).body.length) ++ (le 4 id.toNat ++ ([r] ++ (v.encode ++ rest))) := by
      rw [Property.encode, hl]
      simp
    unfold integerNameAsDict
    have e0 : slice ((Property.int id r v).encode ++ rest) 0 4 = le 4 (4 + (Property.int id r v).body.length) := by
      rw [he]; slices
    have e1 : slice ((Property.int id r v).encode ++ rest) 4 8 = le 4 id.toNat := by rw [he]; slices
    have e2 : ((Property.int id r v).encode ++ rest).drop 9 = v.encode ++ rest := by
      rw [he, ← List.append_assoc, ← List.append_assoc]
      exact drop_append_exact (by simp)
    rw [e0, e1, e2, unpackU_le hs, unpackU_le4, pure_bind, pure_bind]
    exact bind3_error hb
  | str n r v =>
    have hg : g.text = stringNameFormat := by
      rw [formatText_inj]; exact hn.1
    rw [if_pos hg]
    have hl : (Property.str n r v).body = le 4 (n.encode true).length ++ ([r] ++ (n.encode true ++ v.encode)) := by
      simp [Property.body]
    have hlen : (n.encode true).length < 2 ^ 32 := by
      rw [hl] at hs
      simp at hs
      omega
    have he : (Property.str n r v).encode ++ rest =
        le 4 (4 + (Property.str n r v).body.length) ++
          (le 4 (n.encode true).length ++ ([r] ++ (n.encode true ++ (v.encode ++ rest)))) := by
      rw [Property.encode, hl]
      simp
    unfold stringNameAsDict
    have e0 : slice ((Property.str n r v).encode ++ rest) 0 4 = le 4 (4 + (Property.str n r v).body.length) := by
      rw [he]; slices
    have e1 : slice ((Property.str n r v).encode ++ rest) 4 8 = le 4 (n.encode true).length := by rw [he]; slices
    have e2 : slice ((Property.str n r v).encode ++ rest) 9 (9 + (n.encode true).length) = n.encode true := by
      rw [he, ← List.append_assoc, ← List.append_assoc]
      exact slice_mid (by simp) (by simp)
    have e3 : ((Property.str n r v).encode ++ rest).drop (9 + (n.encode true).length) = v.encode ++ rest := by
      rw [he, ← List.append_assoc, ← List.append_assoc, ← List.append_assoc]
      exact drop_append_exact (by simp; omega)
    rw [e0, e1, unpackU_le hs, unpackU_le hlen, pure_bind, pure_bind, e2, e3, Extra.readUnicodeString_field hn.2, pure_bind]
    exact bind3_error hb

/-- One such value makes the whole store unreportable. -/
theorem propertyStore_bad {tp : TextProc} {l1 l2 : List Storage} {ver : UInt32} {g : Guid} {ps1 ps2 : List Property}
    {p : Property} {e : PyErr} (h1 : ∀ s ∈ l1, s.Valid tp)
    (h2 : ∀ q ∈ ps1, q.Valid tp (decide (g = stringNamedFormat))) (hn : p.NameValid tp g)
    (hp : p.value.unreportable = some e) {hd more : Bytes} (hh : hd.length = 8)
    (hs : (encodeStore (l1 ++ ⟨ver, g, ps1 ++ p :: ps2⟩ :: l2)).length < 2 ^ 32) :
    (propertyStore (hd ++ (encodeStore (l1 ++ ⟨ver, g, ps1 ++ p :: ps2⟩ :: l2) ++ more))).res = .error e := by
  rw [propertyStore_eq hh hs]
  have hsm := storages_small hs
  refine collect_error Storage.encode Storage.report storageAsDict _ l1 l2 _ e
    (fun s h rest => storage_of (h1 s h) (hsm s (by simp [h])) rest) ?_
  intro rest
  have hst : 4 + (Storage.body ⟨ver, g, ps1 ++ p :: ps2⟩).length < 2 ^ 32 := hsm _ (by simp)
  have hps := properties_small hst
  rw [storage_eq hst, Py.bind_res]
  have := collect_error Property.encode Property.report
    (if g.text = stringNameFormat then stringNameAsDict else integerNameAsDict) (le 4 0 ++ rest) ps1 ps2 p e
    (fun q h rest => property_of (h2 q h) (hps q (by simp [h])) rest) (fun rest => property_bad hn hp (hps p (by simp)) rest)
  simp only [this]

end Metadata

/-! ### all blocks -/

namespace Extra

/-- Every block that is valid is reported as it must be. -/
theorem asDict_block {tp : TextProc} (b : Block) (more : Bytes) (hv : b.Valid tp)
    (hf : RawBlock.Fits ⟨b.signature, b.payload ++ more⟩) :
    asDict ⟨extraKind b.signature.toNat, tp, b.encode more⟩ = ⟨b.warns, .ok (b.report tp.env.sha256hex more)⟩ := by
  have hsz := size_of (x := ⟨extraKind b.signature.toNat, tp, b.encode more⟩) (b := ⟨b.signature, b.payload ++ more⟩) rfl
    (extraKind_ne_terminal _) hf
  have hfields : fields ⟨extraKind b.signature.toNat, tp, b.encode more⟩ = ⟨b.warns, .ok (b.fields tp.env.sha256hex more)⟩ := by
    cases b with
    | environment a w => exact targetFields_of (x := ⟨.environment, tp, _⟩) rfl hv.1 hv.2
    | console c => exact consoleFields_of (x := ⟨.console, tp, _⟩) rfl hv
    | tracker t => exact trackerFields_of (x := ⟨.distributedTracker, tp, _⟩) rfl hv
    | codePage cp => exact codePageFields_of (x := ⟨.codePage, tp, _⟩) rfl
    | specialFolder i o => exact specialFolderFields_of (x := ⟨.specialFolder, tp, _⟩) rfl
    | darwin a d junk => exact darwinFields_of (x := ⟨.darwin, tp, _⟩) rfl hv.1 hv.2.1 hv.2.2
    | icon a w => exact targetFields_of (x := ⟨.icon, tp, _⟩) rfl hv.1 hv.2
    | shimLayer t => exact shimLayerFields_of (x := ⟨.shimLayer, tp, _⟩) rfl hv
    | metadata l =>
      show metadataFields ⟨.metadata, tp, _⟩ = _
      unfold metadataFields
      have : (Block.metadata l).encode more = (le 4 (8 + (encodeStore l ++ more).length) ++ le 4 0xA0000009) ++
          (encodeStore l ++ more) := rfl
      simp only [this]
      rw [Metadata.propertyStore_of hv (by simp) ?_]
      · rfl
      · have : 8 + (encodeStore l ++ more).length < 2 ^ 32 := hf
        simp at this ⊢
        omega
    | knownFolder i o => exact knownFolderFields_of (x := ⟨.knownFolder, tp, _⟩) rfl
    | shellItem items => exact shellItemFields_of (x := ⟨.shellItem, tp, _⟩) rfl hf hv
    | other s data =>
      have hk : extraKind s.toNat = .unknown := by
        refine ExtraClass.name_inj ?_
        rw [extraKind_name]
        exact hv
      show fields ⟨extraKind s.toNat, tp, _⟩ = _
      rw [hk]
      exact unknownFields_of (x := ⟨.unknown, tp, _⟩) rfl
  unfold asDict
  rw [hsz, hfields]
  simp [bind, Py.andThen, pure, Py.ret, Block.report, PyVal.nat]

end Extra

end Verif
