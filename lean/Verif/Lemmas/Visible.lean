import Verif.Spec.Visible
import Verif.Lemmas.File
import Verif.Lemmas.Guid
import Verif.Lemmas.Metadata

namespace Verif

open Spec

theorem digitChar_inj {a b : Nat} (ha : a < 16) (hb : b < 16) (h : a.digitChar = b.digitChar) : a = b := by
  have : ∀ a b : Fin 16, a.1.digitChar = b.1.digitChar → a.1 = b.1 := by decide
  exact this ⟨a, ha⟩ ⟨b, hb⟩ h

theorem toDigits16_length {a : Nat} (h : 16 ≤ a) : 2 ≤ (Nat.toDigits 16 a).length := by
  rw [Nat.toDigits_of_base_le (by decide) h, List.length_append]
  have : Nat.toDigits 16 (a / 16) ≠ [] := by
    by_cases h : a / 16 < 16
    · rw [Nat.toDigits_of_lt_base h]; simp
    · rw [Nat.toDigits_of_base_le (by decide) (by omega)]; simp
  have := List.length_pos_iff.2 this
  simp; omega

theorem toDigits16_inj {a b : Nat} (h : Nat.toDigits 16 a = Nat.toDigits 16 b) : a = b := by
  induction a using Nat.strongRecOn generalizing b with
  | ind a ih =>
    by_cases ha : a < 16 <;> by_cases hb : b < 16
    · rw [Nat.toDigits_of_lt_base ha, Nat.toDigits_of_lt_base hb] at h
      exact digitChar_inj ha hb (by simpa using h)
    · have := toDigits16_length (a := b) (by omega)
      rw [← h, Nat.toDigits_of_lt_base ha] at this
      simp at this
    · have := toDigits16_length (a := a) (by omega)
      rw [h, Nat.toDigits_of_lt_base hb] at this
      simp at this
    · rw [Nat.toDigits_of_base_le (by decide) (by omega), Nat.toDigits_of_base_le (n := b) (by decide) (by omega)] at h
      have h := List.append_inj' h rfl
      have h1 := ih (a / 16) (by omega) h.1
      have h2 := digitChar_inj (Nat.mod_lt _ (by decide)) (Nat.mod_lt _ (by decide)) (by simpa using h.2)
      omega

theorem hex0x_inj {a b : Nat} : hex0x a = hex0x b ↔ a = b := by
  refine ⟨fun h => ?_, fun h => by rw [h]⟩
  unfold hex0x at h
  simp only [List.cons.injEq, true_and] at h
  exact toDigits16_inj h

theorem text_inj {g g' : Guid} : g.text = g'.text ↔ g = g' := ⟨Guid_text_inj, fun h => by rw [h]⟩

theorem hex8_inj {a b : UInt32} : hexFixed 8 a.toNat = hexFixed 8 b.toNat ↔ a = b := by
  refine ⟨fun h => UInt32.toNat_inj.1 (hexFixed_inj (w := 8) a.toNat_lt b.toNat_lt h), fun h => by rw [h]⟩

theorem opt_inj {α : Type} {f : α → PyVal} (hf : ∀ a b, f a = f b ↔ a = b) (hn : ∀ a, f a ≠ .none) {o o' : Option α} :
    PyVal.opt f o = PyVal.opt f o' ↔ o = o' := by
  rcases o with _ | a <;> rcases o' with _ | b
  · simp
  · simpa [PyVal.opt] using (hn b).symm
  · simpa [PyVal.opt] using hn a
  · simp [PyVal.opt, hf]

theorem opt_str_inj {o o' : Option Str} : PyVal.opt .str o = PyVal.opt .str o' ↔ o = o' :=
  opt_inj (by simp) (by simp)

theorem opt_dt_inj {o o' : Option DateTime} : PyVal.opt .dt o = PyVal.opt .dt o' ↔ o = o' :=
  opt_inj (by simp) (by simp)

theorem toList_inj {s s' : String} : s.toList = s'.toList ↔ s = s' := by
  exact String.toList_inj

theorem kind_same (a b : UInt8) : fsKindText a = fsKindText b ↔ SameKind a b := by
  unfold fsKindText SameKind
  have h1 : a.toNat % 16 % 8 = a.toNat % 8 := by omega
  have h2 : b.toNat % 16 % 8 = b.toNat % 8 := by omega
  unfold fsKind
  rw [h1, h2]
  have ha : a.toNat % 8 < 8 := Nat.mod_lt _ (by decide)
  have hb : b.toNat % 8 < 8 := Nat.mod_lt _ (by decide)
  revert ha hb
  generalize a.toNat % 8 = x
  generalize b.toNat % 8 = y
  intro hx hy
  have : ∀ x y : Fin 8, ((match x.1 with
  | 1 => some "Is directory"
  | 2 => some "Is file"
  | 3 => some "Is share"
  | 4 => some "Has Unicode strings"
  | 5 => some "Is Unicode directory"
  | 6 => some "Is Unicode file"
  | 7 => some "Is Unicode directory"
  | _ => none).getD "Unknown" = (match y.1 with
  | 1 => some "Is directory"
  | 2 => some "Is file"
  | 3 => some "Is share"
  | 4 => some "Has Unicode strings"
  | 5 => some "Is Unicode directory"
  | 6 => some "Is Unicode file"
  | 7 => some "Is Unicode directory"
  | _ => none).getD "Unknown") ↔ (x.1 = y.1 ∨ (x.1 ∈ [5, 7] ∧ y.1 ∈ [5, 7])) := by decide +kernel
  exact this ⟨x, hx⟩ ⟨y, hy⟩

theorem dos_zero : ¬ ValidDateTime (dosDateTime 0 0) := by
  intro h
  have := h.2.2.1
  simp [dosDateTime] at this

theorem modified_eq (e : FileEntry) : e.modified =
    if ValidDateTime (dosDateTime e.date.toNat e.time.toNat) then some (dosDateTime e.date.toNat e.time.toNat) else none := by
  unfold FileEntry.modified
  split
  · rename_i h
    rw [h.1, h.2, if_neg dos_zero]
  · rfl

theorem dos_inj {d t d' t' : UInt16} (h : dosDateTime d.toNat t.toNat = dosDateTime d'.toNat t'.toNat) : d = d' ∧ t = t' := by
  unfold dosDateTime at h
  simp only [DateTime.mk.injEq] at h
  refine ⟨UInt16.toNat_inj.1 ?_, UInt16.toNat_inj.1 ?_⟩ <;> omega

theorem entry_same (e e' : FileEntry) : e.report = e'.report ↔ SameEntry e e' := by
  have hm : e.modified = e'.modified ↔ ((e.date = e'.date ∧ e.time = e'.time) ∨
      (¬ ValidDateTime (dosDateTime e.date.toNat e.time.toNat) ∧ ¬ ValidDateTime (dosDateTime e'.date.toNat e'.time.toNat))) := by
    rw [modified_eq, modified_eq]
    by_cases h1 : ValidDateTime (dosDateTime e.date.toNat e.time.toNat) <;>
      by_cases h2 : ValidDateTime (dosDateTime e'.date.toNat e'.time.toNat)
    · rw [if_pos h1, if_pos h2]
      simp only [Option.some.injEq]
      refine ⟨fun h => .inl (dos_inj h), ?_⟩
      rintro (⟨h, h'⟩ | h)
      · rw [h, h']
      · exact absurd h1 h.1
    · rw [if_pos h1, if_neg h2]
      simp only [reduceCtorEq, false_iff]
      rintro (⟨h, h'⟩ | h)
      · exact h2 (by rw [← h, ← h']; exact h1)
      · exact h.1 h1
    · rw [if_neg h1, if_pos h2]
      simp only [reduceCtorEq, false_iff]
      rintro (⟨h, h'⟩ | h)
      · exact h1 (by rw [h, h']; exact h2)
      · exact h.2 h2
    · rw [if_neg h1, if_neg h2]
      simp [h1, h2]
  unfold FileEntry.report
  simp only [List.cons.injEq, Prod.mk.injEq, true_and, and_true, PyVal.str.injEq, PyVal.int.injEq, opt_dt_inj, toList_inj, kind_same,
    Nat.cast_inj, UInt32.toNat_inj, UInt16.toNat_inj, hm]
  refine ⟨fun ⟨a, b, c, d, f⟩ => ⟨a, b, c, d, f⟩, fun ⟨a, b, c, d, f⟩ => ⟨a, b, c, d, f⟩⟩

theorem class_same {d d' : Dict} {a b : String} {r r' : Dict} (h1 : d = ("class", .str a.toList) :: r)
    (h2 : d' = ("class", .str b.toList) :: r') (hab : a ≠ b) : d ≠ d' := by
  subst h1 h2
  intro h
  simp only [List.cons.injEq, Prod.mk.injEq, true_and, PyVal.str.injEq, toList_inj] at h
  exact hab h.1

/-- The class of an item and the other entries. -/
def itemHead (it : Item) : String :=
  match it with
  | .cpl .. | .cplWide .. => "Control panel CPL file"
  | .category .. => "Control panel category"
  | .root .. => "Root Folder"
  | .volume .. | .volumeGuid .. => "Volume Item"
  | .file .. => "File entry"
  | .network .. => "Network location"
  | .classOnly typ _ => (itemClass typ.toNat).getD ""
  | .controlPanel .. => "Control panel"
  | .usersFiles .. => "Users files folder"
  | .other .. => "Unknown"

theorem report_class (it : Item) : ∃ r, it.report = ("class", .str (itemHead it).toList) :: r := by
  cases it <;> exact ⟨_, rfl⟩

theorem head_same {it it' : Item} (h : it.report = it'.report) : itemHead it = itemHead it' := by
  obtain ⟨r, hr⟩ := report_class it
  obtain ⟨r', hr'⟩ := report_class it'
  by_contra hne
  exact class_same hr hr' hne h

theorem classOnly_head {typ : UInt8} (h : typ = 0x52 ∨ typ = 0x61 ∨ typ = 0x72 ∨ typ = 0x73) :
    itemClass typ.toNat = some "Compressed folder" ∧ typ = 0x52 ∨ itemClass typ.toNat = some "Internet" ∧ typ = 0x61 ∨
      itemClass typ.toNat = some "Printers" ∧ typ = 0x72 ∨ itemClass typ.toNat = some "Common places folder" ∧ typ = 0x73 := by
  rcases h with rfl | rfl | rfl | rfl <;> decide

theorem classOnly_ne {typ : UInt8} {s : String} (h : typ = 0x52 ∨ typ = 0x61 ∨ typ = 0x72 ∨ typ = 0x73)
    (hs : s ∉ ["Compressed folder", "Internet", "Printers", "Common places folder"]) : (itemClass typ.toNat).getD "" ≠ s := by
  rintro rfl
  rcases classOnly_head h with ⟨h1, -⟩ | ⟨h1, -⟩ | ⟨h1, -⟩ | ⟨h1, -⟩ <;> simp [h1] at hs

theorem ascii_inj {l l' : List UInt8} (h : ∀ b ∈ l, b.toNat < 128) (h' : ∀ b ∈ l', b.toNat < 128) :
    (l.map fun b => Char.ofNat b.toNat) = (l'.map fun b => Char.ofNat b.toNat) ↔ l = l' := by
  refine ⟨fun he => ?_, fun he => by rw [he]⟩
  induction l generalizing l' with
  | nil => rcases l' with _ | ⟨b, l'⟩ <;> simp_all
  | cons a l ih =>
    rcases l' with _ | ⟨b, l'⟩
    · simp at he
    · simp only [List.map_cons, List.cons.injEq] at he
      have e1 : ∀ n : Fin 128, (Char.ofNat n.1).toNat = n.1 := by decide +kernel
      have h1 := e1 ⟨_, h a List.mem_cons_self⟩
      have h2 := e1 ⟨_, h' b List.mem_cons_self⟩
      simp only at h1 h2
      have hab : a = b := UInt8.toNat_inj.1 (by rw [← h1, ← h2, he.1])
      rw [hab, ih (fun x hx => h x (List.mem_cons_of_mem _ hx)) (fun x hx => h' x (List.mem_cons_of_mem _ hx)) he.2]

theorem item_same (tp tp' : TextProc) (it it' : Item) (hv : it.Valid tp) (hv' : it'.Valid tp') :
    it.report = it'.report ↔ SameItem it it' := by
  constructor
  · intro h
    have hh := head_same h
    rcases it with ⟨u, sig, path, name, c, tr⟩ | ⟨u, sig, u12, path, name, c, tr⟩ | ⟨u, sig, id, tr⟩ | ⟨typ, si, g, tr⟩ |
      ⟨typ, n, p, tr⟩ | ⟨typ, u, g, tr⟩ | ⟨e⟩ | ⟨typ, u, cf, l, d, c, tr⟩ | ⟨typ, b⟩ | ⟨typ, u, g, tr⟩ | ⟨u, sig, e, c, f, tr⟩ |
      ⟨typ, b⟩ <;>
    rcases it' with ⟨u', sig', path', name', c', tr'⟩ | ⟨u', sig', u12', path', name', c', tr'⟩ | ⟨u', sig', id', tr'⟩ |
      ⟨typ', si', g', tr'⟩ | ⟨typ', n', p', tr'⟩ | ⟨typ', u', g', tr'⟩ | ⟨e'⟩ | ⟨typ', u', cf', l', d', c', tr'⟩ | ⟨typ', b'⟩ |
      ⟨typ', u', g', tr'⟩ | ⟨u', sig', e', c', f', tr'⟩ | ⟨typ', b'⟩ <;>
    simp only [itemHead, String.reduceEq] at hh
    all_goals try
      first
        | (refine absurd hh (classOnly_ne hv ?_); simp; done)
        | (refine absurd hh.symm (classOnly_ne hv' ?_); simp; done)
    all_goals
      simp only [Item.report, List.cons.injEq, Prod.mk.injEq, true_and, and_true, PyVal.str.injEq, PyVal.int.injEq,
        toList_inj, Nat.cast_inj, text_inj, hex0x_inj, opt_str_inj, List.append_cancel_left_eq, hex8_inj, UInt32.toNat_inj,
        UInt8.toNat_inj, String.reduceEq, false_and, and_false, PyVal.dict.injEq, optText, kind_same, entry_same] at h
    · obtain ⟨rfl, h2, h3, h4⟩ := h
      exact .cpl (by simp only [Item.cplParts, h2, h3, h4]) rfl
    · obtain ⟨rfl, h2, h3, h4⟩ := h
      exact .cpl (by simp only [Item.cplParts, h2, h3, h4]) rfl
    · obtain ⟨rfl, h2, h3, h4⟩ := h
      exact .cpl (by simp only [Item.cplParts, h2, h3, h4]) rfl
    · obtain ⟨rfl, h2, h3, h4⟩ := h
      exact .cpl (by simp only [Item.cplParts, h2, h3, h4]) rfl
    · obtain ⟨rfl, -⟩ := h
      exact .category
    · obtain ⟨-, rfl, rfl⟩ := h
      exact .root
    · have h1 := hv.1
      have h2 := hv'.1
      exact .volume (by omega) h.2
    · have h1 := hv.1
      have h2 := hv'.1
      obtain ⟨h, rfl⟩ := h
      exact .volumeGuid (by omega)
    · exact .file h
    · obtain ⟨h1, rfl, h3, h4, h5⟩ := h
      exact .network h1 h3 h4 h5
    · rcases classOnly_head hv with ⟨h1, rfl⟩ | ⟨h1, rfl⟩ | ⟨h1, rfl⟩ | ⟨h1, rfl⟩ <;>
        rcases classOnly_head hv' with ⟨h2, rfl⟩ | ⟨h2, rfl⟩ | ⟨h2, rfl⟩ | ⟨h2, rfl⟩ <;>
        first
          | exact .classOnly
          | (rw [h1, h2] at hh; simp at hh)
    · subst h
      exact .controlPanel
    · obtain ⟨h1, h2, rfl, rfl⟩ := h
      rw [ascii_inj hv.2.1 hv'.2.1] at h1
      subst h1
      exact .usersFiles h2
    · exact .other (by omega)
  · intro h
    cases h with
    | @cpl _ _ p h1 h2 =>
      rcases it with ⟨u, sig, path, name, c, tr⟩ | ⟨u, sig, u12, path, name, c, tr⟩ | _ | _ | _ | _ | _ | _ | _ | _ | _ | _ <;>
        simp only [Item.cplParts, Option.some.injEq, reduceCtorEq] at h1 <;>
        rcases it' with ⟨u', sig', path', name', c', tr'⟩ | ⟨u', sig', u12', path', name', c', tr'⟩ | _ | _ | _ | _ | _ | _ |
          _ | _ | _ | _ <;>
        simp only [Item.cplParts, Option.some.injEq, reduceCtorEq] at h2 <;>
        (subst h1; simp only [Prod.mk.injEq] at h2; obtain ⟨h2, h3, h4, h5⟩ := h2; simp only [Item.report, h2, h3, h4, h5])
    | category => rfl
    | root => rfl
    | volume h1 h2 =>
      have h3 : ∀ a b : UInt8, a.toNat % 128 = b.toNat % 128 → a.toNat % 16 = b.toNat % 16 := by intro a b h; omega
      simp only [Item.report, h3 _ _ h1, show _ = _ from h2]
    | volumeGuid h1 =>
      have h3 : ∀ a b : UInt8, a.toNat % 128 = b.toNat % 128 → a.toNat % 16 = b.toNat % 16 := by intro a b h; omega
      simp only [Item.report, h3 _ _ h1]
    | file h => exact (entry_same _ _).2 h
    | network h1 h2 h3 h4 =>
      simp only [Item.report, (kind_same _ _).2 h1, show _ = _ from h2, optText, show _ = _ from h3, show _ = _ from h4]
    | classOnly => rfl
    | controlPanel => rfl
    | usersFiles h => simp only [Item.report, (entry_same _ _).2 h]
    | other h => simp only [Item.report, h]

theorem map_same {α β : Type} {f : α → β} {R : α → α → Prop} {l l' : List α}
    (h : ∀ a ∈ l, ∀ b ∈ l', (f a = f b ↔ R a b)) : l.map f = l'.map f ↔ List.Forall₂ R l l' := by
  induction l generalizing l' with
  | nil =>
    rcases l' with _ | ⟨b, l'⟩ <;> simp
  | cons a l ih =>
    rcases l' with _ | ⟨b, l'⟩
    · simp
    · rw [List.map_cons, List.map_cons, List.cons.injEq, List.forall₂_cons, h a List.mem_cons_self b List.mem_cons_self,
        ih fun x hx y hy => h x (List.mem_cons_of_mem _ hx) y (List.mem_cons_of_mem _ hy)]

theorem items_same (tp tp' : TextProc) {l l' : List Item} (h : ∀ it ∈ l, it.Valid tp) (h' : ∀ it ∈ l', it.Valid tp') :
    (l.map fun it => PyVal.dict it.report) = (l'.map fun it => PyVal.dict it.report) ↔ List.Forall₂ SameItem l l' := by
  refine map_same fun a ha b hb => ?_
  rw [PyVal.dict.injEq]
  exact item_same tp tp' a b (h a ha) (h' b hb)

/-! ### property stores -/

theorem typeName_mem {t : Nat} {s : String} (h : typeName t = some s) : (t, s) ∈ Metadata.PROPERTY_TYPES := by
  have : Metadata.PROPERTY_TYPES.lookup t = some s := by
    have h1 := Metadata.propertyTypeName_eq t
    unfold Metadata.propertyTypeName at h1
    rw [h] at h1
    rcases hl : Metadata.PROPERTY_TYPES.lookup t with _ | x
    · rw [hl] at h1
      have := congrArg Py.res h1
      simp at this
    · rw [hl] at h1
      have := congrArg Py.res h1
      simpa using this
  rw [List.lookup_eq_some_iff] at this
  obtain ⟨l₁, l₂, h1, -⟩ := this
  rw [h1]
  simp

theorem typeName_inj {t t' : Nat} (h : (typeName t).isSome) (h' : (typeName t').isSome) :
    (typeName t).getD "" = (typeName t').getD "" ↔ t = t' := by
  refine ⟨fun he => ?_, fun he => by rw [he]⟩
  obtain ⟨s, hs⟩ := Option.isSome_iff_exists.1 h
  obtain ⟨s', hs'⟩ := Option.isSome_iff_exists.1 h'
  rw [hs, hs'] at he
  simp only [Option.getD_some] at he
  subst he
  have hn : (Metadata.PROPERTY_TYPES.map Prod.snd).Nodup := by decide +kernel
  have := List.inj_on_of_nodup_map hn (typeName_mem hs) (typeName_mem hs') rfl
  exact (Prod.mk.inj this).1

theorem typ_named {tp : TextProc} {v : TypedValue} (h : v.Valid tp) : (typeName v.typ).isSome := by
  rcases v with ⟨f, m⟩ | ⟨t, p, d⟩
  · rfl
  · exact h.1

theorem value_same {tp tp' : TextProc} {v v' : TypedValue} (h : v.Valid tp) (h' : v'.Valid tp') :
    v.report = v'.report ↔ SameValue v v' := by
  unfold TypedValue.report
  simp only [List.cons.injEq, Prod.mk.injEq, true_and, and_true, PyVal.str.injEq, toList_inj,
    typeName_inj (typ_named h) (typ_named h')]
  rcases v with ⟨f, m⟩ | ⟨t, p, d⟩ <;> rcases v' with ⟨f', m'⟩ | ⟨t', p', d'⟩ <;>
    simp only [TypedValue.value, TypedValue.typ, PyVal.str.injEq, and_true, true_and, reduceCtorEq, false_and, UInt16.toNat_inj]
  · exact ⟨fun h => .str h, fun | .str h => h⟩
  · exact ⟨False.elim, nofun⟩
  · exact ⟨False.elim, nofun⟩
  · exact ⟨fun h => h ▸ .other, fun | .other => rfl⟩

theorem property_valid {tp : TextProc} {u : Bool} {p : Property} (h : p.Valid tp u) : p.value.Valid tp := by
  rcases p with ⟨i, r, v⟩ | ⟨n, r, v⟩
  · exact h.2
  · exact h.2.2

theorem property_same {tp tp' : TextProc} {u u' : Bool} {p p' : Property} (h : p.Valid tp u) (h' : p'.Valid tp' u') :
    p.report = p'.report ↔ SameProperty p p' := by
  have hv := value_same (property_valid h) (property_valid h')
  rcases p with ⟨i, r, v⟩ | ⟨n, r, v⟩ <;> rcases p' with ⟨i', r', v'⟩ | ⟨n', r', v'⟩ <;>
    simp only [Property.value] at hv <;>
    simp only [Property.report, List.cons_append, List.nil_append, List.cons.injEq, Prod.mk.injEq, true_and, PyVal.int.injEq,
      Nat.cast_inj, UInt32.toNat_inj, PyVal.str.injEq, hv, Property.body, List.length_append, le_length, List.length_cons,
      List.length_nil, String.reduceEq, false_and, and_false]
  · constructor
    · rintro ⟨h1, rfl, h3⟩
      exact .int h3 (by omega)
    · rintro (⟨h1, h2⟩ | _)
      exact ⟨by omega, rfl, h1⟩
  · exact ⟨False.elim, nofun⟩
  · exact ⟨False.elim, nofun⟩
  · constructor
    · rintro ⟨h1, h2, h3, h4⟩
      exact .str h3 h2 h4 (by omega)
    · rintro (_ | ⟨h1, h2, h3, h4⟩)
      exact ⟨by omega, h2, h1, h3⟩

theorem property_length {p p' : Property} (h : SameProperty p p') : p.encode.length = p'.encode.length := by
  rcases h with ⟨-, h⟩ | ⟨-, h, -, h'⟩ <;>
    simp only [Property.encode, Property.body, List.length_append, le_length, List.length_cons, List.length_nil] <;> omega

theorem flatMap_length {α : Type} {f : α → Bytes} {R : α → α → Prop} (hR : ∀ a b, R a b → (f a).length = (f b).length)
    {l l' : List α} (h : List.Forall₂ R l l') : (l.flatMap f).length = (l'.flatMap f).length := by
  induction h with
  | nil => rfl
  | cons h _ ih => rw [List.flatMap_cons, List.flatMap_cons, List.length_append, List.length_append, hR _ _ h, ih]

theorem storage_same {tp tp' : TextProc} {s s' : Storage} (h : s.Valid tp) (h' : s'.Valid tp') :
    s.report = s'.report ↔ SameStorage s s' := by
  have hp : (s.properties.map fun p => PyVal.dict p.report) = (s'.properties.map fun p => PyVal.dict p.report) ↔
      List.Forall₂ SameProperty s.properties s'.properties := by
    refine map_same fun a ha b hb => ?_
    rw [PyVal.dict.injEq]
    exact property_same (h a ha) (h' b hb)
  simp only [Storage.report, List.cons.injEq, Prod.mk.injEq, true_and, and_true, PyVal.int.injEq, Nat.cast_inj, PyVal.str.injEq,
    hex0x_inj, UInt32.toNat_inj, text_inj, PyVal.list.injEq, hp]
  constructor
  · rintro ⟨-, h1, h2, h3⟩
    exact ⟨h1, h2, h3⟩
  · rintro ⟨h1, h2, h3⟩
    refine ⟨?_, h1, h2, h3⟩
    have := flatMap_length (f := Property.encode) (fun _ _ => property_length) h3
    have hg : ∀ g : Guid, g.encode.length = 16 := fun g => by simp [Guid.encode]
    simp only [Storage.body, List.length_append, le_length, this, hg]

/-! ### blocks -/

theorem int16_inj {a b : Int16} : a.toInt = b.toInt ↔ a = b := Int16.toInt_inj

theorem feature_same {f f' : List Char} :
    ((if f = [] then PyVal.none else .str f) = if f' = [] then .none else .str f') ↔ f = f' := by
  by_cases h : f = [] <;> by_cases h' : f' = [] <;> simp [h, h']

theorem component_same {c c' : Option Guid} : c.map Guid.text = c'.map Guid.text ↔ c = c' := by
  rcases c with _ | c <;> rcases c' with _ | c' <;> simp [text_inj]

theorem block_name (b : Block) : blockName b.signature.toNat = match b with
    | .environment .. => "ENVIRONMENTAL_VARIABLES_LOCATION_BLOCK"
    | .console .. => "CONSOLE_PROPERTIES_BLOCK"
    | .tracker .. => "DISTRIBUTED_LINK_TRACKER_BLOCK"
    | .codePage .. => "CONSOLE_CODEPAGE_BLOCK"
    | .specialFolder .. => "SPECIAL_FOLDER_LOCATION_BLOCK"
    | .darwin .. => "DARWIN_BLOCK"
    | .icon .. => "ICON_LOCATION_BLOCK"
    | .shimLayer .. => "SHIM_LAYER_BLOCK"
    | .metadata .. => "METADATA_PROPERTIES_BLOCK"
    | .knownFolder .. => "KNOWN_FOLDER_LOCATION_BLOCK"
    | .shellItem .. => "SHELL_ITEM_IDENTIFIER_BLOCK"
    | .other s _ => blockName s.toNat := by
  cases b <;> rfl

theorem other_name {tp : TextProc} {s : UInt32} {d : List UInt8} (h : Block.Valid tp (.other s d)) :
    blockName s.toNat = "UNKNOWN_BLOCK" := h

theorem contents_same (hash : List UInt8 → List Char) (tp tp' : TextProc) (b b' : Block) (m m' : List UInt8)
    (hv : b.Valid tp) (hv' : b'.Valid tp') :
    (blockName b.signature.toNat = blockName b'.signature.toNat ∧ b.fields hash m = b'.fields hash m') ↔
      SameContents hash (b, m) (b', m') := by
  constructor
  · rintro ⟨hn, h⟩
    rw [block_name, block_name] at hn
    rcases b with ⟨a, w⟩ | c | t | cp | ⟨i, o⟩ | ⟨a, d, j⟩ | ⟨a, w⟩ | t | l | ⟨i, o⟩ | l | ⟨s, d⟩ <;>
      rcases b' with ⟨a', w'⟩ | c' | t' | cp' | ⟨i', o'⟩ | ⟨a', d', j'⟩ | ⟨a', w'⟩ | t' | l' | ⟨i', o'⟩ | l' | ⟨s', d'⟩ <;>
      simp only [String.reduceEq] at hn
    all_goals try
      first
        | (rw [other_name hv] at hn; simp at hn)
        | (rw [other_name hv'] at hn; simp at hn)
    all_goals
      simp only [Block.fields, List.cons.injEq, Prod.mk.injEq, true_and, and_true, PyVal.str.injEq, PyVal.int.injEq,
        Nat.cast_inj, UInt32.toNat_inj, UInt16.toNat_inj, int16_inj, text_inj, opt_str_inj, feature_same, component_same,
        PyVal.list.injEq, ConsoleBlock.report, TrackerBlock.report] at h
    · exact .environment h.1 h.2
    · obtain ⟨h1, h2, h3, h4, h5, h6, h7, h8, h9, h10, h11, h12, h13, h14, h15, h16, h17, h18, h19, h20, h21⟩ := h
      exact .console h12 (by
        simp only [h1, h2, h3, h4, h5, h6, h7, h8, h9, h10, h11, h13, h14, h15, h16, h17, h18, h19, h20, h21])
    · obtain ⟨h1, h2, h3, h4, h5, h6, h7⟩ := h
      exact .tracker h3 (by simp only [h1, h2, h4, h5, h6, h7])
    · exact h ▸ .codePage
    · exact h.1 ▸ h.2 ▸ .specialFolder
    · obtain ⟨h1, -, h3, h4, h5⟩ := h
      obtain ⟨p, f, c⟩ := d
      obtain ⟨p', f', c'⟩ := d'
      simp only at h3 h4 h5
      subst h3 h4 h5
      exact .darwin h1
    · exact .icon h.1 h.2
    · exact .shimLayer h
    · refine .metadata ((map_same fun x hx y hy => ?_).1 h)
      rw [PyVal.dict.injEq]
      exact storage_same (hv x hx) (hv' y hy)
    · exact h.1 ▸ h.2 ▸ .knownFolder
    · exact .shellItem ((items_same tp tp' (fun x hx => (hv x hx).1) fun x hx => (hv' x hx).1).1 h)
    · exact .other h
  · intro h
    cases h with
    | environment h1 h2 => exact ⟨rfl, by simp only [Block.fields, show _ = _ from h1, show _ = _ from h2]⟩
    | console h1 h2 =>
      refine ⟨rfl, ?_⟩
      simp only [ConsoleBlock.mk.injEq] at h2
      obtain ⟨e1, e2, e3, e4, e5, e6, e7, e8, -, -, e9, e10, e11, -, e13, e14, e15, e16, e17, e18, e19, e20, e21⟩ := h2
      simp only [Block.fields, ConsoleBlock.report, show _ = _ from h1, e1, e2, e3, e4, e5, e6, e7, e8, e9, e10, e11, e13, e14,
        e15, e16, e17, e18, e19, e20, e21]
    | tracker h1 h2 =>
      refine ⟨rfl, ?_⟩
      simp only [Block.fields, TrackerBlock.report, show _ = _ from h1]
      rw [← h2]
    | codePage => exact ⟨rfl, rfl⟩
    | specialFolder => exact ⟨rfl, rfl⟩
    | darwin h1 => exact ⟨rfl, by simp only [Block.fields, show _ = _ from h1]⟩
    | icon h1 h2 => exact ⟨rfl, by simp only [Block.fields, show _ = _ from h1, show _ = _ from h2]⟩
    | shimLayer h1 => exact ⟨rfl, by simp only [Block.fields, show _ = _ from h1]⟩
    | metadata h1 =>
      refine ⟨rfl, ?_⟩
      simp only [Block.fields]
      rw [(map_same fun x hx y hy => ?_).2 h1]
      rw [PyVal.dict.injEq]
      exact storage_same (hv x hx) (hv' y hy)
    | knownFolder => exact ⟨rfl, rfl⟩
    | shellItem h1 =>
      refine ⟨rfl, ?_⟩
      simp only [Block.fields]
      rw [(items_same tp tp' (fun x hx => (hv x hx).1) fun x hx => (hv' x hx).1).2 h1]
    | other h1 => exact ⟨(other_name hv).trans (other_name hv').symm, by simp only [Block.fields, h1]⟩

theorem block_same (hash : List UInt8 → List Char) (tp tp' : TextProc) (b b' : Block × List UInt8)
    (hv : b.1.Valid tp) (hv' : b'.1.Valid tp') :
    (blockName b.1.signature.toNat = blockName b'.1.signature.toNat ∧ b.1.report hash b.2 = b'.1.report hash b'.2) ↔
      SameBlock hash b b' := by
  unfold Block.report
  rw [List.cons.injEq, Prod.mk.injEq, PyVal.int.injEq, Nat.cast_inj]
  constructor
  · rintro ⟨h1, ⟨-, h2⟩, h3⟩
    exact ⟨by omega, (contents_same hash tp tp' b.1 b'.1 b.2 b'.2 hv hv').1 ⟨h1, h3⟩⟩
  · rintro ⟨h1, h2⟩
    have h3 := (contents_same hash tp tp' b.1 b'.1 b.2 b'.2 hv hv').2 h2
    exact ⟨h3.1, ⟨rfl, by omega⟩, h3.2⟩

end Verif
