import Verif.Model.Utils
import Verif.Lemmas.Hex

namespace Verif

open Spec

theorem beNat2 (a b : UInt8) : beNat [a, b] = a.toNat * 256 + b.toNat := by
  simp [beNat, leNat]; omega

theorem beNat4 (a b c d : UInt8) :
    beNat [a, b, c, d] = (a.toNat * 256 + b.toNat) * 65536 + (c.toNat * 256 + d.toNat) := by
  simp [beNat, leNat]; omega

theorem fmtX4_bytes (a b : UInt8) : fmtX 4 (a.toNat * 256 + b.toNat) = Guid.hex2 a ++ Guid.hex2 b := by
  have ha := a.toNat_lt
  have hb := b.toNat_lt
  rw [fmtX_eq (by decide) (by omega), show (4 : Nat) = 2 + 2 from rfl, hexFixed_add]
  unfold Guid.hex2
  rw [hexFixed_mod 2 (a.toNat * 256 + b.toNat)]
  congr 2 <;> omega

theorem fmtX8_bytes (a b c d : UInt8) :
    fmtX 8 ((a.toNat * 256 + b.toNat) * 65536 + (c.toNat * 256 + d.toNat)) =
      Guid.hex2 a ++ Guid.hex2 b ++ Guid.hex2 c ++ Guid.hex2 d := by
  have ha := a.toNat_lt
  have hb := b.toNat_lt
  have hc := c.toNat_lt
  have hd := d.toNat_lt
  rw [fmtX_eq (by decide) (by omega), show (8 : Nat) = 4 + 4 from rfl, hexFixed_add]
  rw [hexFixed_mod 4 (_ + _)]
  rw [show ((a.toNat * 256 + b.toNat) * 65536 + (c.toNat * 256 + d.toNat)) / 16 ^ 4
    = a.toNat * 256 + b.toNat by omega]
  rw [show ((a.toNat * 256 + b.toNat) * 65536 + (c.toNat * 256 + d.toNat)) % 16 ^ 4
    = c.toNat * 256 + d.toNat by omega]
  rw [← fmtX_eq (w := 4) (by decide) (by omega), ← fmtX_eq (w := 4) (by decide) (by omega), fmtX4_bytes,
    fmtX4_bytes]
  simp

theorem parseUuid_encode_append (g : Guid) (rest : Bytes) : parseUuid (g.encode ++ rest) = pure g.text := by
  have h1 : slice (g.encode ++ rest) 0 8 = le 4 g.data1.toNat ++ (le 2 g.data2.toNat ++ le 2 g.data3.toNat) := by
    simp only [Guid.encode, List.append_assoc]
    rw [← List.append_assoc (le 2 g.data2.toNat), ← List.append_assoc (le 4 g.data1.toNat)]
    exact slice_append_exact (by simp)
  have h2 : slice (g.encode ++ rest) 8 16 = [g.b0, g.b1, g.b2, g.b3, g.b4, g.b5, g.b6, g.b7] := by
    simp only [Guid.encode, List.append_assoc]
    rw [← List.append_assoc (le 2 g.data2.toNat), ← List.append_assoc (le 4 g.data1.toNat)]
    exact slice_mid (by simp) (by simp)
  have l1 := g.data1.toNat_lt
  have l2 := g.data2.toNat_lt
  have l3 := g.data3.toNat_lt
  have h3 : slice (le 4 g.data1.toNat ++ (le 2 g.data2.toNat ++ le 2 g.data3.toNat)) 0 4 = le 4 g.data1.toNat := by
    slices
  have h4 : slice (le 4 g.data1.toNat ++ (le 2 g.data2.toNat ++ le 2 g.data3.toNat)) 4 6 = le 2 g.data2.toNat := by
    slices
  have h5 : slice (le 4 g.data1.toNat ++ (le 2 g.data2.toNat ++ le 2 g.data3.toNat)) 6 8 = le 2 g.data3.toNat := by
    slices
  unfold parseUuid
  simp only [h1, h2, h3, h4, h5,
    leNat_le_of_lt (n := 4) (v := g.data1.toNat) (by omega),
    leNat_le_of_lt (n := 2) (v := g.data2.toNat) (by omega),
    leNat_le_of_lt (n := 2) (v := g.data3.toNat) (by omega)]
  simp [slice, Guid.text, beNat2, beNat4, fmtX4_bytes, fmtX8_bytes,
    fmtX_eq (w := 8) (n := g.data1.toNat) (by decide) (by omega),
    fmtX_eq (w := 4) (n := g.data2.toNat) (by decide) (by omega),
    fmtX_eq (w := 4) (n := g.data3.toNat) (by decide) (by omega)]

@[simp] theorem parseUuid_encode (g : Guid) : parseUuid g.encode = pure g.text := by
  simpa using parseUuid_encode_append g []

theorem parseUuid_short {b : Bytes} (h : b.length < 16) : parseUuid b = Py.raise .structError := by
  unfold parseUuid
  by_cases h8 : b.length < 8
  · have : (slice b 0 8).length ≠ 8 := by simp; omega
    simp only [if_pos this, Py.raise_bind]
  · have h1 : ¬ (slice b 0 8).length ≠ 8 := by simp; omega
    have h2 : (slice b 8 16).length ≠ 8 := by simp; omega
    simp only [if_neg h1, if_pos h2, Py.raise_bind]

theorem ofNat32 {n : Nat} (h : n < 256 ^ 4) : (UInt32.ofNat n).toNat = n := by
  simp; omega
theorem ofNat16 {n : Nat} (h : n < 256 ^ 2) : (UInt16.ofNat n).toNat = n := by
  simp; omega

/-- Every 16 bytes are the encoding of a GUID. -/
theorem Guid_encode_surj {b : Bytes} (h : b.length = 16) : ∃ g : Guid, g.encode = b := by
  match b, h with
  | [x0, x1, x2, x3, x4, x5, x6, x7, y0, y1, y2, y3, y4, y5, y6, y7], _ =>
    refine ⟨⟨.ofNat (leNat [x0, x1, x2, x3]), .ofNat (leNat [x4, x5]), .ofNat (leNat [x6, x7]),
      y0, y1, y2, y3, y4, y5, y6, y7⟩, ?_⟩
    have e1 := le_leNat [x0, x1, x2, x3]
    have e2 := le_leNat [x4, x5]
    have e3 := le_leNat [x6, x7]
    simp only [Guid.encode]
    rw [ofNat32 (leNat_lt [x0, x1, x2, x3]), ofNat16 (leNat_lt [x4, x5]), ofNat16 (leNat_lt [x6, x7])]
    simp only [List.length_cons, List.length_nil] at e1 e2 e3
    simp only [Nat.zero_add, Nat.reduceAdd] at e1 e2 e3
    rw [e1, e2, e3]; rfl

theorem hex2_inj {a b : UInt8} (h : Guid.hex2 a = Guid.hex2 b) : a = b := by
  have ha := a.toNat_lt
  have hb := b.toNat_lt
  exact UInt8.toNat_inj.mp (hexFixed_inj (w := 2) (by omega) (by omega) h)

@[simp] theorem hex2_length (a : UInt8) : (Guid.hex2 a).length = 2 := by simp [Guid.hex2]

theorem Guid_text_inj {g g' : Guid} (h : g.text = g'.text) : g = g' := by
  have a1 := g.data1.toNat_lt
  have a2 := g.data2.toNat_lt
  have a3 := g.data3.toNat_lt
  have b1 := g'.data1.toNat_lt
  have b2 := g'.data2.toNat_lt
  have b3 := g'.data3.toNat_lt
  unfold Guid.text at h
  simp only [List.append_assoc] at h
  have h1 := List.append_inj h (by simp); have h := (List.append_inj h1.2 (by simp)).2
  have h2 := List.append_inj h (by simp); have h := (List.append_inj h2.2 (by simp)).2
  have h3 := List.append_inj h (by simp); have h := (List.append_inj h3.2 (by simp)).2
  have c0 := List.append_inj h (by simp); have h := c0.2
  have c1 := List.append_inj h (by simp); have h := (List.append_inj c1.2 (by simp)).2
  have c2 := List.append_inj h (by simp); have h := c2.2
  have c3 := List.append_inj h (by simp); have h := c3.2
  have c4 := List.append_inj h (by simp); have h := c4.2
  have c5 := List.append_inj h (by simp); have h := c5.2
  have c6 := List.append_inj h (by simp)
  have e1 := UInt32.toNat_inj.mp (hexFixed_inj (w := 8) (by omega) (by omega) h1.1)
  have e2 := UInt16.toNat_inj.mp (hexFixed_inj (w := 4) (by omega) (by omega) h2.1)
  have e3 := UInt16.toNat_inj.mp (hexFixed_inj (w := 4) (by omega) (by omega) h3.1)
  have := hex2_inj c0.1
  have := hex2_inj c1.1
  have := hex2_inj c2.1
  have := hex2_inj c3.1
  have := hex2_inj c4.1
  have := hex2_inj c5.1
  have := hex2_inj c6.1
  have := hex2_inj c6.2
  cases g; cases g'; simp_all

end Verif
