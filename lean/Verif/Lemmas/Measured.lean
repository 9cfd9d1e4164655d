import Verif.Lemmas.Double
import Verif.Props.Numbers

/-! # Lemmas: the numbers that are decoded are of a middling size -/

namespace Xcvr

open Spec Monitors

theorem measured_near {x N c : Rat} (hd : Digits24 x) (hu : N = 0 ∨ 1 ≤ N) (hb : N ≤ 65535) (hz : N = 0 → x = 0)
    (hc : 1 / 32767 ≤ c) (hc2 : c ≤ 1 / 100) (hg : gap x (N * c) ≤ N * c * 3 / 16777216) : Measured x := by
  refine ⟨hd, ?_⟩
  rcases hu with hu | hu
  · exact Or.inl (hz hu)
  · right
    have h1 := Rat.mul_le_mul_of_nonneg_right hu (show 0 ≤ c by grind)
    have h2 := Rat.mul_le_mul_of_nonneg_right hb (show 0 ≤ c by grind)
    generalize N * c = y at *
    unfold gap at *
    grind

theorem measured_zero : Measured 0 := ⟨⟨0, 0, by decide, by decide +kernel⟩, Or.inl rfl⟩

/-- A memory that holds two bytes. -/
def twoBytes (b : U8 × U8) (a : Nat) : U8 := if a = 0 then b.1 else b.2

theorem measured_volts (b : U8 × U8) : Measured (decodeSupplyVoltage b) := by
  have h := C100_volts (twoBytes b) 0
  have he : decodeSupplyVoltage b = voltsAt (twoBytes b) 0 := h.1
  rw [he]
  obtain ⟨hu, hb⟩ := units (unsignedAt_bound (twoBytes b) 0)
  have h0 : (0 : Rat) ≤ (unsignedAt (twoBytes b) 0 : Rat) := Rat.natCast_nonneg
  refine measured_near (c := 1 / 10000) (single_digits _) hu hb (fun hz => ?_) (by decide +kernel) (by decide +kernel) ?_
  · unfold voltsAt; rw [hz, Rat.zero_mul, single_zero]
  · have := h.2.2
    generalize voltsAt (twoBytes b) 0 = x at *
    generalize (unsignedAt (twoBytes b) 0 : Rat) = N at *
    have e : N * (1 / 10000) = N / 10000 := by grind
    rw [e]
    grind

theorem measured_power (b : U8 × U8) : Measured (decodeOpticalPower b) := by
  have h := C100_milliwatts (twoBytes b) 0
  have he : decodeOpticalPower b = milliwattsAt (twoBytes b) 0 := h.1
  rw [he]
  obtain ⟨hu, hb⟩ := units (unsignedAt_bound (twoBytes b) 0)
  have h0 : (0 : Rat) ≤ (unsignedAt (twoBytes b) 0 : Rat) := Rat.natCast_nonneg
  refine measured_near (c := 1 / 10000) (single_digits _) hu hb (fun hz => ?_) (by decide +kernel) (by decide +kernel) ?_
  · unfold milliwattsAt; rw [hz, Rat.zero_mul, single_zero, Rat.zero_mul, single_zero]
  · have := h.2.2
    generalize milliwattsAt (twoBytes b) 0 = x at *
    generalize (unsignedAt (twoBytes b) 0 : Rat) = N at *
    have e : N * (1 / 10000) = N / 10000 := by grind
    rw [e]
    grind

theorem measured_bias (b : U8 × U8) {s : Rat} (hs : s = 1 ∨ s = 2 ∨ s = 4) : Measured (single (decodeBiasCurrent b * s)) := by
  have h := C100_milliamps (twoBytes b) 0
  have he : decodeBiasCurrent b = milliampsAt (twoBytes b) 0 := h.1
  rw [he]
  have hd : Digits24 (milliampsAt (twoBytes b) 0) := single_digits _
  have hds : Digits24 (milliampsAt (twoBytes b) 0 * s) := by
    rcases hs with rfl | rfl | rfl
    · rw [Rat.mul_one]; exact hd
    · have := digits24_scale hd 1
      rwa [show (2 : Rat) ^ (1 : Int) = 2 by decide +kernel] at this
    · have := digits24_scale hd 2
      rwa [show (2 : Rat) ^ (2 : Int) = 4 by decide +kernel] at this
  rw [single_of_digits hds]
  obtain ⟨hu, hb⟩ := units (unsignedAt_bound (twoBytes b) 0)
  have h0 : (0 : Rat) ≤ (unsignedAt (twoBytes b) 0 : Rat) := Rat.natCast_nonneg
  refine measured_near (c := 1 / 500 * s) hds hu hb (fun hz => ?_) (by rcases hs with rfl | rfl | rfl <;> decide +kernel)
    (by rcases hs with rfl | rfl | rfl <;> decide +kernel) ?_
  · unfold milliampsAt; rw [hz, Rat.zero_mul, single_zero, Rat.zero_mul, single_zero, Rat.zero_mul]
  · have := h.2.2
    generalize milliampsAt (twoBytes b) 0 = x at *
    generalize (unsignedAt (twoBytes b) 0 : Rat) = N at *
    have hs0 : 0 < s := by rcases hs with rfl | rfl | rfl <;> decide +kernel
    have hsc := gap_scale hs0 x (N / 500)
    have e : N * (1 / 500 * s) = N / 500 * s := by grind
    rw [e, hsc]
    have := Rat.mul_le_mul_of_nonneg_right this (Rat.le_of_lt hs0)
    have := Rat.mul_nonneg h0 (Rat.le_of_lt hs0)
    grind

theorem measured_bias_one (b : U8 × U8) : Measured (decodeBiasCurrent b) := by
  have := measured_bias b (Or.inl rfl)
  rwa [Rat.mul_one, single_of_digits (show Digits24 (decodeBiasCurrent b) from single_digits _)] at this

theorem measured_temperature (b : U8 × U8) : Measured (decodeTemperature b) := by
  have h := C100_temperature (twoBytes b) 0
  have he : decodeTemperature b = celsiusAt (twoBytes b) 0 := h.1
  rw [he]
  refine ⟨isSingle_digits h.2, ?_⟩
  have hb : (signedAt (twoBytes b) 0).natAbs ≤ 32768 := by
    have := (twoBytes b 0).isLt
    have := (twoBytes b 1).isLt
    unfold signedAt unsignedAt
    split <;> omega
  have hg : gap 0 (celsiusAt (twoBytes b) 0) = ((signedAt (twoBytes b) 0).natAbs : Rat) / 256 := by
    have := gap_scale (t := 1 / 256) (by decide +kernel) 0 (signedAt (twoBytes b) 0 : Rat)
    rw [gap_natAbs, Rat.zero_mul] at this
    unfold celsiusAt
    grind
  have hn : ((signedAt (twoBytes b) 0).natAbs : Rat) ≤ ((32768 : Nat) : Rat) := Rat.natCast_le_natCast.2 hb
  rw [show ((32768 : Nat) : Rat) = 32768 by decide +kernel] at hn
  obtain ⟨h3 | h3, -⟩ := units (show (signedAt (twoBytes b) 0).natAbs ≤ 65535 by omega)
  · left
    rw [Rat.natCast_eq_zero_iff] at h3
    unfold celsiusAt
    rw [show signedAt (twoBytes b) 0 = 0 by omega]
    decide +kernel
  · right
    rw [hg]
    grind

theorem measured_tec (b : U8 × U8) : Measured (tec b) := by
  have hk : ((u16Be b).toNat : Int).natAbs ≤ 65535 := by have := (u16Be b).isLt; omega
  have hacc := (C100_cooler ((u16Be b).toNat : Int) hk).2
  obtain ⟨hu, hb⟩ := units hk
  have he : tec b = single ((((u16Be b).toNat : Int) : Rat) / 32767) := by rw [Rat.intCast_natCast]; rfl
  rw [he]
  have hn : ((((u16Be b).toNat : Int).natAbs : Nat) : Rat) = (((u16Be b).toNat : Int) : Rat) := by
    rw [Rat.intCast_natCast, Int.natAbs_natCast]
  rw [hn] at hacc hu hb
  refine measured_near (c := 1 / 32767) (single_digits _) hu hb (fun hz => ?_) (by decide +kernel) (by decide +kernel) ?_
  · rw [hz]; decide +kernel
  · have h0 : (0 : Rat) ≤ (((u16Be b).toNat : Int) : Rat) := by rw [Rat.intCast_natCast]; exact Rat.natCast_nonneg
    generalize (((u16Be b).toNat : Int) : Rat) = N at *
    generalize hx : single (N / 32767) = x at *
    have e : N * (1 / 32767) = N / 32767 := by grind
    rw [e]
    grind

end Xcvr
