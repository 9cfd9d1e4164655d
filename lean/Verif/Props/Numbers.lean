import Verif.Lemmas.F32Text
import Verif.Lemmas.Decode

/-! # Properties of measured values: C100-C102 -/

namespace Xcvr

open Spec

/-! ## Ranges -/

theorem ordinary_range {x : Rat} (h1 : 1 / 1000000000000 ≤ gap 0 x) (h2 : gap 0 x ≤ 1000000000000) : Ordinary x := by
  refine Or.inr ⟨?_, ?_⟩
  · have : (2 : Rat) ^ (-126 : Int) ≤ 1 / 1000000000000 := by decide +kernel
    grind
  · have : 1000000000000 ≤ (2 : Rat) ^ (127 : Int) := by decide +kernel
    grind

theorem gap_pos {x : Rat} (h : 0 ≤ x) : gap 0 x = x := by rw [gap_zero, if_neg (by grind)]

/-- A number of units: zero, or at least one. -/
theorem units {n : Nat} (h : n ≤ 65535) : ((n : Rat) = 0 ∨ 1 ≤ (n : Rat)) ∧ (n : Rat) ≤ 65535 := by
  constructor
  · by_cases h0 : n = 0
    · left; rw [h0]; rfl
    · right
      have : ((1 : Nat) : Rat) ≤ (n : Rat) := Rat.natCast_le_natCast.2 (by omega)
      exact this
  · have : (n : Rat) ≤ ((65535 : Nat) : Rat) := Rat.natCast_le_natCast.2 h
    exact this

/-- A product of units and a small constant. -/
theorem ordinary_units {n : Nat} (h : n ≤ 65535) {c : Rat} (h1 : 1 / 1000000000000 ≤ c) (h2 : c ≤ 1) : Ordinary ((n : Rat) * c) := by
  obtain ⟨h3 | h3, h4⟩ := units h
  · left; rw [h3, Rat.zero_mul]
  · have a := Rat.mul_le_mul_of_nonneg_right h3 (show (0 : Rat) ≤ c by grind)
    have b := Rat.mul_le_mul_of_nonneg_left h2 (show (0 : Rat) ≤ n by grind)
    apply ordinary_range <;> rw [gap_pos (by grind)] <;> grind

theorem ordinary_thousand {n : Nat} (h : n ≤ 65535) {c : Rat} (h1 : 1 / 1000000000000 ≤ c) (h2 : c ≤ 1) :
    Ordinary (single ((n : Rat) * c) * 1000) := by
  obtain ⟨h3 | h3, h4⟩ := units h
  · left; rw [h3, Rat.zero_mul, single_zero, Rat.zero_mul]
  · have a := Rat.mul_le_mul_of_nonneg_right h3 (show (0 : Rat) ≤ c by grind)
    have b := Rat.mul_le_mul_of_nonneg_left h2 (show (0 : Rat) ≤ n by grind)
    have e := single_err ((n : Rat) * c)
    rw [gap_pos (by grind)] at e
    generalize single ((n : Rat) * c) = p at *
    unfold gap at e
    apply ordinary_range <;> rw [gap_pos (by grind)] <;> grind

/-! ## C100: measured values are accurate -/

/-- The model of an operation is what IEEE 754 prescribes, for all numbers with full precision. -/
theorem C100_rounding {x : Rat} (h : Ordinary x) : RoundsTo x (single x) := rounds_single h

/-- **C100**: a temperature is exact. -/
theorem C100_temperature (m : Nat → U8) (a : Nat) :
    Monitors.decodeTemperature (m a, m (a + 1)) = (signedAt m a : Rat) / 256 ∧ IsSingle ((signedAt m a : Rat) / 256) := by
  refine ⟨temperature_eq m a, signedAt m a, -8, signedAt_bound m a, by decide, by decide, ?_⟩
  rw [Rat.div_def, show (2 : Rat) ^ (-8 : Int) = (256 : Rat)⁻¹ by decide +kernel]

theorem tenth_volt : single (1 / 10000) = 13743895 / 137438953472 := by decide +kernel
theorem tenth_watt : single (1 / 10000000) = 14073749 / 140737488355328 := by decide +kernel
theorem two_amp : single (2 / 1000000) = 8796093 / 4398046511104 := by decide +kernel

/-- **C100**: a voltage is the result of one multiplication by the rounded unit, and within `3/2` parts in `2 ^ 24` of the value
that the module stores. -/
theorem C100_volts (m : Nat → U8) (a : Nat) :
    Monitors.decodeSupplyVoltage (m a, m (a + 1)) = voltsAt m a ∧
    (∃ c, RoundsTo (1 / 10000) c ∧ RoundsTo (unsignedAt m a * c) (voltsAt m a)) ∧
    gap (voltsAt m a) ((unsignedAt m a : Rat) / 10000) ≤ (unsignedAt m a : Rat) / 10000 * (3 / 2) / 16777216 := by
  have hb := unsignedAt_bound m a
  refine ⟨voltage_eq m a, ⟨_, rounds_single (ordinary_range (by decide +kernel) (by decide +kernel)), rounds_single
    (ordinary_units hb (by decide +kernel) (by decide +kernel))⟩, ?_⟩
  obtain ⟨-, -⟩ := units hb
  have h0 : (0 : Rat) ≤ (unsignedAt m a : Rat) := Rat.natCast_nonneg
  unfold voltsAt
  generalize (unsignedAt m a : Rat) = N at *
  rw [tenth_volt]
  have e := single_err (N * (13743895 / 137438953472))
  rw [gap_pos (by grind)] at e
  generalize single (N * (13743895 / 137438953472)) = y at *
  unfold gap at *
  grind

/-- **C100**: the same for optical power, with two multiplications. -/
theorem C100_milliwatts (m : Nat → U8) (a : Nat) :
    Monitors.decodeOpticalPower (m a, m (a + 1)) = milliwattsAt m a ∧
    (∃ c p, RoundsTo (1 / 10000000) c ∧ RoundsTo (unsignedAt m a * c) p ∧ RoundsTo (p * 1000) (milliwattsAt m a)) ∧
    gap (milliwattsAt m a) ((unsignedAt m a : Rat) / 10000) ≤ (unsignedAt m a : Rat) / 10000 * (9 / 4) / 16777216 := by
  have hb := unsignedAt_bound m a
  refine ⟨power_eq m a, ⟨_, _, rounds_single (ordinary_range (by decide +kernel) (by decide +kernel)), rounds_single
    (ordinary_units hb (by decide +kernel) (by decide +kernel)),
    rounds_single (ordinary_thousand hb (by decide +kernel) (by decide +kernel))⟩, ?_⟩
  have h0 : (0 : Rat) ≤ (unsignedAt m a : Rat) := Rat.natCast_nonneg
  unfold milliwattsAt
  generalize (unsignedAt m a : Rat) = N at *
  rw [tenth_watt]
  have e := single_err (N * (14073749 / 140737488355328))
  have hp := single_nonneg (show 0 ≤ N * (14073749 / 140737488355328) by grind)
  rw [gap_pos (by grind)] at e
  generalize single (N * (14073749 / 140737488355328)) = p at *
  have e' := single_err (p * 1000)
  rw [gap_pos (by grind)] at e'
  generalize single (p * 1000) = y at *
  unfold gap at *
  grind

/-- **C100**: the same for bias current. -/
theorem C100_milliamps (m : Nat → U8) (a : Nat) :
    Monitors.decodeBiasCurrent (m a, m (a + 1)) = milliampsAt m a ∧
    (∃ c p, RoundsTo (2 / 1000000) c ∧ RoundsTo (unsignedAt m a * c) p ∧ RoundsTo (p * 1000) (milliampsAt m a)) ∧
    gap (milliampsAt m a) ((unsignedAt m a : Rat) / 500) ≤ (unsignedAt m a : Rat) / 500 * (41 / 20) / 16777216 := by
  have hb := unsignedAt_bound m a
  refine ⟨bias_eq m a, ⟨_, _, rounds_single (ordinary_range (by decide +kernel) (by decide +kernel)), rounds_single
    (ordinary_units hb (by decide +kernel) (by decide +kernel)),
    rounds_single (ordinary_thousand hb (by decide +kernel) (by decide +kernel))⟩, ?_⟩
  have h0 : (0 : Rat) ≤ (unsignedAt m a : Rat) := Rat.natCast_nonneg
  unfold milliampsAt
  generalize (unsignedAt m a : Rat) = N at *
  rw [two_amp]
  have e := single_err (N * (8796093 / 4398046511104))
  have hp := single_nonneg (show 0 ≤ N * (8796093 / 4398046511104) by grind)
  rw [gap_pos (by grind)] at e
  generalize single (N * (8796093 / 4398046511104)) = p at *
  have e' := single_err (p * 1000)
  rw [gap_pos (by grind)] at e'
  generalize single (p * 1000) = y at *
  unfold gap at *
  grind

/-- **C100**: the current of a cooler is the result of one division. -/
theorem C100_cooler (k : Int) (h : k.natAbs ≤ 65535) :
    RoundsTo ((k : Rat) / 32767) (single ((k : Rat) / 32767)) ∧
    gap (single ((k : Rat) / 32767)) ((k : Rat) / 32767) ≤ (k.natAbs : Rat) / 32767 / 16777216 := by
  have hg : gap 0 ((k : Rat) / 32767) = (k.natAbs : Rat) / 32767 := by
    have := gap_scale (t := 1 / 32767) (by decide +kernel) 0 (k : Rat)
    rw [gap_natAbs, Rat.zero_mul] at this
    grind
  refine ⟨rounds_single ?_, ?_⟩
  · obtain ⟨h3 | h3, h4⟩ := units h
    · left
      rw [Rat.natCast_eq_zero_iff] at h3
      rw [show k = 0 by omega]
      decide +kernel
    · apply ordinary_range <;> rw [hg] <;> grind
  · rw [gap_comm, ← hg]
    exact single_err _

/-- Zero, an ordinary and the largest raw value. -/
example : (voltsAt (fun _ => 0) 0, voltsAt (fun a => if a = 0 then 0x80 else 0xe8) 0, voltsAt (fun _ => 0xff) 0) =
    (0, 13841203 / 4194304, 13743685 / 2097152) := by decide +kernel

/-! ## C101: values of lanes are shown exactly -/

theorem fixed_read {x : Rat} (h : 0 ≤ x) : readNumber (fixedText 4 x) = some ((nearestEven (x * 10000) : Rat) / 10000) := by
  have h1 : ¬ x < 0 := by grind
  have hn : 0 ≤ nearestEven (x * 10000) := by
    apply Decidable.byContradiction
    intro hc
    have h2 := nearestEven_near (x * 10000)
    have h3 : (nearestEven (x * 10000) : Rat) ≤ ((-1 : Int) : Rat) := Rat.intCast_le_intCast.2 (by omega)
    rw [show ((-1 : Int) : Rat) = -1 by decide +kernel] at h3
    unfold gap at h2
    grind
  unfold fixedText
  rw [if_neg h1, if_neg h1, List.nil_append, show (10 : Rat) ^ 4 = 10000 by decide +kernel,
    readNumber_unsigned (pointed_chars _ _).2, readUnsigned_pointed, show (10 : Rat) ^ 4 = 10000 by decide +kernel,
    ← Rat.intCast_natCast, show (((nearestEven (x * 10000)).natAbs : Nat) : Int) = nearestEven (x * 10000) by omega]

theorem fixed_exact {x : Rat} (h : 0 ≤ x) (k : Int) (hk : gap x ((k : Rat) / 10000) < 1 / 20000) :
    readNumber (fixedText 4 x) = some ((k : Rat) / 10000) := by
  rw [fixed_read h, nearestEven_unique _ k]
  have h1 := gap_scale (t := 10000) (by decide +kernel) x ((k : Rat) / 10000)
  have h2 : (k : Rat) / 10000 * 10000 = (k : Rat) := Rat.div_mul_cancel (by decide +kernel)
  rw [h2] at h1
  grind

/-- Every number with four decimals has this form. -/
theorem C101_form (x : Rat) : ∃ w r : List Char, fixedText 4 x = (if x < 0 then ['-'] else []) ++ w ++ '.' :: r ∧ w ≠ [] ∧
    r.length = 4 ∧ ∀ c ∈ w ++ r, c.isDigit = true := by
  obtain ⟨ds, hds, hlen, hdig, -⟩ := paddedDigits 4 (nearestEven ((if x < 0 then -x else x) * 10 ^ 4)).natAbs
  refine ⟨ds.take (ds.length - 4), ds.drop (ds.length - 4), ?_, ?_, ?_, ?_⟩
  · unfold fixedText pointed
    dsimp only
    rw [← hds, if_neg (show ¬ 4 = 0 by decide), List.append_assoc]
  · intro h
    have := congrArg List.length h
    simp only [List.length_take, List.length_nil] at this
    omega
  · rw [List.length_drop]; omega
  · rw [List.take_append_drop]; exact hdig

/-- **C101** for optical power: the number shown is exactly the one that the module stores. -/
theorem C101_power (m : Nat → U8) (a : Nat) :
    readNumber (fixedText 4 (milliwattsAt m a)) = some ((unsignedAt m a : Rat) / 10000) := by
  have h := (C100_milliwatts m a).2.2
  have hb := (units (unsignedAt_bound m a)).2
  have h0 : (0 : Rat) ≤ (unsignedAt m a : Rat) := Rat.natCast_nonneg
  have hn : 0 ≤ milliwattsAt m a :=
    single_nonneg (Rat.mul_nonneg (single_nonneg (Rat.mul_nonneg h0 (by decide +kernel))) (by decide +kernel))
  have hk : ((unsignedAt m a : Int) : Rat) = (unsignedAt m a : Rat) := rfl
  rw [← hk]
  apply fixed_exact hn
  rw [hk]
  grind

theorem milliamps_nonneg (m : Nat → U8) (a : Nat) : 0 ≤ milliampsAt m a :=
  single_nonneg (Rat.mul_nonneg (single_nonneg (Rat.mul_nonneg Rat.natCast_nonneg (by decide +kernel))) (by decide +kernel))

/-- The error of a bias current times its multiplier. -/
theorem bias_error (m : Nat → U8) (a : Nat) {s : Rat} (hs : 0 < s) :
    gap (milliampsAt m a * s) (((unsignedAt m a * 20 : Int) : Rat) / 10000 * s) ≤
      (unsignedAt m a : Rat) / 500 * (41 / 20) / 16777216 * s := by
  have h := (C100_milliamps m a).2.2
  have he : ((unsignedAt m a * 20 : Int) : Rat) / 10000 = (unsignedAt m a : Rat) / 500 := by
    rw [Rat.intCast_mul, Rat.intCast_natCast, show ((20 : Int) : Rat) = 20 from rfl]; grind
  rw [he, gap_scale hs]
  exact Rat.mul_le_mul_of_nonneg_right h (Rat.le_of_lt hs)

/-- **C101** for bias current without a multiplier, or with the multiplier 2: the number shown is exact. -/
theorem C101_bias_partial (m : Nat → U8) (a : Nat) (s : Int) (hs : s = 1 ∨ s = 2) :
    readNumber (fixedText 4 (milliampsAt m a * s)) = some ((unsignedAt m a : Rat) / 500 * s) := by
  have hb := (units (unsignedAt_bound m a)).2
  have hn := milliamps_nonneg m a
  have hs1 : (s : Rat) = 1 ∨ (s : Rat) = 2 := by
    rcases hs with rfl | rfl
    · exact Or.inl rfl
    · exact Or.inr rfl
  have hp : (0 : Rat) < s := by rcases hs1 with h | h <;> rw [h] <;> decide +kernel
  have h := bias_error m a hp
  have he : (((unsignedAt m a * 20 * s : Int) : Rat)) / 10000 = (unsignedAt m a : Rat) / 500 * s := by
    rw [Rat.intCast_mul, Rat.intCast_mul, Rat.intCast_natCast, show ((20 : Int) : Rat) = 20 from rfl]; grind
  have he' : ((unsignedAt m a * 20 : Int) : Rat) / 10000 * s = (unsignedAt m a : Rat) / 500 * s := by
    rw [Rat.intCast_mul, Rat.intCast_natCast, show ((20 : Int) : Rat) = 20 from rfl]; grind
  rw [← he]
  apply fixed_exact (Rat.mul_nonneg hn (Rat.le_of_lt hp))
  rw [he]
  rw [he'] at h
  refine Std.lt_of_le_of_lt h ?_
  rcases hs1 with h | h <;> rw [h] <;> grind

theorem sum_lt {A B C D N : Rat} (hb : N ≤ 65535) (h : D ≤ N / 500 * (41 / 20) / 16777216 * 4) (h1 : A ≤ 1 / 2)
    (h2 : B = D * 10000) (h3 : C ≤ A + B) : C < 2 := by grind

/-- **C101** for bias current with the multiplier 4: the number shown is at most one unit of its last decimal away from the
exact one, and exact up to 400 mA. -/
theorem C101_scaled_partial (m : Nat → U8) (a : Nat) :
    (∃ v, readNumber (fixedText 4 (milliampsAt m a * 4)) = some v ∧
      gap v ((unsignedAt m a : Rat) / 500 * 4) ≤ 1 / 10000) ∧
    (unsignedAt m a ≤ 50000 →
      readNumber (fixedText 4 (milliampsAt m a * 4)) = some ((unsignedAt m a : Rat) / 500 * 4)) := by
  have hb := (units (unsignedAt_bound m a)).2
  have hn := milliamps_nonneg m a
  have h := bias_error m a (s := 4) (by decide +kernel)
  have he : (((unsignedAt m a * 80 : Int) : Rat)) / 10000 = (unsignedAt m a : Rat) / 500 * 4 := by
    rw [Rat.intCast_mul, Rat.intCast_natCast, show ((80 : Int) : Rat) = 80 from rfl]; grind
  have he' : ((unsignedAt m a * 20 : Int) : Rat) / 10000 * 4 = (unsignedAt m a : Rat) / 500 * 4 := by
    rw [Rat.intCast_mul, Rat.intCast_natCast, show ((20 : Int) : Rat) = 20 from rfl]; grind
  rw [he'] at h
  have hn4 : 0 ≤ milliampsAt m a * 4 := Rat.mul_nonneg hn (by decide +kernel)
  constructor
  · refine ⟨_, fixed_read hn4, ?_⟩
    have h1 := nearestEven_near (milliampsAt m a * 4 * 10000)
    have h2 := gap_scale (t := 10000) (by decide +kernel) (milliampsAt m a * 4) ((unsignedAt m a : Rat) / 500 * 4)
    have h3 := gap_triangle (nearestEven (milliampsAt m a * 4 * 10000) : Rat) (milliampsAt m a * 4 * 10000)
      ((unsignedAt m a : Rat) / 500 * 4 * 10000)
    rw [gap_comm _ (milliampsAt m a * 4 * 10000)] at h3
    have h4 : (unsignedAt m a : Rat) / 500 * 4 * 10000 = ((unsignedAt m a * 80 : Int) : Rat) := by
      rw [← he]; exact Rat.div_mul_cancel (by decide +kernel)
    rw [← he]
    rw [h4] at h3 h2
    have h6 : gap (nearestEven (milliampsAt m a * 4 * 10000) : Rat) ((unsignedAt m a * 80 : Int) : Rat) < 2 :=
      sum_lt hb h h1 h2 h3
    have h5 := gap_scale (t := 1 / 10000) (by decide +kernel) (nearestEven (milliampsAt m a * 4 * 10000) : Rat)
      ((unsignedAt m a * 80 : Int) : Rat)
    have h7 : gap (nearestEven (milliampsAt m a * 4 * 10000) : Rat) ((unsignedAt m a * 80 : Int) : Rat) ≤ 1 := by
      generalize nearestEven (milliampsAt m a * 4 * 10000) = u at *
      generalize (unsignedAt m a * 80 : Int) = v at *
      rw [show gap (u : Rat) (v : Rat) = (((u - v).natAbs : Nat) : Rat) by
        rw [← gap_natAbs, Rat.intCast_sub]; unfold gap; grind] at h6 ⊢
      have h8 : (u - v).natAbs < 2 := Rat.natCast_lt_natCast.1 h6
      have h9 : (((u - v).natAbs : Nat) : Rat) ≤ ((1 : Nat) : Rat) := Rat.natCast_le_natCast.2 (by omega)
      exact h9
    have e1 (x : Rat) : x * (1 / 10000) = x / 10000 := by grind
    rw [e1, e1] at h5
    grind
  · intro hle
    have hb' : (unsignedAt m a : Rat) ≤ ((50000 : Nat) : Rat) := Rat.natCast_le_natCast.2 hle
    rw [show ((50000 : Nat) : Rat) = 50000 by decide +kernel] at hb'
    rw [← he]
    apply fixed_exact hn4
    rw [he]
    refine Std.lt_of_le_of_lt h ?_
    grind

/-- The raw value 64027. -/
def raw64027 : Nat → U8 := fun a => if a = 0 then 0xfa else 0x1b

/-- **C101** is false with the multiplier 4: 64027 units of 8 µA are 512.216 mA, and 512.2159 is shown. -/
theorem C101_counterexample :
    unsignedAt raw64027 0 = 64027 ∧ fixedText 4 (milliampsAt raw64027 0 * 4) = "512.2159".toList ∧
    (unsignedAt raw64027 0 : Rat) / 500 * 4 = 512216 / 1000 := by decide +kernel

/-- With the multiplier 2 the same value is shown as it is. -/
example : fixedText 4 (milliampsAt raw64027 0 * 2) = "256.1080".toList := by decide +kernel

/-! ## C102: other measured values are shown so that they can be read back -/

theorem gap_zero_neg (x : Rat) : gap 0 (-x) = gap 0 x := by unfold gap; grind

/-- What rounds to a number that is neither tiny nor huge has full precision. -/
theorem ordinary_of_rounds {z x : Rat} (h1 : 1 / 1000000000000 ≤ gap 0 x) (h2 : gap 0 x ≤ 1000000000) (h : RoundsTo z x) :
    Ordinary z := by
  have h0 := h.nearest 0 ⟨0, 0, by decide, by decide, by decide, by decide +kernel⟩
  have hp := h.nearest 1099511627776 ⟨1, 40, by decide, by decide, by decide, by decide +kernel⟩
  have hn := h.nearest (-1099511627776) ⟨-1, 40, by decide, by decide, by decide, by decide +kernel⟩
  refine Or.inr ⟨?_, ?_⟩
  · have : (2 : Rat) ^ (-126 : Int) ≤ 1 / 10000000000000 := by decide +kernel
    clear hp hn h
    generalize (2 : Rat) ^ (-126 : Int) = c at *
    unfold gap at *
    grind
  · have : 10000000000000 ≤ (2 : Rat) ^ (127 : Int) := by decide +kernel
    clear h0 h
    generalize (2 : Rat) ^ (127 : Int) = c at *
    unfold gap at *
    grind

theorem ordinary_of_single {z x : Rat} (h1 : 1 / 1000000000000 ≤ gap 0 x) (h2 : gap 0 x ≤ 1000000000) (h : single z = x) :
    Ordinary z := by
  have e := single_err z
  rw [h] at e
  have t1 := gap_triangle 0 z x
  have t2 := gap_triangle 0 x z
  rw [gap_comm x z] at t2
  refine Or.inr ⟨?_, ?_⟩
  · have : (2 : Rat) ^ (-126 : Int) ≤ 1 / 10000000000000 := by decide +kernel
    grind
  · have : 10000000000000 ≤ (2 : Rat) ^ (127 : Int) := by decide +kernel
    grind

theorem shown_shortest {x : Rat} (hx : Digits24 x) (hr : x = 0 ∨ (1 / 1000000000000 ≤ gap 0 x ∧ gap 0 x ≤ 1000000000)) :
    ShownFor x (shortestText x) := by
  by_cases h0 : x = 0
  · rw [h0]
    refine ⟨0, by decide +kernel, ?_, by rw [gap_self]; decide +kernel, fun h => absurd rfl h⟩
    have := rounds_single (x := 0) (Or.inl rfl)
    rwa [single_zero] at this
  · obtain ⟨h1, h2⟩ : 1 / 1000000000000 ≤ gap 0 x ∧ gap 0 x ≤ 1000000000 := hr.resolve_left h0
    obtain ⟨m, j, ht, hs, hmin⟩ := shortest_spec hx h0
    obtain ⟨hread, -, hchars⟩ := scaled_read m j
    have main (z : Rat) (hz : single z = x) : RoundsTo z x ∧ gap z x ≤ gap 0 x / 16777215 := by
      have ho := ordinary_of_single h1 h2 hz
      refine ⟨hz ▸ rounds_single ho, ?_⟩
      have e := single_err z
      rw [hz] at e
      have t1 := gap_triangle 0 x z
      rw [gap_comm x z] at t1
      grind
    have hg := gap_zero x
    by_cases hneg : x < 0
    · rw [if_pos hneg] at hg ht
      have hz : single (-((m : Rat) * (10 : Rat) ^ j)) = x := by rw [single_neg, hs, hg]; grind
      obtain ⟨a1, a2⟩ := main _ hz
      refine ⟨_, ?_, a1, a2, fun _ => ⟨-(m : Int), j, ?_, fun k' j' hk => ?_⟩⟩
      · rw [ht, List.singleton_append, readNumber_neg, hread]; rfl
      · rw [Rat.intCast_neg, Rat.intCast_natCast]; grind
      · have := rounds_eq_single (ordinary_of_rounds h1 h2 hk) hk
        refine hmin (-k') j' ?_
        rw [Rat.intCast_neg, Rat.neg_mul, single_neg, this, hg]
    · rw [if_neg hneg] at hg ht
      have hz : single ((m : Rat) * (10 : Rat) ^ j) = x := by rw [hs, hg]
      obtain ⟨a1, a2⟩ := main _ hz
      refine ⟨_, ?_, a1, a2, fun _ => ⟨(m : Int), j, ?_, fun k' j' hk => ?_⟩⟩
      · rw [ht, List.nil_append, readNumber_unsigned hchars, hread]
      · rw [Rat.intCast_natCast]
      · have := rounds_eq_single (ordinary_of_rounds h1 h2 hk) hk
        exact hmin k' j' (by rw [this, hg])

/-- **C102** for temperatures: the text reads back as the stored number, is as short as can be, and is within 0.00001 degrees
of the value that the module stores. -/
theorem C102_temperature (m : Nat → U8) (a : Nat) :
    ShownFor (celsiusAt m a) (shortestText (celsiusAt m a)) ∧
    ∃ z, readNumber (shortestText (celsiusAt m a)) = some z ∧ gap z ((signedAt m a : Rat) / 256) ≤ 1 / 100000 := by
  have hd : Digits24 (celsiusAt m a) := isSingle_digits (C100_temperature m a).2
  have hb : (signedAt m a).natAbs ≤ 32768 := by
    have := (m a).isLt
    have := (m (a + 1)).isLt
    unfold signedAt unsignedAt
    split <;> omega
  have hg : gap 0 (celsiusAt m a) = ((signedAt m a).natAbs : Rat) / 256 := by
    have := gap_scale (t := 1 / 256) (by decide +kernel) 0 (signedAt m a : Rat)
    rw [gap_natAbs, Rat.zero_mul] at this
    unfold celsiusAt
    grind
  have hn : ((signedAt m a).natAbs : Rat) ≤ ((32768 : Nat) : Rat) := Rat.natCast_le_natCast.2 hb
  rw [show ((32768 : Nat) : Rat) = 32768 by decide +kernel] at hn
  have hr : celsiusAt m a = 0 ∨ (1 / 1000000000000 ≤ gap 0 (celsiusAt m a) ∧ gap 0 (celsiusAt m a) ≤ 1000000000) := by
    obtain ⟨h3 | h3, -⟩ := units (show (signedAt m a).natAbs ≤ 65535 by omega)
    · left
      rw [Rat.natCast_eq_zero_iff] at h3
      unfold celsiusAt
      rw [show signedAt m a = 0 by omega]
      decide +kernel
    · right
      rw [hg]
      grind
  have hs := shown_shortest hd hr
  refine ⟨hs, ?_⟩
  obtain ⟨z, h1, -, h2, -⟩ := hs
  refine ⟨z, h1, ?_⟩
  rw [hg] at h2
  show gap z (celsiusAt m a) ≤ _
  grind

/-- **C102** for voltages: within a microvolt of the value that the module stores. -/
theorem C102_volts (m : Nat → U8) (a : Nat) :
    ShownFor (voltsAt m a) (shortestText (voltsAt m a)) ∧
    ∃ z, readNumber (shortestText (voltsAt m a)) = some z ∧ gap z ((unsignedAt m a : Rat) / 10000) ≤ 1 / 1000000 := by
  have hacc := (C100_volts m a).2.2
  obtain ⟨hu, hb⟩ := units (unsignedAt_bound m a)
  have h0 : (0 : Rat) ≤ (unsignedAt m a : Rat) := Rat.natCast_nonneg
  have hn : 0 ≤ voltsAt m a := single_nonneg (Rat.mul_nonneg h0 (by decide +kernel))
  have hz : (unsignedAt m a : Rat) = 0 → voltsAt m a = 0 := by
    intro h; unfold voltsAt; rw [h, Rat.zero_mul, single_zero]
  have hd : Digits24 (voltsAt m a) := single_digits _
  have hg := gap_pos hn
  generalize voltsAt m a = x at *
  generalize (unsignedAt m a : Rat) = N at *
  have hr : x = 0 ∨ (1 / 1000000000000 ≤ gap 0 x ∧ gap 0 x ≤ 1000000000) := by
    rcases hu with hu | hu
    · exact Or.inl (hz hu)
    · right
      rw [hg]
      unfold gap at hacc
      grind
  have hs := shown_shortest hd hr
  refine ⟨hs, ?_⟩
  obtain ⟨z, h1, -, h2, -⟩ := hs
  refine ⟨z, h1, ?_⟩
  have t := gap_triangle z x (N / 10000)
  rw [hg] at h2
  have hx : x ≤ 66 / 10 := by unfold gap at hacc; grind
  grind

/-- **C102** for the currents of coolers: within a millionth of the value, read as the code does or as it should be. -/
theorem C102_cooler (k : Int) (h : k.natAbs ≤ 65535) :
    ShownFor (single ((k : Rat) / 32767)) (shortestText (single ((k : Rat) / 32767))) ∧
    ∃ z, readNumber (shortestText (single ((k : Rat) / 32767))) = some z ∧ gap z ((k : Rat) / 32767) ≤ 1 / 1000000 := by
  have hacc := (C100_cooler k h).2
  obtain ⟨hu, hb⟩ := units h
  have hg : gap 0 ((k : Rat) / 32767) = (k.natAbs : Rat) / 32767 := by
    have := gap_scale (t := 1 / 32767) (by decide +kernel) 0 (k : Rat)
    rw [gap_natAbs, Rat.zero_mul] at this
    grind
  have hz : (k.natAbs : Rat) = 0 → single ((k : Rat) / 32767) = 0 := by
    intro h3
    rw [Rat.natCast_eq_zero_iff] at h3
    rw [show k = 0 by omega]
    decide +kernel
  have hd := single_digits ((k : Rat) / 32767)
  generalize single ((k : Rat) / 32767) = x at *
  generalize (k.natAbs : Rat) = N at *
  generalize (k : Rat) / 32767 = q at *
  have t1 := gap_triangle 0 x q
  have t2 := gap_triangle 0 q x
  rw [gap_comm q x] at t2
  have hr : x = 0 ∨ (1 / 1000000000000 ≤ gap 0 x ∧ gap 0 x ≤ 1000000000) := by
    rcases hu with hu | hu
    · exact Or.inl (hz hu)
    · right
      rw [hg] at t1 t2
      grind
  have hs := shown_shortest hd hr
  refine ⟨hs, ?_⟩
  obtain ⟨z, h1, -, h2, -⟩ := hs
  refine ⟨z, h1, ?_⟩
  have t := gap_triangle z x q
  rw [hg] at t1 t2
  grind

/-- A text that reads back need not be the value that the module stores: 3 units of 100 µV are shown as 0.00029999999. -/
theorem C102_inexact :
    shortestText (voltsAt (fun a => if a = 1 then 3 else 0) 0) = "0.00029999999".toList ∧
    readNumber "0.00029999999".toList ≠ some ((unsignedAt (fun a => if a = 1 then 3 else 0) 0 : Rat) / 10000) := by
  decide +kernel

/-- Texts of some temperatures and voltages. -/
example : shortestText (celsiusAt (fun a => if a = 0 then 0x1e else 0x80) 0) = "30.5".toList ∧
    shortestText (celsiusAt (fun a => if a = 0 then 0xff else 0x01) 0) = "-0.99609375".toList ∧
    shortestText (celsiusAt (fun _ => 1) 0) = "1.0039063".toList ∧
    shortestText (voltsAt (fun a => if a = 0 then 0x80 else 0xe8) 0) = "3.3".toList := by decide +kernel

end Xcvr
