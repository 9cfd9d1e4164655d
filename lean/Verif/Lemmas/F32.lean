import Verif.Spec.F32

namespace Xcvr

open Spec

/-! ## Powers of two -/

theorem two_pos (e : Int) : (0 : Rat) < (2 : Rat) ^ e := Rat.zpow_pos (by decide)

theorem two_succ (e : Int) : (2 : Rat) ^ (e + 1) = 2 * (2 : Rat) ^ e := by
  rw [Rat.zpow_add_one (by decide), Rat.mul_comm]

theorem two_add (a b : Int) : (2 : Rat) ^ (a + b) = (2 : Rat) ^ a * (2 : Rat) ^ b := Rat.zpow_add (by decide) a b

theorem two_nat (n : Nat) : (2 : Rat) ^ (n : Int) = ((2 ^ n : Nat) : Rat) := by
  rw [Rat.zpow_natCast]; simp

theorem two_mono {a b : Int} (h : a ≤ b) : (2 : Rat) ^ a ≤ (2 : Rat) ^ b := by
  obtain ⟨n, rfl⟩ := Int.le.dest h
  rw [two_add, two_nat]
  have h1 := two_pos a
  have h2 : ((1 : Nat) : Rat) ≤ ((2 ^ n : Nat) : Rat) := Rat.natCast_le_natCast.2 (Nat.one_le_two_pow)
  have := Rat.mul_le_mul_of_nonneg_left h2 (Rat.le_of_lt h1)
  grind

theorem two_lt {a b : Int} (h : (2 : Rat) ^ a < (2 : Rat) ^ b) : a < b := by
  apply Decidable.byContradiction
  intro hc
  have := two_mono (show b ≤ a by omega)
  grind

/-! ## Rounding to an integer -/

theorem nearestEven_near (x : Rat) : gap x (nearestEven x) ≤ 1 / 2 := by
  have h1 := Rat.floor_le x
  have h2 := Rat.lt_floor_add_one x
  simp only [Rat.intCast_add] at h2
  unfold nearestEven gap
  dsimp only
  split
  · grind
  · split
    · simp only [Rat.intCast_add]; grind
    · split
      · grind
      · simp only [Rat.intCast_add]; grind

theorem nearestEven_tie (x : Rat) (h : 1 / 2 ≤ gap x (nearestEven x)) : nearestEven x % 2 = 0 := by
  have h1 := Rat.floor_le x
  have h2 := Rat.lt_floor_add_one x
  simp only [Rat.intCast_add] at h2
  revert h
  unfold nearestEven gap
  dsimp only
  split
  · intro h; exfalso; revert h; generalize (x.floor : Rat) = q at *; split <;> intro h <;> grind
  · split
    · simp only [Rat.intCast_add]; intro h; exfalso; revert h; generalize (x.floor : Rat) = q at *; split <;> intro h <;> grind
    · split
      · intro _; assumption
      · intro _; omega

/-- Different integers are at least one apart. -/
theorem int_apart {a b : Int} (h : a ≠ b) : 1 ≤ gap (a : Rat) (b : Rat) := by
  unfold gap
  split
  · next hle =>
    have h1 : a ≤ b := Rat.intCast_le_intCast.1 hle
    have h2 : ((a + 1 : Int) : Rat) ≤ (b : Rat) := Rat.intCast_le_intCast.2 (by omega)
    simp only [Rat.intCast_add] at h2
    grind
  · next hle =>
    have h1 : ¬ a ≤ b := fun h => hle (Rat.intCast_le_intCast.2 h)
    have h2 : ((b + 1 : Int) : Rat) ≤ (a : Rat) := Rat.intCast_le_intCast.2 (by omega)
    simp only [Rat.intCast_add] at h2
    grind

theorem gap_triangle (x y z : Rat) : gap x z ≤ gap x y + gap y z := by unfold gap; grind
theorem gap_comm (x y : Rat) : gap x y = gap y x := by unfold gap; grind
theorem gap_nonneg (x y : Rat) : 0 ≤ gap x y := by unfold gap; grind
theorem gap_eq_zero {x y : Rat} (h : gap x y = 0) : x = y := by unfold gap at h; grind
theorem gap_self (x : Rat) : gap x x = 0 := by unfold gap; grind

theorem nearestEven_nearest (x : Rat) (k : Int) : gap x (nearestEven x) ≤ gap x k := by
  by_cases h : nearestEven x = k
  · rw [h]; grind
  · have h1 := int_apart h
    have h2 := nearestEven_near x
    have h3 := gap_triangle (nearestEven x) x k
    have h4 := gap_comm x (nearestEven x)
    grind

theorem nearestEven_even (x : Rat) (k : Int) (hk : k ≠ nearestEven x) (h : gap x k = gap x (nearestEven x)) :
    nearestEven x % 2 = 0 := by
  apply nearestEven_tie
  have h1 := int_apart (Ne.symm hk)
  have h2 := nearestEven_near x
  have h3 := gap_triangle (nearestEven x) x k
  have h4 := gap_comm x (nearestEven x)
  grind

theorem nearestEven_unique (x : Rat) (k : Int) (h : gap x k < 1 / 2) : nearestEven x = k := by
  apply Decidable.byContradiction
  intro hne
  have h1 := int_apart hne
  have h2 := nearestEven_near x
  have h3 := gap_triangle (nearestEven x) x k
  have h4 := gap_comm x (nearestEven x)
  grind

theorem nearestEven_int (k : Int) : nearestEven (k : Rat) = k :=
  nearestEven_unique _ _ (by rw [gap_self]; decide +kernel)

/-! ## Rounding to 24 binary digits -/

/-- The size of a number. -/
theorem gap_zero (x : Rat) : gap 0 x = if x < 0 then -x else x := by unfold gap; grind

theorem natAbs_rat (x : Rat) : gap 0 x * (x.den : Rat) = (x.num.natAbs : Rat) := by
  have h : x * (x.den : Rat) = (x.num : Rat) := by
    have h1 : x = (x.num : Rat) / (x.den : Rat) := by rw [← Rat.mkRat_eq_div, Rat.mkRat_self]
    have h2 : (x.den : Rat) ≠ 0 := fun h => x.den_nz (Rat.natCast_eq_zero_iff.1 h)
    have h3 := Rat.div_mul_cancel (a := x.num) h2
    rwa [← h1] at h3
  rw [gap_zero]
  split
  · next hx =>
    have : x.num < 0 := by
      have := mt Rat.num_nonneg.1 (Rat.not_le.2 hx)
      omega
    have h2 : ((x.num.natAbs : Int) : Rat) = ((-x.num : Int) : Rat) := by rw [show (x.num.natAbs : Int) = -x.num by omega]
    simp only [Rat.intCast_neg, Rat.intCast_natCast] at h2
    grind
  · next hx =>
    have : 0 ≤ x.num := Rat.num_nonneg.2 (by grind)
    have h2 : ((x.num.natAbs : Int) : Rat) = (x.num : Rat) := by rw [show (x.num.natAbs : Int) = x.num by omega]
    simp only [Rat.intCast_natCast] at h2
    grind

theorem lastPlace_spec {x : Rat} (hx : x ≠ 0) :
    (2 : Rat) ^ (lastPlace x + 23) ≤ gap 0 x ∧ gap 0 x < (2 : Rat) ^ (lastPlace x + 24) := by
  have hn : x.num.natAbs ≠ 0 := by
    intro h; exact hx (Rat.num_eq_zero.1 (by omega))
  have ha1 : ((2 ^ x.num.natAbs.log2 : Nat) : Rat) ≤ (x.num.natAbs : Rat) :=
    Rat.natCast_le_natCast.2 (Nat.log2_self_le hn)
  have ha2 : (x.num.natAbs : Rat) < ((2 ^ (x.num.natAbs.log2 + 1) : Nat) : Rat) :=
    Rat.natCast_lt_natCast.2 Nat.lt_log2_self
  have hb1 : ((2 ^ x.den.log2 : Nat) : Rat) ≤ (x.den : Rat) := Rat.natCast_le_natCast.2 (Nat.log2_self_le x.den_nz)
  have hb2 : (x.den : Rat) < ((2 ^ (x.den.log2 + 1) : Nat) : Rat) := Rat.natCast_lt_natCast.2 Nat.lt_log2_self
  have hm := natAbs_rat x
  rw [← two_nat] at ha1 ha2 hb1 hb2
  unfold lastPlace
  dsimp only
  rw [← gap_zero]
  generalize x.num.natAbs.log2 = a at *
  generalize x.den.log2 = b at *
  generalize (x.num.natAbs : Rat) = N at *
  have hD : (0 : Rat) < x.den := by have := two_pos b; grind
  generalize (x.den : Rat) = D at *
  have hG := gap_nonneg 0 x
  generalize gap 0 x = G at *
  obtain ⟨e, he⟩ : ∃ e : Int, e = (a : Int) - b - 23 := ⟨_, rfl⟩
  rw [← he]
  have hT := two_pos e
  have hB := two_pos b
  have hA : (2 : Rat) ^ (a : Int) = 8388608 * (2 : Rat) ^ e * (2 : Rat) ^ (b : Int) := by
    rw [show (a : Int) = 23 + e + b by omega, two_add, two_add]
    rw [show (2 : Rat) ^ (23 : Int) = 8388608 by decide +kernel]
  have hA2 : (2 : Rat) ^ ((a + 1 : Nat) : Int) = 2 * (2 : Rat) ^ (a : Int) := by rw [← two_succ]; rfl
  have hB2 : (2 : Rat) ^ ((b + 1 : Nat) : Int) = 2 * (2 : Rat) ^ (b : Int) := by rw [← two_succ]; rfl
  rw [hA2, hA] at ha2
  rw [hA] at ha1
  rw [hB2] at hb2
  generalize hTe : (2 : Rat) ^ e = T at *
  generalize (2 : Rat) ^ (b : Int) = B at *
  have h1 : G * B ≤ G * D := Rat.mul_le_mul_of_nonneg_left hb1 hG
  have h2 : G * D ≤ G * (2 * B) := Rat.mul_le_mul_of_nonneg_left (Rat.le_of_lt hb2) hG
  have h3 : G < 16777216 * T := by
    apply Rat.lt_of_mul_lt_mul_right _ (Rat.le_of_lt hB)
    grind
  have h4 : 4194304 * T ≤ G := by
    apply Rat.le_of_mul_le_mul_right _ hB
    grind
  have hp (k : Int) (c : Rat) (hc : (2 : Rat) ^ k = c) : (2 : Rat) ^ (e + k) = c * T := by
    rw [two_add, hTe, hc, Rat.mul_comm]
  split
  · next hlt =>
    rw [show e - 1 + 23 = e + 22 by omega, show e - 1 + 24 = e + 23 by omega, hp 22 4194304 (by decide +kernel),
      hp 23 8388608 (by decide +kernel)]
    rw [show ((2 : Rat) ^ 23) = 8388608 by decide +kernel] at hlt
    exact ⟨h4, hlt⟩
  · next hlt =>
    rw [hp 23 8388608 (by decide +kernel), hp 24 16777216 (by decide +kernel)]
    rw [show ((2 : Rat) ^ 23) = 8388608 by decide +kernel] at hlt
    exact ⟨Rat.not_lt.1 hlt, h3⟩

theorem gap_scale {t : Rat} (ht : 0 < t) (a b : Rat) : gap (a * t) (b * t) = gap a b * t := by
  unfold gap
  by_cases h : a ≤ b
  · rw [if_pos h, if_pos (Rat.mul_le_mul_of_nonneg_right h (Rat.le_of_lt ht))]; grind
  · rw [if_neg h, if_neg (fun h' => h (Rat.le_of_mul_le_mul_right h' ht))]; grind

/-- A number with 24 binary digits. -/
def Digits24 (x : Rat) : Prop := ∃ m e : Int, m.natAbs < 2 ^ 24 ∧ x = (m : Rat) * (2 : Rat) ^ e

theorem gap_natAbs (m : Int) : gap 0 (m : Rat) = (m.natAbs : Rat) := by
  rw [gap_zero]
  split
  · next h =>
    have h1 : m < 0 := Rat.intCast_lt_intCast.1 h
    have h2 : ((m.natAbs : Int) : Rat) = ((-m : Int) : Rat) := by rw [show (m.natAbs : Int) = -m by omega]
    simp only [Rat.intCast_neg, Rat.intCast_natCast] at h2
    exact h2.symm
  · next h =>
    have h1 : ¬ m < 0 := fun h' => h (Rat.intCast_lt_intCast.2 h')
    have h2 : ((m.natAbs : Int) : Rat) = (m : Rat) := by rw [show (m.natAbs : Int) = m by omega]
    simp only [Rat.intCast_natCast] at h2
    exact h2.symm

/-- The significand of a number, with its bounds. -/
theorem significand {x : Rat} (hx : x ≠ 0) : ∃ s : Rat, x = s * (2 : Rat) ^ lastPlace x ∧ x / (2 : Rat) ^ lastPlace x = s ∧
    8388608 ≤ gap 0 s ∧ gap 0 s < 16777216 := by
  have hT := two_pos (lastPlace x)
  have h := lastPlace_spec hx
  have hc : x / (2 : Rat) ^ lastPlace x * (2 : Rat) ^ lastPlace x = x := Rat.div_mul_cancel (by grind)
  refine ⟨_, hc.symm, rfl, ?_⟩
  rw [two_add, two_add, show (2 : Rat) ^ (23 : Int) = 8388608 by decide +kernel,
    show (2 : Rat) ^ (24 : Int) = 16777216 by decide +kernel] at h
  have hg : gap 0 x = gap 0 (x / (2 : Rat) ^ lastPlace x) * (2 : Rat) ^ lastPlace x := by
    rw [← gap_scale hT, hc]; simp
  rw [hg] at h
  generalize (2 : Rat) ^ lastPlace x = T at *
  generalize gap 0 (x / T) = S at *
  constructor
  · apply Rat.le_of_mul_le_mul_right _ hT; grind
  · apply Rat.lt_of_mul_lt_mul_right _ (Rat.le_of_lt hT); grind

/-- A number with 24 digits is an integer in the last place of `x`, or smaller than `x`. -/
theorem digits24_place {z : Rat} (hz : Digits24 z) (e : Int) :
    (∃ k : Int, z = (k : Rat) * (2 : Rat) ^ e) ∨ ∃ w, z = w * (2 : Rat) ^ e ∧ gap 0 w < 8388608 := by
  obtain ⟨m, f, hm, rfl⟩ := hz
  by_cases hf : e ≤ f
  · obtain ⟨n, rfl⟩ := Int.le.dest hf
    refine Or.inl ⟨m * (2 ^ n : Nat), ?_⟩
    rw [two_add, two_nat, Rat.intCast_mul, Rat.intCast_natCast]
    grind
  · refine Or.inr ⟨(m : Rat) * (2 : Rat) ^ (f - e), ?_, ?_⟩
    · rw [Rat.mul_assoc, ← two_add, show f - e + e = f by omega]
    · have h1 := two_pos (f - e)
      have h2 : (2 : Rat) ^ (f - e) ≤ (2 : Rat) ^ (-1 : Int) := two_mono (by omega)
      have h3 := gap_scale h1 0 (m : Rat)
      simp only [Rat.zero_mul] at h3
      rw [h3, gap_natAbs]
      have h4 : (m.natAbs : Rat) < ((2 ^ 24 : Nat) : Rat) := Rat.natCast_lt_natCast.2 hm
      rw [show (2 : Rat) ^ (-1 : Int) = 1 / 2 by decide +kernel] at h2
      rw [show ((2 ^ 24 : Nat) : Rat) = 16777216 by decide +kernel] at h4
      have h5 : (0 : Rat) ≤ (m.natAbs : Rat) := Rat.natCast_nonneg
      generalize (m.natAbs : Rat) = M at *
      generalize (2 : Rat) ^ (f - e) = P at *
      have h6 := Rat.mul_le_mul_of_nonneg_left h2 h5
      grind

theorem single_nearest {x z : Rat} (hz : Digits24 z) : gap x (single x) ≤ gap x z := by
  by_cases hx : x = 0
  · rw [single, if_pos hx, hx, gap_self]; exact gap_nonneg _ _
  · obtain ⟨s, h1, h2, h3, h4⟩ := significand hx
    rw [single, if_neg hx, h2]
    have hT := two_pos (lastPlace x)
    generalize hTe : (2 : Rat) ^ lastPlace x = T at *
    have h5 := nearestEven_nearest s
    rw [h1, gap_scale hT]
    rcases digits24_place hz (lastPlace x) with ⟨k, rfl⟩ | ⟨w, rfl, hw⟩
    · rw [hTe, gap_scale hT]
      exact Rat.mul_le_mul_of_nonneg_right (h5 k) (Rat.le_of_lt hT)
    · rw [hTe, gap_scale hT]
      refine Rat.mul_le_mul_of_nonneg_right ?_ (Rat.le_of_lt hT)
      have a1 := h5 8388608
      have a2 := h5 (-8388608)
      generalize (nearestEven s : Rat) = q at *
      rw [show ((8388608 : Int) : Rat) = 8388608 from rfl] at a1
      rw [show ((-8388608 : Int) : Rat) = -8388608 by decide +kernel] at a2
      unfold gap at *
      grind

theorem single_even {x z : Rat} (hz : Digits24 z) (hne : z ≠ single x) (h : gap x z = gap x (single x)) (hx : x ≠ 0) :
    nearestEven (x / (2 : Rat) ^ lastPlace x) % 2 = 0 := by
  obtain ⟨s, h1, h2, h3, h4⟩ := significand hx
  rw [single, if_neg hx, h2] at hne h
  rw [h2]
  have hT := two_pos (lastPlace x)
  generalize hTe : (2 : Rat) ^ lastPlace x = T at *
  have h5 := nearestEven_nearest s
  rw [h1, gap_scale hT] at h
  rcases digits24_place hz (lastPlace x) with ⟨k, rfl⟩ | ⟨w, rfl, hw⟩
  · rw [hTe, gap_scale hT] at h
    rw [hTe] at hne
    refine nearestEven_even s k (fun hk => hne (by rw [hk])) ?_
    have h6 : (gap s k - gap s (nearestEven s)) * T = 0 := by grind
    rcases Rat.mul_eq_zero.1 h6 with h7 | h7
    · grind
    · grind
  · exfalso
    rw [hTe, gap_scale hT] at h
    have h6 : (gap s w - gap s (nearestEven s)) * T = 0 := by grind
    have h7 : gap s w - gap s (nearestEven s) = 0 := by
      rcases Rat.mul_eq_zero.1 h6 with h7 | h7
      · exact h7
      · grind
    have a1 := h5 8388608
    have a2 := h5 (-8388608)
    generalize (nearestEven s : Rat) = q at *
    rw [show ((8388608 : Int) : Rat) = 8388608 from rfl] at a1
    rw [show ((-8388608 : Int) : Rat) = -8388608 by decide +kernel] at a2
    unfold gap at *
    grind

theorem nearestEven_bound {s : Rat} (h : gap 0 s < 16777216) : (nearestEven s).natAbs ≤ 2 ^ 24 := by
  have h1 := nearestEven_near s
  apply Decidable.byContradiction
  intro hc
  have h2 : ((2 ^ 24 + 1 : Nat) : Rat) ≤ ((nearestEven s).natAbs : Rat) := Rat.natCast_le_natCast.2 (by omega)
  rw [← gap_natAbs, show ((2 ^ 24 + 1 : Nat) : Rat) = 16777217 by decide +kernel] at h2
  have h3 := gap_triangle 0 s (nearestEven s)
  grind

/-- A rounded number: its significand may be the next power of two. -/
theorem single_cases {x : Rat} (hx : x ≠ 0) : ∃ m : Int, nearestEven (x / (2 : Rat) ^ lastPlace x) = m ∧
    single x = (m : Rat) * (2 : Rat) ^ lastPlace x ∧
    (m.natAbs < 2 ^ 24 ∨ ∃ k : Int, k.natAbs = 1 ∧ m = k * 16777216) := by
  obtain ⟨s, h1, h2, h3, h4⟩ := significand hx
  refine ⟨_, rfl, by rw [single, if_neg hx], ?_⟩
  rw [h2]
  have h := nearestEven_bound h4
  by_cases hm : (nearestEven s).natAbs < 2 ^ 24
  · exact Or.inl hm
  · refine Or.inr ?_
    by_cases hs : 0 ≤ nearestEven s
    · exact ⟨1, rfl, by omega⟩
    · exact ⟨-1, rfl, by omega⟩

theorem shift_place (k : Int) (c : Int) (n e : Int) (hc : (2 : Rat) ^ n = (c : Rat)) :
    ((k * c : Int) : Rat) * (2 : Rat) ^ e = (k : Rat) * (2 : Rat) ^ (e + n) := by
  rw [two_add, hc, Rat.intCast_mul]; grind

theorem single_digits (x : Rat) : Digits24 (single x) := by
  by_cases hx : x = 0
  · exact ⟨0, 0, by decide, by rw [single, if_pos hx]; decide +kernel⟩
  · obtain ⟨m, -, h, hm | ⟨k, hk, rfl⟩⟩ := single_cases hx
    · exact ⟨m, _, hm, h⟩
    · refine ⟨k, lastPlace x + 24, by omega, ?_⟩
      rw [h, shift_place k 16777216 24 _ (by decide +kernel)]

/-- Rounding leaves the numbers of the type as they are. -/
theorem single_of_digits {x : Rat} (h : Digits24 x) : single x = x := by
  have h1 := single_nearest (x := x) h
  have h2 := gap_nonneg x (single x)
  rw [gap_self] at h1
  exact (gap_eq_zero (by grind)).symm

theorem single_idem (x : Rat) : single (single x) = single x := single_of_digits (single_digits x)

theorem single_zero : single 0 = 0 := by rw [single, if_pos rfl]

theorem single_err (x : Rat) : gap x (single x) ≤ gap 0 x / 16777216 := by
  by_cases hx : x = 0
  · rw [hx, single_zero, gap_self]; decide +kernel
  · obtain ⟨s, h1, h2, h3, h4⟩ := significand hx
    rw [single, if_neg hx, h2]
    have hT := two_pos (lastPlace x)
    generalize hTe : (2 : Rat) ^ lastPlace x = T at *
    have h5 := nearestEven_near s
    rw [h1, gap_scale hT]
    have h6 := gap_scale hT 0 s
    rw [Rat.zero_mul] at h6
    rw [h6]
    have h7 := Rat.mul_le_mul_of_nonneg_right h5 (Rat.le_of_lt hT)
    have h8 := Rat.mul_le_mul_of_nonneg_right h3 (Rat.le_of_lt hT)
    grind

theorem ordinary_place {x : Rat} (hx : x ≠ 0) (h : Ordinary x) : -149 ≤ lastPlace x ∧ lastPlace x ≤ 104 := by
  rcases h with h | ⟨h1, h2⟩
  · exact absurd h hx
  · obtain ⟨h3, h4⟩ := lastPlace_spec hx
    have a := two_lt (Std.lt_of_le_of_lt h1 h4)
    have b := two_lt (a := lastPlace x + 23) (b := 128)
      (Std.lt_of_le_of_lt (Std.le_trans h3 h2) (by rw [show (128 : Int) = 127 + 1 from rfl, two_succ]; have := two_pos 127; grind))
    omega

/-- A significand that was rounded up to the next power of two leaves room for the exponent. -/
theorem ordinary_carry {x : Rat} (hx : x ≠ 0) (h : Ordinary x)
    (hm : (nearestEven (x / (2 : Rat) ^ lastPlace x)).natAbs = 16777216) : lastPlace x ≤ 103 := by
  obtain ⟨h0, h1⟩ := ordinary_place hx h
  apply Decidable.byContradiction
  intro hc
  have he : lastPlace x = 104 := by omega
  rcases h with h | ⟨h2, h3⟩
  · exact hx h
  · obtain ⟨s, h4, h5, h6, h7⟩ := significand hx
    rw [h5] at hm
    have h8 := nearestEven_near s
    have h9 := gap_natAbs (nearestEven s)
    rw [hm] at h9
    have h10 := gap_triangle 0 s (nearestEven s)
    rw [he] at h4
    have hT := two_pos 104
    have h11 := gap_scale hT 0 s
    rw [Rat.zero_mul, ← h4] at h11
    rw [h11, show (127 : Int) = 104 + 23 from rfl, two_add, show (2 : Rat) ^ (23 : Int) = 8388608 by decide +kernel,
      Rat.mul_comm] at h3
    have h12 := Rat.le_of_mul_le_mul_left h3 hT
    rw [show ((16777216 : Nat) : Rat) = 16777216 by decide +kernel] at h9
    grind

theorem isSingle_digits {x : Rat} (h : IsSingle x) : Digits24 x := by
  obtain ⟨m, e, h1, -, -, h2⟩ := h
  exact ⟨m, e, h1, h2⟩

theorem rounds_single {x : Rat} (h : Ordinary x) : RoundsTo x (single x) := by
  refine ⟨?_, fun z hz => single_nearest (isSingle_digits hz), fun z hz hne hg => ?_⟩
  · by_cases hx : x = 0
    · exact ⟨0, 0, by decide, by decide, by decide, by rw [single, if_pos hx]; decide +kernel⟩
    · obtain ⟨h0, h1⟩ := ordinary_place hx h
      obtain ⟨m, hm', hs, hm | ⟨k, hk, rfl⟩⟩ := single_cases hx
      · exact ⟨m, _, hm, h0, h1, hs⟩
      · have := ordinary_carry hx h (by rw [hm']; omega)
        refine ⟨k * 8388608, lastPlace x + 1, by omega, by omega, by omega, ?_⟩
        rw [hs, ← shift_place _ 2 1 _ (by decide +kernel), Int.mul_assoc]; rfl
  · by_cases hx : x = 0
    · exact ⟨0, 0, by decide, by decide, by decide, by rw [single, if_pos hx]; decide +kernel⟩
    · obtain ⟨h0, h1⟩ := ordinary_place hx h
      have he := single_even (isSingle_digits hz) hne hg hx
      obtain ⟨m, hm', hs, hm | ⟨k, hk, rfl⟩⟩ := single_cases hx
      · refine ⟨m / 2, lastPlace x + 1, by omega, by omega, by omega, ?_⟩
        rw [hs, ← shift_place _ 2 1 _ (by decide +kernel), show m / 2 * 2 = m by omega]
      · have := ordinary_carry hx h (by rw [hm']; omega)
        refine ⟨k * 4194304, lastPlace x + 2, by omega, by omega, by omega, ?_⟩
        rw [hs, ← shift_place _ 4 2 _ (by decide +kernel), Int.mul_assoc]; rfl

theorem single_mono {a b : Rat} (h : a ≤ b) : single a ≤ single b := by
  by_cases hab : a = b
  · rw [hab]; exact Rat.le_refl
  have h1 := single_nearest (x := a) (single_digits b)
  have h2 := single_nearest (x := b) (single_digits a)
  generalize single a = u at *
  generalize single b = v at *
  unfold gap at *
  grind

theorem gap_neg (x y : Rat) : gap (-x) (-y) = gap x y := by unfold gap; grind

theorem nearestEven_neg (s : Rat) : nearestEven (-s) = -nearestEven s := by
  have h1 := nearestEven_near s
  have h2 := nearestEven_near (-s)
  have h4 : gap (-s) (((-nearestEven s : Int)) : Rat) = gap s (nearestEven s) := by rw [Rat.intCast_neg, gap_neg]
  by_cases h3 : gap s (nearestEven s) < 1 / 2
  · exact nearestEven_unique _ _ (by grind)
  · apply Decidable.byContradiction
    intro hne
    have h5 := nearestEven_tie s (Rat.not_lt.1 h3)
    have h6 := nearestEven_nearest (-s) (-nearestEven s)
    have h7 := int_apart hne
    have h8 := gap_triangle (nearestEven (-s)) (-s) ((-nearestEven s : Int) : Rat)
    have h9 := gap_comm (nearestEven (-s) : Rat) (-s)
    have h10 := nearestEven_tie (-s) (by grind)
    have h11 : 2 ≤ nearestEven (-s) + nearestEven s ∨ nearestEven (-s) + nearestEven s ≤ -2 := by omega
    have h12 : gap (nearestEven (-s) : Rat) ((-nearestEven s : Int) : Rat) ≤ 1 := by grind
    rw [Rat.intCast_neg] at h12
    rcases h11 with h11 | h11
    · have := Rat.intCast_le_intCast.2 h11
      rw [Rat.intCast_add, show ((2 : Int) : Rat) = 2 from rfl] at this
      generalize (nearestEven (-s) : Rat) = u at *
      generalize (nearestEven s : Rat) = v at *
      unfold gap at h12
      grind
    · have := Rat.intCast_le_intCast.2 h11
      rw [Rat.intCast_add, show ((-2 : Int) : Rat) = -2 by decide +kernel] at this
      generalize (nearestEven (-s) : Rat) = u at *
      generalize (nearestEven s : Rat) = v at *
      unfold gap at h12
      grind

theorem lastPlace_neg (x : Rat) : lastPlace (-x) = lastPlace x := by
  unfold lastPlace
  dsimp only
  rw [Rat.neg_num, Rat.neg_den, Int.natAbs_neg, show (if -x < 0 then - -x else -x) = if x < 0 then -x else x by grind]

theorem single_neg (x : Rat) : single (-x) = -single x := by
  unfold single
  by_cases hx : x = 0
  · rw [if_pos hx, if_pos (by grind)]; rfl
  · rw [if_neg hx, if_neg (by grind), lastPlace_neg, Rat.div_def, Rat.neg_mul, ← Rat.div_def, nearestEven_neg, Rat.intCast_neg,
      Rat.neg_mul]

theorem single_nonneg {x : Rat} (h : 0 ≤ x) : 0 ≤ single x := by
  have := single_mono h
  rwa [single_zero] at this

theorem single_pos {x : Rat} (h : 0 < x) : 0 < single x := by
  have h1 := single_err x
  rw [gap_zero, if_neg (by grind)] at h1
  unfold gap at h1
  generalize single x = u at *
  grind

/-- Doubling is exact. -/
theorem digits24_scale {x : Rat} (h : Digits24 x) (n : Int) : Digits24 (x * (2 : Rat) ^ n) := by
  obtain ⟨m, e, h1, rfl⟩ := h
  exact ⟨m, e + n, h1, by rw [Rat.mul_assoc, ← two_add]⟩

/-! ## Rounding is a function -/

/-- A number as near as the rounded one is an integer in the last place. -/
theorem near_place {x z : Rat} (hx : Digits24 x) (hz : z ≠ 0) (hg : gap z x = gap z (single z)) :
    ∃ (s : Rat) (k : Int), 8388608 ≤ gap 0 s ∧ x = (k : Rat) * (2 : Rat) ^ lastPlace z ∧
      single z = (nearestEven s : Rat) * (2 : Rat) ^ lastPlace z ∧ gap s k = gap s (nearestEven s) ∧
      nearestEven (z / (2 : Rat) ^ lastPlace z) = nearestEven s := by
  obtain ⟨s, h1, h2, h3, h4⟩ := significand hz
  have hsz : single z = (nearestEven s : Rat) * (2 : Rat) ^ lastPlace z := by rw [single, if_neg hz, h2]
  rw [hsz] at hg
  have hT := two_pos (lastPlace z)
  have h5 := nearestEven_nearest s
  have hdig := digits24_place hx (lastPlace z)
  refine ⟨s, ?_⟩
  rw [hsz, h2]
  generalize (2 : Rat) ^ lastPlace z = T at *
  have key (w : Rat) (hw : x = w * T) : gap s w = gap s (nearestEven s) := by
    rw [hw, h1, gap_scale hT, gap_scale hT] at hg
    have : (gap s w - gap s (nearestEven s)) * T = 0 := by grind
    rcases Rat.mul_eq_zero.1 this with h | h
    · grind
    · grind
  rcases hdig with ⟨k, hk⟩ | ⟨w, hw, hw'⟩
  · exact ⟨k, h3, hk, rfl, key _ hk, rfl⟩
  · exfalso
    have hg' := key w hw
    have a1 := h5 8388608
    have a2 := h5 (-8388608)
    clear key h5 hsz h1 h2 hg hw
    generalize (nearestEven s : Rat) = q at *
    rw [show ((8388608 : Int) : Rat) = 8388608 from rfl] at a1
    rw [show ((-8388608 : Int) : Rat) = -8388608 by decide +kernel] at a2
    unfold gap at *
    grind

/-- Two integers that are equally near, one of them even: the other one is odd. -/
theorem tie_odd {s : Rat} {k : Int} (hne : nearestEven s ≠ k) (hg : gap s k = gap s (nearestEven s))
    (he : nearestEven s % 2 = 0) : k % 2 ≠ 0 := by
  intro hk2
  have h6 := nearestEven_near s
  have h8 := gap_triangle (nearestEven s) s k
  rw [gap_comm _ s] at h8
  have h9 : 2 ≤ nearestEven s - k ∨ nearestEven s - k ≤ -2 := by omega
  have h10 : gap (nearestEven s : Rat) (k : Rat) ≤ 1 := by grind
  clear h8 h6 hg
  rcases h9 with h9 | h9
  · have := Rat.intCast_le_intCast.2 h9
    rw [Rat.intCast_sub, show ((2 : Int) : Rat) = 2 from rfl] at this
    generalize (nearestEven s : Rat) = u at *
    generalize (k : Rat) = v at *
    unfold gap at h10
    grind
  · have := Rat.intCast_le_intCast.2 h9
    rw [Rat.intCast_sub, show ((-2 : Int) : Rat) = -2 by decide +kernel] at this
    generalize (nearestEven s : Rat) = u at *
    generalize (k : Rat) = v at *
    unfold gap at h10
    grind

/-- An odd significand of 24 digits does not fit in 23. -/
theorem odd_long {k mm p e : Int} (hodd : k % 2 ≠ 0) (hbig : 8388608 ≤ k.natAbs) (hm : mm.natAbs < 2 ^ 23)
    (h : (k : Rat) * (2 : Rat) ^ p = (mm : Rat) * (2 : Rat) ^ e) : False := by
  have cancel (a b q : Int) (h : (a : Rat) * (2 : Rat) ^ q = (b : Rat) * (2 : Rat) ^ q) : a = b := by
    have hT := two_pos q
    have h8 : ((a : Rat) - (b : Rat)) * (2 : Rat) ^ q = 0 := by grind
    rcases Rat.mul_eq_zero.1 h8 with h | h
    · exact Rat.intCast_inj.1 (by grind)
    · grind
  by_cases he : p < e
  · obtain ⟨n, hn⟩ := Int.le.dest (show p + 1 ≤ e by omega)
    have h7 : (k : Rat) * (2 : Rat) ^ p = ((mm * (2 ^ n : Nat) * 2 : Int) : Rat) * (2 : Rat) ^ p := by
      rw [h, ← hn, two_add, two_succ, two_nat, Rat.intCast_mul, Rat.intCast_mul, Rat.intCast_natCast]
      rw [show ((2 : Int) : Rat) = 2 from rfl]
      grind
    have := cancel _ _ _ h7
    omega
  · obtain ⟨n, hn⟩ := Int.le.dest (show e ≤ p by omega)
    have h7 : (mm : Rat) * (2 : Rat) ^ e = ((k * (2 ^ n : Nat) : Int) : Rat) * (2 : Rat) ^ e := by
      rw [← h, ← hn, two_add, two_nat, Rat.intCast_mul, Rat.intCast_natCast]
      grind
    have h9 := cancel _ _ _ h7
    have h10 : mm.natAbs = k.natAbs * 2 ^ n := by rw [h9, Int.natAbs_mul, Int.natAbs_natCast]
    have h11 : k.natAbs * 1 ≤ k.natAbs * 2 ^ n := Nat.mul_le_mul_left _ Nat.one_le_two_pow
    omega

/-- Only one number is nearest, or nearest and even. -/
theorem rounds_eq_single {z x : Rat} (hz : Ordinary z) (h : RoundsTo z x) : single z = x := by
  have hs := rounds_single hz
  apply Decidable.byContradiction
  intro hne
  have hg : gap z x = gap z (single z) := by
    have h1 := h.nearest _ hs.single
    have h2 := hs.nearest _ h.single
    grind
  have hz0 : z ≠ 0 := by
    rintro rfl
    rw [single_zero, gap_self] at hg
    exact hne (by rw [single_zero]; exact gap_eq_zero hg)
  have heven := single_even (isSingle_digits h.single) (Ne.symm hne) hg hz0
  obtain ⟨mm, e, hm, -, -, hx⟩ := h.even _ hs.single hne hg.symm
  obtain ⟨s, k, h3, hk, hsz, hgk, h2⟩ := near_place (isSingle_digits h.single) hz0 hg
  rw [h2] at heven
  have hkn : nearestEven s ≠ k := fun h => hne (by rw [hsz, hk, h])
  have hbig : 8388608 ≤ k.natAbs := by
    apply Decidable.byContradiction
    intro hc
    have h6 := nearestEven_near s
    have h7 : (k.natAbs : Rat) ≤ ((8388607 : Nat) : Rat) := Rat.natCast_le_natCast.2 (by omega)
    rw [← gap_natAbs, show ((8388607 : Nat) : Rat) = 8388607 by decide +kernel] at h7
    have h8 := gap_triangle 0 k s
    rw [gap_comm (k : Rat) s, hgk] at h8
    grind
  exact odd_long (tie_odd hkn hgk heven) hbig hm (hk.symm.trans hx)

end Xcvr
