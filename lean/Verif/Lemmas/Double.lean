import Verif.Model.Json
import Verif.Lemmas.F32Text

/-! # Lemmas: numbers of type `f32` read by way of `f64` -/

namespace Xcvr

open Spec

theorem double_err (x : Rat) : gap x (double x) ≤ gap 0 x / 9007199254740992 := by
  by_cases hx : x = 0
  · rw [hx, double, if_pos rfl, gap_self]; decide +kernel
  · obtain ⟨s, h1, h2, h3, h4⟩ := significand hx
    rw [double, if_neg hx]
    have hT := two_pos (lastPlace x - 29)
    have hL : (2 : Rat) ^ lastPlace x = 536870912 * (2 : Rat) ^ (lastPlace x - 29) := by
      rw [show lastPlace x = (lastPlace x - 29) + 29 by omega, two_add, show (2 : Rat) ^ (29 : Int) = 536870912 by decide +kernel,
        show lastPlace x - 29 + 29 - 29 = lastPlace x - 29 by omega]
      grind
    generalize (2 : Rat) ^ (lastPlace x - 29) = T at *
    have hc : x / T * T = x := Rat.div_mul_cancel (by grind)
    have h5 := nearestEven_near (x / T)
    have h6 := gap_scale hT (x / T) (nearestEven (x / T) : Rat)
    rw [hc] at h6
    have h7 := Rat.mul_le_mul_of_nonneg_right h5 (Rat.le_of_lt hT)
    have h8 := gap_scale hT 0 (x / T)
    rw [hc, Rat.zero_mul] at h8
    have h9 := gap_scale (two_pos (lastPlace x)) 0 s
    rw [← h1, Rat.zero_mul, hL] at h9
    have h10 := Rat.mul_le_mul_of_nonneg_right h3 (Rat.le_of_lt hT)
    rw [h6]
    grind

/-- Numbers with 53 digits are left as they are. -/
theorem double_of_digits {m e : Int} (hm : m.natAbs < 2 ^ 53) : double ((m : Rat) * (2 : Rat) ^ e) = (m : Rat) * (2 : Rat) ^ e := by
  generalize hx : (m : Rat) * (2 : Rat) ^ e = x
  by_cases h0 : x = 0
  · rw [h0, double, if_pos rfl]
  · rw [double, if_neg h0]
    have hp := (lastPlace_spec h0).1
    -- the last place is not beyond `e`
    have hle : lastPlace x - 29 ≤ e := by
      have h1 : gap 0 x = (m.natAbs : Rat) * (2 : Rat) ^ e := by
        have := gap_scale (two_pos e) 0 (m : Rat)
        rw [Rat.zero_mul, hx, gap_natAbs] at this
        exact this
      have h2 : (m.natAbs : Rat) < ((2 ^ 53 : Nat) : Rat) := Rat.natCast_lt_natCast.2 hm
      rw [← two_nat] at h2
      have h3 := Rat.mul_lt_mul_of_pos_right h2 (two_pos e)
      rw [← two_add] at h3
      rw [h1] at hp
      have h4 : (2 : Rat) ^ (lastPlace x + 23) < (2 : Rat) ^ (((53 : Nat) : Int) + e) := by grind
      have := two_lt h4
      omega
    obtain ⟨n, hn⟩ := Int.le.dest hle
    have hk : x = ((m * (2 ^ n : Nat) : Int) : Rat) * (2 : Rat) ^ (lastPlace x - 29) := by
      rw [Rat.intCast_mul, Rat.intCast_natCast, ← two_nat, Rat.mul_assoc, ← two_add, ← hx]
      rw [show (n : Int) + (lastPlace ((m : Rat) * (2 : Rat) ^ e) - 29) = e by rw [hx]; omega]
    have hT := two_pos (lastPlace x - 29)
    generalize (2 : Rat) ^ (lastPlace x - 29) = T at *
    generalize (m * (2 ^ n : Nat) : Int) = k at *
    have hd : x / T = (k : Rat) := by
      rw [hk, Rat.div_def, Rat.mul_assoc, Rat.mul_inv_cancel _ (by grind), Rat.mul_one]
    rw [hd, nearestEven_int, ← hk]

/-- Two numbers of 24 digits are multiples of the last place of the smaller. -/
theorem common_place {x y : Rat} (hx : Digits24 x) (hy : Digits24 y) (h0 : 0 < x) (h : x < y) :
    ∃ k l : Int, x = (k : Rat) * (2 : Rat) ^ lastPlace x ∧ y = (l : Rat) * (2 : Rat) ^ lastPlace x ∧ k < l := by
  obtain ⟨s, h1, -, h2, -⟩ := significand (x := x) (by grind)
  have hT := two_pos (lastPlace x)
  have hs : 0 < s := by
    apply Decidable.byContradiction
    intro hc
    have := Rat.mul_le_mul_of_nonneg_right (show s ≤ 0 by grind) (Rat.le_of_lt hT)
    grind
  have key {z : Rat} (hz : Digits24 z) (hle : x ≤ z) : ∃ k : Int, z = (k : Rat) * (2 : Rat) ^ lastPlace x := by
    rcases digits24_place hz (lastPlace x) with h | ⟨w, hw, hg⟩
    · exact h
    · exfalso
      have h3 : s * (2 : Rat) ^ lastPlace x ≤ w * (2 : Rat) ^ lastPlace x := by rw [← h1, ← hw]; exact hle
      have h4 := Rat.le_of_mul_le_mul_right h3 hT
      rw [gap_pos' hs] at h2
      have : gap 0 w = w := gap_pos' (by grind)
      grind
  obtain ⟨k, hk⟩ := key hx (Rat.le_refl)
  obtain ⟨l, hl⟩ := key hy (Rat.le_of_lt h)
  refine ⟨k, l, hk, hl, ?_⟩
  have h5 : (k : Rat) * (2 : Rat) ^ lastPlace x < (l : Rat) * (2 : Rat) ^ lastPlace x := by rw [← hk, ← hl]; exact h
  exact Rat.intCast_lt_intCast.1 (Rat.lt_of_mul_lt_mul_right h5 (Rat.le_of_lt hT))
where
  gap_pos' {x : Rat} (h : 0 < x) : gap 0 x = x := by rw [gap_zero, if_neg (by grind)]

/-- A multiple of `10 ^ -12` and a multiple of half the unit `2 ^ f` are equal or not very close. -/
theorem mid_apart {z b : Rat} {K B f : Int} (hf : f ≤ -12) (hz : z = (K : Rat) / 1000000000000)
    (hb : b = (B : Rat) * (2 : Rat) ^ (f - 1)) (hne : z ≠ b) : (2 : Rat) ^ f * (2048 / 1000000000000) ≤ gap z b := by
  obtain ⟨n, hn⟩ := Int.le.dest (show 11 ≤ -f by omega)
  have hU := two_pos (n : Int)
  have h1 : (2 : Rat) ^ f * (2048 * (2 : Rat) ^ (n : Int)) = 1 := by
    rw [show (2048 : Rat) = (2 : Rat) ^ (11 : Int) by decide +kernel, ← two_add, ← two_add, show f + (11 + (n : Int)) = 0 by omega]
    rfl
  have h2 : (2 : Rat) ^ (f - 1) * (4096 * (2 : Rat) ^ (n : Int)) = 1 := by
    rw [show (4096 : Rat) = (2 : Rat) ^ (12 : Int) by decide +kernel, ← two_add, ← two_add,
      show f - 1 + (12 + (n : Int)) = 0 by omega]
    rfl
  have hi : K * (2 ^ n : Nat) ≠ B * 244140625 := by
    intro he
    apply hne
    have he' : ((K * (2 ^ n : Nat) : Int) : Rat) = ((B * 244140625 : Int) : Rat) := by rw [he]
    rw [Rat.intCast_mul, Rat.intCast_mul, Rat.intCast_natCast, ← two_nat,
      show ((244140625 : Int) : Rat) = 244140625 by decide +kernel] at he'
    have h3 : z * (2 : Rat) ^ (n : Int) = b * (2 : Rat) ^ (n : Int) := by
      rw [hz, hb]
      generalize (2 : Rat) ^ (n : Int) = U at *
      generalize (2 : Rat) ^ (f - 1) = V at *
      grind
    generalize (2 : Rat) ^ (n : Int) = U at *
    have h4 := congrArg (· * U⁻¹) h3
    simp only [Rat.mul_assoc, Rat.mul_inv_cancel _ (show U ≠ 0 by grind), Rat.mul_one] at h4
    exact h4
  have h3 := int_apart hi
  rw [Rat.intCast_mul, Rat.intCast_mul, Rat.intCast_natCast, ← two_nat,
    show ((244140625 : Int) : Rat) = 244140625 by decide +kernel] at h3
  have hc : 0 < 1000000000000 * (2 : Rat) ^ (n : Int) := by grind
  have h4 := gap_scale hc z b
  have h5 : z * (1000000000000 * (2 : Rat) ^ (n : Int)) = (K : Rat) * (2 : Rat) ^ (n : Int) := by rw [hz]; grind
  have h6 : b * (1000000000000 * (2 : Rat) ^ (n : Int)) = (B : Rat) * 244140625 := by
    rw [hb]
    generalize (2 : Rat) ^ (n : Int) = U at *
    generalize (2 : Rat) ^ (f - 1) = V at *
    grind
  rw [h5, h6] at h4
  rw [h4] at h3
  apply Rat.le_of_mul_le_mul_right _ hc
  generalize (2 : Rat) ^ (n : Int) = U at *
  generalize (2 : Rat) ^ f = V at *
  grind

/-- No midpoint of two numbers of type `f32` is between a short decimal and the `f64` nearest to it. -/
theorem no_mid {lo hi z d : Rat} (hlo : Digits24 lo) (hhi : Digits24 hi) (h0 : 0 < lo) (hlt : lo < hi) (hsmall : lo < 1024)
    {K : Int} (hz : z = (K : Rat) / 1000000000000) (hz0 : 0 < z) (hd : d = double z) (hne : d ≠ z)
    (hb : z ≤ (lo + hi) / 2 ∧ (lo + hi) / 2 ≤ d ∨ d ≤ (lo + hi) / 2 ∧ (lo + hi) / 2 ≤ z)
    (hnear : z < (2 : Rat) ^ (lastPlace lo + 24) ∨ d < (2 : Rat) ^ (lastPlace lo + 24)) : False := by
  obtain ⟨k, l, hk, hl, hkl⟩ := common_place hlo hhi h0 hlt
  have hp := lastPlace_spec (x := lo) (by grind)
  have hg0 : gap 0 lo = lo := by rw [gap_zero, if_neg (by grind)]
  rw [hg0] at hp
  have hf : lastPlace lo ≤ -14 := by
    have : (2 : Rat) ^ (lastPlace lo + 23) < (2 : Rat) ^ (10 : Int) := by
      rw [show (2 : Rat) ^ (10 : Int) = 1024 by decide +kernel]; grind
    have := two_lt this
    omega
  generalize lastPlace lo = f at *
  have he := double_err z
  rw [← hd, show gap 0 z = z by rw [gap_zero, if_neg (by grind)]] at he
  have hV : (2 : Rat) ^ f = 2 * (2 : Rat) ^ (f - 1) := by rw [← two_succ]; congr 1; omega
  have hmid : (lo + hi) / 2 = ((k + l : Int) : Rat) * (2 : Rat) ^ (f - 1) := by
    rw [hk, hl, hV, Rat.intCast_add]; grind
  have h24 : (2 : Rat) ^ (f + 24) = 16777216 * (2 : Rat) ^ f := by
    rw [two_add, show (2 : Rat) ^ (24 : Int) = 16777216 by decide +kernel]; grind
  rw [h24] at hp hnear
  have hT := two_pos f
  have hbz : gap z ((lo + hi) / 2) ≤ gap z d := by unfold gap; grind
  have hzs : z ≤ 16777217 * (2 : Rat) ^ f := by
    generalize (2 : Rat) ^ f = T at *
    unfold gap at he
    grind
  have hes : gap z d ≤ (2 : Rat) ^ f * (2000 / 1000000000000) := by
    generalize (2 : Rat) ^ f = T at *
    grind
  by_cases hzb : z = (lo + hi) / 2
  · apply hne
    rw [hd, hzb, hmid]
    apply double_of_digits
    have h1 : (((k + l) : Int) : Rat) < ((2 ^ 53 : Nat) : Int) := by
      apply Rat.lt_of_mul_lt_mul_right _ (Rat.le_of_lt (two_pos (f - 1)))
      rw [← hmid, ← hzb]
      rw [show ((((2 ^ 53 : Nat) : Int)) : Rat) = 9007199254740992 by decide +kernel]
      grind
    have h2 := Rat.intCast_lt_intCast.1 h1
    have h3 : (0 : Rat) < (((k + l) : Int) : Rat) := by
      apply Rat.lt_of_mul_lt_mul_right _ (Rat.le_of_lt (two_pos (f - 1)))
      rw [← hmid, ← hzb]
      grind
    have h4 := Rat.intCast_pos.1 h3
    omega
  · have h1 := mid_apart (show f ≤ -12 by omega) hz hmid hzb
    generalize (2 : Rat) ^ f = T at *
    grind

/-- A decimal with at most twelve places for a number of type `f32` below 1024 is read as that number, also by way of
`f64`. -/
theorem single_double {x z : Rat} (hx : Digits24 x) (h0 : 0 < x) (hsmall : x < 1024) {K : Int}
    (hz : z = (K : Rat) / 1000000000000) (hs : single z = x) : single (double z) = x := by
  apply Decidable.byContradiction
  intro hne
  have hz0 : 0 < z := by
    apply Decidable.byContradiction
    intro hc
    have := single_mono (show z ≤ 0 by grind)
    rw [single_zero, hs] at this
    grind
  have he := double_err z
  rw [show gap 0 z = z by rw [gap_zero, if_neg (by grind)]] at he
  have hdz : double z ≠ z := by intro h; rw [h] at hne; exact hne hs
  have hd0 : 0 < double z := by unfold gap at he; grind
  have hy := single_digits (double z)
  have hy0 := single_pos hd0
  have n1 := single_nearest (x := z) hy
  have n2 := single_nearest (x := double z) hx
  rw [hs] at n1
  have near {w v : Rat} (hv : Digits24 v) (hv0 : 0 < v) (h : single w = v) : w < (2 : Rat) ^ (lastPlace v + 24) := by
    apply Decidable.byContradiction
    intro hc
    have h1 : Digits24 ((2 : Rat) ^ (lastPlace v + 24)) := ⟨1, _, by decide, by rw [show ((1 : Int) : Rat) = 1 from rfl, Rat.one_mul]⟩
    have h2 := single_mono (Rat.not_lt.1 hc)
    rw [single_of_digits h1, h] at h2
    have h3 := (lastPlace_spec (x := v) (by grind)).2
    rw [show gap 0 v = v by rw [gap_zero, if_neg (by grind)]] at h3
    grind
  have near1 := near hx h0 hs
  have near2 := near hy hy0 rfl
  generalize single (double z) = y at *
  by_cases hlt : x < y
  · exact no_mid hx hy h0 hlt hsmall hz hz0 rfl hdz (Or.inl (by unfold gap at n1 n2; grind)) (Or.inl near1)
  · have hlt : y < x := by grind
    refine no_mid hy hx hy0 hlt (by grind) hz hz0 rfl hdz (Or.inr ?_) (Or.inr near2)
    unfold gap at n1 n2
    grind

/-- Two different numbers of type `f32` that are not tiny are not very close. -/
theorem digits24_apart {x y : Rat} (hx : Digits24 x) (hy : Digits24 y) (h : 1 / 65536 < x) (hlt : x < y) :
    1 / 1000000000000 < y - x := by
  obtain ⟨k, l, hk, hl, hkl⟩ := common_place hx hy (by grind) hlt
  have hp := (lastPlace_spec (x := x) (by grind)).2
  rw [show gap 0 x = x by rw [gap_zero, if_neg (by grind)]] at hp
  have hf : -39 ≤ lastPlace x := by
    have : (2 : Rat) ^ (-16 : Int) < (2 : Rat) ^ (lastPlace x + 24) := by
      rw [show (2 : Rat) ^ (-16 : Int) = 1 / 65536 by decide +kernel]; grind
    have := two_lt this
    omega
  have hm := two_mono hf
  rw [show (2 : Rat) ^ (-39 : Int) = 1 / 549755813888 by decide +kernel] at hm
  have h1 : ((k + 1 : Int) : Rat) ≤ (l : Rat) := Rat.intCast_le_intCast.2 hkl
  rw [Rat.intCast_add, show ((1 : Int) : Rat) = 1 from rfl] at h1
  have h2 := Rat.mul_le_mul_of_nonneg_right h1 (Rat.le_of_lt (two_pos (lastPlace x)))
  generalize (2 : Rat) ^ lastPlace x = T at *
  grind

/-- Twelve places are enough for a number of type `f32` that is not tiny. -/
theorem twelve_places {y : Rat} (hy : Digits24 y) (h : 1 / 32768 ≤ y) : ∃ k : Int, single ((k : Rat) * (10 : Rat) ^ (-12 : Int)) = y := by
  refine ⟨nearestEven (y * 1000000000000), ?_⟩
  have h1 := nearestEven_near (y * 1000000000000)
  generalize nearestEven (y * 1000000000000) = k at *
  have h10 : (10 : Rat) ^ (-12 : Int) = 1 / 1000000000000 := by decide +kernel
  rw [h10]
  have h2 := gap_scale (t := 1 / 1000000000000) (by decide +kernel) (y * 1000000000000) (k : Rat)
  rw [show y * 1000000000000 * (1 / 1000000000000) = y by grind] at h2
  have h3 : gap y ((k : Rat) * (1 / 1000000000000)) ≤ 1 / 2000000000000 := by rw [h2]; grind
  generalize (k : Rat) * (1 / 1000000000000) = w at *
  apply Decidable.byContradiction
  intro hne
  have n := single_nearest (x := w) hy
  have hv := single_digits w
  generalize single w = v at *
  have hg : gap y v ≤ 1 / 1000000000000 := by
    have := gap_triangle y w v
    rw [gap_comm w y] at n
    grind
  by_cases hlt : y < v
  · have := digits24_apart hy hv (by grind) hlt
    unfold gap at hg
    grind
  · have := digits24_apart hv hy (by unfold gap at hg; grind) (by grind)
    unfold gap at hg
    grind

theorem ten_pow_le (j : Int) (h : -12 ≤ j) (m : Nat) : ∃ K : Int, (m : Rat) * (10 : Rat) ^ j = (K : Rat) / 1000000000000 := by
  obtain ⟨n, hn⟩ := Int.le.dest h
  refine ⟨(m * 10 ^ n : Nat), ?_⟩
  rw [← hn, Rat.zpow_add (by decide), Rat.zpow_natCast, show (10 : Rat) ^ (-12 : Int) = 1 / 1000000000000 by decide +kernel,
    Rat.intCast_natCast, Rat.natCast_mul, Rat.natCast_pow, show ((10 : Nat) : Rat) = 10 from rfl]
  grind

theorem double_neg (x : Rat) : double (-x) = -double x := by
  unfold double
  by_cases h : x = 0
  · rw [h]; decide +kernel
  · rw [if_neg (by grind), if_neg h, lastPlace_neg, Rat.div_def, Rat.neg_mul, nearestEven_neg, Rat.intCast_neg, ← Rat.div_def,
      Rat.neg_mul]

/-- The digits of a number. -/
theorem shortestNumber_spec {x : Rat} (hx : Digits24 x) (h0 : x ≠ 0) : ∃ (m : Nat) (j : Int),
    shortestText x = (if x < 0 then ['-'] else []) ++ scaledText m j ∧
    shortestNumber x = (if x < 0 then -((m : Rat) * (10 : Rat) ^ j) else (m : Rat) * (10 : Rat) ^ j) ∧
    single ((m : Rat) * (10 : Rat) ^ j) = gap 0 x ∧ ∀ (k i : Int), single ((k : Rat) * (10 : Rat) ^ i) = gap 0 x → i ≤ j := by
  have hg := gap_zero x
  have hy : 0 < gap 0 x := by rw [hg]; grind
  have hd : Digits24 (gap 0 x) := by
    rw [hg]
    split
    · obtain ⟨m, e, h1, h2⟩ := hx
      exact ⟨-m, e, by omega, by rw [Rat.intCast_neg, h2]; grind⟩
    · exact hx
  rw [shortestText, if_neg h0, shortestNumber, if_neg h0]
  dsimp only
  rw [← hg]
  generalize gap 0 x = y at *
  have hs : (firstSame y ((Nat.toDigits 10 y.num.natAbs).length + y.den.log2 + 1)
      ((Nat.toDigits 10 y.num.natAbs).length : Int)).isSome :=
    firstSame_isSome (sameAt_last hd) (by omega) (by omega)
  obtain ⟨⟨m, j⟩, hm⟩ := Option.isSome_iff_exists.1 hs
  obtain ⟨h1, h2, h3⟩ := firstSame_some hm
  refine ⟨m, j, by rw [hm], by rw [hm], sameAt_some hy h1, fun k i hk => ?_⟩
  apply Decidable.byContradiction
  intro hc
  by_cases hi : i ≤ ((Nat.toDigits 10 y.num.natAbs).length : Int)
  · exact sameAt_none (single_of_digits hd) (h3 i (by omega) hi) k hk
  · exact sameAt_top hy hd (by omega) k hk

/-- The numbers that modules measure: zero, or of a middling size. -/
def Measured (x : Rat) : Prop := Digits24 x ∧ (x = 0 ∨ (1 / 32768 ≤ gap 0 x ∧ gap 0 x < 1024))

/-- Such a number is read from JSON as it was written. -/
theorem toF32_ofF32 {x : Rat} (h : Measured x) : Json.toF32 (Json.ofF32 x) = some x := by
  unfold Json.ofF32 Json.toF32
  dsimp only
  congr 1
  obtain ⟨hx, rfl | ⟨h1, h2⟩⟩ := h
  · decide +kernel
  · have h0 : x ≠ 0 := by
      intro h; rw [h, gap_self] at h1; revert h1; decide +kernel
    obtain ⟨m, j, -, hn, hs, hmax⟩ := shortestNumber_spec hx h0
    have hg := gap_zero x
    have hd : Digits24 (gap 0 x) := by
      rw [← hs]; exact single_digits _
    obtain ⟨k, hk⟩ := twelve_places hd h1
    obtain ⟨K, hK⟩ := ten_pow_le j (hmax k (-12) hk) m
    have := single_double hd (by grind) h2 hK hs
    rw [hn]
    split
    · next hneg =>
      rw [double_neg, single_neg, this, hg, if_pos hneg]
      grind
    · next hneg => rw [this, hg, if_neg hneg]

end Xcvr
