import Verif.Lemmas.F32

namespace Xcvr

open Spec

/-! ## Digits and a point -/

theorem isDigit_zero : Char.isDigit '0' = true := by decide

theorem paddedDigits (k m : Nat) : ∃ ds : List Char,
    ds = List.replicate (k + 1 - (Nat.toDigits 10 m).length) '0' ++ Nat.toDigits 10 m ∧ k < ds.length ∧
    (∀ c ∈ ds, c.isDigit = true) ∧ Nat.ofDigitChars 10 ds 0 = m := by
  refine ⟨_, rfl, ?_, ?_, ?_⟩
  · simp only [List.length_append, List.length_replicate]; omega
  · intro c hc
    rcases List.mem_append.1 hc with hc | hc
    · rw [List.eq_of_mem_replicate hc]; rfl
    · exact Nat.isDigit_of_mem_toDigits (by decide) (by decide) hc
  · rw [Nat.ofDigitChars_append, Nat.ofDigitChars_replicate_zero, Nat.mul_zero]
    exact Nat.ofDigitChars_toDigits (by decide) (by decide)

theorem readUnsigned_digits {ds : List Char} (h1 : ds ≠ []) (h2 : ∀ c ∈ ds, c.isDigit = true) :
    readUnsigned ds = some (Nat.ofDigitChars 10 ds 0 : Rat) := by
  have ha : ∀ c ∈ ds, (c != '.') = true := by
    intro c hc
    have := h2 c hc
    rw [bne_iff_ne]
    rintro rfl
    exact absurd this (by decide)
  have hd : ds.takeWhile (· != '.') = ds := by
    have := List.takeWhile_append_of_pos (l₂ := []) ha
    simpa using this
  have hr : ds.dropWhile (· != '.') = [] := by
    have := List.dropWhile_append_of_pos (l₂ := []) ha
    simpa using this
  unfold readUnsigned
  simp only [hd, hr, List.drop_nil, List.append_nil, List.length_nil]
  rw [if_pos ⟨h1, List.all_eq_true.2 h2⟩, Rat.pow_zero, Rat.div_def]
  congr 1
  rw [show (1 : Rat)⁻¹ = 1 by decide +kernel, Rat.mul_one]

theorem readUnsigned_point {w r : List Char} (h1 : w ≠ []) (h2 : ∀ c ∈ w ++ r, c.isDigit = true) :
    readUnsigned (w ++ '.' :: r) = some ((Nat.ofDigitChars 10 (w ++ r) 0 : Rat) / 10 ^ r.length) := by
  have ha : ∀ c ∈ w, (c != '.') = true := by
    intro c hc
    have := h2 c (List.mem_append_left _ hc)
    rw [bne_iff_ne]
    rintro rfl
    exact absurd this (by decide)
  have hd : (w ++ '.' :: r).takeWhile (· != '.') = w := by
    rw [List.takeWhile_append_of_pos ha]; simp
  have hr : (w ++ '.' :: r).dropWhile (· != '.') = '.' :: r := by
    rw [List.dropWhile_append_of_pos ha]; simp
  unfold readUnsigned
  simp only [hd, hr, List.drop_succ_cons, List.drop_zero]
  rw [if_pos ⟨h1, List.all_eq_true.2 h2⟩]

theorem readUnsigned_pointed (k m : Nat) : readUnsigned (pointed k m) = some ((m : Rat) / 10 ^ k) := by
  obtain ⟨ds, hds, hlen, hdig, hval⟩ := paddedDigits k m
  unfold pointed
  dsimp only
  rw [← hds]
  split
  · next hk =>
    rw [readUnsigned_digits (by rintro rfl; simp at hlen) hdig, hval, hk, Rat.pow_zero, Rat.div_def,
      show (1 : Rat)⁻¹ = 1 by decide +kernel, Rat.mul_one]
  · rw [readUnsigned_point]
    · rw [List.take_append_drop, hval, List.length_drop, show ds.length - (ds.length - k) = k by omega]
    · intro h
      have := congrArg List.length h
      simp only [List.length_take, List.length_nil] at this
      omega
    · rw [List.take_append_drop]; exact hdig

/-- What a text with a point consists of. -/
theorem pointed_chars (k m : Nat) : pointed k m ≠ [] ∧ ∀ c ∈ pointed k m, c.isDigit = true ∨ c = '.' := by
  obtain ⟨ds, hds, hlen, hdig, hval⟩ := paddedDigits k m
  unfold pointed
  dsimp only
  rw [← hds]
  split
  · exact ⟨by rintro rfl; simp at hlen, fun c hc => Or.inl (hdig c hc)⟩
  · refine ⟨by simp, fun c hc => ?_⟩
    rcases List.mem_append.1 hc with hc | hc
    · exact Or.inl (hdig c (List.mem_of_mem_take hc))
    · rcases List.mem_cons.1 hc with rfl | hc
      · exact Or.inr rfl
      · exact Or.inl (hdig c (List.mem_of_mem_drop hc))

theorem readNumber_unsigned {t : List Char} (h : ∀ c ∈ t, c.isDigit = true ∨ c = '.') : readNumber t = readUnsigned t := by
  unfold readNumber
  split
  · next r =>
    have := h '-' (by simp)
    exact absurd this (by decide)
  · rfl

theorem readNumber_neg (t : List Char) : readNumber ('-' :: t) = (readUnsigned t).map (- ·) := rfl

/-! ## The shortest text -/

theorem ten_pos (j : Int) : (0 : Rat) < (10 : Rat) ^ j := Rat.zpow_pos (by decide)

theorem scaled_read (m : Nat) (j : Int) : readUnsigned (scaledText m j) = some ((m : Rat) * (10 : Rat) ^ j) ∧
    scaledText m j ≠ [] ∧ ∀ c ∈ scaledText m j, c.isDigit = true ∨ c = '.' := by
  unfold scaledText
  split
  · next h =>
    have hd : ∀ c ∈ Nat.toDigits 10 m ++ List.replicate j.toNat '0', c.isDigit = true := by
      intro c hc
      rcases List.mem_append.1 hc with hc | hc
      · exact Nat.isDigit_of_mem_toDigits (by decide) (by decide) hc
      · rw [List.eq_of_mem_replicate hc]; rfl
    have hn : Nat.toDigits 10 m ++ List.replicate j.toNat '0' ≠ [] := by
      intro h; exact Nat.toDigits_ne_nil (List.append_eq_nil_iff.1 h).1
    refine ⟨?_, hn, fun c hc => Or.inl (hd c hc)⟩
    rw [readUnsigned_digits hn hd, Nat.ofDigitChars_append, Nat.ofDigitChars_replicate_zero,
      Nat.ofDigitChars_toDigits (by decide) (by decide)]
    obtain ⟨n, rfl⟩ := Int.eq_ofNat_of_zero_le h
    rw [Rat.zpow_natCast, Int.toNat_natCast, Rat.natCast_mul, Rat.mul_comm, Rat.natCast_pow]
    rfl
  · next h =>
    obtain ⟨n, hn⟩ : ∃ n : Nat, j = -(n : Int) := ⟨(-j).toNat, by omega⟩
    refine ⟨?_, pointed_chars _ _⟩
    rw [readUnsigned_pointed, hn, Rat.zpow_neg, Rat.zpow_natCast, Int.neg_neg, Int.toNat_natCast, Rat.div_def]

theorem sameAt_some {x : Rat} (hx : 0 < x) {j : Int} {m : Nat} (h : sameAt x j = some m) : single ((m : Rat) * (10 : Rat) ^ j) = x := by
  have hq : 0 ≤ (x / (10 : Rat) ^ j).floor := by
    rw [Rat.le_floor_iff, show ((0 : Int) : Rat) = 0 from rfl, Rat.div_def]
    exact Rat.mul_nonneg (Rat.le_of_lt hx) (Rat.le_of_lt (Rat.inv_pos.2 (ten_pos j)))
  have hcast (q : Int) (h : 0 ≤ q) : ((q.natAbs : Nat) : Rat) = (q : Rat) := by
    rw [← Rat.intCast_natCast, show ((q.natAbs : Nat) : Int) = q by omega]
  unfold sameAt at h
  dsimp only at h
  split at h
  · next hc =>
    cases h
    rw [hcast _ (by omega)]
    simp only [Bool.and_eq_true, beq_iff_eq] at hc
    exact hc.1
  · split at h
    · next hc =>
      cases h
      rw [hcast _ hq]
      simpa using hc
    · cases h

theorem sameAt_none {x : Rat} (hx : single x = x) {j : Int} (h : sameAt x j = none) (k : Int) :
    single ((k : Rat) * (10 : Rat) ^ j) ≠ x := by
  intro hk
  have hT := ten_pos j
  have h1 := Rat.floor_le (x / (10 : Rat) ^ j)
  have h2 := Rat.lt_floor_add_one (x / (10 : Rat) ^ j)
  have hc : x / (10 : Rat) ^ j * (10 : Rat) ^ j = x := Rat.div_mul_cancel (by grind)
  unfold sameAt at h
  dsimp only at h
  generalize (x / (10 : Rat) ^ j).floor = q at *
  generalize hs : x / (10 : Rat) ^ j = s at *
  generalize (10 : Rat) ^ j = T at *
  have hle : single ((q : Rat) * T) ≤ x := by
    have := single_mono (Rat.mul_le_mul_of_nonneg_right h1 (Rat.le_of_lt hT))
    rwa [hc, hx] at this
  have hge : x ≤ single (((q + 1 : Int) : Rat) * T) := by
    have := single_mono (Rat.mul_le_mul_of_nonneg_right (Rat.le_of_lt h2) (Rat.le_of_lt hT))
    rwa [hc, hx] at this
  have key : single ((q : Rat) * T) = x ∨ single (((q + 1 : Int) : Rat) * T) = x := by
    by_cases hkq : k ≤ q
    · left
      have := single_mono (Rat.mul_le_mul_of_nonneg_right (Rat.intCast_le_intCast.2 hkq) (Rat.le_of_lt hT))
      rw [hk] at this
      exact Rat.le_antisymm hle this
    · right
      have := single_mono (Rat.mul_le_mul_of_nonneg_right (Rat.intCast_le_intCast.2 (show q + 1 ≤ k by omega)) (Rat.le_of_lt hT))
      rw [hk] at this
      exact Rat.le_antisymm this hge
  split at h
  · cases h
  · next hn =>
    split at h
    · cases h
    · next hn2 =>
      rcases key with key | key
      · exact hn2 (by simpa using key)
      · apply hn
        have h3 : (single ((q : Rat) * T) == x) = false := by simpa using hn2
        rw [key, h3]
        simp

theorem firstSame_some {x : Rat} {fuel : Nat} {j i : Int} {m : Nat} (h : firstSame x fuel j = some (m, i)) :
    sameAt x i = some m ∧ i ≤ j ∧ ∀ i', i < i' → i' ≤ j → sameAt x i' = none := by
  induction fuel generalizing j with
  | zero => cases h
  | succ n ih =>
    rw [firstSame] at h
    split at h
    · next hm =>
      cases h
      exact ⟨hm, Int.le_refl _, fun i' h1 h2 => by omega⟩
    · next hm =>
      obtain ⟨h1, h2, h3⟩ := ih h
      refine ⟨h1, by omega, fun i' h4 h5 => ?_⟩
      by_cases hi : i' = j
      · rw [hi]; exact hm
      · exact h3 i' h4 (by omega)

theorem firstSame_isSome {x : Rat} {fuel : Nat} {j i : Int} (h1 : (sameAt x i).isSome) (h2 : i ≤ j) (h3 : j - i < fuel) :
    (firstSame x fuel j).isSome := by
  induction fuel generalizing j with
  | zero => omega
  | succ n ih =>
    rw [firstSame]
    split
    · rfl
    · next hm =>
      by_cases hi : i = j
      · rw [hi, hm] at h1; cases h1
      · exact ih (by omega) (by omega)

theorem dvd_two_pow {d n : Nat} (h : d ∣ 2 ^ n) : ∃ k, d = 2 ^ k := by
  induction n generalizing d with
  | zero => exact ⟨0, Nat.dvd_one.1 h⟩
  | succ n ih =>
    by_cases h2 : 2 ∣ d
    · obtain ⟨c, rfl⟩ := h2
      rw [Nat.pow_succ, Nat.mul_comm] at h
      obtain ⟨k, rfl⟩ := ih (Nat.dvd_of_mul_dvd_mul_right (by decide) h)
      exact ⟨k + 1, by rw [Nat.pow_succ, Nat.mul_comm]⟩
    · refine ih (Nat.Coprime.dvd_of_dvd_mul_right ?_ (by rw [Nat.pow_succ] at h; exact h))
      have h1 : Nat.gcd d 2 ∣ 2 := Nat.gcd_dvd_right d 2
      have h3 : Nat.gcd d 2 ≤ 2 := Nat.le_of_dvd (by decide) h1
      have h4 : Nat.gcd d 2 ≠ 2 := fun h => h2 (h ▸ Nat.gcd_dvd_left d 2)
      have h5 : Nat.gcd d 2 ≠ 0 := fun h => by rw [h] at h1; exact absurd h1 (by decide)
      show Nat.gcd d 2 = 1
      omega

theorem mul_den (x : Rat) : x * (x.den : Rat) = (x.num : Rat) := by
  have h1 : x = (x.num : Rat) / (x.den : Rat) := by rw [← Rat.mkRat_eq_div, Rat.mkRat_self]
  have h2 : (x.den : Rat) ≠ 0 := fun h => x.den_nz (Rat.natCast_eq_zero_iff.1 h)
  have h3 := Rat.div_mul_cancel (a := x.num) h2
  rwa [← h1] at h3

/-- The denominator of a number with 24 binary digits is a power of two. -/
theorem digits24_den {x : Rat} (h : Digits24 x) : x.den = 2 ^ x.den.log2 := by
  obtain ⟨m, e, -, hx⟩ := h
  obtain ⟨n, K, hK⟩ : ∃ (n : Nat) (K : Int), x * ((2 ^ n : Nat) : Rat) = (K : Rat) := by
    by_cases he : 0 ≤ e
    · obtain ⟨k, rfl⟩ := Int.eq_ofNat_of_zero_le he
      refine ⟨0, m * (2 ^ k : Nat), ?_⟩
      rw [hx, two_nat, Rat.intCast_mul, Rat.intCast_natCast]
      simp
    · refine ⟨(-e).toNat, m, ?_⟩
      rw [hx, ← two_nat, Rat.mul_assoc, ← two_add, show e + ((-e).toNat : Int) = 0 by omega]
      simp
  have h1 : ((x.num * (2 ^ n : Nat) : Int) : Rat) = ((K * (x.den : Int) : Int) : Rat) := by
    rw [Rat.intCast_mul, Rat.intCast_mul, ← mul_den x, ← hK, Rat.intCast_natCast, Rat.intCast_natCast]
    grind
  have h2 := Rat.intCast_inj.1 h1
  have h3 : x.num.natAbs * 2 ^ n = K.natAbs * x.den := by
    have := congrArg Int.natAbs h2
    rwa [Int.natAbs_mul, Int.natAbs_mul, Int.natAbs_natCast, Int.natAbs_natCast] at this
  have h4 : x.den ∣ 2 ^ n := by
    refine Nat.Coprime.dvd_of_dvd_mul_left (Nat.Coprime.symm x.reduced) ⟨K.natAbs, ?_⟩
    rw [h3, Nat.mul_comm]
  obtain ⟨k, hk⟩ := dvd_two_pow h4
  rw [hk, Nat.log2_two_pow]

/-- The place of the last decimal of a number with 24 binary digits. -/
theorem sameAt_last {y : Rat} (h : Digits24 y) : (sameAt y (-(y.den.log2 : Int))).isSome := by
  rw [Option.isSome_iff_ne_none]
  intro hn
  have h1 := single_of_digits h
  apply sameAt_none h1 hn (y.num * (5 ^ y.den.log2 : Nat))
  have hd := digits24_den h
  have hm := mul_den y
  generalize y.den.log2 = L at *
  rw [hd] at hm
  have h2 : ((y.num * (5 ^ L : Nat) : Int) : Rat) * (10 : Rat) ^ (-(L : Int)) = y := by
    rw [Rat.zpow_neg, Rat.zpow_natCast, ← Rat.div_def]
    have hT : (0 : Rat) < (10 : Rat) ^ L := Rat.zpow_natCast 10 L ▸ ten_pos L
    have h3 : ((y.num * (5 ^ L : Nat) : Int) : Rat) = y * (10 : Rat) ^ L := by
      rw [Rat.intCast_mul, ← hm, Rat.intCast_natCast, Rat.mul_assoc, ← Rat.natCast_mul, ← Nat.mul_pow, Rat.natCast_pow]
      rfl
    rw [h3, Rat.div_def, Rat.mul_assoc, Rat.mul_inv_cancel _ (by grind), Rat.mul_one]
  rw [h2, h1]

/-- Above the first place of the search every multiple is told from `y`. -/
theorem sameAt_top {y : Rat} (hy : 0 < y) (h : Digits24 y) {i : Int}
    (hi : ((Nat.toDigits 10 y.num.natAbs).length : Int) < i) (k : Int) : single ((k : Rat) * (10 : Rat) ^ i) ≠ y := by
  intro hk
  have hT := ten_pos i
  by_cases hk0 : k ≤ 0
  · have h1 : (k : Rat) * (10 : Rat) ^ i ≤ 0 := by
      have := Rat.mul_le_mul_of_nonneg_right (Rat.intCast_le_intCast.2 hk0) (Rat.le_of_lt hT)
      rw [show ((0 : Int) : Rat) = 0 from rfl, Rat.zero_mul] at this
      exact this
    have h2 := single_mono h1
    rw [hk, single_zero] at h2
    grind
  · generalize ht : (Nat.toDigits 10 y.num.natAbs).length = t at *
    have h1 : y.num.natAbs < 10 ^ t := by
      have h0 : 0 < t := by rw [← ht]; exact Nat.length_toDigits_pos
      exact (Nat.length_toDigits_le_iff (by decide) h0).1 (Nat.le_of_eq ht)
    have h2 : y < (10 : Rat) ^ (t : Int) := by
      rw [Rat.zpow_natCast]
      have h3 := natAbs_rat y
      rw [gap_zero, if_neg (by grind)] at h3
      have h4 : ((y.num.natAbs : Nat) : Rat) < ((10 ^ t : Nat) : Rat) := Rat.natCast_lt_natCast.2 h1
      rw [Rat.natCast_pow, show ((10 : Nat) : Rat) = 10 from rfl] at h4
      have h5 : ((1 : Nat) : Rat) ≤ (y.den : Rat) := Rat.natCast_le_natCast.2 (Nat.pos_of_ne_zero y.den_nz)
      have h6 := Rat.mul_le_mul_of_nonneg_left h5 (Rat.le_of_lt hy)
      grind
    have h3 : (10 : Rat) ^ (t : Int) * 2 ≤ (10 : Rat) ^ i := by
      obtain ⟨n, hn⟩ := Int.le.dest (show (t : Int) + 1 ≤ i by omega)
      rw [← hn, Rat.zpow_add (by decide), Rat.zpow_add_one (by decide), Rat.zpow_natCast 10 n]
      have h4 := ten_pos t
      have h5 : (1 : Rat) ≤ (10 : Rat) ^ n := by
        have : ((1 : Nat) : Rat) ≤ ((10 ^ n : Nat) : Rat) := Rat.natCast_le_natCast.2 (Nat.one_le_pow _ _ (by decide))
        rwa [Rat.natCast_pow] at this
      have h6 := Rat.mul_le_mul_of_nonneg_left h5 (Rat.le_of_lt h4)
      grind
    have h4 : y * 2 ≤ (k : Rat) * (10 : Rat) ^ i := by
      have h5 : ((1 : Int) : Rat) ≤ (k : Rat) := Rat.intCast_le_intCast.2 (by omega)
      have h6 := Rat.mul_le_mul_of_nonneg_right h5 (Rat.le_of_lt hT)
      rw [show ((1 : Int) : Rat) = 1 from rfl] at h6
      grind
    have h5 := single_mono h4
    have h6 := digits24_scale h 1
    rw [Rat.zpow_one] at h6
    rw [hk, single_of_digits h6] at h5
    grind

/-- What the shortest text of a number consists of. -/
theorem shortest_spec {x : Rat} (hx : Digits24 x) (h0 : x ≠ 0) : ∃ (m : Nat) (j : Int),
    shortestText x = (if x < 0 then ['-'] else []) ++ scaledText m j ∧ single ((m : Rat) * (10 : Rat) ^ j) = gap 0 x ∧
    ∀ (k i : Int), single ((k : Rat) * (10 : Rat) ^ i) = gap 0 x → i ≤ j := by
  have hg := gap_zero x
  have hy : 0 < gap 0 x := by rw [hg]; grind
  have hd : Digits24 (gap 0 x) := by
    rw [hg]
    split
    · obtain ⟨m, e, h1, h2⟩ := hx
      exact ⟨-m, e, by omega, by rw [Rat.intCast_neg, h2]; grind⟩
    · exact hx
  rw [shortestText, if_neg h0]
  dsimp only
  rw [← hg]
  generalize gap 0 x = y at *
  have hs : (firstSame y ((Nat.toDigits 10 y.num.natAbs).length + y.den.log2 + 1)
      ((Nat.toDigits 10 y.num.natAbs).length : Int)).isSome :=
    firstSame_isSome (sameAt_last hd) (by omega) (by omega)
  obtain ⟨⟨m, j⟩, hm⟩ := Option.isSome_iff_exists.1 hs
  obtain ⟨h1, h2, h3⟩ := firstSame_some hm
  refine ⟨m, j, by rw [hm], sameAt_some hy h1, fun k i hk => ?_⟩
  apply Decidable.byContradiction
  intro hc
  by_cases hi : i ≤ ((Nat.toDigits 10 y.num.natAbs).length : Int)
  · exact sameAt_none (single_of_digits hd) (h3 i (by omega) hi) k hk
  · exact sameAt_top hy hd (by omega) k hk

/-- Numbers are written with digits, a point and a minus sign only. -/
theorem numberText_chars (x : Rat) :
    (∀ c ∈ shortestText x, c.isDigit = true ∨ c = '.' ∨ c = '-') ∧
    ∀ k, ∀ c ∈ fixedText k x, c.isDigit = true ∨ c = '.' ∨ c = '-' := by
  have hsign (c : Char) (h : c ∈ if x < 0 then ['-'] else []) : c = '-' := by
    split at h
    · simpa using h
    · simp at h
  constructor
  · intro c hc
    unfold shortestText at hc
    split at hc
    · rw [List.mem_singleton.1 hc]; exact Or.inl rfl
    · dsimp only at hc
      rcases List.mem_append.1 hc with hc | hc
      · exact Or.inr (Or.inr (hsign c hc))
      · split at hc
        · rcases (scaled_read _ _).2.2 c hc with h | h
          · exact Or.inl h
          · exact Or.inr (Or.inl h)
        · simp at hc
  · intro k c hc
    unfold fixedText at hc
    rcases List.mem_append.1 hc with hc | hc
    · exact Or.inr (Or.inr (hsign c hc))
    · rcases (pointed_chars _ _).2 c hc with h | h
      · exact Or.inl h
      · exact Or.inr (Or.inl h)

end Xcvr
