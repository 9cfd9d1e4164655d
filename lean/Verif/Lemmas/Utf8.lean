import Verif.Lemmas.Decode

/-! # Lemmas about UTF-8 and trimming -/

namespace Xcvr

open Spec

theorem charOfNat_toNat {n : Nat} (h : n.isValidChar) : (Char.ofNat n).toNat = n := by
  simp [Char.ofNat, h, Char.toNat, Char.ofNatAux]

theorem charOfNat_of_toNat (c : Char) : Char.ofNat c.toNat = c := by
  simp

theorem utf8Encode_of_lt {n : Nat} (h : n < 0x80) : utf8Encode (Char.ofNat n) = [BitVec.ofNat 8 n] := by
  have hv : n.isValidChar := Or.inl (by omega)
  rw [utf8Encode, charOfNat_toNat hv]
  simp [h]

theorem utf8Encode_two {n : Nat} (h : 0x80 ≤ n) (h' : n < 0x800) :
    utf8Encode (Char.ofNat n) = [BitVec.ofNat 8 (0xc0 + n / 64), BitVec.ofNat 8 (0x80 + n % 64)] := by
  have hv : n.isValidChar := Or.inl (by omega)
  rw [utf8Encode, charOfNat_toNat hv]
  have : ¬ n < 0x80 := by omega
  simp only [this, h', if_true, if_false]

theorem utf8Encode_three {n : Nat} (hv : n.isValidChar) (h : 0x800 ≤ n) (h' : n < 0x10000) :
    utf8Encode (Char.ofNat n) =
      [BitVec.ofNat 8 (0xe0 + n / 4096), BitVec.ofNat 8 (0x80 + n / 64 % 64), BitVec.ofNat 8 (0x80 + n % 64)] := by
  rw [utf8Encode, charOfNat_toNat hv]
  have h1 : ¬ n < 0x80 := by omega
  have h2 : ¬ n < 0x800 := by omega
  simp only [h1, h2, h', if_true, if_false]

theorem utf8Encode_four {n : Nat} (hv : n.isValidChar) (h : 0x10000 ≤ n) :
    utf8Encode (Char.ofNat n) =
      [BitVec.ofNat 8 (0xf0 + n / 262144), BitVec.ofNat 8 (0x80 + n / 4096 % 64), BitVec.ofNat 8 (0x80 + n / 64 % 64),
       BitVec.ofNat 8 (0x80 + n % 64)] := by
  rw [utf8Encode, charOfNat_toNat hv]
  have h1 : ¬ n < 0x80 := by omega
  have h2 : ¬ n < 0x800 := by omega
  have h3 : ¬ n < 0x10000 := by omega
  simp only [h1, h2, h3, if_false]

theorem ofNat_eq_of_toNat {a : U8} {n : Nat} (h : a.toNat = n) : BitVec.ofNat 8 n = a := by
  subst h; simp

theorem isCont_iff (b : U8) : isCont b = true ↔ 128 ≤ b.toNat ∧ b.toNat ≤ 191 := by
  simp [isCont, BitVec.le_def]

theorem utf8Next_sound {b r : Bytes} {c : Char} (h : utf8Next b = some (c, r)) : b = utf8Encode c ++ r := by
  unfold utf8Next at h
  split at h
  · cases h
  · rename_i a r0
    have ha := a.isLt
    split at h
    · rename_i h1
      rw [BitVec.lt_def] at h1
      simp only [Option.some.injEq, Prod.mk.injEq] at h
      obtain ⟨rfl, rfl⟩ := h
      have h1 : a.toNat < 128 := h1
      rw [utf8Encode_of_lt h1]; simp
    · split at h
      · rename_i h1 h2
        simp only [Bool.and_eq_true, decide_eq_true_eq, BitVec.le_def] at h2
        have h21 : 0xc2 ≤ a.toNat := h2.1
        have h22 : a.toNat ≤ 0xdf := h2.2
        split at h
        · rename_i b r1
          split at h
          · rename_i hb
            rw [isCont_iff] at hb
            simp only [Option.some.injEq, Prod.mk.injEq] at h
            obtain ⟨rfl, rfl⟩ := h
            unfold contBits
            rw [utf8Encode_two (by omega) (by omega)]
            simp only [List.cons_append, List.nil_append]
            rw [ofNat_eq_of_toNat (a := a) (by omega), ofNat_eq_of_toNat (a := b) (by omega)]
          · cases h
        · cases h
      · split at h
        · rename_i h1 h2 h3
          simp only [Bool.and_eq_true, decide_eq_true_eq, BitVec.le_def] at h3
          have h31 : 0xe0 ≤ a.toNat := h3.1
          have h32 : a.toNat ≤ 0xef := h3.2
          split at h
          · rename_i b d r1
            split at h
            · rename_i hb
              simp only [Bool.and_eq_true, Bool.or_eq_true, decide_eq_true_eq, BitVec.le_def, isCont_iff, beq_iff_eq,
                ← BitVec.toNat_inj, BitVec.toNat_ofNat, BitVec.reduceToNat] at hb
              simp only [Option.some.injEq, Prod.mk.injEq] at h
              obtain ⟨rfl, rfl⟩ := h
              unfold contBits
              obtain ⟨hb, hd⟩ := hb
              have e := hb
              rw [utf8Encode_three (by unfold Nat.isValidChar; omega) (by omega) (by omega)]
              simp only [List.cons_append, List.nil_append]
              rw [ofNat_eq_of_toNat (a := a) (by omega), ofNat_eq_of_toNat (a := b) (by omega),
                ofNat_eq_of_toNat (a := d) (by omega)]
            · cases h
          · cases h
        · split at h
          · rename_i h1 h2 h3 h4
            simp only [Bool.and_eq_true, decide_eq_true_eq, BitVec.le_def] at h4
            have h41 : 0xf0 ≤ a.toNat := h4.1
            have h42 : a.toNat ≤ 0xf4 := h4.2
            split at h
            · rename_i b d e r1
              split at h
              · rename_i hb
                simp only [Bool.and_eq_true, Bool.or_eq_true, decide_eq_true_eq, BitVec.le_def, isCont_iff, beq_iff_eq,
                  ← BitVec.toNat_inj, BitVec.toNat_ofNat, BitVec.reduceToNat] at hb
                simp only [Option.some.injEq, Prod.mk.injEq] at h
                obtain ⟨rfl, rfl⟩ := h
                unfold contBits
                obtain ⟨⟨hb, hd⟩, he⟩ := hb
                rw [utf8Encode_four (by unfold Nat.isValidChar; omega) (by omega)]
                simp only [List.cons_append, List.nil_append]
                rw [ofNat_eq_of_toNat (a := a) (by omega), ofNat_eq_of_toNat (a := b) (by omega),
                  ofNat_eq_of_toNat (a := d) (by omega), ofNat_eq_of_toNat (a := e) (by omega)]
              · cases h
            · cases h
          · cases h

theorem utf8Next_complete (c : Char) (r : Bytes) : utf8Next (utf8Encode c ++ r) = some (c, r) := by
  have hv : c.toNat.isValidChar := c.valid
  have hc := charOfNat_of_toNat c
  generalize c.toNat = n at *
  subst hc
  have hv' := hv
  unfold Nat.isValidChar at hv'
  by_cases h1 : n < 0x80
  · rw [utf8Encode_of_lt h1]
    simp only [List.cons_append, List.nil_append, utf8Next, BitVec.lt_def, BitVec.toNat_ofNat, BitVec.reduceToNat]
    rw [if_pos (by omega), Nat.mod_eq_of_lt (by omega)]
  by_cases h2 : n < 0x800
  · rw [utf8Encode_two (by omega) h2]
    simp only [List.cons_append, List.nil_append, utf8Next, BitVec.lt_def, BitVec.le_def, BitVec.toNat_ofNat,
      BitVec.reduceToNat, isCont, contBits, Bool.and_eq_true, decide_eq_true_eq]
    rw [if_neg (by omega), if_pos (by omega), if_pos (by omega)]
    congr 3; omega
  by_cases h3 : n < 0x10000
  · rw [utf8Encode_three hv (by omega) h3]
    simp only [List.cons_append, List.nil_append, utf8Next, BitVec.lt_def, BitVec.le_def, BitVec.toNat_ofNat,
      BitVec.reduceToNat, isCont, contBits, Bool.and_eq_true, Bool.or_eq_true, decide_eq_true_eq, beq_iff_eq,
      ← BitVec.toNat_inj]
    rw [if_neg (by omega), if_neg (by omega), if_pos (by omega), if_pos (by omega)]
    congr 3; omega
  · rw [utf8Encode_four hv (by omega)]
    simp only [List.cons_append, List.nil_append, utf8Next, BitVec.lt_def, BitVec.le_def, BitVec.toNat_ofNat,
      BitVec.reduceToNat, isCont, contBits, Bool.and_eq_true, Bool.or_eq_true, decide_eq_true_eq, beq_iff_eq,
      ← BitVec.toNat_inj]
    rw [if_neg (by omega), if_neg (by omega), if_neg (by omega), if_pos (by omega), if_pos (by omega)]
    congr 3; omega

theorem utf8Encode_ne_nil (c : Char) : utf8Encode c ≠ [] := by
  unfold utf8Encode; simp only; split <;> (try split) <;> (try split) <;> simp

theorem utf8Next_none {b : Bytes} (h : utf8Next b = none) (c : Char) (r : Bytes) : b ≠ utf8Encode c ++ r := by
  rintro rfl; rw [utf8Next_complete] at h; cases h

theorem utf8Loop_spec (n : Nat) : ∀ b : Bytes, b.length ≤ n →
    b = (utf8Loop n b).1.flatMap utf8Encode ++ (utf8Loop n b).2 ∧ ∀ c r, (utf8Loop n b).2 ≠ utf8Encode c ++ r := by
  induction n with
  | zero =>
    intro b hb
    have : b = [] := List.length_eq_zero_iff.mp (by omega)
    subst this
    refine ⟨rfl, fun c r h => ?_⟩
    exact utf8Encode_ne_nil c (List.append_eq_nil_iff.mp h.symm).1
  | succ n ih =>
    intro b hb
    rw [utf8Loop]
    cases hn : utf8Next b with
    | none => exact ⟨rfl, utf8Next_none hn⟩
    | some cr =>
      obtain ⟨c, r⟩ := cr
      have hs := utf8Next_sound hn
      have hl : r.length ≤ n := by
        have : 0 < (utf8Encode c).length := List.length_pos_iff.mpr (utf8Encode_ne_nil c)
        rw [hs, List.length_append] at hb; omega
      obtain ⟨i1, i2⟩ := ih r hl
      refine ⟨?_, i2⟩
      simp only [List.flatMap_cons, List.append_assoc]
      rw [← i1]; exact hs

/-- The text at the start of some bytes is unique. -/
theorem textPrefix_unique {s : List Char} : ∀ {t : List Char} {b : Bytes}, TextPrefix b s → TextPrefix b t → s = t := by
  induction s with
  | nil =>
    rintro t b ⟨r, h1, h2⟩ ⟨r', h1', h2'⟩
    cases t with
    | nil => rfl
    | cons c t => exact absurd (by rw [List.flatMap_nil, List.nil_append] at h1; rw [← h1, h1', List.flatMap_cons, List.append_assoc]) (h2 c _)
  | cons c s ih =>
    rintro t b ⟨r, h1, h2⟩ ⟨r', h1', h2'⟩
    cases t with
    | nil => exact absurd (by rw [List.flatMap_nil, List.nil_append] at h1'; rw [← h1', h1, List.flatMap_cons, List.append_assoc]) (h2' c _)
    | cons d t =>
      rw [List.flatMap_cons, List.append_assoc] at h1 h1'
      have e := utf8Next_complete c (s.flatMap utf8Encode ++ r)
      rw [← h1, h1', utf8Next_complete] at e
      simp only [Option.some.injEq, Prod.mk.injEq] at e
      obtain ⟨rfl, e⟩ := e
      rw [ih (b := s.flatMap utf8Encode ++ r) ⟨r, rfl, h2⟩ ⟨r', e.symm, h2'⟩]

theorem isWhitespace_iff (c : Char) : isWhitespace c = true ↔ c.toNat ∈ whiteSpace := by
  simp only [isWhitespace, whiteSpace, Bool.or_eq_true, Bool.and_eq_true, decide_eq_true_eq, beq_iff_eq, List.mem_cons,
    List.not_mem_nil, or_false]
  omega

theorem trimEnd_spec (s : List Char) : TrimmedEnd s (trimEnd s) := by
  refine ⟨(s.reverse.takeWhile isWhitespace).reverse, ?_, ?_, ?_⟩
  · rw [trimEnd, ← List.reverse_append, List.takeWhile_append_dropWhile, List.reverse_reverse]
  · intro c hc
    rw [List.mem_reverse] at hc
    rw [← isWhitespace_iff]
    exact List.all_eq_true.mp List.all_takeWhile c hc
  · intro u c h hw
    rw [← isWhitespace_iff] at hw
    rw [trimEnd, ← List.reverse_inj, List.reverse_reverse, List.reverse_append] at h
    have := List.head?_dropWhile_not isWhitespace s.reverse
    rw [h] at this
    simp [hw] at this

theorem asciiToString_spec (b : Bytes) : IsText b (asciiToString b) := by
  obtain ⟨h1, h2⟩ := utf8Loop_spec b.length b (Nat.le_refl _)
  refine ⟨(utf8Loop b.length b).1, ⟨_, h1, h2⟩, ?_⟩
  have : asciiToString b = trimEnd (utf8Loop b.length b).1 := by
    unfold asciiToString fromUtf8
    split <;> split at * <;> simp_all
  rw [this]
  exact trimEnd_spec _

theorem dateOf_spec (b : Bytes) : IsDate b (VendorInfo.dateOf b) := by
  obtain ⟨h1, h2⟩ := utf8Loop_spec b.length b (Nat.le_refl _)
  unfold VendorInfo.dateOf fromUtf8
  generalize hl : utf8Loop b.length b = q at *
  obtain ⟨cs, rest⟩ := q
  cases rest with
  | nil => exact Or.inl ⟨cs, rfl, by simpa [Encodes] using h1⟩
  | cons x xs =>
    refine Or.inr ⟨rfl, ?_⟩
    rintro ⟨s, hs⟩
    have p1 : TextPrefix b s := ⟨[], by simpa [Encodes] using hs, fun c r h =>
      utf8Encode_ne_nil c (List.append_eq_nil_iff.mp h.symm).1⟩
    have p2 : TextPrefix b cs := ⟨x :: xs, h1, h2⟩
    have := textPrefix_unique p1 p2
    subst this
    rw [Encodes] at hs
    rw [← hs] at h1
    have := congrArg List.length h1
    simp at this

/-- There is only one trimmed text, so `IsText` determines what is reported. -/
theorem trimmedEnd_unique {s t u : List Char} (h : TrimmedEnd s t) (h' : TrimmedEnd s u) : t = u := by
  obtain ⟨w, e, hw, ht⟩ := h
  obtain ⟨w', e', hw', hu⟩ := h'
  have key : ∀ {t u w w' : List Char}, t ++ w = u ++ w' → t.length < u.length →
      (∀ c ∈ w, c.toNat ∈ whiteSpace) → (∀ v c, u = v ++ [c] → c.toNat ∉ whiteSpace) → False := by
    intro t u w w' e hl hw hu
    rcases List.eq_nil_or_concat u with rfl | ⟨v, c, rfl⟩
    · simp at hl
    · rw [List.concat_eq_append] at *
      apply hu v c rfl
      apply hw
      have hlen : (v ++ [c]).length = v.length + 1 := by simp
      rw [hlen] at hl
      have h1 : (t ++ w)[v.length]? = some c := by
        rw [e]; simp
      rw [List.getElem?_append_right (by omega)] at h1
      exact List.mem_of_getElem? h1
  have e2 : t ++ w = u ++ w' := e ▸ e'
  rcases Nat.lt_trichotomy t.length u.length with hl | hl | hl
  · exact (key e2 hl hw hu).elim
  · exact (List.append_inj e2 hl).1
  · exact (key e2.symm hl hw' ht).elim

theorem isText_unique {b : Bytes} {t u : List Char} (h : IsText b t) (h' : IsText b u) : t = u := by
  obtain ⟨s, h1, h2⟩ := h
  obtain ⟨s', h1', h2'⟩ := h'
  have := textPrefix_unique h1 h1'
  subst this
  exact trimmedEnd_unique h2 h2'

end Xcvr
