import Verif.Spec.Cli
import Verif.Spec.Ports
import Verif.Lemmas.Utf8
import Verif.Props.Codes
import Verif.Props.ModuleSets

/-! # Lemmas about texts given to the command line tool -/

namespace Xcvr

open Spec Cli

/-! ## Numbers -/

theorem digitVal_iff {r : Nat} {c : Char} {d : Nat} : digitVal r c = some d ↔ HexDigit c d ∧ d < r := by
  rw [digitVal, Option.filter_eq_some_iff]
  constructor
  · rintro ⟨h, hd⟩
    exact ⟨val_hexDigit h, by simpa using hd⟩
  · rintro ⟨h, hd⟩
    exact ⟨hexDigit_val h, by simpa using hd⟩

theorem radixLoop_append (r : Nat) (s t : List Char) (acc : Nat) :
    radixLoop r acc (s ++ t) = (radixLoop r acc s).bind fun n => radixLoop r n t := by
  induction s generalizing acc with
  | nil => rfl
  | cons c s ih =>
    simp only [List.cons_append, radixLoop]
    split
    · rfl
    · split
      · exact ih _
      · rfl

theorem radixLoop_of_digits {r : Nat} {s : List Char} {n : Nat} (h : Digits r s n) (hn : n < 256) :
    radixLoop r 0 s = some n := by
  induction h with
  | nil => rfl
  | @snoc s n c d _ hd hr ih =>
    have : n ≤ r * n := Nat.le_mul_of_pos_left n (by omega)
    rw [radixLoop_append, ih (by omega)]
    simp only [Option.bind_some, radixLoop, digitVal_iff.mpr ⟨hd, hr⟩]
    rw [Nat.mul_comm, if_pos hn]

theorem digits_of_radixLoop {r : Nat} {s : List Char} {n : Nat} (h : radixLoop r 0 s = some n) :
    Digits r s n ∧ n < 256 := by
  generalize hk : s.length = k
  induction k generalizing s n with
  | zero =>
    rw [List.length_eq_zero_iff] at hk
    subst hk
    cases h
    exact ⟨.nil, by decide⟩
  | succ k ih =>
    rcases List.eq_nil_or_concat s with rfl | ⟨t, c, rfl⟩
    · cases hk
    rw [List.concat_eq_append] at h hk ⊢
    rw [radixLoop_append] at h
    cases ht : radixLoop r 0 t with
    | none => rw [ht] at h; cases h
    | some m =>
      rw [ht] at h
      simp only [Option.bind_some, radixLoop] at h
      have := ih ht (by simpa using hk)
      split at h
      · cases h
      · rename_i d hd
        split at h
        · rename_i hlt
          cases h
          refine ⟨?_, hlt⟩
          obtain ⟨hd, hr⟩ := digitVal_iff.mp hd
          have := Digits.snoc this.1 hd hr
          rwa [Nat.mul_comm] at this
        · cases h

theorem Spec.Digits.mem {r : Nat} {s : List Char} {n : Nat} (h : Digits r s n) : ∀ c ∈ s, ∃ d, HexDigit c d ∧ d < r := by
  induction h with
  | nil => simp
  | snoc _ hd hr ih =>
    intro c hc
    rcases List.mem_append.mp hc with hc | hc
    · exact ih c hc
    · rw [List.mem_singleton] at hc
      subst hc
      exact ⟨_, hd, hr⟩

theorem digits_iff {r : Nat} {s : List Char} {x : U8} :
    (radixLoop r 0 s).map (BitVec.ofNat 8) = some x ↔ Digits r s x.toNat := by
  rw [Option.map_eq_some_iff]
  constructor
  · rintro ⟨n, hn, rfl⟩
    obtain ⟨h1, h2⟩ := digits_of_radixLoop hn
    rwa [BitVec.toNat_ofNat, Nat.mod_eq_of_lt h2]
  · intro h
    exact ⟨x.toNat, radixLoop_of_digits h x.isLt, by simp⟩

theorem digits_not_plus {r : Nat} {s : List Char} {n : Nat} : ¬ Digits r ('+' :: s) n := by
  intro h
  obtain ⟨d, hd, _⟩ := h.mem '+' (by simp)
  exact not_hex_plus hd

theorem u8FromRadix_iff {r : Nat} {s : List Char} {x : U8} : u8FromRadix r s = some x ↔ Number r s x := by
  unfold u8FromRadix Number
  split
  · simp only [reduceCtorEq, false_iff]
    rintro ⟨ds, h | h, hne, _⟩
    · exact hne h.symm
    · cases h
  · rename_i cs
    constructor
    · intro h
      split at h
      · cases h
      · rename_i hne
        exact ⟨cs, .inr rfl, by simpa using hne, digits_iff.mp h⟩
    · rintro ⟨ds, h | h, hne, hd⟩
      · rw [← h] at hd
        exact absurd hd digits_not_plus
      · cases h
        rw [if_neg (by simpa using hne)]
        exact digits_iff.mpr hd
  · rename_i h1 h2
    constructor
    · intro h
      exact ⟨s, .inl rfl, h1, digits_iff.mp h⟩
    · rintro ⟨ds, h | h, hne, hd⟩
      · rw [h]; exact digits_iff.mpr hd
      · exact absurd h (h2 _)

theorem Spec.Number.mem {r : Nat} {s : List Char} {x : U8} (h : Number r s x) :
    ∀ c ∈ s, c = '+' ∨ ∃ d, HexDigit c d ∧ d < r := by
  obtain ⟨ds, h | h, _, hd⟩ := h
  · rw [h]; exact fun c hc => .inr (hd.mem c hc)
  · rw [h]
    intro c hc
    rcases List.mem_cons.mp hc with rfl | hc
    · exact .inl rfl
    · exact .inr (hd.mem c hc)

theorem Spec.Number.ne_nil {r : Nat} {s : List Char} {x : U8} (h : Number r s x) : s ≠ [] := by
  obtain ⟨ds, rfl | rfl, hne, _⟩ := h
  · exact hne
  · simp

theorem digit_of {c : Char} {d : Nat} (h : HexDigit c d) (hd : d < 10) : c = Char.ofNat (48 + d) := by
  cases h with
  | num => rfl
  | low => omega
  | up => omega

/-- The characters of port lists. -/
def Plain (c : Char) : Prop := IsWhite c ∨ c ∈ chars!"0123456789+-,"

theorem plain_of_digit {c : Char} {d : Nat} (h : HexDigit c d) (hd : d < 10) : c ∈ chars!"0123456789" := by
  rw [digit_of h hd]
  have : ∀ d : Fin 10, Char.ofNat (48 + d.val) ∈ chars!"0123456789" := by decide
  exact this ⟨d, hd⟩

theorem Spec.Number.decimal {s : List Char} {x : U8} (h : Number 10 s x) : ∀ c ∈ s, c ∈ chars!"0123456789+" := by
  intro c hc
  rcases h.mem c hc with rfl | ⟨d, hd, h10⟩
  · decide
  · have := plain_of_digit hd h10
    revert this
    simp only [List.mem_cons]
    grind

theorem white_iff {c : Char} : isWhitespace c = true ↔ IsWhite c := isWhitespace_iff c

theorem not_white_iff {c : Char} : isWhitespace c = false ↔ ¬ IsWhite c := by
  rw [← white_iff, Bool.not_eq_true]

theorem not_white_of_mem {c : Char} (h : c ∈ chars!"0123456789+-,") : ¬ IsWhite c := by
  have : ∀ c ∈ chars!"0123456789+-,", ¬ IsWhite c := by decide
  exact this c h

theorem mem_sub {c : Char} (h : c ∈ chars!"0123456789+") : c ∈ chars!"0123456789+-," := by
  have : ∀ c ∈ chars!"0123456789+", c ∈ chars!"0123456789+-," := by decide
  exact this c h

theorem ne_dash {c : Char} (h : c ∈ chars!"0123456789+") : c ≠ '-' := by
  have : ∀ c ∈ chars!"0123456789+", c ≠ '-' := by decide
  exact this c h

theorem ne_comma {c : Char} (h : c ∈ chars!"0123456789+") : c ≠ ',' := by
  have : ∀ c ∈ chars!"0123456789+", c ≠ ',' := by decide
  exact this c h

/-! ## Trimming -/

theorem takeWhile_white (s : List Char) : White (s.takeWhile isWhitespace) := by
  induction s with
  | nil => intro c hc; cases hc
  | cons x s ih =>
    intro c hc
    rw [List.takeWhile_cons] at hc
    split at hc
    · rename_i hx
      rcases List.mem_cons.mp hc with rfl | hc
      · exact white_iff.mp hx
      · exact ih c hc
    · cases hc

theorem trim_split (s : List Char) : ∃ a c, s = a ++ trim s ++ c ∧ White a ∧ White c := by
  refine ⟨s.takeWhile isWhitespace, ((s.dropWhile isWhitespace).reverse.takeWhile isWhitespace).reverse, ?_, takeWhile_white s, ?_⟩
  · rw [trim, trimEnd, List.append_assoc, ← List.reverse_append, List.takeWhile_append_dropWhile, List.reverse_reverse,
      List.takeWhile_append_dropWhile]
  · intro c hc
    exact takeWhile_white _ c (List.mem_reverse.mp hc)

theorem dropWhile_white {a s : List Char} (ha : White a) (hs : ∀ c ∈ s.head?, ¬ IsWhite c) :
    (a ++ s).dropWhile isWhitespace = s := by
  induction a with
  | nil =>
    cases s with
    | nil => rfl
    | cons c s =>
      rw [List.nil_append, List.dropWhile_cons, not_white_iff.mpr (hs c (by simp))]
      rfl
  | cons c a ih =>
    rw [List.cons_append, List.dropWhile_cons, if_pos (white_iff.mpr (ha c (by simp)))]
    exact ih (fun d hd => ha d (by simp [hd]))

theorem trim_eq {a b c : List Char} (ha : White a) (hc : White c) (hh : ∀ x ∈ b.head?, ¬ IsWhite x)
    (hl : ∀ x ∈ b.getLast?, ¬ IsWhite x) (hb : b ≠ []) : trim (a ++ b ++ c) = b := by
  have h1 : (a ++ b ++ c).dropWhile isWhitespace = b ++ c := by
    rw [List.append_assoc]
    apply dropWhile_white ha
    intro x hx
    apply hh
    cases b with
    | nil => exact absurd rfl hb
    | cons y ys => simpa using hx
  rw [trim, h1, trimEnd, List.reverse_append, dropWhile_white, List.reverse_reverse]
  · intro x hx
    exact hc x (List.mem_reverse.mp hx)
  · intro x hx
    rw [List.head?_reverse] at hx
    exact hl x hx

theorem trim_number {s : List Char} {x : U8} : PaddedNumber s x ↔ Number 10 (trim s) x := by
  constructor
  · rintro ⟨a, b, c, rfl, ha, hc, hb⟩
    rw [trim_eq ha hc _ _ hb.ne_nil]
    · exact hb
    · exact fun x hx => not_white_of_mem (mem_sub (hb.decimal x (List.mem_of_mem_head? hx)))
    · exact fun x hx => not_white_of_mem (mem_sub (hb.decimal x (List.mem_of_getLast? hx)))
  · intro h
    obtain ⟨a, c, hs, ha, hc⟩ := trim_split s
    exact ⟨a, trim s, c, hs, ha, hc, h⟩

theorem Spec.PaddedNumber.chars {s : List Char} {x : U8} (h : PaddedNumber s x) :
    ∀ c ∈ s, IsWhite c ∨ c ∈ chars!"0123456789+" := by
  obtain ⟨a, b, c, rfl, ha, hc, hb⟩ := h
  intro y hy
  rcases List.mem_append.mp hy with hy | hy
  · rcases List.mem_append.mp hy with hy | hy
    · exact .inl (ha y hy)
    · exact .inr (hb.decimal y hy)
  · exact .inl (hc y hy)

theorem not_white_dash : ¬ IsWhite '-' := by decide
theorem not_white_comma : ¬ IsWhite ',' := by decide

theorem Spec.PaddedNumber.no_dash {s : List Char} {x : U8} (h : PaddedNumber s x) : '-' ∉ s := by
  intro hm
  rcases h.chars _ hm with h | h
  · exact not_white_dash h
  · exact ne_dash h rfl

theorem Spec.PaddedNumber.no_comma {s : List Char} {x : U8} (h : PaddedNumber s x) : ',' ∉ s := by
  intro hm
  rcases h.chars _ hm with h | h
  · exact not_white_comma h
  · exact ne_comma h rfl

/-- White space may be added around a padded number. -/
theorem Spec.PaddedNumber.pad {s a c : List Char} {x : U8} (h : PaddedNumber s x) (ha : White a) (hc : White c) :
    PaddedNumber (a ++ s ++ c) x := by
  obtain ⟨a', b, c', rfl, ha', hc', hb⟩ := h
  refine ⟨a ++ a', b, c' ++ c, by simp, ?_, ?_, hb⟩
  · intro y hy; exact (List.mem_append.mp hy).elim (ha y) (ha' y)
  · intro y hy; exact (List.mem_append.mp hy).elim (hc' y) (hc y)

/-! ## Items -/

theorem mem_rangeInclusive {x y i : U8} : i ∈ rangeInclusive x y ↔ x.toNat ≤ i.toNat ∧ i.toNat ≤ y.toNat := by
  rw [rangeInclusive, List.mem_map]
  have := y.isLt
  constructor
  · rintro ⟨n, hn, rfl⟩
    rw [List.mem_range'_1] at hn
    rw [BitVec.toNat_ofNat, Nat.mod_eq_of_lt (by omega)]
    omega
  · rintro ⟨h1, h2⟩
    exact ⟨i.toNat, by rw [List.mem_range'_1]; omega, by simp⟩

theorem number_no_dash {s : List Char} {x : U8} (h : Number 10 s x) : '-' ∉ s :=
  fun hm => ne_dash (h.decimal _ hm) rfl

theorem Spec.Item.no_comma {s : List Char} {P : Nat → Prop} (h : Item s P) : ',' ∉ s := by
  cases h with
  | single h => exact h.no_comma
  | range h1 h2 _ =>
    rw [List.mem_append, List.mem_cons]
    rintro (h | h | h)
    · exact h1.no_comma h
    · cases h
    · exact h2.no_comma h

/-- The trimmed form of a range. -/
theorem trim_range {s t : List Char} {x y : U8} (hs : PaddedNumber s x) (ht : PaddedNumber t y) :
    ∃ s' t', trim (s ++ '-' :: t) = s' ++ '-' :: t' ∧ PaddedNumber s' x ∧ PaddedNumber t' y ∧ s' ≠ [] ∧ t' ≠ [] := by
  obtain ⟨a, b, c, rfl, ha, hc, hb⟩ := hs
  obtain ⟨a', b', c', rfl, ha', hc', hb'⟩ := ht
  refine ⟨b ++ c, a' ++ b', ?_, ⟨[], b, c, rfl, fun _ h => (by cases h), hc, hb⟩,
    ⟨a', b', [], by simp, ha', fun _ h => (by cases h), hb'⟩, ?_, ?_⟩
  · have := trim_eq (a := a) (b := b ++ c ++ '-' :: (a' ++ b')) (c := c') ha hc' ?_ ?_ (by simp)
    · rw [← this]; congr 1; simp
    · intro x hx
      have hn := hb.ne_nil
      cases b with
      | nil => exact absurd rfl hn
      | cons z zs => exact not_white_of_mem (mem_sub (hb.decimal x (by simp at hx; simp [hx])))
    · intro x hx
      have hn := hb'.ne_nil
      rw [show b ++ c ++ '-' :: (a' ++ b') = (b ++ c ++ '-' :: a') ++ b' by simp,
        List.getLast?_append, List.getLast?_eq_some_getLast hn, Option.some_or, ← List.getLast?_eq_some_getLast hn] at hx
      exact not_white_of_mem (mem_sub (hb'.decimal x (List.mem_of_getLast? hx)))
  · simp [hb.ne_nil]
  · simp [hb'.ne_nil]

/-- The ports of an item are what is parsed from it. -/
theorem parsePart_iff {s : List Char} {P : Nat → Prop} (h : Item s P) :
    ∃ is, parsePart (trim s) = .ok is ∧ ∀ p, P p ↔ ∃ i ∈ is, i.toNat = p := by
  cases h with
  | @single _ x h =>
    refine ⟨[x], ?_, by simp [eq_comm]⟩
    rw [parsePart, u8FromRadix_iff.mpr (trim_number.mp h)]
  | @range s t x y hs ht hxy =>
    obtain ⟨s', t', h1, hs', ht', hs0, ht0⟩ := trim_range hs ht
    refine ⟨rangeInclusive x y, ?_, ?_⟩
    · have hnone : u8FromRadix 10 (s' ++ '-' :: t') = none := by
        cases hu : u8FromRadix 10 (s' ++ '-' :: t') with
        | none => rfl
        | some z => exact absurd (by simp) (number_no_dash (u8FromRadix_iff.mp hu))
      rw [parsePart, h1, hnone]
      simp only [splitFirst_append hs'.no_dash, u8FromRadix_iff.mpr (trim_number.mp hs'),
        u8FromRadix_iff.mpr (trim_number.mp ht')]
      rw [if_neg (by simp [hs0, ht0]), if_neg (by simpa [BitVec.not_le] using hxy)]
    · intro p
      constructor
      · rintro ⟨h1, h2⟩
        have := y.isLt
        have hp : (BitVec.ofNat 8 p).toNat = p := by rw [BitVec.toNat_ofNat, Nat.mod_eq_of_lt (by omega)]
        exact ⟨BitVec.ofNat 8 p, mem_rangeInclusive.mpr (by omega), hp⟩
      · rintro ⟨i, hi, rfl⟩
        exact mem_rangeInclusive.mp hi

theorem item_of_parsePart {s : List Char} {is : List U8} (h : parsePart (trim s) = .ok is) :
    Item s (fun p => ∃ i ∈ is, i.toNat = p) := by
  obtain ⟨a, c, hs, ha, hc⟩ := trim_split s
  unfold parsePart at h
  split at h
  · rename_i x hx
    cases h
    have := Item.single (trim_number.mpr (u8FromRadix_iff.mp hx))
    simpa [eq_comm] using this
  · split at h
    · cases h
    · rename_i start stop hsp
      split at h
      · cases h
      · split at h
        · rename_i x y hx hy
          split at h
          · cases h
          · rename_i hlt
            cases h
            obtain ⟨h1, _⟩ := splitFirst_some hsp
            have hx' : PaddedNumber (a ++ start ++ []) x :=
              (trim_number.mpr (u8FromRadix_iff.mp hx)).pad ha (fun _ h => (by cases h))
            have hy' : PaddedNumber ([] ++ stop ++ c) y :=
              (trim_number.mpr (u8FromRadix_iff.mp hy)).pad (fun _ h => (by cases h)) hc
            have := Item.range hx' hy' (by simpa [BitVec.not_le] using hlt)
            rw [show a ++ start ++ [] ++ '-' :: ([] ++ stop ++ c) = s by rw [hs, h1]; simp] at this
            rw [show (fun p => ∃ i ∈ rangeInclusive x y, i.toNat = p) = (fun p => x.toNat ≤ p ∧ p ≤ y.toNat) from ?_]
            · exact this
            funext p
            apply propext
            constructor
            · rintro ⟨i, hi, rfl⟩
              exact mem_rangeInclusive.mp hi
            · rintro ⟨h1, h2⟩
              have := y.isLt
              have hp : (BitVec.ofNat 8 p).toNat = p := by rw [BitVec.toNat_ofNat, Nat.mod_eq_of_lt (by omega)]
              exact ⟨BitVec.ofNat 8 p, mem_rangeInclusive.mpr (by omega), hp⟩
        · cases h

/-! ## Lists of items -/

theorem splitChar_append {c : Char} {b : List Char} :
    ∀ {a : List Char} (_ : c ∉ a), splitChar c (a ++ c :: b) = a :: splitChar c b
  | [], _ => by rw [List.nil_append, splitChar, if_pos rfl]
  | x :: xs, h => by
    have hx : x ≠ c := fun e => h (by simp [e])
    rw [List.cons_append, splitChar, if_neg hx, splitChar_append (fun hm => h (by simp [hm]))]

theorem splitChar_of_not_mem {c : Char} : ∀ {a : List Char} (_ : c ∉ a), splitChar c a = [a]
  | [], _ => rfl
  | x :: xs, h => by
    have hx : x ≠ c := fun e => h (by simp [e])
    rw [splitChar, if_neg hx, splitChar_of_not_mem (fun hm => h (by simp [hm]))]

theorem splitChar_first (c : Char) (s : List Char) : splitChar c s = match splitFirst c s with
    | (a, none) => [a]
    | (a, some b) => a :: splitChar c b := by
  induction s with
  | nil => rfl
  | cons x s ih =>
    rw [splitChar, splitFirst]
    split
    · rfl
    · rw [ih]
      rcases hf : splitFirst c s with ⟨a, _ | b⟩ <;> rfl

theorem splitFirst_none {c : Char} : ∀ {s a : List Char}, splitFirst c s = (a, none) → s = a
  | [], a, h => by cases h; rfl
  | x :: xs, a, h => by
    rw [splitFirst] at h
    split at h
    · cases h
    · obtain ⟨h1, h2⟩ := Prod.mk.inj h
      have := splitFirst_none (Prod.ext rfl h2 : splitFirst c xs = ((splitFirst c xs).1, none))
      rw [← h1, ← this]

theorem parseParts_iff {s : List Char} {P : Nat → Prop} (h : PortList s P) :
    ∃ is, parseParts (splitChar ',' s) = .ok is ∧ ∀ p, P p ↔ ∃ i ∈ is, i.toNat = p := by
  induction h with
  | one h =>
    obtain ⟨is, h1, h2⟩ := parsePart_iff h
    refine ⟨is, ?_, h2⟩
    rw [splitChar_of_not_mem h.no_comma, parseParts, h1]
    simp [parseParts]
  | cons h _ ih =>
    obtain ⟨is, h1, h2⟩ := parsePart_iff h
    obtain ⟨js, h3, h4⟩ := ih
    refine ⟨is ++ js, ?_, ?_⟩
    · rw [splitChar_append h.no_comma, parseParts, h1, h3]
    · intro p
      show (_ ∨ _) ↔ _
      rw [h2, h4]
      simp only [List.mem_append]
      constructor
      · rintro (⟨i, hi, hp⟩ | ⟨i, hi, hp⟩)
        · exact ⟨i, .inl hi, hp⟩
        · exact ⟨i, .inr hi, hp⟩
      · rintro ⟨i, hi | hi, hp⟩
        · exact .inl ⟨i, hi, hp⟩
        · exact .inr ⟨i, hi, hp⟩

theorem portList_of_parseParts {s : List Char} {is : List U8} (h : parseParts (splitChar ',' s) = .ok is) :
    PortList s (fun p => ∃ i ∈ is, i.toNat = p) := by
  generalize hk : s.length = k
  induction k using Nat.strongRecOn generalizing s is with
  | ind k ih =>
    rw [splitChar_first] at h
    split at h
    · rename_i a hs
      cases splitFirst_none hs
      rw [parseParts] at h
      split at h
      · cases h
      · rename_i js hj
        rw [parseParts] at h
        simp only [Except.ok.injEq, List.append_nil] at h
        subst h
        exact .one (item_of_parsePart hj)
    · rename_i a b hs
      obtain ⟨rfl, _⟩ := splitFirst_some hs
      rw [parseParts] at h
      split at h
      · cases h
      · rename_i js hj
        split at h
        · cases h
        · rename_i ks hks
          cases h
          have h1 := item_of_parsePart hj
          have h2 := ih b.length (by simp at hk; omega) hks rfl
          have := PortList.cons h1 h2
          rw [show (fun p => ∃ i ∈ js ++ ks, i.toNat = p) =
            (fun p => (∃ i ∈ js, i.toNat = p) ∨ ∃ i ∈ ks, i.toNat = p) from ?_]
          · exact this
          · funext p
            simp only [List.mem_append, or_and_right, exists_or]

theorem Spec.Item.plain {s : List Char} {P : Nat → Prop} (h : Item s P) : ∀ c ∈ s, Plain c := by
  have hp : ∀ {s : List Char} {x : U8}, PaddedNumber s x → ∀ c ∈ s, Plain c := by
    intro s x h c hc
    exact (h.chars c hc).imp id mem_sub
  cases h with
  | single h => exact hp h
  | range h1 h2 _ =>
    intro c hc
    rw [List.mem_append, List.mem_cons] at hc
    rcases hc with hc | rfl | hc
    · exact hp h1 c hc
    · exact .inr (by decide)
    · exact hp h2 c hc

theorem Spec.PortList.plain {s : List Char} {P : Nat → Prop} (h : PortList s P) : ∀ c ∈ s, Plain c := by
  induction h with
  | one h => exact h.plain
  | cons h _ ih =>
    intro c hc
    rw [List.mem_append, List.mem_cons] at hc
    rcases hc with hc | rfl | hc
    · exact h.plain c hc
    · exact .inr (by decide)
    · exact ih c hc

/-! ## Lower case -/

theorem toLower_toNat (c : Char) :
    c.toLower = c ∨ (65 ≤ c.toNat ∧ c.toNat ≤ 90 ∧ c.toLower.toNat = c.toNat + 32) := by
  rw [Char.toLower]
  split
  · rename_i h
    have h1 : 65 ≤ c.toNat := h.1
    have h2 : c.toNat ≤ 90 := h.2
    refine .inr ⟨h1, h2, ?_⟩
    show (c.val + 32).toNat = c.val.toNat + 32
    rw [UInt32.toNat_add]
    have : c.val.toNat ≤ 90 := h2
    have : (32 : UInt32).toNat = 32 := rfl
    omega
  · exact .inl rfl

/-- Lowering keeps plain characters and makes none. -/
theorem toLower_plain (c : Char) : (Plain c ↔ Plain c.toLower) ∧ (Plain c → c.toLower = c) := by
  rcases toLower_toNat c with h | ⟨h1, h2, h3⟩
  · rw [h]; exact ⟨Iff.rfl, fun _ => rfl⟩
  · have hn : ∀ n : Fin 128, (65 ≤ n.val ∧ n.val ≤ 90) ∨ (97 ≤ n.val ∧ n.val ≤ 122) →
        ¬ IsWhite (Char.ofNat n.val) ∧ Char.ofNat n.val ∉ chars!"0123456789+-," := by decide +kernel
    have key : ∀ d : Char, (65 ≤ d.toNat ∧ d.toNat ≤ 90) ∨ (97 ≤ d.toNat ∧ d.toNat ≤ 122) → ¬ Plain d := by
      intro d hd
      have := hn ⟨d.toNat, by omega⟩ hd
      rw [Char.ofNat_toNat] at this
      rintro (h | h)
      · exact this.1 h
      · exact this.2 h
    have hc := key c (.inl ⟨h1, h2⟩)
    have hl := key c.toLower (.inr (by omega))
    exact ⟨⟨fun h => absurd h hc, fun h => absurd h hl⟩, fun h => absurd h hc⟩

theorem toLower_ascii {c : Char} (h : c.toLower.toNat < 128) : c.toNat < 128 := by
  rcases toLower_toNat c with e | ⟨h1, h2, h3⟩
  · rwa [e] at h
  · omega

/-- Texts whose lower case has no unusual characters are lowered character by character. -/
theorem lowered_of_right {s t : List Char} (h : Lowered s t)
    (ht : ∀ c ∈ t, (c.toNat < 128 ∧ c ≠ 'k') ∨ IsWhite c) : t = s.map Char.toLower := by
  induction h with
  | nil => rfl
  | @cons c piece s t hp _ ih =>
    have h2 := ih (fun d hd => ht d (List.mem_append_right _ hd))
    unfold LowerPiece at hp
    split at hp
    · rw [hp, h2]; rfl
    · obtain ⟨hp1, d, hd, hd'⟩ := hp
      have h3 := ht d (List.mem_append_left _ hd)
      have h4 := (hp1 d hd).1
      rcases h3 with ⟨h5, h6⟩ | h5
      · rcases hd' with hd' | hd'
        · omega
        · exact absurd hd' h6
      · exact absurd h5 h4

theorem lowered_of_left {s t : List Char} (h : Lowered s t)
    (hs : ∀ c ∈ s, c.toNat < 128 ∨ IsWhite c) : t = s.map Char.toLower := by
  induction h with
  | nil => rfl
  | @cons c piece s t hp _ ih =>
    have h2 := ih (fun d hd => hs d (List.mem_cons_of_mem _ hd))
    unfold LowerPiece at hp
    rw [if_pos (by simpa using hs c (by simp))] at hp
    rw [hp, h2]; rfl

theorem plain_usual {c : Char} (h : Plain c) : (c.toNat < 128 ∧ c ≠ 'k') ∨ IsWhite c := by
  rcases h with h | h
  · exact .inr h
  · have : ∀ c ∈ chars!"0123456789+-,", c.toNat < 128 ∧ c ≠ 'k' := by decide
    exact .inl (this c h)

/-- A list of ports is not changed by lowering, and nothing else becomes one. -/
theorem portList_lowered {s t : List Char} (h : Lowered s t) {P : Nat → Prop} : PortList t P ↔ PortList s P := by
  constructor
  · intro hp
    have h1 := lowered_of_right h (fun c hc => plain_usual (hp.plain c hc))
    have h2 : s.map Char.toLower = s := by
      have : ∀ c ∈ s, c.toLower = c := by
        intro c hc
        have := hp.plain c.toLower (by rw [h1]; exact List.mem_map_of_mem hc)
        exact (toLower_plain c).2 ((toLower_plain c).1.mpr this)
      rw [List.map_congr_left this, List.map_id']
    rw [h2] at h1
    rwa [← h1]
  · intro hp
    have h1 := lowered_of_left h (fun c hc => (plain_usual (hp.plain c hc)).imp And.left id)
    have h2 : s.map Char.toLower = s := by
      rw [List.map_congr_left (fun c hc => (toLower_plain c).2 (hp.plain c hc)), List.map_id']
    rw [h1, h2]
    exact hp

/-- Lowering gives an ordinary word exactly for that word in any case. -/
theorem word_lowered {s t w : List Char} (h : Lowered s t) (hw : ∀ c ∈ w, c.toNat < 128 ∧ c ≠ 'k') :
    t = w ↔ IsWord s w := by
  unfold IsWord
  constructor
  · rintro rfl
    exact (lowered_of_right h (fun c hc => .inl (hw c hc))).symm
  · intro hs
    rw [lowered_of_left h ?_, hs]
    intro c hc
    exact .inl (toLower_ascii (hw _ (by rw [← hs]; exact List.mem_map_of_mem hc)).1)

end Xcvr
