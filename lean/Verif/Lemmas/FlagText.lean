import Verif.Lemmas.Print
import Verif.Spec.FlagText

/-! # Lemmas about sets of flags as text -/

namespace Xcvr.Cli

open Xcvr.Spec

theorem hexLoop_append (n : Nat) (s t : List Char) (acc : Nat) :
    hexLoop n acc (s ++ t) = (hexLoop n acc s).bind fun m => hexLoop n m t := by
  induction s generalizing acc with
  | nil => rfl
  | cons c s ih =>
    simp only [List.cons_append, hexLoop]
    split
    · rfl
    · split
      · exact ih _
      · rfl

theorem hexLoop_of_digits {n : Nat} {s : List Char} {m : Nat} (h : Digits 16 s m) (hm : m < 2 ^ n) :
    hexLoop n 0 s = some m := by
  induction h with
  | nil => rfl
  | @snoc s m c d _ hd hr ih =>
    rw [hexLoop_append, ih (by omega)]
    simp only [Option.bind_some, hexLoop, digitVal_iff.mpr ⟨hd, hr⟩]
    rw [Nat.mul_comm, if_pos hm]

theorem digits_of_hexLoop {n : Nat} {s : List Char} {m : Nat} (h : hexLoop n 0 s = some m) :
    Digits 16 s m ∧ m < 2 ^ n := by
  generalize hk : s.length = k
  induction k generalizing s m with
  | zero =>
    rw [List.length_eq_zero_iff] at hk
    subst hk
    cases h
    exact ⟨.nil, Nat.two_pow_pos n⟩
  | succ k ih =>
    rcases List.eq_nil_or_concat s with rfl | ⟨t, c, rfl⟩
    · cases hk
    rw [List.concat_eq_append] at h hk ⊢
    rw [hexLoop_append] at h
    cases ht : hexLoop n 0 t with
    | none => rw [ht] at h; cases h
    | some m =>
      rw [ht] at h
      simp only [Option.bind_some, hexLoop] at h
      have := ih ht (by simpa using hk)
      split at h
      · cases h
      · rename_i d hd
        split at h
        · rename_i hlt
          cases h
          refine ⟨?_, hlt⟩
          obtain ⟨hd, hr⟩ := digitVal_iff.mp hd
          have := Digits.snoc this.1 hd hr
          rwa [Nat.mul_comm] at this
        · cases h

theorem hexBits_digits {n : Nat} {s : List Char} {x : BitVec n} :
    (hexLoop n 0 s).map (BitVec.ofNat n) = some x ↔ Digits 16 s x.toNat := by
  rw [Option.map_eq_some_iff]
  constructor
  · rintro ⟨m, hm, rfl⟩
    obtain ⟨h1, h2⟩ := digits_of_hexLoop hm
    rwa [BitVec.toNat_ofNat, Nat.mod_eq_of_lt h2]
  · intro h
    exact ⟨x.toNat, hexLoop_of_digits h x.isLt, by simp⟩

theorem bitsFromHex_iff {n : Nat} {s : List Char} {x : BitVec n} : bitsFromHex n s = some x ↔ HexBits n s x := by
  unfold bitsFromHex HexBits
  split
  · simp only [reduceCtorEq, false_iff]
    rintro ⟨ds, h | h, hne, _⟩
    · exact hne h.symm
    · cases h
  · rename_i cs
    constructor
    · intro h
      split at h
      · cases h
      · rename_i hne
        exact ⟨cs, .inr rfl, by simpa using hne, hexBits_digits.mp h⟩
    · rintro ⟨ds, h | h, hne, hd⟩
      · rw [← h] at hd
        exact absurd hd digits_not_plus
      · cases h
        rw [if_neg (by simpa using hne)]
        exact hexBits_digits.mpr hd
  · rename_i h1 h2
    constructor
    · intro h
      exact ⟨s, .inl rfl, h1, hexBits_digits.mp h⟩
    · rintro ⟨ds, h | h, hne, hd⟩
      · rw [h]; exact hexBits_digits.mpr hd
      · exact absurd h (h2 _)

/-- A character of a name or number. -/
def FlagChar (c : Char) : Prop := ¬ IsWhite c ∧ c ≠ '|'

instance (c : Char) : Decidable (FlagChar c) := inferInstanceAs (Decidable (_ ∧ _))

/-- What is used of a table of flags. -/
structure GoodNames {n : Nat} (names : List (List Char × BitVec n)) : Prop where
  nonempty : ∀ f ∈ names, f.1 ≠ []
  chars : ∀ f ∈ names, ∀ c ∈ f.1, FlagChar c
  hex : ∀ f ∈ names, stripPrefix f.1 chars!"0x" = none
  bits : names.map Prod.snd = (List.range names.length).map (BitVec.twoPow n)
  short : names.length ≤ n
  distinct : (names.map Prod.fst).Nodup

theorem goodNames : GoodNames flagNames := by
  refine ⟨?_, ?_, ?_, ?_, ?_, ?_⟩ <;> decide +kernel

theorem goodNames_short : GoodNames statusNames := by
  refine ⟨?_, ?_, ?_, ?_, ?_, ?_⟩ <;> decide +kernel

theorem GoodNames.get {n : Nat} {names : List (List Char × BitVec n)} (h : GoodNames names) {k : Nat} (hk : k < names.length) :
    names[k].2 = BitVec.twoPow n k := by
  have := congrArg (fun l => l[k]?) h.bits
  simpa [hk] using this

theorem GoodNames.find {n : Nat} {names : List (List Char × BitVec n)} (h : GoodNames names) (b : List Char) (x : BitVec n) :
    (names.find? fun f => f.1 == b).map Prod.snd = some x ↔ ∃ k, (names.map Prod.fst)[k]? = some b ∧ x.toNat = 2 ^ k := by
  have hpow : ∀ k, k < names.length → (BitVec.twoPow n k).toNat = 2 ^ k := by
    intro k hk
    have := h.short
    rw [BitVec.toNat_twoPow_of_lt (by omega)]
  constructor
  · intro he
    rw [Option.map_eq_some_iff] at he
    obtain ⟨f, hf, rfl⟩ := he
    have h1 := List.find?_some hf
    obtain ⟨k, hk, rfl⟩ := List.getElem_of_mem (List.mem_of_find?_eq_some hf)
    refine ⟨k, by simp at h1; simp [hk, h1], ?_⟩
    rw [h.get hk, hpow k hk]
  · rintro ⟨k, hk, hx⟩
    have hl : k < names.length := by
      have := (List.getElem?_eq_some_iff.1 hk).1
      simpa using this
    have hb : names[k].1 = b := by simpa [hl] using hk
    have hm : names[k] ∈ names := List.getElem_mem hl
    cases hf : names.find? (fun f => f.1 == b) with
    | none =>
      rw [List.find?_eq_none] at hf
      exact absurd (hf _ hm) (by simp [hb])
    | some f =>
      have h1 := List.find?_some hf
      obtain ⟨j, hj, rfl⟩ := List.getElem_of_mem (List.mem_of_find?_eq_some hf)
      have hjk : j = k := by
        have hn := h.distinct
        refine (List.getElem_inj (i := j) (j := k) (h₀ := by simpa using hj) (h₁ := by simpa using hl) hn).1 ?_
        simp at h1
        simp [h1, hb]
      subst hjk
      rw [Option.map_some]
      refine congrArg some (BitVec.eq_of_toNat_eq ?_)
      rw [h.get hl, hpow _ hl, hx]

theorem not_white_of_hex {c : Char} {d : Nat} (h : HexDigit c d) : ¬ IsWhite c := by
  intro hw
  have key : ∀ m ∈ whiteSpace, hexVal (Char.ofNat m) = none := by decide +kernel
  have := key _ hw
  rw [Char.ofNat_toNat, hexDigit_val h] at this
  cases this

theorem hex_chars {n : Nat} {s : List Char} {x : BitVec n} (h : HexBits n s x) : ∀ c ∈ s, FlagChar c := by
  obtain ⟨ds, hs, -, hd⟩ := h
  have h1 : ∀ c ∈ ds, FlagChar c := by
    intro c hc
    obtain ⟨d, h1, -⟩ := hd.mem c hc
    have := hexDigit_val h1
    have key : FlagChar c ∨ hexVal c = none := by
      by_cases hw : FlagChar c
      · exact .inl hw
      · refine .inr ?_
        unfold FlagChar at hw
        have hw : IsWhite c ∨ c = '|' := by
          by_cases hc : c = '|'
          · exact .inr hc
          · exact .inl (Decidable.not_not.1 fun h => hw ⟨h, hc⟩)
        rcases hw with hw | rfl
        · cases hv : hexVal c with
          | none => rfl
          | some v => exact absurd hw (not_white_of_hex (val_hexDigit hv))
        · decide
    rcases key with h | h
    · exact h
    · rw [h] at this; cases this
  rcases hs with rfl | rfl
  · exact h1
  · intro c hc
    rcases List.mem_cons.1 hc with rfl | hc
    · decide
    · exact h1 c hc

/-- One part. -/
theorem flagOf_iff {n : Nat} {names : List (List Char × BitVec n)} (h : GoodNames names) (s : List Char) (x : BitVec n) :
    flagOf names (trim s) = some x ↔ FlagPart n (names.map Prod.fst) s x := by
  have core : ∀ b, flagOf names b = some x ↔ b ≠ [] ∧
      ((∃ k, (names.map Prod.fst)[k]? = some b ∧ x.toNat = 2 ^ k) ∨ ∃ hex, b = '0' :: 'x' :: hex ∧ HexBits n hex x) := by
    intro b
    unfold flagOf
    cases b with
    | nil => simp
    | cons c l =>
      rw [if_neg (by simp)]
      cases hp : stripPrefix (c :: l) chars!"0x" with
      | some hex =>
        dsimp only
        have he := stripPrefix_eq_some hp
        rw [bitsFromHex_iff]
        refine ⟨fun hb => ⟨by simp, .inr ⟨hex, he, hb⟩⟩, ?_⟩
        rintro ⟨-, ⟨k, hk, -⟩ | ⟨hex', h1, h2⟩⟩
        · obtain ⟨f, hf, hfe⟩ := List.mem_map.1 (List.mem_of_getElem? hk)
          have := h.hex f hf
          rw [hfe, hp] at this
          cases this
        · rw [he] at h1
          cases h1
          exact h2
      | none =>
        dsimp only
        rw [h.find]
        refine ⟨fun hb => ⟨by simp, .inl hb⟩, ?_⟩
        rintro ⟨-, h1 | ⟨hex, h1, -⟩⟩
        · exact h1
        · rw [h1] at hp
          exact absurd hp (by
            have := stripPrefix_append chars!"0x" hex
            rw [show chars!"0x" ++ hex = '0' :: 'x' :: hex from rfl] at this
            rw [this]; simp)
  rw [core]
  constructor
  · rintro ⟨-, hb⟩
    obtain ⟨a, c, hs, ha, hc⟩ := trim_split s
    exact ⟨a, _, c, hs, ha, hc, hb⟩
  · rintro ⟨a, b, c, rfl, ha, hc, hb⟩
    have hch : b ≠ [] ∧ ∀ d ∈ b, FlagChar d := by
      rcases hb with ⟨k, hk, -⟩ | ⟨hex, rfl, hx⟩
      · obtain ⟨f, hf, rfl⟩ := List.mem_map.1 (List.mem_of_getElem? hk)
        exact ⟨h.nonempty f hf, h.chars f hf⟩
      · refine ⟨by simp, fun d hd => ?_⟩
        simp only [List.mem_cons] at hd
        rcases hd with rfl | rfl | hd
        · decide
        · decide
        · exact hex_chars hx d hd
    rw [trim_eq ha hc (fun d hd => (hch.2 d (List.mem_of_mem_head? hd)).1)
      (fun d hd => (hch.2 d (List.mem_of_getLast? hd)).1) hch.1]
    exact ⟨hch.1, hb⟩

theorem white_not_bar {c : Char} (h : IsWhite c) : c ≠ '|' := by
  rintro rfl
  revert h
  decide

theorem flagPart_no_bar {n : Nat} {names : List (List Char × BitVec n)} (h : GoodNames names) {s : List Char} {x : BitVec n}
    (hp : FlagPart n (names.map Prod.fst) s x) : '|' ∉ s := by
  obtain ⟨a, b, c, rfl, ha, hc, hb⟩ := hp
  intro hm
  rcases List.mem_append.1 hm with hm | hm
  · rcases List.mem_append.1 hm with hm | hm
    · exact white_not_bar (ha _ hm) rfl
    · rcases hb with ⟨k, hk, -⟩ | ⟨hex, rfl, hx⟩
      · obtain ⟨f, hf, rfl⟩ := List.mem_map.1 (List.mem_of_getElem? hk)
        exact (h.chars f hf _ hm).2 rfl
      · simp only [List.mem_cons] at hm
        rcases hm with hm | hm | hm
        · cases hm
        · cases hm
        · exact (hex_chars hx _ hm).2 rfl
  · exact white_not_bar (hc _ hm) rfl

/-- All parts. -/
theorem flagsOf_iff {n : Nat} {names : List (List Char × BitVec n)} (h : GoodNames names) (s : List Char) (x : BitVec n) :
    flagsOf names (splitChar '|' s) = some x ↔ FlagParts n (names.map Prod.fst) s x := by
  constructor
  · intro hs
    generalize hk : s.length = k
    induction k using Nat.strongRecOn generalizing s x with
    | ind k ih =>
      rw [splitChar_first] at hs
      split at hs
      · rename_i a hf
        cases splitFirst_none hf
        rw [flagsOf] at hs
        cases hp : flagOf names (trim s) with
        | none => rw [hp] at hs; cases hs
        | some y =>
          rw [hp] at hs
          simp only [flagsOf, Option.some.injEq] at hs
          rw [show y ||| (0 : BitVec n) = y from BitVec.or_zero] at hs
          subst hs
          exact .one ((flagOf_iff h _ _).1 hp)
      · rename_i a b hf
        obtain ⟨rfl, _⟩ := splitFirst_some hf
        rw [flagsOf] at hs
        cases hp : flagOf names (trim a) with
        | none => rw [hp] at hs; cases hs
        | some y =>
          rw [hp] at hs
          cases hq : flagsOf names (splitChar '|' b) with
          | none => rw [hq] at hs; cases hs
          | some z =>
            rw [hq] at hs
            cases hs
            exact .cons ((flagOf_iff h _ _).1 hp) (ih b.length (by simp at hk; omega) b z hq rfl)
  · intro hs
    induction hs with
    | @one s x hp =>
      rw [splitChar_of_not_mem (flagPart_no_bar h hp), flagsOf, (flagOf_iff h _ _).2 hp]
      simp [flagsOf]
    | @cons s t x y hp _ ih =>
      rw [splitChar_append (flagPart_no_bar h hp), flagsOf, (flagOf_iff h _ _).2 hp, ih]

theorem trim_empty (s : List Char) : (trim s).isEmpty = true ↔ White s := by
  rw [List.isEmpty_iff]
  constructor
  · intro h
    obtain ⟨a, c, hs, ha, hc⟩ := trim_split s
    rw [h] at hs
    intro x hx
    rw [hs] at hx
    simp only [List.append_nil, List.mem_append] at hx
    exact hx.elim (ha x) (hc x)
  · intro h
    have : s.dropWhile isWhitespace = [] := by
      have := dropWhile_white (a := s) (s := []) h (by simp)
      rwa [List.append_nil] at this
    rw [trim, this]
    rfl

/-- What is read from a text of flags. -/
theorem flagsRead_iff {n : Nat} {names : List (List Char × BitVec n)} (h : GoodNames names) (s : List Char) (x : BitVec n) :
    flagsRead names s = some x ↔ FlagsWritten n (names.map Prod.fst) s x := by
  unfold flagsRead FlagsWritten
  by_cases hw : (trim s).isEmpty = true
  · rw [if_pos hw]
    rw [trim_empty] at hw
    constructor
    · intro he; cases he; exact .inl ⟨hw, rfl⟩
    · rintro (⟨-, rfl⟩ | hp)
      · rfl
      · exfalso
        have hne : ∀ {s : List Char} {x : BitVec n}, FlagPart n (names.map Prod.fst) s x → ¬ White s := by
          rintro s x ⟨a, b, c, rfl, -, -, hb⟩ hw
          rcases hb with ⟨k, hk, -⟩ | ⟨hex, rfl, -⟩
          · obtain ⟨f, hf, rfl⟩ := List.mem_map.1 (List.mem_of_getElem? hk)
            cases hf1 : f.1 with
            | nil => exact h.nonempty f hf hf1
            | cons d l =>
              rw [hf1] at hw
              exact (h.chars f hf d (by simp [hf1])).1 (hw d (by simp))
          · exact absurd (hw '0' (by simp)) (by decide)
        cases hp with
        | one hp => exact hne hp hw
        | cons hp _ => exact white_not_bar (hw '|' (by simp)) rfl
  · rw [if_neg hw, flagsOf_iff h]
    rw [trim_empty] at hw
    exact ⟨.inr, fun h => h.resolve_left fun h => hw h.1⟩

/-! ## Writing -/

theorem white_nil : White [] := fun _ hc => nomatch hc

theorem FlagPart.after_space {n : Nat} {names : List (List Char)} {s : List Char} {x : BitVec n} (h : FlagPart n names s x) :
    FlagPart n names (s ++ [' ']) x ∧ FlagPart n names (' ' :: s) x := by
  obtain ⟨a, b, c, rfl, ha, hc, hb⟩ := h
  have hsp : IsWhite ' ' := by decide
  refine ⟨⟨a, b, c ++ [' '], by simp, ha, ?_, hb⟩, ⟨' ' :: a, b, c, by simp, ?_, hc, hb⟩⟩
  · intro d hd
    rcases List.mem_append.1 hd with hd | hd
    · exact hc d hd
    · rw [List.mem_singleton] at hd; rw [hd]; exact hsp
  · intro d hd
    rcases List.mem_cons.1 hd with hd | hd
    · rw [hd]; exact hsp
    · exact ha d hd

theorem flagParts_space {n : Nat} {names : List (List Char)} {s : List Char} {x : BitVec n} (h : FlagParts n names s x) :
    FlagParts n names (' ' :: s) x := by
  cases h with
  | one h => exact .one (FlagPart.after_space h).2
  | cons h h' => exact .cons (FlagPart.after_space h).2 h'

theorem flagParts_join {n : Nat} {names : List (List Char)} : ∀ (ps : List (List Char × BitVec n)), ps ≠ [] →
    (∀ p ∈ ps, FlagPart n names p.1 p.2) →
    FlagParts n names (join chars!" | " (ps.map Prod.fst)) (ps.foldr (fun p x => p.2 ||| x) 0)
  | [p], _, h => by
    have := FlagParts.one (h p (by simp))
    simpa [join] using this
  | p :: q :: ps, _, h => by
    have h1 := (FlagPart.after_space (h p (by simp))).1
    have h2 := flagParts_space (flagParts_join (q :: ps) (by simp) fun r hr => h r (by simp [hr]))
    have := FlagParts.cons h1 h2
    simpa [join] using this

theorem getLsbD_foldr {n : Nat} (l : List (List Char × BitVec n)) (i : Nat) :
    (l.foldr (fun p x => p.2 ||| x) (0 : BitVec n)).getLsbD i = l.any fun p => p.2.getLsbD i := by
  induction l with
  | nil => simp
  | cons p l ih => rw [List.foldr_cons, BitVec.getLsbD_or, ih, List.any_cons]

theorem getLsbD_foldl {n : Nat} (l : List (List Char × BitVec n)) (i : Nat) (a : BitVec n) :
    (l.foldl (fun x p => x ||| p.2) a).getLsbD i = (a.getLsbD i || l.any fun p => p.2.getLsbD i) := by
  induction l generalizing a with
  | nil => simp
  | cons p l ih => simp [ih, Bool.or_assoc]

theorem GoodNames.mem_bit {n : Nat} {names : List (List Char × BitVec n)} (h : GoodNames names) {i : Nat} (hi : i < n) :
    (∃ f ∈ names, f.2.getLsbD i = true) ↔ i < names.length := by
  constructor
  · rintro ⟨f, hf, hb⟩
    obtain ⟨k, hk, rfl⟩ := List.getElem_of_mem hf
    rw [h.get hk, BitVec.getLsbD_twoPow] at hb
    simp at hb
    omega
  · intro hl
    refine ⟨_, List.getElem_mem hl, ?_⟩
    rw [h.get hl, BitVec.getLsbD_twoPow]
    simp [hi]

/-- The text of flags is one of those that stand for them. -/
theorem flagsText_written {n : Nat} {names : List (List Char × BitVec n)} (h : GoodNames names) (s : BitVec n) :
    FlagsWritten n (names.map Prod.fst) (flagsText names s) s := by
  let rest := s &&& ~~~ names.foldl (fun a f => a ||| f.2) 0
  let ps : List (List Char × BitVec n) := (names.filter fun f => s &&& f.2 == f.2) ++
    if rest = 0 then [] else [(chars!"0x" ++ Nat.toDigits 16 rest.toNat, rest)]
  have ht : flagsText names s = join chars!" | " (ps.map Prod.fst) := by
    unfold flagsText
    simp only [ps, rest, List.map_append]
    split <;> rfl
  have hs : ps.foldr (fun p x => p.2 ||| x) 0 = s := by
    apply BitVec.eq_of_getLsbD_eq
    intro i hi
    rw [getLsbD_foldr, Bool.eq_iff_iff, List.any_eq_true]
    have hrest : rest.getLsbD i = (s.getLsbD i && !decide (i < names.length)) := by
      simp only [rest, BitVec.getLsbD_and, BitVec.getLsbD_not, hi, decide_true, Bool.true_and, getLsbD_foldl]
      congr 2
      rw [Bool.eq_iff_iff]
      simp only [Bool.or_eq_true, List.any_eq_true, decide_eq_true_eq]
      rw [← h.mem_bit hi]
      simp
    constructor
    · rintro ⟨p, hp, hb⟩
      rcases List.mem_append.1 hp with hp | hp
      · obtain ⟨-, h2⟩ := List.mem_filter.1 hp
        rw [beq_iff_eq] at h2
        rw [← h2, BitVec.getLsbD_and, Bool.and_eq_true] at hb
        exact hb.1
      · split at hp
        · cases hp
        · rw [List.mem_singleton] at hp
          subst hp
          rw [hrest, Bool.and_eq_true] at hb
          exact hb.1
    · intro hb
      by_cases hl : i < names.length
      · refine ⟨names[i], List.mem_append_left _ (List.mem_filter.2 ⟨List.getElem_mem hl, ?_⟩), ?_⟩
        · rw [h.get hl, BitVec.and_twoPow, if_pos hb]
          simp
        · rw [h.get hl, BitVec.getLsbD_twoPow]
          simp [hi]
      · have hr : rest.getLsbD i = true := by simp [hrest, hb, hl]
        have hne : rest ≠ 0 := by
          intro h0
          rw [h0] at hr
          simp at hr
        exact ⟨_, List.mem_append_right _ (by rw [if_neg hne]; exact List.mem_singleton_self _), hr⟩
  rw [ht]
  by_cases hn : ps = []
  · rw [hn] at hs ⊢
    exact .inl ⟨white_nil, hs.symm⟩
  · refine .inr ?_
    have := flagParts_join ps hn (names := names.map Prod.fst) ?_
    · rwa [hs] at this
    · intro p hp
      rcases List.mem_append.1 hp with hp | hp
      · have hp := (List.mem_filter.1 hp).1
        obtain ⟨k, hk, rfl⟩ := List.getElem_of_mem hp
        refine ⟨[], names[k].1, [], by simp, white_nil, white_nil, .inl ⟨k, by simp [hk], ?_⟩⟩
        have := h.short
        rw [h.get hk, BitVec.toNat_twoPow_of_lt (by omega)]
      · split at hp
        · cases hp
        · rw [List.mem_singleton] at hp
          subst hp
          exact ⟨[], chars!"0x" ++ Nat.toDigits 16 rest.toNat, [], by simp, white_nil, white_nil,
            .inr ⟨_, rfl, _, .inl rfl, Nat.toDigits_ne_nil, hexDigits_toDigits _⟩⟩

end Xcvr.Cli
