import Verif.Lemmas.Cli

/-! # Lemmas about the data to write given to the command line tool -/

namespace Xcvr

open Spec Cli

/-! ## Words -/

theorem go_white {a : List Char} (ha : White a) (s : List Char) :
    splitWhitespace.go [] (a ++ s) = splitWhitespace.go [] s := by
  induction a with
  | nil => rfl
  | cons c a ih =>
    rw [List.cons_append, splitWhitespace.go, if_pos (white_iff.mpr (ha c (by simp)))]
    exact ih (fun d hd => ha d (by simp [hd]))

theorem go_word {w : List Char} (hw : ∀ c ∈ w, ¬ IsWhite c) (acc s : List Char) :
    splitWhitespace.go acc (w ++ s) = splitWhitespace.go (w.reverse ++ acc) s := by
  induction w generalizing acc with
  | nil => rfl
  | cons c w ih =>
    rw [List.cons_append, splitWhitespace.go, if_neg (by rw [white_iff]; exact hw c (by simp)), ih (fun d hd => hw d (by simp [hd]))]
    simp

theorem go_end {acc s : List Char} (ha : acc ≠ []) (hs : ∀ c ∈ s.head?, IsWhite c) :
    splitWhitespace.go acc s = acc.reverse :: splitWhitespace.go [] s := by
  have he : acc.isEmpty = false := by simpa using ha
  cases s with
  | nil => simp [splitWhitespace.go, he]
  | cons c s => simp [splitWhitespace.go, white_iff.mpr (hs c (by simp)), he]

theorem splitWhitespace_of_words {s : List Char} {ws : List (List Char)} (h : Words s ws) : splitWhitespace s = ws := by
  unfold splitWhitespace
  induction h with
  | @nil a ha =>
    have := go_white ha []
    rw [List.append_nil] at this
    rw [this]; rfl
  | @cons a w s ws ha hw hn hs _ ih =>
    rw [List.append_assoc, go_white ha, go_word hn, List.append_nil, go_end (by simpa using hw) hs, List.reverse_reverse, ih]

theorem dropWhile_head (p : Char → Bool) (s : List Char) : ∀ c ∈ (s.dropWhile p).head?, p c = false := by
  induction s with
  | nil => intro c hc; cases hc
  | cons x s ih =>
    rw [List.dropWhile_cons]
    split
    · exact ih
    · rename_i hx
      intro c hc
      simp only [List.head?_cons, Option.mem_some_iff] at hc
      subst hc
      simpa using hx

theorem takeWhile_mem (p : Char → Bool) (s : List Char) : ∀ c ∈ s.takeWhile p, p c = true := by
  induction s with
  | nil => intro c hc; cases hc
  | cons x s ih =>
    intro c hc
    rw [List.takeWhile_cons] at hc
    split at hc
    · rename_i hx
      rcases List.mem_cons.mp hc with rfl | hc
      · exact hx
      · exact ih c hc
    · cases hc

theorem exists_words (s : List Char) : ∃ ws, Words s ws := by
  generalize hk : s.length = k
  induction k using Nat.strongRecOn generalizing s with
  | ind k ih =>
    have h1 := List.takeWhile_append_dropWhile (p := isWhitespace) (l := s)
    have h2 : White (s.takeWhile isWhitespace) := fun c hc => white_iff.mp (takeWhile_mem isWhitespace s c hc)
    have h3 := dropWhile_head isWhitespace s
    generalize s.takeWhile isWhitespace = a at h1 h2
    generalize s.dropWhile isWhitespace = r at h1 h3
    subst h1
    cases r with
    | nil => exact ⟨[], by rw [List.append_nil]; exact .nil h2⟩
    | cons c r =>
      have hc := h3 c (by simp)
      have h4 := List.takeWhile_append_dropWhile (p := fun c => !isWhitespace c) (l := c :: r)
      have h5 := takeWhile_mem (fun c => !isWhitespace c) (c :: r)
      have h6 := dropWhile_head (fun c => !isWhitespace c) (c :: r)
      have h7 : (c :: r).takeWhile (fun c => !isWhitespace c) ≠ [] := by
        rw [List.takeWhile_cons, hc]
        simp
      generalize (c :: r).takeWhile (fun c => !isWhitespace c) = w at h4 h5 h7
      generalize (c :: r).dropWhile (fun c => !isWhitespace c) = t at h4 h6
      rw [← h4] at hk ⊢
      have hl : 0 < w.length := List.length_pos_iff.mpr h7
      obtain ⟨ws, hws⟩ := ih t.length (by simp at hk; omega) t rfl
      refine ⟨w :: ws, ?_⟩
      rw [← List.append_assoc]
      exact .cons h2 h7 (fun d hd => not_white_iff.mp (by simpa using h5 d hd)) (fun d hd => white_iff.mp (by simpa using h6 d hd)) hws

theorem words_iff {s : List Char} {ws : List (List Char)} : Words s ws ↔ splitWhitespace s = ws := by
  constructor
  · exact splitWhitespace_of_words
  · rintro rfl
    obtain ⟨ws, hws⟩ := exists_words s
    rwa [splitWhitespace_of_words hws]

/-! ## Values of words -/

theorem trimStartMatches_prefixed (a b : Char) (s : List Char) : Prefixed a b s (trimStartMatches a b s) := by
  generalize hk : s.length = k
  induction k using Nat.strongRecOn generalizing s with
  | ind k ih =>
    match s with
    | [] => exact .none
    | [_] => exact .none
    | x :: y :: r =>
      rw [trimStartMatches]
      split
      · rename_i h
        rw [h.1, h.2]
        exact .more (ih r.length (by simp at hk; omega) r rfl)
      · exact .none

theorem trimStartMatches_of_prefixed {a b : Char} {s t : List Char} (h : Prefixed a b s t)
    (ht : ∀ r, t ≠ a :: b :: r) : trimStartMatches a b s = t := by
  induction h with
  | none =>
    rename_i t
    match t with
    | [] => rfl
    | [_] => rfl
    | x :: y :: r =>
      rw [trimStartMatches, if_neg]
      rintro ⟨rfl, rfl⟩
      exact ht r rfl
  | more _ ih => rw [trimStartMatches, if_pos ⟨rfl, rfl⟩, ih ht]

theorem number_no_x {r : Nat} {t s : List Char} {x : U8} (h : Number r t x) : t ≠ '0' :: 'x' :: s := by
  rintro rfl
  rcases h.mem 'x' (by simp) with h | ⟨d, hd, _⟩
  · cases h
  · have := hexDigit_val hd
    rw [show hexVal 'x' = none by decide] at this
    cases this

theorem number_no_b {t s : List Char} {x : U8} (h : Number 2 t x) : t ≠ '0' :: 'b' :: s := by
  rintro rfl
  rcases h.mem 'b' (by simp) with h | ⟨d, hd, h2⟩
  · cases h
  · have := hexDigit_val hd
    rw [show hexVal 'b' = some 11 by decide] at this
    cases this
    omega

theorem conv_iff {kind : InputKind} (hk : kind ≠ .binary) {s : List Char} {x : U8} :
    conv kind s = some x ↔ WordValue kind s x := by
  cases kind with
  | binary => exact absurd rfl hk
  | decimal => exact u8FromRadix_iff
  | hex =>
    rw [conv, u8FromRadix_iff]
    constructor
    · intro h; exact ⟨_, trimStartMatches_prefixed .., h⟩
    · rintro ⟨t, ht, hn⟩
      rwa [trimStartMatches_of_prefixed ht (fun r => number_no_x hn)]
  | binaryString =>
    rw [conv, u8FromRadix_iff]
    constructor
    · intro h; exact ⟨_, trimStartMatches_prefixed .., h⟩
    · rintro ⟨t, ht, hn⟩
      rwa [trimStartMatches_of_prefixed ht (fun r => number_no_b hn)]

theorem values_iff {kind : InputKind} (hk : kind ≠ .binary) {ws : List (List Char)} {data : Bytes} :
    ws.mapM (conv kind) = some data ↔ Values kind ws data := by
  induction ws generalizing data with
  | nil =>
    rw [List.mapM_nil]
    constructor
    · intro h; cases h; exact .nil
    · intro h; cases h; rfl
  | cons w ws ih =>
    rw [List.mapM_cons]
    constructor
    · intro h
      cases hc : conv kind w with
      | none => rw [hc] at h; cases h
      | some x =>
        rw [hc] at h
        cases hm : ws.mapM (conv kind) with
        | none => rw [hm] at h; cases h
        | some xs =>
          rw [hm] at h
          cases h
          exact .cons ((conv_iff hk).mp hc) (ih.mp hm)
    · intro h
      cases h with
      | cons h1 h2 =>
        rw [(conv_iff hk).mpr h1, ih.mpr h2]
        rfl

/-- A text that denotes octets denotes exactly those the parser finds. -/
theorem textMeans_iff {kind : InputKind} (hk : kind ≠ .binary) {text : List Char} {data : Bytes} :
    TextMeans kind text data ↔ (splitWhitespace text).mapM (conv kind) = some data := by
  unfold TextMeans
  constructor
  · rintro ⟨ws, h1, h2⟩
    rw [words_iff.mp h1]
    exact (values_iff hk).mpr h2
  · intro h
    exact ⟨_, words_iff.mpr rfl, (values_iff hk).mp h⟩

theorem parseNumbers_iff {kind : InputKind} (hk : kind ≠ .binary) {text : List Char} {data : Bytes} :
    parseNumbers kind text = .ok data ↔ TextMeans kind text data ∧ data.length ≤ 128 := by
  rw [textMeans_iff hk, parseNumbers]
  constructor
  · intro h
    split at h
    · cases h
    · rename_i d hd
      split at h
      · rename_i hl
        cases h
        exact ⟨hd, hl⟩
      · cases h
  · rintro ⟨h1, h2⟩
    rw [h1]
    simp only
    rw [if_pos (by exact h2)]

end Xcvr
