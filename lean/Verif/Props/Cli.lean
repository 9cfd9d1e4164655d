import Verif.Lemmas.CliInput

/-! # C62 and C64: texts given to the command line tool -/

namespace Xcvr

open Spec Cli

/-! ## C62 -/

theorem keyword_chars : ∀ k ∈ keywords, ∀ c ∈ k.1, c.toNat < 128 ∧ c ≠ 'k' := by decide

theorem keyword_eq {lower : List Char → List Char} (hl : ∀ s, Lowered s (lower s)) {k : List Char × Transceivers}
    (hk : k ∈ keywords) (s : List Char) : lower s = k.1 ↔ IsWord s k.1 :=
  word_lowered (hl s) (keyword_chars k hk)

/-- C62: the words for states and kinds, in any mix of capital and small letters, are recognised. -/
theorem C62_words {lower : List Char → List Char} (hl : ∀ s, Lowered s (lower s)) (s : List Char)
    {k : List Char × Transceivers} (hk : k ∈ keywords) (hs : IsWord s k.1) : parseTransceivers lower s = .ok k.2 := by
  rw [← keyword_eq hl hk] at hs
  have h : ∀ k ∈ keywords, parseTransceivers (fun s => s) k.1 = .ok k.2 := by decide
  rw [← h k hk, parseTransceivers, hs]
  rfl

/-- C62: any other text is accepted exactly if it is a comma-separated list of ports and increasing inclusive ranges, all
below 64, and then it selects exactly the listed ports. -/
theorem C62_lists {lower : List Char → List Char} (hl : ∀ s, Lowered s (lower s)) (s : List Char)
    (hs : ∀ k ∈ keywords, ¬ IsWord s k.1) (sel : Transceivers) :
    parseTransceivers lower s = .ok sel ↔
      ∃ m P, sel = .index m ∧ PortList s P ∧ (∀ p, P p → p < 64) ∧ ∀ p, Mem m p ↔ P p := by
  have hn : ∀ k ∈ keywords, lower s ≠ k.1 := fun k hk h => hs k hk ((keyword_eq hl hk s).mp h)
  have hp : parseTransceivers lower s = (match parseParts (splitChar ',' (lower s)) with
    | .error e => .error e
    | .ok indices =>
      match ModuleId.fromIndices indices with
      | .error e => .error (.ports e)
      | .ok m => .ok (.index m)) := by
    simp only [keywords, List.mem_cons, List.not_mem_nil, or_false, forall_eq_or_imp, forall_eq] at hn
    obtain ⟨h1, h2, h3, h4, h5, h6, h7, h8, h9, h10⟩ := hn
    rw [parseTransceivers]
    simp only [h1, h2, h3, h4, h5, h6, h7, h8, h9, h10, if_false, or_self]
    rfl
  rw [hp]
  constructor
  · intro h
    split at h
    · cases h
    · rename_i is his
      split at h
      · cases h
      · rename_i m hm
        cases h
        have h64 := (C02_from_indices_iff is).mp ⟨m, hm⟩
        obtain ⟨m', hm', hmem⟩ := C02_from_indices_ok is h64
        rw [hm] at hm'
        cases hm'
        refine ⟨m, _, rfl, (portList_lowered (hl s)).mp (portList_of_parseParts his), ?_, hmem⟩
        rintro p ⟨i, hi, rfl⟩
        exact h64 i hi
  · rintro ⟨m, P, rfl, hP, h64, hm⟩
    obtain ⟨is, his, hi⟩ := parseParts_iff ((portList_lowered (hl s)).mpr hP)
    rw [his]
    obtain ⟨m', hm', hmem⟩ := C02_from_indices_ok is (fun i h => h64 _ ((hi _).mpr ⟨i, h, rfl⟩))
    simp only [hm']
    have : m' = m := moduleId_ext_mem (fun p => by rw [hmem, hm, hi])
    rw [this]

/-- C62: what is not such a list or word is refused. -/
theorem C62_refused {lower : List Char → List Char} (hl : ∀ s, Lowered s (lower s)) (s : List Char)
    (hs : ∀ k ∈ keywords, ¬ IsWord s k.1) (h : ¬ ∃ P, PortList s P ∧ ∀ p, P p → p < 64) :
    ∃ e, parseTransceivers lower s = .error e := by
  cases hp : parseTransceivers lower s with
  | error e => exact ⟨e, rfl⟩
  | ok sel =>
    obtain ⟨m, P, _, h1, h2, _⟩ := (C62_lists hl s hs sel).mp hp
    exact absurd ⟨P, h1, h2⟩ h

/-- Lowering of ASCII letters only is one way to lower a text of ASCII characters and white space. -/
theorem lowered_map {s : List Char} (h : ∀ c ∈ s, c.toNat < 128 ∨ IsWhite c) : Lowered s (s.map Char.toLower) := by
  induction s with
  | nil => exact .nil
  | cons c s ih =>
    have : LowerPiece c [c.toLower] := by
      unfold LowerPiece
      rw [if_pos (h c (by simp))]
    exact .cons this (ih fun d hd => h d (by simp [hd]))

/-- A lowering for all texts: unusual characters all become U+00E5. -/
def plainLower (s : List Char) : List Char :=
  s.map fun c => if c.toNat < 128 ∨ IsWhite c then c.toLower else 'å'

theorem plainLower_lowers (s : List Char) : Lowered s (plainLower s) := by
  induction s with
  | nil => exact .nil
  | cons c s ih =>
    have : LowerPiece c [if c.toNat < 128 ∨ IsWhite c then c.toLower else 'å'] := by
      unfold LowerPiece
      split
      · rfl
      · refine ⟨?_, 'å', by simp, by decide⟩
        intro d hd
        rw [List.mem_singleton] at hd
        subst hd
        decide
    exact .cons this ih

example : parseTransceivers plainLower chars!"High-Power" = .ok (.powerState .high) := by decide +kernel
example : parseTransceivers plainLower chars!"0, 4-6" = .ok (.index ⟨0x71⟩) := by decide +kernel
example : parseTransceivers plainLower chars!"4,64" = .error (.ports ⟨64⟩) := by decide +kernel
example : parseTransceivers plainLower chars!"6-4" = .error .notIncreasing := by decide +kernel
example : parseTransceivers plainLower chars!"4-" = .error .missingBound := by decide +kernel
example : parseTransceivers plainLower chars!"4,,5" = .error .malformed := by decide +kernel
example : parseTransceivers plainLower chars!"4-256" = .error .notInteger := by decide +kernel

/-! ## C64 -/

theorem fromUtf8_iff {b : Bytes} {s : List Char} : fromUtf8 b = .ok s ↔ Encodes s b := by
  have h := utf8Loop_spec b.length b (Nat.le_refl _)
  unfold fromUtf8 Encodes
  constructor
  · intro hf
    split at hf
    · rename_i cs hcs
      cases hf
      rw [hcs] at h
      simpa using h.1
    · cases hf
  · intro hb
    have h1 : TextPrefix b s := ⟨[], by simpa using hb, fun c r h => utf8Encode_ne_nil c (List.append_eq_nil_iff.mp h.symm).1⟩
    have h2 : TextPrefix b (utf8Loop b.length b).1 := ⟨_, h⟩
    have h3 := textPrefix_unique h1 h2
    rw [← h3] at h
    have h4 : (utf8Loop b.length b).2 = [] := by
      have := h.1
      rw [← hb] at this
      exact List.append_right_eq_self.mp this.symm
    split
    · rename_i cs hcs
      rw [hcs] at h3
      rw [h3]
    · rename_i hcs
      rw [hcs] at h4
      cases h4

theorem utf8Encode_head (c : Char) :
    ∃ h t, utf8Encode c = h :: t ∧ isCont h = false ∧ (∀ x ∈ t, isCont x = true) ∧
      (c.toNat < 128 → h = BitVec.ofNat 8 c.toNat ∧ t = []) ∧ (128 ≤ c.toNat → 128 ≤ h.toNat) := by
  have hc : c.toNat < 0x110000 := by
    rcases c.valid with h | h
    · exact Nat.lt_trans h (by decide)
    · exact h.2
  have hk : ∀ n : Nat, 128 ≤ n → n < 192 → isCont (BitVec.ofNat 8 n) = true := by
    intro n h1 h2
    rw [isCont_iff, BitVec.toNat_ofNat, Nat.mod_eq_of_lt (by omega)]
    omega
  have hh : ∀ n : Nat, (n < 128 ∨ 192 ≤ n) → n < 256 → isCont (BitVec.ofNat 8 n) = false := by
    intro n h1 h2
    rw [← Bool.not_eq_true, isCont_iff, BitVec.toNat_ofNat, Nat.mod_eq_of_lt (by omega)]
    omega
  have hn : ∀ n : Nat, 128 ≤ n → n < 256 → 128 ≤ (BitVec.ofNat 8 n).toNat := by
    intro n h1 h2
    rw [BitVec.toNat_ofNat, Nat.mod_eq_of_lt (by omega)]
    exact h1
  unfold utf8Encode
  simp only
  split
  · exact ⟨_, _, rfl, hh _ (.inl (by omega)) (by omega), by simp, fun _ => ⟨rfl, rfl⟩, fun h => (by omega)⟩
  · split
    · exact ⟨_, _, rfl, hh _ (.inr (by omega)) (by omega), by simp; exact hk _ (by omega) (by omega),
        fun h => (by omega), fun h => hn _ (by omega) (by omega)⟩
    · split
      · refine ⟨_, _, rfl, hh _ (.inr (by omega)) (by omega), ?_, fun h => (by omega), fun h => hn _ (by omega) (by omega)⟩
        simp only [List.mem_cons, List.not_mem_nil, or_false, forall_eq_or_imp, forall_eq]
        exact ⟨hk _ (by omega) (by omega), hk _ (by omega) (by omega)⟩
      · refine ⟨_, _, rfl, hh _ (.inr (by omega)) (by omega), ?_, fun h => (by omega), fun h => hn _ (by omega) (by omega)⟩
        simp only [List.mem_cons, List.not_mem_nil, or_false, forall_eq_or_imp, forall_eq]
        exact ⟨hk _ (by omega) (by omega), hk _ (by omega) (by omega), hk _ (by omega) (by omega)⟩

/-- The byte at `i` of a text starts a character, or is its end. -/
def Spec.Boundary (text : List Char) (i : Nat) : Prop :=
  ∃ a b, text = a ++ b ∧ (a.flatMap utf8Encode).length = i

theorem boundary_iff (text : List Char) (i : Nat) :
    isCharBoundary (text.flatMap utf8Encode) i = true ↔ Boundary text i := by
  induction text generalizing i with
  | nil =>
    cases i with
    | zero => exact ⟨fun _ => ⟨[], [], rfl, rfl⟩, fun _ => rfl⟩
    | succ i =>
      refine ⟨fun h => (by simp [isCharBoundary] at h), ?_⟩
      rintro ⟨a, b, h, hl⟩
      rw [(List.append_eq_nil_iff.mp h.symm).1] at hl
      cases hl
  | cons c text ih =>
    obtain ⟨h, t, he, hh, ht, _⟩ := utf8Encode_head c
    rw [List.flatMap_cons, he]
    rcases Nat.eq_zero_or_pos i with rfl | hi
    · exact ⟨fun _ => ⟨[], c :: text, rfl, rfl⟩, fun _ => rfl⟩
    by_cases hlt : i < t.length + 1
    · have h1 : (h :: t ++ text.flatMap utf8Encode)[i]? = some t[i - 1] := by
        rw [List.cons_append, List.getElem?_cons, if_neg (by omega), List.getElem?_append_left (by omega),
          List.getElem?_eq_getElem (by omega)]
      have h2 := ht _ (List.getElem_mem (l := t) (n := i - 1) (by omega))
      refine ⟨fun hb => ?_, ?_⟩
      · rw [isCharBoundary, h1] at hb
        simp only [h2, List.length_append, List.length_cons, Bool.or_eq_true, beq_iff_eq] at hb
        rcases hb with (hb | hb) | hb
        · omega
        · omega
        · cases hb
      · rintro ⟨a, b, hs, hl⟩
        cases a with
        | nil => rw [← hl] at hi; exact absurd hi (by simp)
        | cons d a =>
          rw [List.cons_append, List.cons.injEq] at hs
          rw [List.flatMap_cons, ← hs.1, he, List.length_append, List.length_cons] at hl
          omega
    · have h1 : isCharBoundary (h :: t ++ text.flatMap utf8Encode) i =
          isCharBoundary (text.flatMap utf8Encode) (i - (t.length + 1)) := by
        rw [isCharBoundary, isCharBoundary, List.getElem?_append_right (by simp; omega)]
        simp only [List.length_append, List.length_cons]
        rcases Nat.eq_or_lt_of_le (Nat.le_of_not_lt hlt) with e | hgt
        · rw [← e, Nat.sub_self]
          cases text with
          | nil => simp
          | cons d text =>
            obtain ⟨h', t', he', hh', _⟩ := utf8Encode_head d
            rw [List.flatMap_cons, he']
            simp [hh']
        · have e1 : (i == 0) = false := by simp; omega
          have e2 : (i - (t.length + 1) == 0) = false := by simp; omega
          have e3 : (i == t.length + 1 + (text.flatMap utf8Encode).length) =
              (i - (t.length + 1) == (text.flatMap utf8Encode).length) := by
            rw [Bool.eq_iff_iff]; simp only [beq_iff_eq]; omega
          rw [e1, e2, e3]
      rw [h1, ih]
      constructor
      · rintro ⟨a, b, hs, hl⟩
        refine ⟨c :: a, b, by rw [hs]; rfl, ?_⟩
        rw [List.flatMap_cons, he, List.length_append, hl, List.length_cons]
        omega
      · rintro ⟨a, b, hs, hl⟩
        cases a with
        | nil => rw [← hl] at hi; exact absurd hi (by simp)
        | cons d a =>
          rw [List.cons_append, List.cons.injEq] at hs
          refine ⟨a, b, hs.2, ?_⟩
          rw [List.flatMap_cons, ← hs.1, he, List.length_append, List.length_cons] at hl
          omega

/-- The kind of input a text announces by its first two characters. -/
def Spec.announced : List Char → InputKind
  | '0' :: 'b' :: _ => .binaryString
  | '0' :: 'x' :: _ => .hex
  | _ => .decimal

theorem take_two {text : List Char} {x : Char} (hx : x.toNat < 128) :
    (text.flatMap utf8Encode).take 2 = [0x30, BitVec.ofNat 8 x.toNat] ↔ ∃ r, text = '0' :: x :: r := by
  constructor
  · intro h
    have key : ∀ (c : Char) (rest tl : Bytes) (n : Nat) (d : Char), d.toNat < 128 →
        (utf8Encode c ++ rest).take (n + 1) = BitVec.ofNat 8 d.toNat :: tl → c = d ∧ rest.take n = tl := by
      intro c rest tl n d hd h
      obtain ⟨e, t, he, _, _, h1, h2⟩ := utf8Encode_head c
      rw [he, List.cons_append, List.take_succ_cons, List.cons.injEq] at h
      by_cases hc : c.toNat < 128
      · obtain ⟨h3, h4⟩ := h1 hc
        subst h4
        refine ⟨?_, h.2⟩
        have h5 := congrArg BitVec.toNat (h3.symm.trans h.1)
        rw [BitVec.toNat_ofNat, BitVec.toNat_ofNat, Nat.mod_eq_of_lt (by omega), Nat.mod_eq_of_lt (by omega)] at h5
        rw [← Char.ofNat_toNat c, h5, Char.ofNat_toNat]
      · have h3 := h2 (by omega)
        rw [h.1, BitVec.toNat_ofNat, Nat.mod_eq_of_lt (by omega)] at h3
        omega
    cases text with
    | nil => cases h
    | cons c text =>
      rw [List.flatMap_cons] at h
      obtain ⟨rfl, h'⟩ := key c _ _ 1 '0' (by decide) h
      cases text with
      | nil => cases h'
      | cons d text =>
        rw [List.flatMap_cons] at h'
        obtain ⟨rfl, _⟩ := key d _ _ 0 x hx h'
        exact ⟨text, rfl⟩
  · rintro ⟨r, rfl⟩
    have h0 : utf8Encode '0' = [0x30] := by decide
    have h1 : utf8Encode x = [BitVec.ofNat 8 x.toNat] := by
      unfold utf8Encode
      simp only
      rw [if_pos hx]
    rw [List.flatMap_cons, List.flatMap_cons, h0, h1]
    rfl

theorem announced_eq (text : List Char) :
    (if (text.flatMap utf8Encode).take 2 = [0x30, 0x62] then InputKind.binaryString
      else if (text.flatMap utf8Encode).take 2 = [0x30, 0x78] then .hex else .decimal) = announced text := by
  have hb := take_two (text := text) (x := 'b') (by decide)
  have hx := take_two (text := text) (x := 'x') (by decide)
  rw [show BitVec.ofNat 8 'b'.toNat = (0x62 : U8) from rfl] at hb
  rw [show BitVec.ofNat 8 'x'.toNat = (0x78 : U8) from rfl] at hx
  split
  · rename_i h
    obtain ⟨r, rfl⟩ := hb.mp h
    rfl
  · rename_i h1
    split
    · rename_i h
      obtain ⟨r, rfl⟩ := hx.mp h
      rfl
    · rename_i h2
      unfold announced
      split
      · exact absurd (hb.mpr ⟨_, rfl⟩) h1
      · exact absurd (hx.mpr ⟨_, rfl⟩) h2
      · rfl

theorem announced_not_binary (text : List Char) : announced text ≠ .binary := by
  unfold announced
  split <;> simp

/-- C64 for input of a declared text kind, up to 512 bytes: it is accepted exactly if it consists of at most 128 numbers
that fit an octet, and then it means those numbers. Missing: longer input. -/
theorem C64_declared_partial {kind : InputKind} (hk : kind ≠ .binary) {text : List Char} {content : Bytes}
    (he : Encodes text content) (hl : content.length ≤ 512) (n : Nat) (data : Bytes) :
    loadWriteData (some kind) content n = .ok data ↔ TextMeans kind text data ∧ data.length ≤ 128 := by
  have h1 : loadKnownWriteData kind content n = parseNumbers kind text := by
    have h2 : fromUtf8 (content.take (maxBytes * 4)) = .ok text := by
      rw [List.take_of_length_le (by exact hl)]
      exact fromUtf8_iff.mpr he
    cases kind with
    | binary => exact absurd rfl hk
    | hex | decimal | binaryString => simp only [loadKnownWriteData, h2]
  rw [← parseNumbers_iff hk, loadWriteData]
  simp only [h1]
  cases parseNumbers kind text <;> simp

/-- C64 for input whose kind is to be detected, of 2 to 512 bytes and with a character boundary after two bytes: it is
accepted exactly if it consists of at most 128 numbers of the kind announced by the first two characters, and it never
aborts. Missing: shorter input, longer input, and input that starts with other characters. -/
theorem C64_detected_partial {text : List Char} {content : Bytes} (he : Encodes text content) (hl : content.length ≤ 512)
    (hb : Boundary text 2) (n : Nat) :
    loadWriteData none content n ≠ .panic ∧
    ∀ data, loadWriteData none content n = .ok data ↔ TextMeans (announced text) text data ∧ data.length ≤ 128 := by
  have h1 : fromUtf8 content = .ok text := fromUtf8_iff.mpr he
  have hne : content.isEmpty = false := by
    cases content with
    | nil =>
      obtain ⟨a, b, h2, h3⟩ := hb
      have h4 := congrArg List.length he
      rw [h2, List.flatMap_append, List.length_append, h3] at h4
      simp at h4
      omega
    | cons _ _ => rfl
  have h2 : isCharBoundary content 2 = true := by rw [he]; exact (boundary_iff text 2).mpr hb
  have h3 : loadWriteData none content n = loadWriteData (some (announced text)) content 0 := by
    show (match fromUtf8 content with
      | .error _ => Exec.err InputError.notUtf8
      | .ok _ => loadWriteDataAutodetect content) = _
    rw [h1]
    show loadWriteDataAutodetect content = _
    rw [loadWriteDataAutodetect, hne, h2]
    have h4 := announced_eq text
    rw [← he] at h4
    simp only [h4, loadWriteData, Bool.not_true, Bool.false_eq_true, if_false]
  refine ⟨?_, fun data => ?_⟩
  · rw [h3, loadWriteData]
    split <;> simp
  · rw [h3]
    exact C64_declared_partial (announced_not_binary text) he hl 0 data

/-- Input of a declared kind never aborts. -/
theorem C64_declared_total (kind : InputKind) (content : Bytes) (n : Nat) :
    loadWriteData (some kind) content n ≠ .panic := by
  rw [loadWriteData]
  split <;> simp

/-- C64 is false: detecting the kind aborts exactly on non-empty text without a character boundary after two bytes, in
particular on every text of a single byte. -/
theorem C64_aborts {text : List Char} {content : Bytes} (he : Encodes text content) (n : Nat) :
    loadWriteData none content n = .panic ↔ text ≠ [] ∧ ¬ Boundary text 2 := by
  have h1 : fromUtf8 content = .ok text := fromUtf8_iff.mpr he
  have hne : content.isEmpty = true ↔ text = [] := by
    rw [he]
    cases text with
    | nil => simp
    | cons c t => simp [utf8Encode_ne_nil]
  have hb : isCharBoundary content 2 = true ↔ Boundary text 2 := by rw [he]; exact boundary_iff text 2
  rw [loadWriteData, h1]
  simp only
  rw [loadWriteDataAutodetect]
  split
  · rename_i h
    simp [hne.mp h]
  · rename_i h
    rw [hne] at h
    split
    · rename_i h2
      have : ¬ Boundary text 2 := by rw [← hb]; simpa using h2
      simp [h, this]
    · rename_i h2
      have : Boundary text 2 := by rw [← hb]; simpa using h2
      simp only [this, not_true_eq_false, and_false, iff_false]
      split <;> simp

/-- C64 is false: the single digit `5` aborts the tool. -/
theorem C64_abort_counterexample : loadWriteData none [0x35] 0 = .panic ∧ TextMeans .decimal chars!"5" [5] := by
  refine ⟨by decide +kernel, (textMeans_iff (by decide)).mpr (by decide +kernel)⟩

/-- C64 is false: 510 blanks and the number 123 are accepted as the number 12. -/
theorem C64_truncation_counterexample :
    let text := List.replicate 510 ' ' ++ chars!"123"
    ∃ content, Encodes text content ∧ loadWriteData none content 0 = .ok [12] ∧ TextMeans .decimal text [123] := by
  refine ⟨_, rfl, by decide +kernel, (textMeans_iff (by decide)).mpr (by decide +kernel)⟩

/-- C64: of input of a declared text kind, only the first 512 bytes matter. -/
theorem C64_ignored {kind : InputKind} (hk : kind ≠ .binary) (content : Bytes) (n : Nat) :
    loadWriteData (some kind) content n = loadWriteData (some kind) (content.take 512) n := by
  have : loadKnownWriteData kind content n = loadKnownWriteData kind (content.take 512) n := by
    cases kind with
    | binary => exact absurd rfl hk
    | hex | decimal | binaryString =>
      simp only [loadKnownWriteData, maxBytes, List.take_take]
      rfl
  rw [loadWriteData, loadWriteData]
  simp only [this]

/-- C64 is false: binary input longer than 128 bytes is silently cut. -/
theorem C64_binary (content : Bytes) (n : Nat) :
    loadWriteData (some .binary) content n = .ok (content.take (min n 128)) := rfl

/-- C64 for binary input up to 128 bytes that the operating system returns in one piece. Missing: other input. -/
theorem C64_binary_partial (content : Bytes) (h : content.length ≤ 128) :
    loadWriteData (some .binary) content content.length = .ok content := by
  rw [C64_binary, List.take_of_length_le (by omega)]

/-- C64 is false, as a whole. -/
theorem C64_false : ¬ ∀ (text : List Char) (content : Bytes), Encodes text content → text ≠ [] →
    loadWriteData none content 0 ≠ .panic ∧
      ∀ data, loadWriteData none content 0 = .ok data → TextMeans (announced text) text data := by
  intro h
  exact (h chars!"5" [0x35] rfl (by decide)).1 C64_abort_counterexample.1

example : loadWriteData none (chars!"0x12 ff\n".flatMap utf8Encode) 0 = .ok [0x12, 0xff] := by decide +kernel
example : loadWriteData none (chars!"0b101".flatMap utf8Encode) 0 = .ok [5] := by decide +kernel
example : loadWriteData none (chars!"12 300".flatMap utf8Encode) 0 = .err .badNumber := by decide +kernel
example : Boundary chars!"12 30" 2 := ⟨chars!"12", chars!" 30", rfl, by decide⟩

end Xcvr
