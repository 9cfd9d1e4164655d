import Verif.Props.Cli
import Verif.Props.CliPrint

/-!
# C153: writing back data that was read

`read-lower` and `read-upper` print the bytes of a module with commas between them; `write-lower` and `write-upper` take
numbers with white space between them.
-/

namespace Xcvr

open Spec Cli

/-- A text as the content of a file. -/
def Spec.asFile (text : List Char) : Bytes := text.flatMap utf8Encode

/-- A text with blanks for commas. -/
def Spec.blanked (text : List Char) : List Char := text.map fun c => if c = ',' then ' ' else c

/-- The kinds under which printed data is to be written back: detected, or as it was printed. -/
def Spec.PrintedKind (binary : Bool) (kind : Option InputKind) : Prop :=
  kind = none ∨ kind = some (if binary then .binaryString else .hex)

/-- How a byte is printed. -/
def Spec.byteText (binary : Bool) : U8 → List Char := if binary then binByte else hexByte

theorem byteText_ascii (binary : Bool) (x : U8) :
    ∀ c ∈ byteText binary x, c.toNat < 128 ∧ c ≠ ',' ∧ ¬ IsWhite c := by
  have h : ∀ (b : Bool) (x : U8), ((byteText b x).all fun c => decide (c.toNat < 128) && c != ',' && !isWhitespace c) = true := by
    decide +kernel
  intro c hc
  have := List.all_eq_true.1 (h binary x) c hc
  simp only [Bool.and_eq_true, decide_eq_true_eq, bne_iff_ne, ne_eq, Bool.not_eq_true', and_assoc] at this
  exact ⟨this.1, this.2.1, fun hw => by rw [white_iff.2 hw] at this; exact absurd this.2.2 (by decide)⟩

theorem byteText_length (binary : Bool) (x : U8) : (byteText binary x).length = if binary then 10 else 4 := by
  revert binary x; decide +kernel

theorem byteText_conv (binary : Bool) (x : U8) :
    conv (if binary then .binaryString else .hex) (byteText binary x) = some x := by
  revert binary x; decide +kernel

theorem byteText_head (binary : Bool) (x : U8) :
    ∃ r, byteText binary x = '0' :: (if binary then 'b' else 'x') :: r := by
  cases binary <;> exact ⟨_, rfl⟩

/-! ## Texts in ASCII -/

theorem asFile_take {s : List Char} (h : ∀ c ∈ s, c.toNat < 128) (n : Nat) : (asFile s).take n = asFile (s.take n) := by
  induction s generalizing n with
  | nil => simp [asFile]
  | cons c s ih =>
    cases n with
    | zero => simp [asFile]
    | succ n =>
      have hc : utf8Encode c = [BitVec.ofNat 8 c.toNat] := by
        unfold utf8Encode
        simp only
        rw [if_pos (h c List.mem_cons_self)]
      have := ih (fun d hd => h d (List.mem_cons_of_mem _ hd)) n
      unfold asFile at this ⊢
      rw [List.flatMap_cons, hc, List.take_succ_cons, List.flatMap_cons, hc, List.singleton_append, List.take_succ_cons, this]
      rfl

theorem asFile_length {s : List Char} (h : ∀ c ∈ s, c.toNat < 128) : (asFile s).length = s.length := by
  induction s with
  | nil => rfl
  | cons c s ih =>
    have hc : utf8Encode c = [BitVec.ofNat 8 c.toNat] := by
      unfold utf8Encode
      simp only
      rw [if_pos (h c List.mem_cons_self)]
    have := ih (fun d hd => h d (List.mem_cons_of_mem _ hd))
    unfold asFile at this ⊢
    rw [List.flatMap_cons, hc, List.length_append, this, List.length_cons]
    simp [Nat.add_comm]

/-- A text of a declared kind, in ASCII. -/
theorem load_declared {kind : InputKind} (hk : kind ≠ .binary) {s : List Char} (h : ∀ c ∈ s, c.toNat < 128) (n : Nat) :
    loadWriteData (some kind) (asFile s) n =
      match parseNumbers kind (s.take 512) with
      | .ok d => .ok d
      | .error e => .err e := by
  have h1 : fromUtf8 ((asFile s).take (maxBytes * 4)) = .ok (s.take 512) := by
    rw [asFile_take h]
    exact fromUtf8_iff.2 rfl
  rw [loadWriteData]
  cases kind with
  | binary => exact absurd rfl hk
  | hex | decimal | binaryString => 
    simp only [loadKnownWriteData, h1]
    split <;> simp_all

/-- If the kind is detected, it is the one that the first two characters announce. -/
theorem load_detected {s : List Char} (h : ∀ c ∈ s, c.toNat < 128) (hl : 2 ≤ s.length) (n : Nat) :
    loadWriteData none (asFile s) n = loadWriteData (some (announced s)) (asFile s) 0 := by
  have h1 : fromUtf8 (asFile s) = .ok s := fromUtf8_iff.2 rfl
  have hb : Boundary s 2 :=
    ⟨s.take 2, s.drop 2, (List.take_append_drop 2 s).symm, by
      have := asFile_length (s := s.take 2) fun c hc => h c (List.mem_of_mem_take hc)
      unfold asFile at this
      rw [this, List.length_take]
      omega⟩
  have h2 : isCharBoundary (asFile s) 2 = true := (boundary_iff s 2).2 hb
  have hne : (asFile s).isEmpty = false := by
    have := asFile_length h
    cases he : asFile s with
    | nil => rw [he] at this; simp at this; omega
    | cons _ _ => rfl
  show (match fromUtf8 (asFile s) with
    | .error _ => Exec.err InputError.notUtf8
    | .ok _ => loadWriteDataAutodetect (asFile s)) = _
  rw [h1]
  show loadWriteDataAutodetect (asFile s) = _
  rw [loadWriteDataAutodetect, hne, h2]
  have h4 : (if (asFile s).take 2 = [0x30, 0x62] then InputKind.binaryString
      else if (asFile s).take 2 = [0x30, 0x78] then .hex else .decimal) = announced s := announced_eq s
  simp only [h4, loadWriteData, Bool.not_true, Bool.false_eq_true, if_false]

/-! ## Cells -/

theorem join_mem {sep : Char} {cells : List (List Char)} {c : Char} (h : c ∈ join [sep] cells) :
    c = sep ∨ ∃ w ∈ cells, c ∈ w := by
  induction cells with
  | nil => cases h
  | cons w ws ih =>
    cases ws with
    | nil => exact .inr ⟨w, by simp, h⟩
    | cons v vs =>
      simp only [join, List.mem_append, List.mem_singleton] at h
      rcases h with (h | h) | h
      · exact .inr ⟨w, by simp, h⟩
      · exact .inl h
      · rcases ih h with h | ⟨u, hu, h⟩
        · exact .inl h
        · exact .inr ⟨u, by simp [List.mem_cons.1 hu], h⟩

theorem blanked_join {cells : List (List Char)} (h : ∀ w ∈ cells, ∀ c ∈ w, c ≠ ',') :
    blanked (join [','] cells) = join [' '] cells := by
  have hw : ∀ w ∈ cells, blanked w = w := fun w hw => by
    unfold blanked
    rw [List.map_congr_left (g := id) fun c hc => by simp [h w hw c hc], List.map_id]
  clear h
  induction cells with
  | nil => rfl
  | cons w ws ih =>
    have h1 := hw w List.mem_cons_self
    have h2 := ih fun u hu => hw u (List.mem_cons_of_mem _ hu)
    cases ws with
    | nil => exact h1
    | cons v vs =>
      unfold blanked at h1 h2 ⊢
      simp only [join, List.map_append, h1, h2]
      rfl

theorem split_join {cells : List (List Char)} (h : ∀ w ∈ cells, w ≠ [] ∧ ∀ c ∈ w, ¬ IsWhite c) :
    splitWhitespace (join [' '] cells) = cells := by
  apply splitWhitespace_of_words
  have hn : White [] := nofun
  induction cells with
  | nil => exact .nil hn
  | cons w ws ih =>
    have h1 := h w List.mem_cons_self
    have h2 := ih fun u hu => h u (List.mem_cons_of_mem _ hu)
    cases ws with
    | nil =>
      have := Words.cons (a := []) (s := []) hn h1.1 h1.2 nofun (.nil hn)
      simpa [join] using this
    | cons v vs =>
      have hb : White [' '] := by
        intro c hc
        rw [List.mem_singleton.1 hc]
        decide
      have h3 : Words ([' '] ++ join [' '] (v :: vs)) (v :: vs) := by
        generalize hj : join [' '] (v :: vs) = t at h2
        cases h2 with
        | @cons a _ s _ ha h5 h6 h7 h8 =>
          have := Words.cons (a := [' '] ++ a) (s := s) (fun c hc => by
            rcases List.mem_append.1 hc with hc | hc
            · exact hb c hc
            · exact ha c hc) h5 h6 h7 h8
          simpa using this
      have := Words.cons (a := []) hn h1.1 h1.2 (s := [' '] ++ join [' '] (v :: vs)) (fun c hc => hb c (by simpa using hc.symm)) h3
      simpa [join] using this

/-- The beginning of cells of equal length: some whole cells and the beginning of the next. -/
theorem take_join {L : Nat} {cells : List (List Char)} (h : ∀ w ∈ cells, w.length = L) (k r : Nat) (hr : r ≤ L)
    (c : List Char) (hc : cells[k]? = some c) :
    (join [' '] cells).take (k * (L + 1) + r) = join [' '] (cells.take k ++ [c.take r]) := by
  induction k generalizing cells with
  | zero =>
    cases cells with
    | nil => cases hc
    | cons w ws =>
      obtain rfl : w = c := by simpa using hc
      have hw := h w List.mem_cons_self
      cases ws with
      | nil => simp [join]
      | cons v vs =>
        simp only [join, Nat.zero_mul, Nat.zero_add, List.take_zero, List.nil_append, List.append_assoc]
        rw [List.take_append_of_le_length (by omega)]
  | succ k ih =>
    cases cells with
    | nil => cases hc
    | cons w ws =>
      have hw := h w List.mem_cons_self
      have h2 := ih (cells := ws) (fun u hu => h u (List.mem_cons_of_mem _ hu)) (by simpa using hc)
      cases ws with
      | nil => simp at hc
      | cons v vs =>
        have hj : join [' '] (w :: v :: vs) = (w ++ [' ']) ++ join [' '] (v :: vs) := rfl
        have e : (k + 1) * (L + 1) + r = (w ++ [' ']).length + (k * (L + 1) + r) := by
          simp [hw, Nat.add_mul]; omega
        rw [hj, e, List.take_length_add_append, h2]
        cases k with
        | zero => rfl
        | succ k => rfl

theorem join_length {L : Nat} {cells : List (List Char)} (h : ∀ w ∈ cells, w.length = L) :
    (join [' '] cells).length ≤ cells.length * (L + 1) := by
  induction cells with
  | nil => simp [join]
  | cons w ws ih =>
    have hw := h w List.mem_cons_self
    have h2 := ih fun u hu => h u (List.mem_cons_of_mem _ hu)
    cases ws with
    | nil => simp [join, hw]
    | cons v vs =>
      simp only [join, List.length_append, List.length_cons, List.length_nil, Nat.add_mul] at h2 ⊢
      omega

theorem mapM_conv (binary : Bool) (data : Bytes) :
    (data.map (byteText binary)).mapM (conv (if binary then .binaryString else .hex)) = some data := by
  induction data with
  | nil => rfl
  | cons x xs ih => simp [byteText_conv, ih]

/-! ## What is printed -/

theorem dataText_eq (binary : Bool) (data : Bytes) : dataText binary data = join [','] (data.map (byteText binary)) := rfl

theorem blanked_data (binary : Bool) (data : Bytes) :
    blanked (dataText binary data) = join [' '] (data.map (byteText binary)) := by
  rw [dataText_eq]
  apply blanked_join
  intro w hw c hc
  obtain ⟨x, _, rfl⟩ := List.mem_map.1 hw
  exact (byteText_ascii binary x c hc).2.1

theorem joined_ascii {sep : Char} (hs : sep.toNat < 128) (binary : Bool) (data : Bytes) :
    ∀ c ∈ join [sep] (data.map (byteText binary)), c.toNat < 128 := by
  intro c hc
  rcases join_mem hc with rfl | ⟨w, hw, hc⟩
  · exact hs
  · obtain ⟨x, _, rfl⟩ := List.mem_map.1 hw
    exact (byteText_ascii binary x c hc).1

theorem joined_announced (sep : Char) (binary : Bool) (x : U8) (data : Bytes) :
    2 ≤ (join [sep] ((x :: data).map (byteText binary))).length ∧
    announced (join [sep] ((x :: data).map (byteText binary))) = if binary then .binaryString else .hex := by
  obtain ⟨r, hr⟩ := byteText_head binary x
  have : ∃ t, join [sep] ((x :: data).map (byteText binary)) = '0' :: (if binary then 'b' else 'x') :: t := by
    cases data with
    | nil => exact ⟨r, hr⟩
    | cons y ys =>
      rw [List.map_cons, List.map_cons, join, hr]
      exact ⟨_, rfl⟩
  obtain ⟨t, ht⟩ := this
  rw [ht]
  cases binary <;> exact ⟨by simp, rfl⟩

/-- Printed data is read as numbers of the kind in which it was printed. -/
theorem load_printed {sep : Char} (hs : sep.toNat < 128) (binary : Bool) (data : Bytes) (hd : data ≠ [])
    {kind : Option InputKind} (hk : PrintedKind binary kind) (n : Nat) :
    loadWriteData kind (asFile (join [sep] (data.map (byteText binary)))) n =
      match parseNumbers (if binary then .binaryString else .hex) ((join [sep] (data.map (byteText binary))).take 512) with
      | .ok d => .ok d
      | .error e => .err e := by
  have hb : (if binary then InputKind.binaryString else .hex) ≠ .binary := by cases binary <;> decide
  have ha := joined_ascii hs binary data
  cases data with
  | nil => exact absurd rfl hd
  | cons x xs =>
    obtain ⟨h1, h2⟩ := joined_announced sep binary x xs
    rcases hk with rfl | rfl
    · rw [load_detected ha h1, h2, load_declared hb ha]
    · rw [load_declared hb ha]

/-- The number of bytes that fit: as many as take, with a blank after each, at most 512 characters. -/
def Spec.fitting (binary : Bool) : Nat := if binary then 46 else 102

/-- C153 with blanks for the commas, up to 102 bytes printed in hexadecimal or 46 in binary: what is written is what was
read. -/
theorem C153_blanked_partial (binary : Bool) (data : Bytes) (hd : data ≠ []) (hl : data.length ≤ fitting binary)
    (kind : Option InputKind) (hk : PrintedKind binary kind) (n : Nat) :
    loadWriteData kind (asFile (blanked (dataText binary data))) n = .ok data := by
  have hL : ∀ w ∈ data.map (byteText binary), w.length = if binary then 10 else 4 := fun w hw => by
    obtain ⟨x, _, rfl⟩ := List.mem_map.1 hw
    exact byteText_length binary x
  have hs : splitWhitespace (join [' '] (data.map (byteText binary))) = data.map (byteText binary) := by
    apply split_join
    intro w hw
    have h1 := hL w hw
    obtain ⟨x, _, rfl⟩ := List.mem_map.1 hw
    refine ⟨fun h => ?_, fun c hc => (byteText_ascii binary x c hc).2.2⟩
    rw [h] at h1
    cases binary <;> simp at h1
  have hj := join_length hL
  rw [List.length_map] at hj
  rw [blanked_data, load_printed (by decide) binary data hd hk, List.take_of_length_le, parseNumbers, hs, mapM_conv]
  · dsimp only
    rw [if_pos]
    unfold fitting at hl
    unfold maxBytes
    cases binary <;> simp at hl <;> omega
  · unfold fitting at hl
    cases binary <;> simp at hl hj <;> omega

theorem load_cut (binary : Bool) (data : Bytes) (x : U8) (hx : data[fitting binary]? = some x)
    (kind : Option InputKind) (hk : PrintedKind binary kind) (n : Nat) :
    loadWriteData kind (asFile (blanked (dataText binary data))) n =
      match (do
        let d ← ((data.take (fitting binary)).map (byteText binary)).mapM (conv (if binary then .binaryString else .hex))
        let y ← conv (if binary then .binaryString else .hex) ((byteText binary x).take (if binary then 6 else 2))
        some (d ++ [y])) with
      | some d => .ok d
      | none => .err .badNumber := by
  have hL : ∀ w ∈ data.map (byteText binary), w.length = if binary then 10 else 4 := fun w hw => by
    obtain ⟨x, _, rfl⟩ := List.mem_map.1 hw
    exact byteText_length binary x
  have hd : data ≠ [] := by rintro rfl; cases hx
  have e : 512 = fitting binary * ((if binary then 10 else 4) + 1) + (if binary then 6 else 2) := by
    cases binary <;> rfl
  have hs : splitWhitespace (join [' '] ((data.map (byteText binary)).take (fitting binary) ++
      [(byteText binary x).take (if binary then 6 else 2)])) =
      (data.map (byteText binary)).take (fitting binary) ++ [(byteText binary x).take (if binary then 6 else 2)] := by
    apply split_join
    intro w hw
    have hne : ∀ y k, 0 < k → (byteText binary y).take k ≠ [] := fun y k hk h => by
      have := congrArg List.length h
      rw [List.length_take, byteText_length] at this
      cases binary <;> simp at this <;> omega
    rcases List.mem_append.1 hw with hw | hw
    · obtain ⟨y, _, rfl⟩ := List.mem_map.1 (List.mem_of_mem_take hw)
      refine ⟨fun h => hne y 1 (by omega) (by rw [h]; rfl), fun c hc => (byteText_ascii binary y c hc).2.2⟩
    · rw [List.mem_singleton.1 hw]
      exact ⟨hne x _ (by cases binary <;> decide), fun c hc => (byteText_ascii binary x c (List.mem_of_mem_take hc)).2.2⟩
  have ht := take_join hL (fitting binary) (if binary then 6 else 2) (by cases binary <;> decide) (byteText binary x)
    (by rw [List.getElem?_map, hx]; rfl)
  rw [← e] at ht
  rw [blanked_data, load_printed (by decide) binary data hd hk, ht, parseNumbers, hs, ← List.map_take, List.mapM_append,
    mapM_conv]
  cases hc : conv (if binary then .binaryString else .hex) ((byteText binary x).take (if binary then 6 else 2)) with
  | none => simp [hc]
  | some y =>
    simp only [List.mapM_cons, List.mapM_nil, hc, Option.bind_eq_bind, Option.bind_some, Option.pure_def]
    rw [if_pos]
    rw [List.length_append, List.length_take]
    unfold maxBytes fitting
    cases binary <;> simp <;> omega

/-- C153: more bytes in hexadecimal are refused, although a page has 128. -/
theorem C153_hex_long (data : Bytes) (hl : 102 < data.length) (kind : Option InputKind) (hk : PrintedKind false kind)
    (n : Nat) : loadWriteData kind (asFile (blanked (dataText false data))) n = .err .badNumber := by
  rw [load_cut false data data[102] (List.getElem?_eq_getElem hl) kind hk n]
  have : ∀ x : U8, conv .hex ((byteText false x).take 2) = none := by decide +kernel
  simp [this]

/-- C153: of more bytes in binary, the first 46 are written, then the upper half of the next one as a byte of its own; the
others are dropped. -/
theorem C153_binary_long (data : Bytes) (hl : 46 < data.length) (kind : Option InputKind) (hk : PrintedKind true kind)
    (n : Nat) :
    loadWriteData kind (asFile (blanked (dataText true data))) n = .ok (data.take 46 ++ [data[46] >>> 4]) := by
  rw [load_cut true data data[46] (List.getElem?_eq_getElem hl) kind hk n]
  have : ∀ x : U8, conv .binaryString ((byteText true x).take 6) = some (x >>> 4) := by decide +kernel
  have hm := mapM_conv true (data.take 46)
  simp only [if_true] at hm
  simp only [fitting, if_true, hm, this, Option.bind_eq_bind, Option.bind_some]

theorem number_no_comma {radix : Nat} {s : List Char} {x : U8} (h : Number radix s x) : ',' ∉ s := by
  obtain ⟨ds, h1, _, h2⟩ := h
  have hd : ∀ {ds n}, Digits radix ds n → ',' ∉ ds := fun h => by
    clear h1 h2
    induction h with
    | nil => nofun
    | snoc _ hc _ ih =>
      intro hm
      rcases List.mem_append.1 hm with hm | hm
      · exact ih hm
      · rw [← List.mem_singleton.1 hm] at hc
        have := hexDigit_val hc
        rw [show hexVal ',' = none by decide] at this
        cases this
  rcases h1 with rfl | rfl
  · exact hd h2
  · intro hm
    rcases List.mem_cons.1 hm with hm | hm
    · exact absurd hm (by decide)
    · exact hd h2 hm

theorem prefixed_mem {a b c : Char} {s t : List Char} (h : Prefixed a b s t) (hc : c ∈ s) : c = a ∨ c = b ∨ c ∈ t := by
  induction h with
  | none => exact .inr (.inr hc)
  | more _ ih =>
    rcases List.mem_cons.1 hc with rfl | hc
    · exact .inl rfl
    · rcases List.mem_cons.1 hc with rfl | hc
      · exact .inr (.inl rfl)
      · exact ih hc

theorem conv_comma (binary : Bool) {s : List Char} (h : ',' ∈ s) :
    conv (if binary then .binaryString else .hex) s = none := by
  cases hc : conv (if binary then .binaryString else .hex) s with
  | none => rfl
  | some x =>
    have hb : (if binary then InputKind.binaryString else .hex) ≠ .binary := by cases binary <;> decide
    have hw := (conv_iff hb).1 hc
    cases binary with
    | false =>
      obtain ⟨t, h1, h2⟩ := hw
      rcases prefixed_mem h1 h with h | h | h
      · exact absurd h (by decide)
      · exact absurd h (by decide)
      · exact absurd h (number_no_comma h2)
    | true =>
      obtain ⟨t, h1, h2⟩ := hw
      rcases prefixed_mem h1 h with h | h | h
      · exact absurd h (by decide)
      · exact absurd h (by decide)
      · exact absurd h (number_no_comma h2)

/-- C153 as printed: two bytes or more are refused. -/
theorem C153_printed (binary : Bool) (x y : U8) (data : Bytes) (kind : Option InputKind) (hk : PrintedKind binary kind)
    (n : Nat) : loadWriteData kind (asFile (dataText binary (x :: y :: data))) n = .err .badNumber := by
  have hw : ∀ c ∈ join [','] ((x :: y :: data).map (byteText binary)), ¬ IsWhite c := fun c hc => by
    rcases join_mem hc with rfl | ⟨w, hw, hc⟩
    · decide
    · obtain ⟨z, _, rfl⟩ := List.mem_map.1 hw
      exact (byteText_ascii binary z c hc).2.2
  have hm : ',' ∈ (join [','] ((x :: y :: data).map (byteText binary))).take 512 := by
    have hj : join [','] ((x :: y :: data).map (byteText binary)) =
        (byteText binary x ++ [',']) ++ join [','] ((y :: data).map (byteText binary)) := rfl
    have e : 512 = (byteText binary x ++ [',']).length + (511 - (byteText binary x).length) := by
      rw [List.length_append, byteText_length]
      cases binary <;> rfl
    rw [hj, e, List.take_length_add_append]
    simp
  have hs := splitWhitespace_of_words (Words.cons (a := []) (s := []) nofun (List.ne_nil_of_mem hm)
    (fun c hc => hw c (List.mem_of_mem_take hc)) nofun (.nil nofun))
  rw [List.nil_append, List.append_nil] at hs
  rw [dataText_eq, load_printed (by decide) binary (x :: y :: data) (by simp) hk, parseNumbers, hs, List.mapM_cons, conv_comma binary hm]
  rfl

/-- C153 as stated is false, also with blanks for the commas: a page in binary is written as other data. -/
theorem C153_false :
    (¬ ∀ data : Bytes, data ≠ [] → data.length ≤ 128 →
      loadWriteData none (asFile (dataText false data)) 0 = .ok data) ∧
    ¬ ∀ data : Bytes, data ≠ [] → data.length ≤ 128 →
      ∀ d, loadWriteData none (asFile (blanked (dataText true data))) 0 = .ok d → d = data := by
  constructor
  · intro h
    have := h [1, 2] nofun (by decide)
    rw [C153_printed false 1 2 [] none (.inl rfl)] at this
    cases this
  · intro h
    have := h (List.replicate 128 0xff) (by simp) (by simp) _ (C153_binary_long _ (by simp) none (.inl rfl) 0)
    exact absurd (congrArg List.length this) (by simp)

/-- A page in hexadecimal and in binary, and three bytes. -/
example :
    loadWriteData none (asFile (blanked (dataText false (List.replicate 128 7)))) 0 = .err .badNumber ∧
    loadWriteData none (asFile (blanked (dataText true (List.replicate 128 0xa7)))) 0 =
      .ok (List.replicate 46 0xa7 ++ [0x0a]) ∧
    loadWriteData none (asFile (blanked (dataText true [1, 2, 0xff]))) 0 = .ok [1, 2, 0xff] :=
  ⟨C153_hex_long _ (by simp) none (.inl rfl) 0, by
    rw [C153_binary_long (List.replicate 128 0xa7) (by simp) none (.inl rfl) 0]
    simp,
    C153_blanked_partial true [1, 2, 0xff] (by simp) (by decide) none (.inl rfl) 0⟩

end Xcvr
