import Verif.Model.Ident

/-! # Facts about generated enums, hexadecimal text and string splitting -/

namespace Xcvr

variable {T : BitfieldEnum}

theorem Bf.toByte_of_ofByte? {x : U8} {v : Bf T} (h : Bf.ofByte? x = some v) : v.toByte = x := by
  unfold Bf.ofByte? at h
  split at h
  · rename_i i hi
    rw [List.findFinIdx?_eq_some_iff] at hi
    cases h
    simpa [Bf.toByte] using hi.1
  · split at h
    · cases h; rfl
    · cases h

theorem Bf.ofByte?_ofByte [Bf.Covers T] (x : U8) : Bf.ofByte? x = some (Bf.ofByte (T := T) x) := by
  simp [Bf.ofByte]

/-- The exact condition on a table for names to be unambiguous. -/
def namesOk (T : BitfieldEnum) : Bool :=
  decide (T.variants.map (·.2.2)).Nodup && decide (T.others.map (·.name)).Nodup &&
  (T.others.all fun o => o.name.all (· != ' ')) &&
  (T.variants.all fun v => T.others.all fun o => (parseU8BitfieldVariant v.2.2 o.name).isNone)

theorem hexVal_hexDigit : ∀ n : Fin 16, hexVal (Bf.hexDigit n.val) = some n.val := by decide

theorem hexDigit_ne : ∀ n : Fin 16, Bf.hexDigit n.val ≠ '+' ∧ Bf.hexDigit n.val ≠ '-' ∧
    (Bf.hexDigit n.val).utf8Size = 1 := by decide

theorem u8FromHex_hex2 (x : U8) : u8FromHex (Bf.hex2 x) = some x := by
  have hx := x.isLt
  have h1 := hexVal_hexDigit ⟨x.toNat / 16, by omega⟩
  have h2 := hexVal_hexDigit ⟨x.toNat % 16, by omega⟩
  have h3 := (hexDigit_ne ⟨x.toNat / 16, by omega⟩).1
  simp only at h1 h2 h3
  unfold u8FromHex Bf.hex2
  split
  · rename_i h; cases h
  · rename_i h; rw [List.cons.injEq] at h; exact absurd h.1 h3
  · simp only [hexLoop, h1, h2]
    have e1 : 0 * 16 + x.toNat / 16 < 256 := by omega
    have e2 : (0 * 16 + x.toNat / 16) * 16 + x.toNat % 16 < 256 := by omega
    have e3 : (0 * 16 + x.toNat / 16) * 16 + x.toNat % 16 = x.toNat := by omega
    rw [if_pos e1, if_pos e2, e3]
    simp

theorem stripPrefix_append (p s : List Char) : stripPrefix (p ++ s) p = some s := by
  induction p with
  | nil => cases s <;> rfl
  | cons c p ih => simp [stripPrefix, ih]

theorem stripPrefix_eq_some {s p r : List Char} (h : stripPrefix s p = some r) : s = p ++ r := by
  induction p generalizing s with
  | nil => cases s <;> simp_all [stripPrefix]
  | cons c p ih =>
    cases s with
    | nil => simp [stripPrefix] at h
    | cons d s =>
      simp only [stripPrefix] at h
      split at h
      · rename_i hd; subst hd; rw [ih h]; rfl
      · cases h

theorem stripSuffix_append (s p : List Char) : stripSuffix (s ++ p) p = some s := by
  simp [stripSuffix, stripPrefix_append]

theorem stripSuffix_eq_some {s p r : List Char} (h : stripSuffix s p = some r) : s = r ++ p := by
  unfold stripSuffix at h
  cases h1 : stripPrefix s.reverse p.reverse with
  | none => rw [h1] at h; cases h
  | some t =>
    rw [h1] at h
    cases h
    have := congrArg List.reverse (stripPrefix_eq_some h1)
    simpa using this

theorem parse_other_self (n : List Char) (x : U8) :
    parseU8BitfieldVariant (n ++ chars!" (0x" ++ Bf.hex2 x ++ chars!")") n = some x := by
  unfold parseU8BitfieldVariant
  rw [stripSuffix_append]
  simp only [List.append_assoc]
  rw [stripPrefix_append]
  simp only
  rw [stripPrefix_append]
  exact u8FromHex_hex2 x

theorem parse_other_some {s n : List Char} {x : U8} (h : parseU8BitfieldVariant s n = some x) :
    ∃ t, s = n ++ chars!" (0x" ++ t ++ chars!")" ∧ u8FromHex t = some x := by
  unfold parseU8BitfieldVariant at h
  split at h
  · cases h
  · rename_i s1 h1
    split at h
    · cases h
    · rename_i s2 h2
      split at h
      · cases h
      · rename_i t h3
        refine ⟨t, ?_, h⟩
        rw [stripSuffix_eq_some h1, stripPrefix_eq_some h2, stripPrefix_eq_some h3]
        simp

theorem before_space_unique {a b s t : List Char} (ha : ∀ c ∈ a, c ≠ ' ') (hb : ∀ c ∈ b, c ≠ ' ')
    (h : a ++ ' ' :: s = b ++ ' ' :: t) : a = b := by
  induction a generalizing b with
  | nil =>
    cases b with
    | nil => rfl
    | cons d b => simp only [List.nil_append, List.cons_append, List.cons.injEq] at h
                  exact absurd h.1.symm (hb d (by simp))
  | cons c a ih =>
    cases b with
    | nil => simp only [List.nil_append, List.cons_append, List.cons.injEq] at h
             exact absurd h.1 (ha c (by simp))
    | cons d b =>
      simp only [List.cons_append, List.cons.injEq] at h
      rw [h.1, ih (fun c hc => ha c (by simp [hc])) (fun c hc => hb c (by simp [hc])) h.2]

theorem firstOther_eq (s : List Char) (os : List OtherVariant) (j : Fin os.length) (x : U8)
    (hj : parseU8BitfieldVariant s os[j].name = some x)
    (hlt : ∀ i : Fin os.length, i < j → parseU8BitfieldVariant s os[i].name = none) :
    firstOther s os = some (j, x) := by
  induction os with
  | nil => exact j.elim0
  | cons o os ih =>
    unfold firstOther
    refine Fin.cases (motive := fun j : Fin (os.length + 1) => parseU8BitfieldVariant s (o :: os)[j].name = some x →
      (∀ i : Fin (os.length + 1), i < j → parseU8BitfieldVariant s (o :: os)[i].name = none) → _ = some (j, x))
      ?_ ?_ j hj hlt
    · intro hj _
      have hj' : parseU8BitfieldVariant s o.name = some x := hj
      rw [hj']; rfl
    · intro j hj hlt
      have h0 : parseU8BitfieldVariant s o.name = none := hlt 0 (Fin.succ_pos _)
      rw [h0]
      simp only
      rw [ih j hj (fun i hi => hlt i.succ (Fin.succ_lt_succ_iff.mpr hi))]
      rfl

theorem Bf.fromStr_display (hT : namesOk T = true) (v : Bf T) : Bf.fromStr v.display = some v := by
  simp only [namesOk, Bool.and_eq_true, decide_eq_true_eq, List.all_eq_true, bne_iff_ne, ne_eq,
    Option.isNone_iff_eq_none] at hT
  obtain ⟨⟨⟨hd, ho⟩, hs⟩, hp⟩ := hT
  cases v with
  | known i =>
    have : (T.variants.findFinIdx? fun w => w.2.2 == (Bf.known i).display) = some i := by
      rw [List.findFinIdx?_eq_some_iff]
      refine ⟨by simp [Bf.display], ?_⟩
      intro j hj
      simp only [Bf.display, beq_iff_eq]
      intro he
      have hn := List.pairwise_iff_getElem.mp hd j.val i.val (by simp) (by simp) hj
      apply hn; simpa using he
    simp only [Bf.fromStr, this]
  | other j x =>
    have hnone : (T.variants.findFinIdx? fun w => w.2.2 == (Bf.other j x).display) = none := by
      rw [List.findFinIdx?_eq_none_iff]
      intro w hw
      simp only [beq_iff_eq, Bf.display]
      intro he
      have := hp w hw T.others[j] (List.getElem_mem _)
      rw [he, parse_other_self] at this
      cases this
    have hf : firstOther (Bf.other j x).display T.others = some (j, x) := by
      refine firstOther_eq _ _ j x ?_ ?_
      · exact parse_other_self _ _
      · intro i hi
        cases hq : parseU8BitfieldVariant (Bf.other j x).display T.others[i].name with
        | none => rfl
        | some y =>
          obtain ⟨t, ht, _⟩ := parse_other_some hq
          simp only [Bf.display, List.append_assoc, List.cons_append, List.nil_append] at ht
          have hne := before_space_unique (hs T.others[j] (List.getElem_mem _)) (hs T.others[i] (List.getElem_mem _)) ht
          have hn := List.pairwise_iff_getElem.mp ho i.val j.val (by simp) (by simp) hi
          exact absurd (by simpa using hne.symm) hn
    simp only [Bf.fromStr, hnone, hf, Option.map_some]

end Xcvr
