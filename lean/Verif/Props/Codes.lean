import Verif.Lemmas.Bitfield
import Verif.Spec.Text

/-! # C50-C52: byte codes, their names, and OUIs -/

namespace Xcvr

open Spec

/-- All code tables of the decoder. -/
def codeTables : List BitfieldEnum := [
  identifierTable, extendedSpecificationComplianceCodeTable, hostElectricalInterfaceIdTable, mediaTypeTable,
  mmfMediaInterfaceIdTable, smfMediaInterfaceIdTable, passiveCopperMediaInterfaceIdTable,
  activeCableMediaInterfaceIdTable, baseTMediaInterfaceIdTable, connectorTypeTable]

theorem covers_of_mem {T : BitfieldEnum} (h : T ∈ codeTables) : Bf.Covers T := by
  simp only [codeTables, List.mem_cons, List.not_mem_nil, or_false] at h
  rcases h with h | h | h | h | h | h | h | h | h | h <;> subst h <;> infer_instance

/-! ## C50 -/

/-- C50: in every table, every byte converts to a value, and that value converts back to the byte. -/
theorem C50_round_trip (T : BitfieldEnum) (hT : T ∈ codeTables) (x : U8) :
    ∃ v : Bf T, Bf.ofByte? x = some v ∧ v.toByte = x := by
  have := covers_of_mem hT
  exact ⟨Bf.ofByte x, Bf.ofByte?_ofByte x, Bf.toByte_of_ofByte? (Bf.ofByte?_ofByte x)⟩

/-- C50: a byte listed in a table converts to the variant listed for it, never to a catch-all. -/
theorem C50_listed (T : BitfieldEnum) (hT : T ∈ codeTables) (i : Fin T.variants.length) :
    Bf.ofByte? T.variants[i].1 = some (.known i : Bf T) := by
  have hd : (T.variants.map (·.1)).Nodup := by
    have hall : ∀ T ∈ codeTables, (T.variants.map (·.1)).Nodup := by decide +kernel
    exact hall T hT
  have : (T.variants.findFinIdx? fun v => v.1 == T.variants[i].1) = some i := by
    rw [List.findFinIdx?_eq_some_iff]
    refine ⟨by simp, ?_⟩
    intro j hj
    simp only [beq_iff_eq]
    intro he
    exact List.pairwise_iff_getElem.mp hd j.val i.val (by simp) (by simp) hj (by simpa using he)
  simp only [Bf.ofByte?, this]

/-- C50: any other byte converts to the first catch-all whose pattern it matches, carrying the byte. -/
theorem C50_unlisted (T : BitfieldEnum) (hT : T ∈ codeTables) (x : U8) (hx : ∀ v ∈ T.variants, v.1 ≠ x) :
    ∃ j : Fin T.others.length, Bf.ofByte? x = some (.other j x : Bf T) ∧ T.others[j].pat x = true ∧
      ∀ k : Fin T.others.length, k < j → T.others[k].pat x = false := by
  have := covers_of_mem hT
  have hc := Bf.Covers.covers (T := T) x
  have h1 : (T.variants.findFinIdx? fun v => v.1 == x) = none := by
    rw [List.findFinIdx?_eq_none_iff]
    intro v hv
    simpa using hx v hv
  unfold Bf.ofByte? at hc ⊢
  rw [h1] at hc ⊢
  simp only at hc ⊢
  cases h2 : T.others.findFinIdx? fun o => o.pat x with
  | none => rw [h2] at hc; cases hc
  | some j =>
    rw [List.findFinIdx?_eq_some_iff] at h2
    exact ⟨j, rfl, h2.1, fun k hk => by simpa using h2.2 k hk⟩

/-- C50 for the datapath state, a field of the low three bits: conversion fails exactly on the undefined value zero, and
otherwise the value converts back to the field. -/
theorem C50_datapath_state (x : U8) :
    (x &&& 7 = 0 ∧ CmisDatapathState.tryFrom x = .error .invalidBitField) ∨
    (x &&& 7 ≠ 0 ∧ ∃ s, CmisDatapathState.tryFrom x = .ok s ∧ s.toByte = x &&& 7) := by
  have h : ∀ x : U8, (x &&& 7 = 0 ∧ CmisDatapathState.tryFrom x = .error .invalidBitField) ∨
    (x &&& 7 ≠ 0 ∧ ∃ s, CmisDatapathState.tryFrom x = .ok s ∧ s.toByte = x &&& 7) := by decide +kernel
  exact h x

/-- C50, names: the state shown for a field is the one CMIS defines for its value (`DPDeactivated` 1, `DPInit` 2, `DPDeinit`
3, `DPActivated` 4, `DPTxTurnOn` 5, `DPTxTurnOff` 6, `DPInitialized` 7). -/
theorem C50_datapath_names (x : U8) (s : CmisDatapathState) (h : CmisDatapathState.tryFrom x = .ok s) :
    s.display = match (x &&& 7).toNat with
      | 1 => chars!"Deactivated"
      | 2 => chars!"Initializing"
      | 3 => chars!"Deinitializing"
      | 4 => chars!"Activated"
      | 5 => chars!"Tx turning on"
      | 6 => chars!"Tx turning off"
      | _ => chars!"Initialized" := by
  revert s x
  decide +kernel

example : CmisDatapathState.tryFrom 0x44 = .ok 3 := by decide +kernel

example : (Bf.ofByte? 0x11 : Option Identifier) = some Identifier.qsfp28 := by decide +kernel
example : (Bf.ofByte? 0x85 : Option Identifier) = some (.other (1 : Fin 3) 0x85) := by decide +kernel

/-! ## C51 -/

/-- C51 for every table and every value, including each catch-all with any byte. -/
theorem C51_tables_partial (T : BitfieldEnum) (hT : T ∈ codeTables) (v : Bf T) : Bf.fromStr v.display = some v := by
  have h : ∀ T ∈ codeTables, namesOk T = true := by decide +kernel
  exact Bf.fromStr_display (h T hT) v

/-- C51 for the datapath state. -/
theorem C51_datapath_state_partial (s : CmisDatapathState) : CmisDatapathState.fromStr s.display = some s := by
  have h : ∀ s : CmisDatapathState, CmisDatapathState.fromStr s.display = some s := by decide +kernel
  exact h s

/-- C51 is false for Ethernet compliance codes: the name shown for the code zero (no bit set) cannot be parsed. -/
theorem C51_counterexample :
    EthernetComplianceCode.display ⟨0⟩ = chars!"Unknown (0x00)" ∧
    EthernetComplianceCode.fromStr (EthernetComplianceCode.display ⟨0⟩) = none := by decide +kernel

theorem C51_false : ¬ ∀ e : EthernetComplianceCode, EthernetComplianceCode.fromStr e.display = some e := by
  intro h
  have := h ⟨0⟩
  rw [C51_counterexample.2] at this
  cases this

/-- C51 for Ethernet compliance codes: it holds exactly for the codes with a single bit set other than the top one. -/
theorem C51_ethernet_partial (e : EthernetComplianceCode) :
    EthernetComplianceCode.fromStr e.display = some e ↔ ∃ k, k < 7 ∧ e.code = (1 : U8) <<< k := by
  have h : ∀ x : U8, EthernetComplianceCode.fromStr (EthernetComplianceCode.display ⟨x⟩) = some ⟨x⟩ ↔
    ∃ k : Fin 7, x = (1 : U8) <<< k.val := by decide +kernel
  rw [show e = ⟨e.code⟩ from rfl, h e.code]
  exact ⟨fun ⟨k, hk⟩ => ⟨k.val, k.isLt, hk⟩, fun ⟨k, hk, he⟩ => ⟨⟨k, hk⟩, he⟩⟩

example : Bf.display (Bf.ofByte 0x85 : Identifier) = chars!"VendorSpecific (0x85)" := by decide +kernel
example : (Bf.fromStr chars!"VendorSpecific (0x85)" : Option Identifier) = some (.other (1 : Fin 3) 0x85) := by
  decide +kernel
example : (Bf.fromStr chars!"QSFP28 (SFF-8636)" : Option Identifier) = some Identifier.qsfp28 := by decide +kernel

/-! ## C52 -/

theorem splitFirst_of_not_mem {c : Char} : ∀ {a : List Char} (_ : c ∉ a), splitFirst c a = (a, none)
  | [], _ => rfl
  | x :: xs, h => by
    have hx : x ≠ c := fun e => h (by simp [e])
    rw [splitFirst, if_neg hx, splitFirst_of_not_mem (fun hm => h (by simp [hm]))]

theorem splitFirst_append {c : Char} {b : List Char} :
    ∀ {a : List Char} (_ : c ∉ a), splitFirst c (a ++ c :: b) = (a, some b)
  | [], _ => by simp [splitFirst]
  | x :: xs, h => by
    have hx : x ≠ c := fun e => h (by simp [e])
    rw [List.cons_append, splitFirst, if_neg hx, splitFirst_append (fun hm => h (by simp [hm]))]

theorem splitFirst_some {c : Char} : ∀ {s a b : List Char}, splitFirst c s = (a, some b) → s = a ++ c :: b ∧ c ∉ a
  | [], a, b, h => by cases h
  | x :: xs, a, b, h => by
    rw [splitFirst] at h
    split at h
    · rename_i hx
      cases h
      exact ⟨by rw [hx]; rfl, by simp⟩
    · rename_i hx
      obtain ⟨h1, h2⟩ := Prod.mk.inj h
      obtain ⟨h3, h4⟩ := splitFirst_some (Prod.ext rfl h2 : splitFirst c xs = ((splitFirst c xs).1, some b))
      subst h1
      exact ⟨by rw [List.cons_append, ← h3], by simp [h4, Ne.symm hx]⟩

theorem Spec.HexDigit.lt {c : Char} {d : Nat} (h : HexDigit c d) : d < 16 := by cases h <;> omega

theorem hexDigit_val {c : Char} {d : Nat} (h : HexDigit c d) : hexVal c = some d := by
  have h1 : ∀ d : Fin 10, hexVal (Char.ofNat ('0'.toNat + d.val)) = some d.val := by decide
  have h2 : ∀ d : Fin 6, hexVal (Char.ofNat ('a'.toNat + d.val)) = some (10 + d.val) := by decide
  have h3 : ∀ d : Fin 6, hexVal (Char.ofNat ('A'.toNat + d.val)) = some (10 + d.val) := by decide
  cases h with
  | num d h => exact h1 ⟨d, h⟩
  | low d h => exact h2 ⟨d, h⟩
  | up d h => exact h3 ⟨d, h⟩

theorem char_between {c : Char} {a b : Nat} (h1 : a ≤ c.toNat) (_ : c.toNat ≤ b) : c = Char.ofNat (a + (c.toNat - a)) := by
  rw [show a + (c.toNat - a) = c.toNat by omega, Char.ofNat_toNat]

theorem val_hexDigit {c : Char} {d : Nat} (h : hexVal c = some d) : HexDigit c d := by
  unfold hexVal at h
  split at h
  · rename_i hc
    have h1 : 48 ≤ c.toNat := hc.1
    have h2 : c.toNat ≤ 57 := hc.2
    cases h
    have := HexDigit.num (c.toNat - 48) (by omega)
    rwa [show '0'.toNat = 48 from rfl, ← char_between h1 h2] at this
  · split at h
    · rename_i hc
      have h1 : 97 ≤ c.toNat := hc.1
      have h2 : c.toNat ≤ 102 := hc.2
      cases h
      have := HexDigit.low (c.toNat - 97) (by omega)
      rwa [show 'a'.toNat = 97 from rfl, ← char_between h1 h2, show 10 + (c.toNat - 97) = c.toNat - 87 by omega] at this
    · split at h
      · rename_i hc
        have h1 : 65 ≤ c.toNat := hc.1
        have h2 : c.toNat ≤ 70 := hc.2
        cases h
        have := HexDigit.up (c.toNat - 65) (by omega)
        rwa [show 'A'.toNat = 65 from rfl, ← char_between h1 h2, show 10 + (c.toNat - 65) = c.toNat - 55 by omega] at this
      · cases h

/-- The value of a digit string appended to a number. -/
theorem hexLoop_append (s t : List Char) (acc : Nat) : hexLoop acc (s ++ t) = (hexLoop acc s).bind fun n => hexLoop n t := by
  induction s generalizing acc with
  | nil => rfl
  | cons c s ih =>
    simp only [List.cons_append, hexLoop]
    split
    · rfl
    · split
      · exact ih _
      · rfl

theorem hexLoop_of_number {s : List Char} {n : Nat} (h : HexNumber s n) (hn : n < 256) : hexLoop 0 s = some n := by
  induction h with
  | nil => rfl
  | @snoc s n c d _ hd ih =>
    rw [hexLoop_append, ih (by omega)]
    simp only [Option.bind_some, hexLoop, hexDigit_val hd]
    rw [if_pos (by omega)]
    congr 1; omega

theorem number_of_hexLoop {s : List Char} {n : Nat} (h : hexLoop 0 s = some n) : HexNumber s n ∧ n < 256 := by
  generalize hk : s.length = k
  induction k generalizing s n with
  | zero =>
    rw [List.length_eq_zero_iff] at hk
    subst hk
    cases h
    exact ⟨.nil, by decide⟩
  | succ k ih =>
    rcases List.eq_nil_or_concat s with rfl | ⟨t, c, rfl⟩
    · cases hk
    rw [List.concat_eq_append] at h hk ⊢
    rw [hexLoop_append] at h
    cases ht : hexLoop 0 t with
    | none => rw [ht] at h; cases h
    | some m =>
      rw [ht] at h
      simp only [Option.bind_some, hexLoop] at h
      have := ih ht (by simpa using hk)
      split at h
      · cases h
      · rename_i d hd
        split at h
        · rename_i hlt
          cases h
          refine ⟨?_, hlt⟩
          have := HexNumber.snoc this.1 (val_hexDigit hd)
          rwa [Nat.mul_comm] at this
        · cases h

theorem not_hex_plus {d : Nat} : ¬ HexDigit '+' d := by
  intro h; have := hexDigit_val h; revert this; simp [show hexVal '+' = none by decide]

theorem not_hex_dash {d : Nat} : ¬ HexDigit '-' d := by
  intro h; have := hexDigit_val h; revert this; simp [show hexVal '-' = none by decide]

theorem Spec.HexNumber.mem {s : List Char} {n : Nat} (h : HexNumber s n) : ∀ c ∈ s, ∃ d, HexDigit c d := by
  induction h with
  | nil => simp
  | snoc _ hd ih =>
    intro c hc
    rcases List.mem_append.mp hc with hc | hc
    · exact ih c hc
    · rw [List.mem_singleton] at hc; subst hc; exact ⟨_, hd⟩

/-- What `u8::from_str_radix` accepts. -/
theorem u8FromHex_iff (s : List Char) (x : U8) : u8FromHex s = some x ↔ OctetText s x := by
  have key : ∀ ds : List Char, (hexLoop 0 ds).map (BitVec.ofNat 8) = some x ↔ HexNumber ds x.toNat := by
    intro ds
    constructor
    · intro h
      cases h1 : hexLoop 0 ds with
      | none => rw [h1] at h; cases h
      | some n =>
        rw [h1] at h
        cases h
        have := number_of_hexLoop h1
        rw [BitVec.toNat_ofNat, Nat.mod_eq_of_lt this.2]
        exact this.1
    · intro h
      rw [hexLoop_of_number h x.isLt]
      simp
  unfold u8FromHex OctetText
  split
  · constructor
    · intro h; cases h
    · rintro ⟨ds, h | h, hn, _⟩
      · exact absurd h.symm hn
      · cases h
  · rename_i cs
    constructor
    · intro h
      split at h
      · cases h
      · rename_i hc
        exact ⟨cs, .inr rfl, by simpa using hc, (key cs).mp h⟩
    · rintro ⟨ds, h | h, hn, hd⟩
      · subst h
        exact absurd (hd.mem '+' (by simp)).choose_spec not_hex_plus
      · cases h
        rw [if_neg (by simpa using hn)]
        exact (key _).mpr hd
  · rename_i hne hplus
    constructor
    · intro h
      exact ⟨s, .inl rfl, hne, (key s).mp h⟩
    · rintro ⟨ds, h | h, hn, hd⟩
      · subst h; exact (key _).mpr hd
      · exact absurd h (hplus ds)

theorem Spec.OctetText.no_dash {s : List Char} {x : U8} (h : OctetText s x) : '-' ∉ s := by
  obtain ⟨ds, h1, _, h2⟩ := h
  intro hm
  have hd : '-' ∈ ds := by
    rcases h1 with h1 | h1
    · rwa [h1] at hm
    · rw [h1, List.mem_cons] at hm
      rcases hm with hm | hm
      · cases hm
      · exact hm
  exact not_hex_dash (h2.mem _ hd).choose_spec

/-- C52, what is accepted: exactly the strings of at most eight bytes that are three texts, each readable as an octet,
separated by dashes; the result is those octets. -/
theorem C52_accepts_partial (s : List Char) (o : Oui) :
    Oui.fromStr s = .ok o ↔
      strLen s ≤ 8 ∧ ∃ a b c, s = a ++ '-' :: (b ++ '-' :: c) ∧
        OctetText a o.b0 ∧ OctetText b o.b1 ∧ OctetText c o.b2 := by
  unfold Oui.fromStr
  by_cases hl : strLen s > 3 * 2 + 2
  · rw [if_pos hl]
    exact ⟨(fun h => by cases h), fun h => absurd h.1 (by omega)⟩
  rw [if_neg hl]
  have hl' : strLen s ≤ 8 := by omega
  constructor
  · intro h
    refine ⟨hl', ?_⟩
    simp only [splitn] at h
    cases h1 : splitFirst '-' s with
    | mk a r =>
      rw [h1] at h
      cases r with
      | none =>
        simp only [List.mapM_cons, List.mapM_nil] at h
        cases ha : u8FromHex a <;> rw [ha] at h <;> cases h
      | some r =>
        cases h2 : splitFirst '-' r with
        | mk b r2 =>
          simp only [h2] at h
          cases r2 with
          | none =>
            simp only [List.mapM_cons, List.mapM_nil] at h
            cases ha : u8FromHex a <;> cases hb : u8FromHex b <;> rw [ha, hb] at h <;> cases h
          | some c =>
            simp only [List.mapM_cons, List.mapM_nil] at h
            obtain ⟨e1, _⟩ := splitFirst_some h1
            obtain ⟨e2, _⟩ := splitFirst_some h2
            cases ha : u8FromHex a with
            | none => rw [ha] at h; cases h
            | some x =>
            cases hb : u8FromHex b with
            | none => rw [ha, hb] at h; cases h
            | some y =>
            cases hc : u8FromHex c with
            | none => rw [ha, hb, hc] at h; cases h
            | some z =>
              rw [ha, hb, hc] at h
              have h : (⟨x, y, z⟩ : Oui) = o := by cases h; rfl
              subst h
              exact ⟨a, b, c, by rw [e1, e2], (u8FromHex_iff _ _).mp ha, (u8FromHex_iff _ _).mp hb,
                (u8FromHex_iff _ _).mp hc⟩
  · rintro ⟨_, a, b, c, rfl, ha, hb, hc⟩
    have h1 : splitn '-' 3 (a ++ '-' :: (b ++ '-' :: c)) = [a, b, c] := by
      simp only [splitn, splitFirst_append ha.no_dash, splitFirst_append hb.no_dash]
    rw [h1]
    simp only [List.mapM_cons, List.mapM_nil, (u8FromHex_iff _ _).mpr ha, (u8FromHex_iff _ _).mpr hb,
      (u8FromHex_iff _ _).mpr hc]
    rfl

/-- C52: parsing the displayed form of any OUI gives it back. -/
theorem C52_round_trip (o : Oui) : Oui.fromStr o.display = .ok o := by
  rw [C52_accepts_partial]
  have hlen : ∀ x : U8, strLen (Bf.hex2 x) = 2 := by
    intro x
    have h1 := (hexDigit_ne ⟨x.toNat / 16, by have := x.isLt; omega⟩).2.2
    have h2 := (hexDigit_ne ⟨x.toNat % 16, by have := x.isLt; omega⟩).2.2
    simp only at h1 h2
    simp [strLen, Bf.hex2, h1, h2]
  have happ : ∀ s t, strLen (s ++ t) = strLen s + strLen t := by intro s t; simp [strLen]
  refine ⟨?_, Bf.hex2 o.b0, Bf.hex2 o.b1, Bf.hex2 o.b2, ?_, ?_, ?_, ?_⟩
  · simp only [Oui.display, happ, hlen]; decide
  · simp [Oui.display]
  all_goals exact (u8FromHex_iff _ _).mp (u8FromHex_hex2 _)

/-- C52, second half, is false as documented ("3 octets, formatted as hex"): a plus sign and single digits are accepted
too. -/
theorem C52_counterexample :
    Oui.fromStr chars!"+a-1-2" = .ok ⟨0x0a, 1, 2⟩ ∧
    ¬ ∃ a b c, chars!"+a-1-2" = a ++ '-' :: (b ++ '-' :: c) ∧ TwoDigits a ∧ TwoDigits b ∧ TwoDigits c := by
  refine ⟨by decide +kernel, ?_⟩
  rintro ⟨a, b, c, he, ⟨a1, a2, x, y, rfl, h1, _⟩, ⟨b1, b2, _, _, rfl, _, _⟩, ⟨c1, c2, _, _, rfl, _, _⟩⟩
  simp at he

example : Oui.fromStr chars!"00-0c-fF" = .ok ⟨0, 0x0c, 0xff⟩ := by decide +kernel
example : Oui.fromStr chars!"100-0-0" = .error .invalidOui := by decide +kernel
example : Oui.fromStr chars!"00-0c" = .error .invalidOui := by decide +kernel

end Xcvr
