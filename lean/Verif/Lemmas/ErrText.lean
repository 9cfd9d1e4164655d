import Verif.Spec.ErrText
import Verif.Lemmas.Lines

/-! # Lemmas about the text of errors -/

namespace Xcvr

open Spec Cli

theorem afterWords_append (w s : List Char) : afterWords w (w ++ s) = some s := by
  induction w with
  | nil => cases s <;> rfl
  | cons c w ih => simp [afterWords, ih]

theorem readCount_decimal (x : U8) (rest : List Char) (hr : ∀ c, rest.head? = some c → isDigit c = false) :
    readCount (decimal x ++ rest) = some (x.toNat, rest) := by
  obtain ⟨h1, h2, h3, -⟩ := decimal_spec x
  have ht := takeWhile_digits (decimal x) rest h1 hr
  have hd : (decimal x ++ rest).dropWhile isDigit = rest := by
    have := List.takeWhile_append_dropWhile (p := isDigit) (l := decimal x ++ rest)
    rw [ht] at this
    exact List.append_cancel_left this
  unfold readCount
  rw [ht, hd, h3, if_neg h2]

theorem readCode_unknown (b : U8) : readCode (maybeUnknownText (some (.unknownUnknown b))) =
    some (some (.unknownUnknown b)) := by
  revert b
  decide +kernel

theorem readCode_text (u : Option Unknowns) : readCode (maybeUnknownText u) = some u := by
  cases u with
  | none => rfl
  | some u =>
    cases u with
    | knownUnknown => decide +kernel
    | unknownUnknown b => exact readCode_unknown b

theorem readCause (n : Nat) (e : HwError) (s : List Char) (u : Option Unknowns) (h : readCode s = some u) :
    (causes.findSome? fun c => ((afterWords c.2 (e.text ++ s)).bind readCode).map (Told.hardware n c.1)) =
      some (.hardware n e u) := by
  cases e <;> simp [causes, HwError.text, afterWords, h]

theorem readHardware_text (i : U8) (e : HwError) (u : Option Unknowns) :
    readHardware (decimal i ++ (chars!": " ++ (e.text ++ maybeUnknownText u))) = some (.hardware i.toNat e u) := by
  unfold readHardware
  rw [readCount_decimal i _ (by simp [isDigit])]
  simp only [afterWords_append]
  exact readCause _ _ _ _ (readCode_text u)

theorem readInterface_text (f : ManagementInterface) : readInterface f.debug = some f := by
  cases f with
  | sff8636 => decide +kernel
  | cmis => decide +kernel
  | unknown x =>
    revert x
    decide +kernel

theorem debugText_no_space (id : Identifier) : ∀ c ∈ debugText id, c ≠ ' ' := by
  cases id with
  | known i =>
    have : ∀ i : Fin identifierTable.variants.length, ∀ c ∈ debugText (T := identifierTable) (.known i), c ≠ ' ' := by
      decide +kernel
    exact this i
  | other j x =>
    have h1 : ∀ j : Fin identifierTable.others.length, ∀ c ∈ (identifierTable.others[j]).name, c ≠ ' ' := by
      decide +kernel
    have h2 : ∀ c ∈ decimal x, c ≠ ' ' := by
      revert x
      decide +kernel
    intro c hc
    simp only [debugText, List.append_assoc, List.mem_append] at hc
    rcases hc with hc | hc | hc | hc
    · exact h1 j c hc
    · simp at hc; rw [hc]; decide
    · exact h2 c hc
    · simp at hc; rw [hc]; decide

theorem takeWhile_words (w rest : List Char) (h : ∀ c ∈ w, c ≠ ' ') :
    (w ++ ' ' :: rest).takeWhile (· ≠ ' ') = w ∧ (w ++ ' ' :: rest).dropWhile (· ≠ ' ') = ' ' :: rest := by
  induction w with
  | nil => simp
  | cons c w ih =>
    have := ih fun d hd => h d (List.mem_cons_of_mem _ hd)
    simp only [ne_eq, decide_not] at this
    simp [h c List.mem_cons_self, this.1, this.2]

theorem readWrong_text (i : U8) (id : Identifier) (f : ManagementInterface) :
    readWrong (decimal i ++ (chars!" with identifier " ++ (debugText id ++
      (chars!" does not use the specified management interface " ++ f.debug)))) =
        some (.wrongInterface i.toNat (debugText id) f) := by
  unfold readWrong
  rw [readCount_decimal i _ (by simp [isDigit])]
  simp only [afterWords_append]
  have := takeWhile_words (debugText id) (chars!"does not use the specified management interface " ++ f.debug)
    (debugText_no_space id)
  rw [show chars!" does not use the specified management interface " ++ f.debug =
    ' ' :: (chars!"does not use the specified management interface " ++ f.debug) from rfl, this.1, this.2]
  rw [show ' ' :: (chars!"does not use the specified management interface " ++ f.debug) =
    chars!" does not use the specified management interface " ++ f.debug from rfl, afterWords_append]
  simp [readInterface_text]

theorem readDecode_text (e : DecodeError) : readDecode e.text = some (told (.decode e)) := by
  cases e with
  | unsupportedIdentifier id =>
    have h : ∀ s, readDecode (chars!"Unsupported SFF-8024 Identifier: '" ++ (s ++ chars!"'")) = some (.unsupported s) := by
      intro s
      unfold readDecode
      rw [afterWords_append]
      simp
    exact (congrArg readDecode (List.append_assoc ..)).trans (h _)
  | management m => rfl
  | parseFailed => rfl
  | invalidOui => rfl
  | invalidBitField => rfl
  | bitOutOfRange => rfl

theorem readByte_text (x : U8) (s : List Char) : readByte (hexByte x ++ s) = some (x, s) := by
  have h : ∀ x : U8, readByte (hexByte x) = some (x, []) := by decide +kernel
  have h := h x
  unfold hexByte Bf.hex2 at h ⊢
  simp only [List.cons_append, List.nil_append, readByte] at h ⊢
  split at h
  · simp only [Option.some.injEq, Prod.mk.injEq, and_true] at h ⊢
    exact h
  · cases h

theorem readLastByte_text (x : U8) : readLastByte (hexByte x) = some x := by
  have := readByte_text x []
  rw [List.append_nil] at this
  simp [readLastByte, this]

theorem readLastCount_text (x : U8) : readLastCount (decimal x) = some x.toNat := by
  have := readCount_decimal x [] (by simp)
  rw [List.append_nil] at this
  simp [readLastCount, this]

theorem readMgmt_text (e : MgmtError) : readMgmt e.text = some e := by
  unfold readMgmt MgmtError.text
  cases e <;> simp only [List.append_assoc]
  case invalidPage p => rw [afterWords_append]; simp [readLastByte_text]
  case invalidBank b =>
    generalize hs : hexByte b = s
    rw [show afterWords chars!"Invalid upper memory page: " (chars!"Invalid upper memory bank: " ++ s) = none from rfl,
      afterWords_append, ← hs]
    simp [readLastByte_text]
  case pageIsUnbanked b =>
    generalize hs : hexByte b = s
    rw [show afterWords chars!"Invalid upper memory page: " (chars!"Page does not accept a bank number: " ++ s) = none from rfl,
      show afterWords chars!"Invalid upper memory bank: " (chars!"Page does not accept a bank number: " ++ s) = none from rfl,
      afterWords_append, ← hs]
    simp [readLastByte_text]
  case pageIsBanked b =>
    generalize hs : hexByte b = s
    rw [show afterWords chars!"Invalid upper memory page: " (chars!"Page requires a bank number: " ++ s) = none from rfl,
      show afterWords chars!"Invalid upper memory bank: " (chars!"Page requires a bank number: " ++ s) = none from rfl,
      show afterWords chars!"Page does not accept a bank number: " (chars!"Page requires a bank number: " ++ s) = none from rfl,
      afterWords_append, ← hs]
    simp [readLastByte_text]
  case invalidMemoryAccess offset len =>
    generalize hs : hexByte offset ++ (chars!", len=" ++ hexByte len) = s
    rw [show afterWords chars!"Invalid upper memory page: " (chars!"Invalid memory access: offset=" ++ s) = none from rfl,
      show afterWords chars!"Invalid upper memory bank: " (chars!"Invalid memory access: offset=" ++ s) = none from rfl,
      show afterWords chars!"Page does not accept a bank number: " (chars!"Invalid memory access: offset=" ++ s) = none from rfl,
      show afterWords chars!"Page requires a bank number: " (chars!"Invalid memory access: offset=" ++ s) = none from rfl,
      afterWords_append, ← hs]
    simp only [readByte_text, afterWords_append]
    simp [readLastByte_text]
  case invalidOperationSize size f =>
    generalize hs : decimal size ++ (chars!" bytes too large for management interface " ++ f.debug) = s
    rw [show afterWords chars!"Invalid upper memory page: " (chars!"Write or read of " ++ s) = none from rfl,
      show afterWords chars!"Invalid upper memory bank: " (chars!"Write or read of " ++ s) = none from rfl,
      show afterWords chars!"Page does not accept a bank number: " (chars!"Write or read of " ++ s) = none from rfl,
      show afterWords chars!"Page requires a bank number: " (chars!"Write or read of " ++ s) = none from rfl,
      show afterWords chars!"Invalid memory access: offset=" (chars!"Write or read of " ++ s) = none from rfl,
      afterWords_append, ← hs]
    simp only [Option.bind_some]
    rw [readCount_decimal size _ (by simp [isDigit])]
    simp only [afterWords_append]
    simp [readInterface_text]

/-- The message of an error can be read. -/
theorem readError_text (e : TransceiverError) : readError e.text = some (told e) := by
  cases e with
  | hardware i s u =>
    unfold readError TransceiverError.text
    simp only [List.append_assoc, afterWords_append, readHardware_text]
    rfl
  | decode e =>
    unfold readError TransceiverError.text
    rw [show afterWords chars!"Hardware error accessing module " (chars!"Error decoding module data: " ++ e.text) = none from
      rfl, afterWords_append]
    exact readDecode_text e
  | invalidInterfaceForModule i id f =>
    unfold readError TransceiverError.text
    simp only [List.append_assoc]
    generalize hs : (decimal i ++ (chars!" with identifier " ++ (debugText id ++
      (chars!" does not use the specified management interface " ++ f.debug)))) = s
    rw [show afterWords chars!"Hardware error accessing module " (chars!"Addressed module with index " ++ s) = none from rfl,
      show afterWords chars!"Error decoding module data: " (chars!"Addressed module with index " ++ s) = none from rfl,
      show afterWords chars!"Module management interface error: " (chars!"Addressed module with index " ++ s) = none from rfl,
      show afterWords chars!"Error addressing Sidecar port: Invalid transceiver port: "
        (chars!"Addressed module with index " ++ s) = none from rfl,
      afterWords_append, ← hs]
    exact readWrong_text i id f
  | mgmt e =>
    unfold readError TransceiverError.text
    rw [show afterWords chars!"Hardware error accessing module " (chars!"Module management interface error: " ++ e.text) =
      none from rfl, show afterWords chars!"Error decoding module data: "
        (chars!"Module management interface error: " ++ e.text) = none from rfl, afterWords_append]
    simp [readMgmt_text, told]
  | port e =>
    unfold readError TransceiverError.text InvalidPort.text
    dsimp only
    rw [← List.append_assoc, show chars!"Error addressing Sidecar port: " ++ chars!"Invalid transceiver port: " =
      chars!"Error addressing Sidecar port: Invalid transceiver port: " from rfl]
    generalize hs : decimal e.port = s
    rw [show afterWords chars!"Hardware error accessing module "
        (chars!"Error addressing Sidecar port: Invalid transceiver port: " ++ s) = none from rfl,
      show afterWords chars!"Error decoding module data: "
        (chars!"Error addressing Sidecar port: Invalid transceiver port: " ++ s) = none from rfl,
      show afterWords chars!"Module management interface error: "
        (chars!"Error addressing Sidecar port: Invalid transceiver port: " ++ s) = none from rfl,
      afterWords_append, ← hs]
    simp [readLastCount_text, told]

theorem readFailure_line (f : U8 × TransceiverError) : readFailure (failureLine f) = some (f.1.toNat, told f.2) := by
  unfold readFailure failureLine portColumn alignRight
  obtain ⟨c, l, h4, h5, h6, h7⟩ := decimal_head f.1
  rw [List.append_assoc, List.append_assoc, dropWhile_spaces _ _ (by rw [h4]; simpa using h6),
    readCount_decimal f.1 _ (by simp [isDigit])]
  simp only [afterWords_append, Option.bind_some, readError_text, Option.map_some]

end Xcvr
