import Verif.Spec.MainText
import Verif.Lemmas.Debug
import Verif.Lemmas.Prog

/-! # Lemmas about the text of the error `main` returns -/

namespace Xcvr

open Spec Prog Cli

/-! ## Programs -/

theorem runs_attempt_ok {α : Type} {p : Prog α} {t : List (Call × Reply)} {a : α} (h : Runs p t (.ok a)) :
    Runs p.attempt t (.ok (.ok a)) := by
  induction p generalizing t with
  | ret b =>
    obtain ⟨rfl, h⟩ := runs_ret.1 h
    cases h
    exact runs_ret.2 ⟨rfl, rfl⟩
  | fail e => cases (runs_fail.1 h).2
  | panic => cases (runs_panic.1 h).2
  | rpc c k ih =>
    obtain ⟨r, t', rfl, h'⟩ := runs_rpc.1 h
    exact runs_rpc.2 ⟨r, t', rfl, ih r h'⟩

theorem runs_attempt_err {α : Type} {p : Prog α} {t : List (Call × Reply)} {e : CtlError} (h : Runs p t (.err e)) :
    Runs p.attempt t (.ok (.error e)) := by
  induction p generalizing t with
  | ret b => cases (runs_ret.1 h).2
  | fail e =>
    obtain ⟨rfl, h⟩ := runs_fail.1 h
    cases h
    exact runs_ret.2 ⟨rfl, rfl⟩
  | panic => cases (runs_panic.1 h).2
  | rpc c k ih =>
    obtain ⟨r, t', rfl, h'⟩ := runs_rpc.1 h
    exact runs_rpc.2 ⟨r, t', rfl, ih r h'⟩

theorem runs_attempt_panic {α : Type} {p : Prog α} {t : List (Call × Reply)} (h : Runs p t .panic) :
    Runs p.attempt t .panic := by
  induction p generalizing t with
  | ret b => cases (runs_ret.1 h).2
  | fail e => cases (runs_fail.1 h).2
  | panic => exact runs_panic.2 ⟨(runs_panic.1 h).1, rfl⟩
  | rpc c k ih =>
    obtain ⟨r, t', rfl, h'⟩ := runs_rpc.1 h
    exact runs_rpc.2 ⟨r, t', rfl, ih r h'⟩

/-! ## Numbers -/

theorem readCount_nat (n : Nat) (rest : List Char) (hr : ∀ c, rest.head? = some c → isDigit c = false) :
    readCount (natText n ++ rest) = some (n, rest) := by
  have ht := takeWhile_digits (natText n) rest (toDigits_all n) hr
  have hd : (natText n ++ rest).dropWhile isDigit = rest := by
    have := List.takeWhile_append_dropWhile (p := isDigit) (l := natText n ++ rest)
    rw [ht] at this
    exact List.append_cancel_left this
  unfold readCount
  rw [ht, hd, if_neg (show natText n ≠ [] from Nat.toDigits_ne_nil)]
  unfold natText
  rw [valueOf_toDigits]

theorem readLastCount_nat (n : Nat) : readLastCount (natText n) = some n := by
  have := readCount_nat n [] (by simp)
  rw [List.append_nil] at this
  simp [readLastCount, this]

theorem readOne_text (before following : List Char) (n : Nat) (h : ∀ c, following.head? = some c → isDigit c = false) :
    readOne before following (before ++ natText n ++ following) = some n := by
  unfold readOne
  rw [List.append_assoc, afterWords_append, Option.bind_some, readCount_nat n following h]
  simp

theorem readTwo_text (before between : List Char) (a b : Nat) (c : Char) (l : List Char) (h : between = c :: l)
    (hc : isDigit c = false) : readTwo before between (before ++ natText a ++ between ++ natText b) = some (a, b) := by
  unfold readTwo
  rw [List.append_assoc, List.append_assoc, afterWords_append, Option.bind_some,
    readCount_nat a _ (by rw [h]; intro d hd; cases hd; exact hc)]
  simp only [afterWords_append, Option.bind_some, readLastCount_nat]

/-! ## Layout -/

theorem natText_head (n : Nat) : (natText n).head? ≠ some ' ' := by
  intro h
  have : ' ' ∈ natText n := List.mem_of_head? h
  have := List.all_eq_true.1 (toDigits_all n) _ this
  revert this
  decide

theorem readNumbered_text (n : Nat) (c : List Char) :
    readNumbered n (alignRight 5 (natText n) ++ chars!": " ++ c) = some c := by
  unfold readNumbered alignRight
  rw [List.append_assoc, List.append_assoc, dropWhile_spaces _ _ ?_, readCount_nat n _ (by simp [isDigit])]
  · simp only [if_true, afterWords_append]
  · have := natText_head n
    cases hn : natText n with
    | nil => exact absurd hn Nat.toDigits_ne_nil
    | cons d ds => rw [hn] at this; simpa using this

theorem readNumberedFrom_text (cs : List (List Char)) (n : Nat) :
    readNumberedFrom n ((cs.zipIdx n).map fun x => alignRight 5 (natText x.2) ++ chars!": " ++ x.1) = some cs := by
  induction cs generalizing n with
  | nil => rfl
  | cons c cs ih =>
    simp only [List.zipIdx_cons, List.map_cons, readNumberedFrom, readNumbered_text, ih]

theorem readChain_report (m : List Char) (cs : List (List Char)) : readChain (errorReport m cs) = some (m, cs) := by
  unfold errorReport readChain
  dsimp only
  rw [afterWords_append]
  match cs with
  | [] => rfl
  | [c] => simp [afterWords]
  | c :: d :: cs =>
    have := readNumberedFrom_text (c :: d :: cs) 0
    dsimp only
    rw [if_pos rfl]
    simp only [List.zipIdx_cons, List.map_cons] at this ⊢
    rw [this]
    rfl

/-! ## Causes -/

theorem readProtocolText_text (e : ProtocolError) : readProtocolText e.text = some e := by
  cases e with
  | wrongMessage => rfl
  | notSupported => rfl
  | requestTooLarge => rfl
  | serialization => rfl
  | wrongDataSize e a =>
    have := readTwo_text chars!"Message trailing data has incorrect size: expected=" chars!" actual=" e.toNat a.toNat ' '
      chars!"actual=" rfl rfl
    unfold readProtocolText ProtocolError.text
    simp only [this]
    simp
  | versionMismatch e a =>
    have := readTwo_text chars!"Version mismatch: expected=" chars!", actual=" e.toNat a.toNat ',' chars!" actual=" rfl rfl
    unfold readProtocolText ProtocolError.text
    have hn : ∀ s, readTwo chars!"Message trailing data has incorrect size: expected=" chars!" actual="
      (chars!"Version mismatch: expected=" ++ s) = none := fun s => rfl
    simp only [List.append_assoc] at this ⊢
    simp only [this, hn]
    simp

theorem readBadRange_text (e : BadMacAddrRange) : readBadRange e.text = some e := by
  let fs : DbgFields := .cons chars!"reason" e.reason.debug (.cons chars!"base" e.baseMac.debug
    (.cons chars!"count" (.num e.count.toNat) (.one chars!"stride" (.num e.stride.toNat))))
  have hf : fs.Fine .curly := ⟨by decide, by simp, fine_reason _, by decide, by simp, fine_address _, by decide, by simp,
    fine_num _, by decide, by simp, fine_num _⟩
  have ht : e.text = chars!"The MAC address range is invalid, " ++ fs.text .curly := by
    simp [fs, BadMacAddrRange.text, DbgFields.text, Dbg.text, Brackets.label, Dbg.num, natText]
  have hr := readFields_text fs .curly (2 * (fs.text .curly).length + 1) [] hf (DbgFields.size_le _ _ hf) ⟨by simp, rfl⟩ rfl
  rw [List.append_nil] at hr
  unfold readBadRange
  rw [ht, afterWords_append, Option.bind_some, hr]
  simp [fs, Spec.DbgFields.find, readReason_debug, readAddress_debug, number_num]

theorem readModuleWhy_text (e : TransceiverError) : readModuleWhy (e.text :: e.causes) = some (whyOf (.transceiver e)) := by
  unfold readModuleWhy
  simp only [readError_text]
  cases e with
  | decode d => cases d <;> simp [told, whyOf, TransceiverError.causes, DecodeError.causes, readMgmt_text]
  | _ => rfl

theorem readWhy_chain (std : StdTexts) (e : CtlError) : readWhy (e.chain std) = some (whyOf e) := by
  cases e with
  | protocol e =>
    unfold CtlError.chain readWhy
    simp [readProtocolText_text, whyOf]
  | io => rfl
  | maxRetries n =>
    have := readOne_text chars!"Maximum number of retries (" chars!") reached without a response" n (by simp [isDigit])
    unfold CtlError.chain readWhy readLine
    simp only [this]
    simp [afterWords, whyOf]
  | maxFaultMessages n =>
    have := readOne_text chars!"Maximum number of faulty messages (" chars!") reached without a response" n (by simp [isDigit])
    have hn : ∀ s, readOne chars!"Maximum number of retries (" chars!") reached without a response"
      (chars!"Maximum number of faulty messages (" ++ s) = none := fun s => rfl
    unfold CtlError.chain readWhy readLine
    simp only [List.append_assoc] at this ⊢
    simp only [this, hn]
    simp [afterWords, whyOf]
  | unexpectedMessage b =>
    unfold CtlError.chain readWhy readLine
    simp only [afterWords_append, readMessage_text]
    simp [whyOf]
  | invalidWriteData x a =>
    have := readTwo_text chars!"Incorrect data length for memory write, expected = " chars!" actual = " x a ' '
      chars!"actual = " rfl rfl
    have h1 : ∀ s, readOne chars!"Maximum number of retries (" chars!") reached without a response"
      (chars!"Incorrect data length for memory write, expected = " ++ s) = none := fun s => rfl
    have h2 : ∀ s, readOne chars!"Maximum number of faulty messages (" chars!") reached without a response"
      (chars!"Incorrect data length for memory write, expected = " ++ s) = none := fun s => rfl
    unfold CtlError.chain readWhy readLine
    simp only [List.append_assoc] at this ⊢
    simp only [this, h1, h2]
    simp [afterWords, whyOf]
  | invalidPowerStateTransition => rfl
  | mac e =>
    unfold CtlError.chain readWhy
    simp [readBadRange_text, whyOf]
  | transceiver e =>
    unfold CtlError.chain readWhy
    dsimp only
    rw [if_neg (by decide), if_pos rfl]
    exact readModuleWhy_text e

theorem readStep_command (cmd : Cmd) : readStep cmd.context = some (commandStep cmd) := by
  cases cmd <;> rfl

theorem readStep_selection {s : Transceivers} {x : Step} (h : selectionStep s = some x) :
    readStep (selectionContext s) = some x := by
  cases s <;> cases h <;> rfl

/-- A report on a step can be read. -/
theorem readReport_step (std : StdTexts) {m : List Char} {s : Step} (hm : readStep m = some s) (e : CtlError) :
    readReport (errorReport m (e.chain std)) = some (s, whyOf e) := by
  unfold readReport
  simp only [readChain_report, hm, readWhy_chain]

/-- A selection that needs no SP does not fail. -/
theorem selection_step {s : Transceivers} {t : List Exchange} {e : CtlError}
    (h : Runs (addressTransceivers s) t (.err e)) : ∃ x, selectionStep s = some x := by
  cases s with
  | all => cases (runs_ret.1 h).2
  | index m => cases (runs_ret.1 h).2
  | present => exact ⟨_, rfl⟩
  | powerState p => exact ⟨_, rfl⟩
  | kind k => exact ⟨_, rfl⟩

/-! ## Commands that are refused -/

theorem readAccessWhy_last (cs : List (List Char)) (e : MgmtError) : readAccessWhy (cs ++ [e.text]) = some e := by
  unfold readAccessWhy
  simp [readMgmt_text]

theorem readRefusal_report {std : StdTexts} (hstd : Foreign std) {cmd : Cmd} {e : SetupError} {o : Objection}
    (h : whyRefused cmd e = some o) : readRefusal (e.report std cmd) = some o := by
  obtain ⟨h1, h2, h3, h4⟩ := hstd
  have hl := fun e => readAccessWhy_last [] e
  simp only [List.nil_append] at hl
  have hb : ∀ b e, readAccessWhy (LargeAccessError.chain std (.mgmt e)) = some e ∧
      readAccessWhy (LargeAccessError.chain std (.byteOutOfRange b)) = none := by
    intro b e
    exact ⟨readAccessWhy_last [chars!"Error interacting with transceiver module",
      chars!"Module management interface error: " ++ e.text] e, by rfl⟩
  have hb1 := fun e => (hb 0 e).1
  have hb2 := fun b => (hb b (.invalidPage 0)).2
  unfold whyRefused at h
  unfold readRefusal
  split at h <;> cases h <;> simp only [SetupError.report, readChain_report]
  all_goals try (simp [Cmd.cmis, Cmd.lower, hl, hb1, hb2]; done)
  all_goals first
    | (rename_i cmis _ _ _ _ _ _ e; cases cmis <;> simp [Cmd.cmis, hl]; done)
    | (rename_i cmis _ _ _ _ e; cases cmis <;> simp [Cmd.cmis, hl]; done)
    | skip
  all_goals
    rename_i e
    cases e <;> simp only [InputError.chain]
  all_goals try (simp [readInputWhy, h1, h2, h3, h4]; done)
  all_goals
    generalize Cmd.inputKind _ = k
    cases k <;> simp [readInputWhy]

end Xcvr
