import Verif.Spec.Debug
import Verif.Lemmas.ErrText

/-! # Lemmas about the `Debug` text of messages -/

namespace Xcvr

open Spec Cli

/-! ## Numbers -/

theorem valueOf_toDigits (n : Nat) : valueOf (Nat.toDigits 10 n) = n := by
  have := Nat.ofDigitChars_ten_toDigits (n := n)
  unfold Nat.ofDigitChars at this
  exact this

theorem isDigit_iff (c : Char) : isDigit c = c.isDigit := by
  unfold isDigit Char.isDigit
  rw [Bool.eq_iff_iff]
  simp [UInt32.le_iff_toNat_le]

theorem toDigits_all (n : Nat) : (Nat.toDigits 10 n).all isDigit = true := by
  rw [List.all_eq_true]
  intro c hc
  rw [isDigit_iff]
  exact Nat.isDigit_of_mem_toDigits (by decide) (by decide) hc

theorem number_num (n : Nat) : Spec.Dbg.number (Dbg.num n) = some n := by
  unfold Spec.Dbg.number Dbg.num
  simp [toDigits_all, Nat.toDigits_ne_nil, valueOf_toDigits]

theorem hexValue_append (s : List Char) (c : Char) (v x : Nat) (h : hexValue s = some v) (hc : nibble c = some x) :
    hexValue (s ++ [c]) = some (16 * v + x) := by
  unfold hexValue at h ⊢
  rw [List.foldl_append, h]
  simp [hc]

theorem nibble_digit (x : Nat) (h : x < 16) : nibble x.digitChar = some x := by
  have : ∀ x : Fin 16, nibble x.val.digitChar = some x.val := by decide +kernel
  exact this ⟨x, h⟩

theorem hexValue_toDigits (n : Nat) : hexValue (Nat.toDigits 16 n) = some n := by
  induction n using Nat.strongRecOn with
  | _ n ih =>
    by_cases h : n < 16
    · rw [Nat.toDigits_of_lt_base h]
      have := hexValue_append [] _ 0 n rfl (nibble_digit n h)
      simpa using this
    · rw [Nat.toDigits_of_base_le (by decide) (by omega)]
      rw [hexValue_append _ _ _ _ (ih (n / 16) (by omega)) (nibble_digit (n % 16) (by omega))]
      congr 1
      omega

theorem wordChar_digit (x : Nat) (h : x < 16) : isWordChar x.digitChar = true := by
  have : ∀ x : Fin 16, isWordChar x.val.digitChar = true := by decide +kernel
  exact this ⟨x, h⟩

theorem wordChar_toDigits (b n : Nat) (h1 : 1 < b) (h2 : b ≤ 16) : (Nat.toDigits b n).all isWordChar = true := by
  induction n using Nat.strongRecOn with
  | _ n ih =>
    by_cases h : n < b
    · rw [Nat.toDigits_of_lt_base h]
      simp [wordChar_digit n (by omega)]
    · rw [Nat.toDigits_of_base_le h1 (by omega)]
      have := Nat.mod_lt n (by omega : b > 0)
      simp [ih (n / b) (Nat.div_lt_self (by omega) h1), wordChar_digit (n % b) (by omega)]

/-! ## From text to values -/

mutual
/-- Words are words. -/
def Dbg.Fine : Dbg → Prop
  | .word s => s.all isWordChar = true ∧ s ≠ []
  | .group name b fs => name.all isWordChar = true ∧ fs.Fine b
def DbgFields.Fine (b : Brackets) : DbgFields → Prop
  | .one name v => name.all isWordChar = true ∧ (b ≠ .curly → name = []) ∧ v.Fine
  | .cons name v rest => name.all isWordChar = true ∧ (b ≠ .curly → name = []) ∧ v.Fine ∧ rest.Fine b
end

mutual
def Dbg.size : Dbg → Nat
  | .word _ => 1
  | .group _ _ fs => fs.size + 1
def DbgFields.size : DbgFields → Nat
  | .one _ v => v.size + 1
  | .cons _ v rest => v.size + rest.size + 1
end

mutual
theorem Dbg.size_le : (d : Dbg) → d.Fine → d.size ≤ 2 * d.text.length
  | .word s, h => by
    have := List.length_pos_iff.2 h.2
    simp only [Dbg.size, Dbg.text]; omega
  | .group name b fs, h => by
    have := DbgFields.size_le b fs h.2
    cases b <;> simp [Dbg.size, Dbg.text, Brackets.opening, Brackets.closing] <;> omega
theorem DbgFields.size_le (b : Brackets) : (fs : DbgFields) → fs.Fine b → fs.size ≤ 2 * (fs.text b).length + 1
  | .one name v, h => by
    have := Dbg.size_le v h.2.2
    simp only [DbgFields.size, DbgFields.text, List.length_append]; omega
  | .cons name v rest, h => by
    have := Dbg.size_le v h.2.2.1
    have := DbgFields.size_le b rest h.2.2.2
    simp only [DbgFields.size, DbgFields.text, List.length_append, List.length_cons]; omega
end

/-- What may follow a value. -/
def EndsWord (rest : List Char) : Prop := (∀ c, rest.head? = some c → isWordChar c = false) ∧ readOpening rest = none

theorem word_split (s rest : List Char) (h : s.all isWordChar = true)
    (hr : ∀ c, rest.head? = some c → isWordChar c = false) :
    (s ++ rest).takeWhile isWordChar = s ∧ (s ++ rest).dropWhile isWordChar = rest := by
  induction s with
  | nil =>
    cases rest with
    | nil => exact ⟨rfl, rfl⟩
    | cons c rest => simp [hr c rfl]
  | cons d s ih =>
    simp only [List.all_cons, Bool.and_eq_true] at h
    have := ih h.2
    simp [h.1, this.1, this.2]

theorem opening_head (b : Brackets) (s : List Char) :
    (∀ c, (b.opening ++ s).head? = some c → isWordChar c = false) ∧ readOpening (b.opening ++ s) = some (b, s) := by
  cases b <;> simp [Brackets.opening, readOpening] <;> decide

theorem closing_ends (b : Brackets) (s : List Char) :
    EndsWord (b.closing ++ s) ∧ afterWords chars!", " (b.closing ++ s) = none := by
  cases b <;> simp [Brackets.closing, readOpening, EndsWord, afterWords] <;> decide

theorem comma_ends (s : List Char) : EndsWord (chars!", " ++ s) := by
  simp [readOpening, EndsWord]; decide

theorem readLabel_text (b : Brackets) (name s : List Char) (h : name.all isWordChar = true) (hn : b ≠ .curly → name = []) :
    readLabel b (b.label name ++ s) = some (name, s) := by
  cases b with
  | curly =>
    unfold readLabel Brackets.label
    rw [List.append_assoc]
    obtain ⟨h1, h2⟩ := word_split name (chars!": " ++ s) h (by simp; decide)
    simp only [h1, h2, afterWords_append]
    rfl
  | round => rw [hn (by simp)]; rfl
  | square => rw [hn (by simp)]; rfl

mutual
theorem readDbg_text : (d : Dbg) → (n : Nat) → (rest : List Char) → d.Fine → d.size ≤ n → EndsWord rest →
    readDbg n (d.text ++ rest) = some (d, rest)
  | .word s, n, rest, h, hn, hr => by
    cases n with
    | zero => simp [Dbg.size] at hn
    | succ n =>
      obtain ⟨h1, h2⟩ := word_split s rest h.1 hr.1
      simp only [Dbg.text, readDbg, h1, h2, hr.2, if_neg h.2]
  | .group name b fs, n, rest, h, hn, hr => by
    cases n with
    | zero => simp [Dbg.size] at hn
    | succ n =>
      simp only [Dbg.size, Nat.add_le_add_iff_right] at hn
      obtain ⟨h3, h4⟩ := opening_head b (fs.text b ++ (b.closing ++ rest))
      obtain ⟨h1, h2⟩ := word_split name _ h.1 h3
      simp only [Dbg.text, List.append_assoc, readDbg, h1, h2, h4]
      rw [readFields_text fs b n _ h.2 hn (closing_ends b rest).1 (closing_ends b rest).2]
      simp only [afterWords_append]
      rfl
theorem readFields_text : (fs : DbgFields) → (b : Brackets) → (n : Nat) → (rest : List Char) → fs.Fine b → fs.size ≤ n →
    EndsWord rest → afterWords chars!", " rest = none → readFields n b (fs.text b ++ rest) = some (fs, rest)
  | .one name v, b, n, rest, h, hn, hr, hc => by
    cases n with
    | zero => simp [DbgFields.size] at hn
    | succ n =>
      simp only [DbgFields.size, Nat.add_le_add_iff_right] at hn
      simp only [DbgFields.text, List.append_assoc, readFields, readLabel_text b name _ h.1 h.2.1]
      rw [readDbg_text v n rest h.2.2 hn hr]
      simp only [hc]
  | .cons name v fs, b, n, rest, h, hn, hr, hc => by
    cases n with
    | zero => simp [DbgFields.size] at hn
    | succ n =>
      simp only [DbgFields.size, Nat.add_le_add_iff_right] at hn
      simp only [DbgFields.text, List.append_assoc, readFields, readLabel_text b name _ h.1 h.2.1]
      rw [readDbg_text v n _ h.2.2.1 (by omega) (comma_ends _)]
      simp only [afterWords_append]
      rw [readFields_text fs b n rest h.2.2.2 (by omega) hr hc]
end

/-! ## From values to messages -/

theorem fine_num (n : Nat) : (Dbg.num n).Fine := ⟨wordChar_toDigits 10 n (by decide) (by decide), Nat.toDigits_ne_nil⟩

theorem fine_modules (m : ModuleId) : m.debug.Fine := by
  refine ⟨by decide, by decide, fun _ => rfl, ?_, by simp⟩
  have := wordChar_toDigits 16 m.mask.toNat (by decide) (by decide)
  simp [this]
  decide

theorem readModules_debug (m : ModuleId) : readModules m.debug = some m := by
  unfold readModules ModuleId.debug Dbg.wrap
  simp only [Spec.Dbg.name, Spec.Dbg.field, Spec.DbgFields.find, if_true, afterWords_append, Option.bind_some,
    hexValue_toDigits]
  simp

theorem fine_interface (f : ManagementInterface) : f.debugTree.Fine := by
  cases f
  · exact ⟨by decide, by decide⟩
  · exact ⟨by decide, by decide⟩
  · exact ⟨by decide, by decide, fun _ => rfl, fine_num _⟩

theorem readKind_debug (f : ManagementInterface) : readKind f.debugTree = some f := by
  cases f
  · decide
  · decide
  · rename_i x
    simp [readKind, ManagementInterface.debugTree, Dbg.wrap, Spec.Dbg.name, Spec.Dbg.numberAt, Spec.Dbg.field,
      Spec.DbgFields.find, number_num]

theorem fine_page (p : Page) : p.debug.Fine := by
  unfold Page.debug
  split
  · exact ⟨by decide, by decide, fun _ => rfl, by decide, by decide⟩
  · exact ⟨by decide, by decide, fun _ => rfl, by decide, by decide, fun _ => rfl, by decide, by decide, fun _ => rfl, fine_num _⟩
  · exact ⟨by decide, by decide, fun _ => rfl, by decide, by decide⟩
  · refine ⟨by decide, by decide, fun _ => rfl, by decide, by decide, fun _ => rfl, by decide, by decide, by simp, ?_, by decide,
      by simp, fine_num _⟩
    unfold debugOption
    split
    · exact ⟨by decide, by decide⟩
    · exact ⟨by decide, by decide, fun _ => rfl, fine_num _⟩

theorem readPage_debug (p : Page) : readPage p.debug = some p := by
  unfold Page.debug
  split
  · decide
  · simp [readPage, Dbg.wrap, Spec.Dbg.name, Spec.Dbg.numberAt, Spec.Dbg.field, Spec.DbgFields.find, number_num]
  · decide
  · rename_i u
    obtain ⟨bank, page⟩ := u
    cases bank <;>
    simp [readPage, Dbg.wrap, Spec.Dbg.name, Spec.Dbg.numberAt, Spec.Dbg.field, Spec.DbgFields.find, number_num, readBank,
      debugOption]

theorem fine_access (name : List Char) (a : MemAccess) (h : name.all isWordChar = true) : (a.debug name).Fine :=
  ⟨h, by decide, by simp, fine_page _, by decide, by simp, fine_num _, by decide, by simp, fine_num _⟩

theorem readAccess_debug (name : List Char) (a : MemAccess) : readAccess name (a.debug name) = some a := by
  simp [readAccess, MemAccess.debug, Spec.Dbg.name, Spec.Dbg.numberAt, Spec.Dbg.field, Spec.DbgFields.find, number_num,
    readPage_debug]

theorem fine_protocol (e : ProtocolError) : e.debug.Fine := by
  cases e
  case wrongDataSize => exact ⟨by decide, by decide, by simp, fine_num _, by decide, by simp, fine_num _⟩
  case versionMismatch => exact ⟨by decide, by decide, by simp, fine_num _, by decide, by simp, fine_num _⟩
  all_goals exact ⟨by decide, by decide⟩

theorem readProtocol_debug (e : ProtocolError) : readProtocol e.debug = some e := by
  cases e <;> simp [readProtocol, ProtocolError.debug, Spec.Dbg.name, Spec.Dbg.numberAt, Spec.Dbg.field, Spec.DbgFields.find,
    number_num, expectedActual]

theorem fine_request (r : HostRequest) : r.debug.Fine := by
  cases r
  case read | write =>
    exact ⟨by decide, by decide, by simp, fine_modules _, by decide, by simp, fine_access _ _ (by decide)⟩
  case managementInterface =>
    exact ⟨by decide, by decide, by simp, fine_modules _, by decide, by simp, fine_interface _⟩
  case setLedState m s =>
    refine ⟨by decide, by decide, by simp, fine_modules _, by decide, by simp, ?_⟩
    cases s <;> exact ⟨by decide, by decide⟩
  case macAddrs => exact ⟨by decide, by decide⟩
  all_goals exact ⟨by decide, by decide, fun _ => rfl, fine_modules _⟩

theorem readRequest_debug (r : HostRequest) : readRequest r.debug = some r := by
  cases r
  case setLedState m s =>
    cases s <;> simp [readRequest, HostRequest.debug, plainRequests, Spec.Dbg.name, Spec.Dbg.field, Spec.DbgFields.find,
      modulesAt, readModules_debug, readLed, LedState.debug]
  all_goals simp [readRequest, HostRequest.debug, plainRequests, Dbg.wrap, Spec.Dbg.name, Spec.Dbg.field,
    Spec.DbgFields.find, modulesAt, readModules_debug, readAccess_debug, readKind_debug]

theorem fine_address (m : Mac) : m.debug.Fine :=
  ⟨by decide, by decide, fun _ => rfl, fine_num _, by decide, fun _ => rfl, fine_num _, by decide, fun _ => rfl, fine_num _,
    by decide, fun _ => rfl, fine_num _, by decide, fun _ => rfl, fine_num _, by decide, fun _ => rfl, fine_num _⟩

theorem readAddress_debug (m : Mac) : readAddress m.debug = some m := by
  simp [readAddress, Mac.debug, Spec.DbgFields.values, number_num]

theorem fine_reason (r : BadMacAddrReason) : r.debug.Fine := by cases r <;> exact ⟨by decide, by decide⟩

theorem fine_response (r : SpResponse) : r.debug.Fine := by
  cases r
  case read | write =>
    exact ⟨by decide, by decide, by simp, fine_modules _, by decide, by simp, fine_modules _, by decide, by simp,
      fine_access _ _ (by decide)⟩
  case macAddrs r =>
    cases r
    · exact ⟨by decide, by decide, fun _ => rfl, by decide, by decide, fun _ => rfl, by decide, by decide, by simp,
        fine_address _, by decide, by simp, fine_num _, by decide, by simp, fine_num _⟩
    · exact ⟨by decide, by decide, fun _ => rfl, by decide, by decide, fun _ => rfl, by decide, by decide, by simp,
        fine_reason _, by decide, by simp,
        fine_address _, by decide, by simp, fine_num _, by decide, by simp, fine_num _⟩
  all_goals exact ⟨by decide, by decide, by simp, fine_modules _, by decide, by simp, fine_modules _⟩

theorem readReason_debug (r : BadMacAddrReason) : readReason r.debug = some r := by cases r <;> decide

theorem readResponse_debug (r : SpResponse) : readResponse r.debug = some r := by
  cases r
  case macAddrs r =>
    cases r <;> simp [readResponse, SpResponse.debug, Dbg.wrap, Spec.Dbg.name, Spec.Dbg.field, Spec.DbgFields.find,
      readMacs, MacAddrResponse.debug, readRange, readAddress_debug, Spec.Dbg.numberAt, number_num, readReason_debug]
  all_goals simp [readResponse, SpResponse.debug, debugModules, plainResponses, Spec.Dbg.name, Spec.Dbg.field,
    Spec.DbgFields.find, modulesAt, readModules_debug, readAccess_debug]

theorem fine_body (b : MessageBody) : b.debug.Fine := by
  cases b with
  | error e => exact ⟨by decide, by decide, fun _ => rfl, fine_protocol e⟩
  | hostRequest r => exact ⟨by decide, by decide, fun _ => rfl, fine_request r⟩
  | spResponse r => exact ⟨by decide, by decide, fun _ => rfl, fine_response r⟩
  | spRequest r => exact nomatch r
  | hostResponse r => exact nomatch r

theorem readBody_debug (b : MessageBody) : readBody b.debug = some b := by
  cases b with
  | error e => simp [readBody, MessageBody.debug, Dbg.wrap, Spec.Dbg.name, Spec.Dbg.field, Spec.DbgFields.find,
      readProtocol_debug]
  | hostRequest r => simp [readBody, MessageBody.debug, Dbg.wrap, Spec.Dbg.name, Spec.Dbg.field, Spec.DbgFields.find,
      readRequest_debug]
  | spResponse r => simp [readBody, MessageBody.debug, Dbg.wrap, Spec.Dbg.name, Spec.Dbg.field, Spec.DbgFields.find,
      readResponse_debug]
  | spRequest r => exact nomatch r
  | hostResponse r => exact nomatch r

/-- The `Debug` text of a message can be read. -/
theorem readMessage_text (b : MessageBody) : readMessage b.debug.text = some b := by
  unfold readMessage
  have := readDbg_text b.debug (2 * b.debug.text.length) [] (fine_body b) (Dbg.size_le _ (fine_body b)) ⟨by simp, rfl⟩
  rw [List.append_nil] at this
  rw [this]
  exact readBody_debug b

end Xcvr
