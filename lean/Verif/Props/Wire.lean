import Verif.Lemmas.Codec
import Verif.Lemmas.ModuleId
import Verif.Props.Mac
import Verif.Props.Memory
import Verif.Spec.Ports
import Verif.Spec.Wire

/-! # C08, C13-C17: wire format and hardware error lists -/

namespace Xcvr

open Spec

/-! ## C13 -/

/-- C13: headers round-trip, whatever follows them. -/
theorem C13_header (h : Header) (rest : Bytes) : dec (enc h ++ rest) = some (h, rest) := dec_enc h rest

/-- C13: messages of every variant round-trip, whatever follows them. -/
theorem C13_message (m : Message) (rest : Bytes) : dec (enc m ++ rest) = some (m, rest) := dec_enc m rest

/-- C13: a whole packet, header then message then trailing data. -/
theorem C13_packet (h : Header) (m : Message) (rest : Bytes) :
    ∃ t, dec (enc h ++ enc m ++ rest) = some (h, t) ∧ dec t = some (m, rest) := by
  refine ⟨enc m ++ rest, ?_, dec_enc m rest⟩
  rw [List.append_assoc, dec_enc]

theorem leVal_leEnc (n x : Nat) (h : x < 256 ^ n) : leVal (leEnc n x) = x := by
  induction n generalizing x with
  | zero => simp at h; subst h; rfl
  | succ n ih =>
    have : x / 256 < 256 ^ n := by
      rw [Nat.pow_succ] at h; exact Nat.div_lt_of_lt_mul (by rwa [Nat.mul_comm])
    simp only [leEnc, leVal, ih _ this, BitVec.toNat_ofNat]
    omega

/-- C13: layout of a header: version byte, eight little-endian id bytes, kind number. -/
theorem C13_header_layout (h : Header) :
    ∃ idBytes : Bytes, idBytes.length = 8 ∧ leVal idBytes = h.messageId.toNat ∧
      enc h = h.version :: (idBytes ++ [kindNumber h.messageKind]) := by
  refine ⟨leEnc 8 h.messageId.toNat, leEnc_length _ _, leVal_leEnc _ _ h.messageId.isLt, ?_⟩
  obtain ⟨v, i, k⟩ := h
  cases k <;> rfl

/-- C13: layout of a request message: version, body number 1, request number, then the little-endian module mask. -/
theorem C13_request_layout (v : U8) (r : HostRequest) :
    ∃ fields : Bytes, enc (⟨v, .hostRequest r⟩ : Message) = v :: 1 :: requestNumber r :: fields ∧
      (∀ m, requestModules r = some m → ∃ maskBytes more, fields = maskBytes ++ more ∧ maskBytes.length = 8 ∧
        leVal maskBytes = m.mask.toNat) ∧
      (requestModules r = none → fields = []) := by
  have key : ∀ (m : ModuleId) (x : Bytes), ∃ maskBytes more, enc m ++ x = maskBytes ++ more ∧ maskBytes.length = 8 ∧
      leVal maskBytes = m.mask.toNat := fun m x =>
    ⟨enc m, x, rfl, leEnc_length _ _, leVal_leEnc _ _ m.mask.isLt⟩
  cases r
  case macAddrs => exact ⟨[], rfl, (fun m h => by cases h), fun _ => rfl⟩
  case read m a => exact ⟨enc m ++ enc a, rfl, fun m' h => by cases h; exact key _ _, (fun h => by cases h)⟩
  case write m a => exact ⟨enc m ++ enc a, rfl, fun m' h => by cases h; exact key _ _, (fun h => by cases h)⟩
  case managementInterface m a => exact ⟨enc m ++ enc a, rfl, fun m' h => by cases h; exact key _ _, (fun h => by cases h)⟩
  case setLedState m a => exact ⟨enc m ++ enc a, rfl, fun m' h => by cases h; exact key _ _, (fun h => by cases h)⟩
  all_goals
    rename_i m
    exact ⟨enc m ++ [], by rw [List.append_nil]; rfl, fun m' h => by cases h; exact key _ _, (fun h => by cases h)⟩

/-- C13: layout of a response message: version, body number 2, response number, then the little-endian masks of the
successful and of the failed modules. -/
theorem C13_response_layout (v : U8) (r : SpResponse) :
    ∃ fields : Bytes, enc (⟨v, .spResponse r⟩ : Message) = v :: 2 :: responseNumber r :: fields ∧
      (∀ m f, responseModules r = some (m, f) → ∃ ok fail more, fields = ok ++ (fail ++ more) ∧ ok.length = 8 ∧
        fail.length = 8 ∧ leVal ok = m.mask.toNat ∧ leVal fail = f.mask.toNat) := by
  have key : ∀ (m f : ModuleId) (x : Bytes), ∃ ok fail more, enc m ++ (enc f ++ x) = ok ++ (fail ++ more) ∧
      ok.length = 8 ∧ fail.length = 8 ∧ leVal ok = m.mask.toNat ∧ leVal fail = f.mask.toNat := fun m f x =>
    ⟨enc m, enc f, x, rfl, leEnc_length _ _, leEnc_length _ _, leVal_leEnc _ _ m.mask.isLt, leVal_leEnc _ _ f.mask.isLt⟩
  cases r
  case macAddrs r => exact ⟨enc r, rfl, (fun m f h => by cases h)⟩
  case read m f a => exact ⟨enc m ++ (enc f ++ enc a), rfl, fun m' f' h => by cases h; exact key _ _ _⟩
  case write m f a => exact ⟨enc m ++ (enc f ++ enc a), rfl, fun m' f' h => by cases h; exact key _ _ _⟩
  all_goals
    rename_i m f
    exact ⟨enc m ++ (enc f ++ []), by rw [List.append_nil]; rfl, fun m' f' h => by cases h; exact key _ _ _⟩

example : enc (Header.new 0x0102 .hostRequest) = [1, 2, 1, 0, 0, 0, 0, 0, 0, 1] ∧
    enc (Message.new (.hostRequest (.status ⟨0x8000000000000001⟩))) = [7, 1, 2, 1, 0, 0, 0, 0, 0, 0, 0x80] ∧
    enc (Message.new (.error (.versionMismatch 7 3))) = [7, 0, 4, 7, 3] ∧
    enc (Message.new (.spResponse (.read ⟨1⟩ ⟨2⟩ ⟨.cmis (.upper ⟨some 1, 0x10⟩), 128, 8⟩))) =
      [7, 2, 0, 1, 0, 0, 0, 0, 0, 0, 0, 2, 0, 0, 0, 0, 0, 0, 0, 1, 1, 1, 1, 0x10, 128, 8] := by decide +kernel

/-! ## C14 -/

/-- C14: decoding a header consumes exactly its encoding. -/
theorem C14_header (bs rest : Bytes) (h : Header) (hd : dec bs = some (h, rest)) : bs = enc h ++ rest :=
  enc_dec bs h rest hd

/-- C14: decoding a message consumes exactly its encoding. -/
theorem C14_message (bs rest : Bytes) (m : Message) (hd : dec bs = some (m, rest)) : bs = enc m ++ rest :=
  enc_dec bs m rest hd

/-- C14: two packets with equal headers, messages and remainders are equal byte strings. -/
theorem C14_injective (bs₁ bs₂ t₁ t₂ rest : Bytes) (h : Header) (m : Message)
    (h₁ : dec bs₁ = some (h, t₁)) (h₂ : dec bs₂ = some (h, t₂))
    (m₁ : dec t₁ = some (m, rest)) (m₂ : dec t₂ = some (m, rest)) : bs₁ = bs₂ := by
  rw [enc_dec _ _ _ h₁, enc_dec _ _ _ h₂, enc_dec _ _ _ m₁, enc_dec _ _ _ m₂]

/-- C14: no message ever decodes to an SP request or a host response, whose types have no values. -/
theorem C14_no_reserved_bodies (bs rest : Bytes) (v : U8) (t : Bytes) (h : bs = v :: 3 :: t ∨ bs = v :: 4 :: t)
    (m : Message) : dec bs ≠ some (m, rest) := by
  intro hd
  have he := enc_dec bs m rest hd
  obtain ⟨v', b⟩ := m
  have hb : bs = v' :: (enc b ++ rest) := he
  cases b with
  | error e => rcases h with h | h <;> (rw [hb] at h; injection h with _ h; injection h with h _; revert h; decide)
  | hostRequest e => rcases h with h | h <;> (rw [hb] at h; injection h with _ h; injection h with h _; revert h; decide)
  | spResponse e => rcases h with h | h <;> (rw [hb] at h; injection h with _ h; injection h with h _; revert h; decide)
  | spRequest e => exact nomatch e
  | hostResponse e => exact nomatch e

example : (dec [7, 2, 3, 1, 0, 0, 0, 0, 0, 0, 0, 2, 0, 0, 0, 0, 0, 0, 0, 9, 9] : Option (Message × Bytes)) =
      some (⟨7, .spResponse (.ack ⟨1⟩ ⟨2⟩)⟩, [9, 9]) ∧
    (dec [1, 5, 0, 0, 0, 0, 0, 0, 0, 2, 7, 7] : Option (Header × Bytes)) = some (⟨1, 5, .spResponse⟩, [7, 7]) ∧
    (dec [7, 2, 3, 1, 0, 0] : Option (Message × Bytes)) = none ∧
    (dec [7, 2, 7, 1, 0, 0] : Option (Message × Bytes)) = none := by decide +kernel

/-! ## C15 -/

/-- C15: every header is exactly ten bytes, the advertised size. -/
theorem C15_header (h : Header) : (enc h).length = 10 ∧ maxSize Header = 10 := by
  refine ⟨?_, rfl⟩
  obtain ⟨v, i, k⟩ := h
  cases k <;> rfl

/-- C15: every message fits its advertised size, 26 bytes. -/
theorem C15_message (m : Message) : (enc m).length ≤ maxSize Message ∧ maxSize Message = 26 :=
  ⟨LawfulCodec.size m, rfl⟩

/-- C15: the advertised size is attained, by a read response on a banked page. -/
theorem C15_message_tight : ∃ m : Message, (enc m).length = maxSize Message :=
  ⟨⟨7, .spResponse (.read ⟨1⟩ ⟨2⟩ ⟨.cmis (.upper ⟨some 1, 0x10⟩), 128, 8⟩)⟩, by decide +kernel⟩

/-- C15: header, message and up to 1024 payload bytes fit in the maximum packet. -/
theorem C15_packet (h : Header) (m : Message) (payload : Bytes) (hp : payload.length ≤ 1024) :
    (enc h ++ enc m ++ payload).length ≤ maxPacketSize ∧ maxPacketSize = 1060 := by
  refine ⟨?_, rfl⟩
  have h1 := (C15_header h).1
  have h2 := (C15_message m).1
  have h3 : maxSize Message = 26 := rfl
  have h4 : maxPacketSize = 1060 := rfl
  simp only [List.length_append]
  omega

example : (List.replicate 1024 (0 : U8)).length ≤ 1024 := Nat.le_of_eq List.length_replicate

/-! ## C08 -/

/-- The bytes of a `MacAddrs` response body a peer may send. -/
def badMacBytes : Bytes := [0xA8, 0x40, 0xFF, 0xFF, 0xFF, 0xFF, 2, 0, 1]

/-- C08 is false of the code: nine wire bytes decode to a range whose second address makes the host abort
(`mac.rs` 161 overflows; the range was never validated by the host). -/
theorem C08_counterexample : ∃ r, dec badMacBytes = some (r, []) ∧ MacAddrs.nth r 1 = .panic :=
  ⟨⟨⟨0xA8, 0x40, 0xFF, 0xFF, 0xFF, 0xFF⟩, 2, 1⟩, by decide +kernel, by decide +kernel⟩

theorem C08_false : ¬ ∀ (bs rest : Bytes) (r : MacAddrs) (n : U16), dec bs = some (r, rest) → r.nth n ≠ .panic := by
  intro h
  obtain ⟨r, hr, hp⟩ := C08_counterexample
  exact h _ _ r 1 hr hp

/-- C08, the part that holds: looking up an address aborts exactly when it would pass the end of the 32-bit counter
space of the base. Missing from C08: the host does not re-validate ranges it receives. -/
theorem C08_exact_partial (r : MacAddrs) (n : U16) :
    r.nth n = .panic ↔ n.toNat < r.count.toNat ∧ 2 ^ 32 ≤ macVal r.baseMac % 2 ^ 32 + n.toNat * r.stride.toNat := by
  have hl : macVal r.baseMac % 2 ^ 32 = low32 r.baseMac := by
    have := low32_lt r.baseMac
    rw [macVal_eq]; omega
  rw [nth_eq, hl]
  constructor
  · intro h
    split at h
    · cases h
    · split at h
      · cases h
      · exact ⟨by omega, by omega⟩
  · rintro ⟨h1, h2⟩
    rw [if_neg (by omega), if_neg (by omega)]

/-- C08, for a peer that validates: ranges accepted by `MacAddrs::new` and sent over the wire never abort. -/
theorem C08_validated_partial (base : Mac) (count : U16) (stride : U8) (r r' : MacAddrs) (rest t : Bytes) (n : U16)
    (h : MacAddrs.new base count stride = .ok r) (hd : dec (enc r ++ rest) = some (r', t)) : r'.nth n ≠ .panic := by
  rw [dec_enc] at hd
  simp only [Option.some.injEq, Prod.mk.injEq] at hd
  obtain ⟨rfl, rfl⟩ := hd
  by_cases hn : n.toNat < count.toNat
  · obtain ⟨a, ha, _⟩ := C05_addresses base count stride r h n hn
    rw [ha]; simp
  · have hr := (C05_new_total base count stride).2 r h
    rw [C07_nth_end r n (by rw [hr]; exact Nat.not_lt.mp hn)]; simp

example : MacAddrs.new ⟨0xA8, 0x40, 0x25, 0, 0, 0⟩ 2 1 = .ok ⟨⟨0xA8, 0x40, 0x25, 0, 0, 0⟩, 2, 1⟩ := by decide +kernel

/-! ## C16, C17 -/

theorem hwErrorOfByte_eq (b : U8) : hwErrorOfByte b = errorOfCode b := by
  revert b
  exact forall_u8 (by decide +kernel)

theorem deserializeHwErrors_eq (f : ModuleId) (buf : Bytes) :
    deserializeHwErrors f buf =
      if card f = 0 then .ok []
      else if buf.length < card f then .error (.wrongDataSize (BitVec.ofNat 32 (card f)) (BitVec.ofNat 32 buf.length))
      else .ok (buf.map errorOfCode) := by
  unfold deserializeHwErrors
  rw [← count_eq_card]
  have hs : maxSize HwError = 1 := rfl
  have hm : buf.map hwErrorOfByte = buf.map errorOfCode := by
    apply List.map_congr_left; intro b _; exact hwErrorOfByte_eq b
  split
  · rename_i h; rw [if_pos h]
  · rename_i n h
    rw [if_neg (by omega)]
    simp only [DeserializedErrors.new, hs, Nat.mul_one, hm]

/-- C16: with exactly one byte per failed module, the error decoded for each failed port is the one its own byte
codes, and there is one per failed port. -/
theorem C16_exact (f : ModuleId) (buf : Bytes) (h : Aligned f buf) :
    ∃ es, deserializeHwErrors f buf = .ok es ∧ Aligned f es ∧
      ∀ p, datum f es p = (datum f buf p).map errorOfCode := by
  rw [deserializeHwErrors_eq]
  unfold Aligned at h
  by_cases h0 : card f = 0
  · rw [if_pos h0]
    have : buf = [] := List.length_eq_zero_iff.mp (by omega)
    subst this
    exact ⟨[], rfl, by simp [Aligned, h0], fun p => by simp [datum]⟩
  · rw [if_neg h0, if_neg (by omega)]
    refine ⟨_, rfl, by simp [Aligned, h], fun p => ?_⟩
    unfold datum
    split <;> simp

/-- C16: a buffer shorter than the number of failed modules is rejected, naming both sizes. -/
theorem C16_short (f : ModuleId) (buf : Bytes) (h : buf.length < card f) :
    deserializeHwErrors f buf =
      .error (.wrongDataSize (BitVec.ofNat 32 (card f)) (BitVec.ofNat 32 buf.length)) := by
  rw [deserializeHwErrors_eq, if_neg (by omega), if_pos h]

/-- C16: no failed modules, no errors, whatever the buffer. -/
theorem C16_none (f : ModuleId) (buf : Bytes) (h : ∀ p, ¬ Mem f p) : deserializeHwErrors f buf = .ok [] := by
  rw [deserializeHwErrors_eq, if_pos]
  rw [← count_eq_card]
  have := isEmpty_iff.mpr h
  simpa [ModuleId.isEmpty] using this

example : Aligned ⟨0b1010⟩ ([6, 200] : Bytes) ∧
    deserializeHwErrors ⟨0b1010⟩ [6, 200] = .ok [(.notPresent, none), (.unknown, some (.unknownUnknown 200))] ∧
    ([6] : Bytes).length < card ⟨0b1010⟩ ∧ deserializeHwErrors ⟨0⟩ [1, 2] = .ok [] := by decide +kernel

/-- C17 is false of the code: one failed module and two bytes give two errors (`message.rs` 266 decodes the whole
buffer instead of its first `n_bytes`). -/
theorem C17_counterexample :
    ∃ f buf es, card f ≤ buf.length ∧ deserializeHwErrors f buf = .ok es ∧ es.length > card f :=
  ⟨⟨1⟩, [6, 7], [(.notPresent, none), (.notPowered, none)], by decide +kernel⟩

theorem C17_false : ¬ ∀ (f : ModuleId) (buf : Bytes) (es : DeserializedErrors),
    deserializeHwErrors f buf = .ok es → es.length ≤ card f := by
  intro h
  obtain ⟨f, buf, es, _, h1, h2⟩ := C17_counterexample
  have := h f buf es h1
  omega

/-- C17, the part that holds: with excess bytes the first errors are still the failed ports' own errors, and the list
is longer than the set by exactly the excess. Missing from C17: the excess itself. -/
theorem C17_prefix_partial (f : ModuleId) (buf : Bytes) (h0 : card f ≠ 0) (h : card f ≤ buf.length) :
    ∃ es, deserializeHwErrors f buf = .ok es ∧ es.length = buf.length ∧
      deserializeHwErrors f (buf.take (card f)) = .ok (es.take (card f)) ∧ Aligned f (es.take (card f)) := by
  refine ⟨buf.map errorOfCode, ?_, by simp, ?_, ?_⟩
  · rw [deserializeHwErrors_eq, if_neg h0, if_neg (by omega)]
  · rw [deserializeHwErrors_eq, if_neg h0, if_neg (by simp; omega), List.map_take]
  · simp [Aligned]; omega

example : card ⟨1⟩ ≠ 0 ∧ card ⟨1⟩ ≤ ([6, 7] : Bytes).length := by decide +kernel

end Xcvr
