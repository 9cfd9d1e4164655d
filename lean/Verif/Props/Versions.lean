import Verif.Spec.Versions
import Verif.Spec.Info
import Verif.Props.IoLoop

/-! # C122-C123: versions of the protocol -/

namespace Xcvr

open Spec IoState

theorem enc_header_length (h : Header) : (enc h).length = 10 := (C15_header h).1

theorem set_header (h : Header) (rest : Bytes) (v w : U8) :
    reversion v w (enc h ++ rest) = enc { h with version := v } ++ rest.set 0 w := by
  obtain ⟨u, i, k⟩ := h
  have e : ∀ u : U8, (enc (⟨u, i, k⟩ : Header) : Bytes) = u :: (enc (i, k) : Bytes) := fun _ => rfl
  have l := enc_header_length ⟨v, i, k⟩
  unfold reversion
  simp only [e, List.cons_append, List.set_cons_zero] at l ⊢
  rw [← List.cons_append, List.set_append_right _ _ (by omega), l]
  rfl

theorem set_message (m : Message) (rest : Bytes) (w : U8) :
    (enc m ++ rest).set 0 w = enc { m with version := w } ++ rest := by
  obtain ⟨u, b⟩ := m
  have e : ∀ u : U8, (enc (⟨u, b⟩ : Message) : Bytes) = u :: (enc b : Bytes) := fun _ => rfl
  simp only [e, List.cons_append, List.set_cons_zero]

theorem take_reversion (v w : U8) (n : Nat) (bytes : Bytes) :
    (reversion v w bytes).take n = reversion v w (bytes.take n) := by
  unfold reversion
  rw [List.take_set, List.take_set]

theorem getElem_reversion (v w : U8) (bytes : Bytes) (i : Nat) (h0 : i ≠ 0) (h1 : i ≠ 10) :
    (reversion v w bytes)[i]? = bytes[i]? := by
  unfold reversion
  rw [List.getElem?_set_ne (by omega), List.getElem?_set_ne (by omega)]

/-- Putting the versions back. -/
theorem reversion_back (v w : U8) (bytes : Bytes) :
    ∃ v' w', reversion v' w' (reversion v w bytes) = bytes ∧ ∀ b, bytes[10]? = some b → w' = b := by
  refine ⟨bytes[0]?.getD 0, bytes[10]?.getD 0, ?_, fun b h => by rw [h]; rfl⟩
  apply List.ext_getElem?
  intro i
  unfold reversion
  simp only [List.getElem?_set, List.length_set]
  grind

theorem set_back (w : U8) (rest : Bytes) : ∃ w', (rest.set 0 w).set 0 w' = rest := by
  cases rest with
  | nil => exact ⟨0, rfl⟩
  | cons b t => exact ⟨b, rfl⟩

/-- The header of a datagram with other versions. -/
theorem header_reversion (v w : U8) (bytes : Bytes) :
    (dec (reversion v w bytes) : Option (Header × Bytes)) =
      (dec bytes : Option (Header × Bytes)).map fun p => ({ p.1 with version := v }, p.2.set 0 w) := by
  have key : ∀ (v w : U8) (bytes rest : Bytes) (h : Header), dec bytes = some (h, rest) →
      (dec (reversion v w bytes) : Option (Header × Bytes)) = some ({ h with version := v }, rest.set 0 w) := by
    intro v w bytes rest h hd
    rw [C14_header _ _ _ hd, set_header, dec_enc]
  cases hd : (dec bytes : Option (Header × Bytes)) with
  | some p => rw [key v w _ _ _ hd]; rfl
  | none =>
    cases hd' : (dec (reversion v w bytes) : Option (Header × Bytes)) with
    | none => rfl
    | some p =>
      obtain ⟨v', w', hb, _⟩ := reversion_back v w bytes
      have := key v' w' _ _ _ hd'
      rw [hb, hd] at this
      cases this

/-- The message of a datagram with another version. -/
theorem message_reversion (w : U8) (rest : Bytes) :
    (dec (rest.set 0 w) : Option (Message × Bytes)) =
      (dec rest : Option (Message × Bytes)).map fun p => ({ p.1 with version := w }, p.2) := by
  have key : ∀ (w : U8) (bytes rest : Bytes) (m : Message), dec bytes = some (m, rest) →
      (dec (bytes.set 0 w) : Option (Message × Bytes)) = some ({ m with version := w }, rest) := by
    intro w bytes rest m hd
    rw [C14_message _ _ _ hd, set_message, dec_enc]
  cases hd : (dec rest : Option (Message × Bytes)) with
  | some p => rw [key w _ _ _ hd]; rfl
  | none =>
    cases hd' : (dec (rest.set 0 w) : Option (Message × Bytes)) with
    | none => rfl
    | some p =>
      obtain ⟨w', hb⟩ := set_back w rest
      have := key w' _ _ _ hd'
      rw [hb, hd] at this
      cases this

/-! ## C122 -/

/-- C122: whether a datagram has a header, and every part of it but the version, is the same for all versions. -/
theorem C122_header (v w : U8) (bytes : Bytes) :
    headerOf (reversion v w bytes) = (headerOf bytes).map fun p => ({ p.1 with version := v }, p.2.set 0 w) := by
  unfold headerOf
  rw [take_reversion, header_reversion]

/-- C122: whether a message decodes, and its contents, are the same for all versions. -/
theorem C122_message (w : U8) (rest : Bytes) :
    messageOf (rest.set 0 w) = (messageOf rest).map fun p => ({ p.1 with version := w }, p.2) := message_reversion w rest

/-- Steps that do the same, but for the received versions. -/
def SameStep (a b : IoState × List Action) : Prop := a.1 = b.1 ∧ a.2.map unversioned = b.2.map unversioned

theorem same_refl (a : IoState × List Action) : SameStep a a := ⟨rfl, rfl⟩

theorem sameStep_answer (s : IoState) (o : Outstanding) (a b : Answer)
    (h : unversioned (.answer o.chan a) = unversioned (.answer o.chan b)) :
    SameStep (s.answerOutstanding o a) (s.answerOutstanding o b) := by
  unfold answerOutstanding
  dsimp only
  split
  · exact same_refl _
  · exact ⟨rfl, by simp only [List.map_cons, List.map_nil, h]⟩

theorem sameStep_collect (h : Header) (m : Message) (r : SpResponse) (t : Bytes) (c : Chan) (v w : U8) :
    unversioned (.answer c (collectResponse h m r t)) =
      unversioned (.answer c (collectResponse { h with version := v } { m with version := w } r t)) := by
  unfold collectResponse
  split
  · rfl
  · dsimp only
    split <;> rfl

theorem sameStep_error (s : IoState) (peer : Addr) (h : Header) (e : ProtocolError) (ok : Bool) (v : U8) :
    SameStep (s.sendProtocolError peer h e ok) (s.sendProtocolError peer { h with version := v } e ok) := by
  unfold sendProtocolError
  cases ok
  · exact same_refl _
  · refine ⟨rfl, ?_⟩
    simp only [if_true, List.map_cons, List.map_nil, unversioned, set_header]

theorem sameStep_response (s : IoState) (h : Header) (rest : Bytes) (v w : U8)
    (hw : ∀ b, rest[0]? = some b → (b = 0 ↔ w = 0)) :
    SameStep (s.handleSpResponse h rest) (s.handleSpResponse { h with version := v } (rest.set 0 w)) := by
  unfold handleSpResponse
  cases s.outstanding with
  | none => exact same_refl _
  | some o =>
    dsimp only
    rw [message_reversion]
    cases (dec rest : Option (Message × Bytes)) with
    | none =>
      dsimp only [Option.map]
      cases rest with
      | nil => exact same_refl _
      | cons b t =>
        have hb := hw b rfl
        have e : (if b < innerMin then ProtocolError.versionMismatch innerCurrent b else .serialization) =
            if w < innerMin then ProtocolError.versionMismatch innerCurrent w else .serialization := by
          have z : ∀ x : U8, x < innerMin ↔ x = 0 := by decide +kernel
          simp only [z, ← hb]
          split
          · next h0 => rw [h0, hb.mp h0]
          · rfl
        simp only [List.set_cons_zero, e]
        exact same_refl _
    | some p =>
      obtain ⟨⟨u, body⟩, t⟩ := p
      dsimp only [Option.map]
      cases body with
      | spResponse r =>
        dsimp only
        split
        · exact sameStep_answer _ _ _ _ (sameStep_collect h ⟨u, _⟩ r t _ v w)
        · exact same_refl _
      | _ => exact same_refl _

theorem sameStep_packet (s : IoState) (src : Addr) (bytes : Bytes) (ok : Bool) (v w : U8)
    (hw : bytes[10]? = some 0 ↔ w = 0) :
    SameStep (s.handlePacket src bytes ok) (s.handlePacket src (reversion v w bytes) ok) := by
  unfold handlePacket
  rw [take_reversion, header_reversion]
  cases hd : (dec (bytes.take maxPacketSize) : Option (Header × Bytes)) with
  | none => exact same_refl _
  | some p =>
    obtain ⟨⟨u, i, k⟩, rest⟩ := p
    dsimp only [Option.map]
    cases k with
    | hostRequest => exact sameStep_error _ _ ⟨u, i, _⟩ _ _ _
    | hostResponse => exact sameStep_error _ _ ⟨u, i, _⟩ _ _ _
    | error =>
      dsimp only
      unfold handleSpError
      rw [message_reversion]
      cases (dec rest : Option (Message × Bytes)) with
      | none => exact same_refl _
      | some p =>
        dsimp only [Option.map]
        cases p.1.body <;> exact same_refl _
    | spRequest =>
      dsimp only
      unfold handleSpRequest
      rw [message_reversion]
      cases (dec rest : Option (Message × Bytes)) with
      | none => exact same_refl _
      | some p =>
        dsimp only [Option.map]
        split
        · exact same_refl _
        · exact And.intro rfl rfl
    | spResponse =>
      refine sameStep_response _ ⟨u, i, _⟩ _ _ _ fun b hb => ?_
      have hbytes := C14_header _ _ _ hd
      have h10 : (bytes.take maxPacketSize)[10]? = some b := by
        rw [hbytes, List.getElem?_append_right (by rw [enc_header_length]; omega), enc_header_length]
        exact hb
      have : bytes[10]? = some b := by
        rw [List.getElem?_take] at h10
        split at h10
        · exact h10
        · cases h10
      rw [this] at hw
      rw [← hw]
      simp

/-- C122: one event. -/
theorem C122_step (s : IoState) (e e' : Event) (h : Reversioned e e') :
    (s.step e).1 = (s.step e').1 ∧ (s.step e).2.map unversioned = (s.step e').2.map unversioned := by
  cases h with
  | same => exact ⟨rfl, rfl⟩
  | packet src bytes ok v w hw =>
    unfold step
    dsimp only
    split
    · exact ⟨rfl, rfl⟩
    · exact sameStep_packet s src bytes ok v w hw

/-- C122: two histories whose received datagrams differ in the versions they carry, none of them a message of version
zero, leave the loop in the same state and have the same effects, in the same order, but for the received versions
themselves. -/
theorem C122_history (lim : Option Nat) (evs evs' : List Event) (h : Pairs Reversioned evs evs') :
    after lim evs = after lim evs' ∧ (effects lim evs).map unversioned = (effects lim evs').map unversioned := by
  unfold after effects
  generalize IoState.init lim = s
  induction h generalizing s with
  | nil => exact ⟨rfl, rfl⟩
  | cons h1 _ ih =>
    obtain ⟨e1, e2⟩ := C122_step s _ _ h1
    simp only [IoState.run]
    obtain ⟨i1, i2⟩ := ih (s.step _).1
    rw [← e1]
    refine ⟨i1, ?_⟩
    simp only [List.map_append, e2, i2]

/-- C122: errors of modules that came with a later version have larger numbers, so every error a version knows has the
same number in all later ones. -/
theorem C122_codes (e e' : HwError) (h : introduced e < introduced e') :
    ∃ b b' : U8, enc e = [b] ∧ enc e' = [b'] ∧ b < b' := by
  cases e <;> cases e' <;>
    first
    | exact absurd h (by decide)
    | exact ⟨_, _, rfl, rfl, by decide⟩

/-- The history of C21 with other versions in every datagram received. -/
def demoOld : List Event :=
  [.submit 100 reqA, .submit 200 reqB, .accept true, .packet 9 [3] true, .tick true, .accept true,
   .packet 9 (reversion 4 2 pktA) true, .packet 9 (reversion 0 200 pktA) true, .accept true, .tick true, .tick true]

example : Pairs Reversioned demo demoOld ∧ demo ≠ demoOld ∧ effects (some 2) demo ≠ effects (some 2) demoOld ∧
    (effects (some 2) demo).map unversioned = (effects (some 2) demoOld).map unversioned := by
  refine ⟨?_, by decide +kernel, by decide +kernel, by decide +kernel⟩
  refine .cons (.same _) (.cons (.same _) (.cons (.same _) (.cons ?_ (.cons (.same _) (.cons (.same _) (.cons ?_
    (.cons ?_ (.cons (.same _) (.cons (.same _) (.cons (.same _) .nil))))))))))
  · exact .packet 9 [0xff] true 3 1 (by decide +kernel)
  · exact .packet 9 pktA true 4 2 (by decide +kernel)
  · exact .packet 9 pktA true 0 200 (by decide +kernel)

example : introduced .powerFault = 4 ∧ introduced .i2cSclStretchTimeout = 5 ∧ enc HwError.powerFault = [8] ∧
    enc HwError.i2cSclStretchTimeout = [12] := by decide +kernel

/-! ## C123 -/

/-- A response to request A of a later version, with a body this version does not know. -/
def laterPkt : Bytes := enc (Header.new 7 .spResponse) ++ [9, 2, 7, 1, 2, 3]

/-- C123 is false of the code: a response of version 9 that does not decode is reported as a failure of serialization,
because only versions below the smallest supported one are taken for a mismatch (`ioloop.rs` 484-497). -/
theorem C123_counterexample :
    next none [.submit 100 reqA, .accept true] (.packet 9 laterPkt true) =
      [.answer 100 (.error (.protocol .serialization))] := by decide +kernel

theorem C123_false : ¬ ∀ (lim : Option Nat) (evs : List Event) (c : Chan) (a : Answer) (src : Addr) (bytes : Bytes)
    (ok : Bool) (hdr : Header) (v : U8) (rest : Bytes), headerOf bytes = some (hdr, v :: rest) →
    hdr.messageKind = .spResponse → messageOf (v :: rest) = none → v < 1 ∨ 7 < v →
    .answer c a ∈ next lim evs (.packet src bytes ok) → a = .error (.protocol (.versionMismatch 7 v)) := by
  intro h
  have := h none [.submit 100 reqA, .accept true] 100 (.error (.protocol .serialization)) 9 laterPkt true
    (Header.new 7 .spResponse) 9 [2, 7, 1, 2, 3] (by decide +kernel) rfl (by decide +kernel) (.inr (by decide))
    (by rw [C123_counterexample]; exact List.mem_cons_self)
  revert this
  decide

/-- C123, the part that holds: a response that does not decode and is for the request in progress is reported to its
caller. It is reported as a mismatch of versions, with the version of this side and its own, exactly if its version is
smaller than all there ever were, and as a failure of serialization otherwise. Missing: versions larger than the
current one are not told from the others. -/
theorem C123_exact_partial (s : IoState) (o : Outstanding) (src : Addr) (bytes : Bytes) (ok : Bool) (hdr : Header) (v : U8)
    (rest : Bytes) (hr : s.status = .running) (ho : s.outstanding = some o) (hc : o.chan ∉ s.dropped)
    (hh : headerOf bytes = some (hdr, v :: rest)) (hk : hdr.messageKind = .spResponse)
    (hi : hdr.messageId = o.request.header.messageId) (hm : messageOf (v :: rest) = none) :
    (s.step (.packet src bytes ok)).2 =
      [.answer o.chan (.error (.protocol (if v < 1 then .versionMismatch 7 v else .serialization)))] := by
  obtain ⟨u, i, k⟩ := hdr
  simp only at hk hi
  subst hk hi
  have hd : dec (bytes.take maxPacketSize) = some ((⟨u, o.request.header.messageId, .spResponse⟩ : Header), v :: rest) := hh
  have hm' : (dec (v :: rest) : Option (Message × Bytes)) = none := hm
  simp [step, hr, handlePacket, hd, handleSpResponse, ho, hm', failMatching, incrementFaulty, answerOutstanding, hc,
    innerMin, innerCurrent]

example : next none [.submit 100 reqA, .accept true] (.packet 9 (reversion 1 0 laterPkt) true) =
    [.answer 100 (.error (.protocol (.versionMismatch 7 0)))] := by decide +kernel

/-! ## C124 -/

theorem answerOutstanding_acts (s : IoState) (o : Outstanding) (a : Answer) (hc : o.chan ∉ s.dropped) :
    (s.answerOutstanding o a).2 = [.answer o.chan a] := by
  simp [answerOutstanding, hc]

theorem mem_answerOutstanding (s : IoState) (o : Outstanding) (a : Answer) (x : Action)
    (h : x ∈ (s.answerOutstanding o a).2) : x = .answer o.chan a := by
  unfold answerOutstanding at h
  dsimp only at h
  split at h
  · simp [die] at h
  · simpa using h

theorem firstVersion (v : U8) :
    (if v < innerMin then ProtocolError.versionMismatch innerCurrent v else .serialization) =
      if v = 0 then .versionMismatch 7 0 else .serialization := by
  revert v
  decide +kernel

/-- C124: a datagram for the request in progress that stands for a protocol error fails that request with this error, and
does nothing else. -/
theorem C124_exact (s : IoState) (o : Outstanding) (src : Addr) (bytes : Bytes) (ok : Bool) (hdr : Header) (rest : Bytes)
    (err : ProtocolError) (hr : s.status = .running) (ho : s.outstanding = some o) (hc : o.chan ∉ s.dropped)
    (hh : headerOf bytes = some (hdr, rest)) (hi : hdr.messageId = o.request.header.messageId)
    (hn : rest ≠ []) (hf : failureOf hdr.messageKind rest = some err) :
    (s.step (.packet src bytes ok)).2 = [.answer o.chan (.error (.protocol err))] := by
  obtain ⟨u, i, k⟩ := hdr
  simp only at hi hf
  subst hi
  have hd : dec (bytes.take maxPacketSize) = some ((⟨u, o.request.header.messageId, k⟩ : Header), rest) := hh
  unfold failureOf messageOf at hf
  cases k with
  | hostRequest => cases hf
  | hostResponse => cases hf
  | spRequest => cases hf
  | error =>
    simp only [step, hr, ne_eq, not_true_eq_false, if_false, handlePacket, hd, handleSpError]
    cases hm : (dec rest : Option (Message × Bytes)) with
    | none =>
      rw [hm] at hf
      cases hf
      simp [failMatching, incrementFaulty, ho, answerOutstanding, hc]
    | some p =>
      obtain ⟨⟨v, body⟩, t⟩ := p
      rw [hm] at hf
      cases body with
      | error e =>
        cases hf
        simp [failMatching, incrementFaulty, ho, answerOutstanding, hc]
      | _ => cases hf
  | spResponse =>
    simp only [step, hr, ne_eq, not_true_eq_false, if_false, handlePacket, hd, handleSpResponse, ho]
    cases hm : (dec rest : Option (Message × Bytes)) with
    | none =>
      rw [hm] at hf
      cases rest with
      | nil => exact absurd rfl hn
      | cons v t =>
        dsimp only at hf ⊢
        rw [firstVersion]
        simp only [List.getElem?_cons_zero, Option.some.injEq] at hf
        rw [hf]
        simp [failMatching, incrementFaulty, ho, answerOutstanding, hc]
    | some p =>
      obtain ⟨⟨v, body⟩, t⟩ := p
      rw [hm] at hf
      cases body with
      | spResponse r =>
        dsimp only at hf ⊢
        rw [if_pos trivial, answerOutstanding_acts _ _ _ hc, collectResponse_eq]
        split at hf
        · cases hf
        · next n hn =>
          simp only [hn]
          split at hf
          · next hl => cases hf; rw [if_pos hl]
          · cases hf
      | _ =>
        cases hf
        simp [failMatching, ho, answerOutstanding, hc]

/-- C124: in any history, a caller is told of a protocol error only because of a datagram for its own request that stands
for this very error. -/
theorem C124_told (lim : Option Nat) (evs : List Event) (e : Event) (c : Chan) (err : ProtocolError)
    (h : .answer c (.error (.protocol err)) ∈ next lim evs e) :
    ∃ src bytes ok hdr rest o, e = .packet src bytes ok ∧ headerOf bytes = some (hdr, rest) ∧
      (after lim evs).outstanding = some o ∧ o.chan = c ∧ hdr.messageId = o.request.header.messageId ∧
      failureOf hdr.messageKind rest = some err := by
  obtain ⟨hr, ⟨_, ha⟩ | ⟨o, ho, rfl, hre⟩⟩ := answer_reason h
  · cases ha
  · unfold next at h
    generalize after lim evs = s at *
    have main : ∀ (src : Addr) (bytes : Bytes) (ok : Bool) (hdr : Header) (rest : Bytes),
        headerOf bytes = some (hdr, rest) → hdr.messageId = o.request.header.messageId →
        .answer o.chan (.error (.protocol err)) ∈ (s.step (.packet src bytes ok)).2 →
        failureOf hdr.messageKind rest = some err := by
      intro src bytes ok hdr rest hh hi h
      obtain ⟨u, i, k⟩ := hdr
      simp only at hi
      subst hi
      have hd : dec (bytes.take maxPacketSize) = some ((⟨u, o.request.header.messageId, k⟩ : Header), rest) := hh
      unfold failureOf messageOf
      cases k with
      | hostRequest => cases ok <;> simp [step, hr, handlePacket, hd, sendProtocolError] at h
      | hostResponse => cases ok <;> simp [step, hr, handlePacket, hd, sendProtocolError] at h
      | spRequest =>
        simp only [step, hr, ne_eq, not_true_eq_false, if_false, handlePacket, hd, handleSpRequest] at h
        split at h
        · split at h
          · simp [die] at h
          · simp at h
        · cases ok <;> simp [sendProtocolError] at h
      | error =>
        simp only [step, hr, ne_eq, not_true_eq_false, if_false, handlePacket, hd, handleSpError] at h
        cases hm : (dec rest : Option (Message × Bytes)) with
        | none =>
          simp only [hm, failMatching, incrementFaulty, ho, Option.map, ne_eq, not_true_eq_false, if_false] at h
          have := mem_answerOutstanding _ _ _ _ h
          cases this
          rfl
        | some p =>
          obtain ⟨⟨v, body⟩, t⟩ := p
          rw [hm] at h
          cases body with
          | error e =>
            simp only [failMatching, incrementFaulty, ho, Option.map, ne_eq, not_true_eq_false, if_false] at h
            have := mem_answerOutstanding _ _ _ _ h
            cases this
            rfl
          | _ => simp [incrementFaulty] at h
      | spResponse =>
        simp only [step, hr, ne_eq, not_true_eq_false, if_false, handlePacket, hd, handleSpResponse, ho] at h
        cases hm : (dec rest : Option (Message × Bytes)) with
        | none =>
          rw [hm] at h
          cases rest with
          | nil => simp [die] at h
          | cons v t =>
            simp only [firstVersion, failMatching, incrementFaulty, ho, Option.map, ne_eq, not_true_eq_false, if_false] at h
            have := mem_answerOutstanding _ _ _ _ h
            simp only [Action.answer.injEq, Except.error.injEq, IoError.protocol.injEq, true_and] at this
            simp [this]
        | some p =>
          obtain ⟨⟨v, body⟩, t⟩ := p
          rw [hm] at h
          cases body with
          | spResponse r =>
            dsimp only at h ⊢
            rw [if_pos trivial, collectResponse_eq] at h
            have := mem_answerOutstanding _ _ _ _ h
            simp only [Action.answer.injEq, true_and] at this
            split at this
            · cases this
            · next n hn =>
              simp only [hn]
              split at this
              · next hl => cases this; rw [if_pos hl]
              · cases this
          | _ =>
            simp only [failMatching, ho, ne_eq, not_true_eq_false, if_false] at h
            have := mem_answerOutstanding _ _ _ _ h
            cases this
            rfl
    generalize hx : (Except.error (IoError.protocol err) : Answer) = x at hre
    cases hre with
    | proto src bytes ok hdr rest e h1 h2 h3 =>
      exact ⟨src, bytes, ok, hdr, rest, o, rfl, h1, ho, rfl, h2, main src bytes ok hdr rest h1 h2 h⟩
    | response src bytes ok hdr rest msg body t h1 h2 h3 h4 h5 =>
      exact ⟨src, bytes, ok, hdr, rest, o, rfl, h1, ho, rfl, h3, main src bytes ok hdr rest h1 h3 h⟩
    | io => cases hx
    | retries => cases hx
    | faults => cases hx

example : next none [.submit 100 reqA, .accept true]
      (.packet 9 (enc (Header.new 7 .error) ++ enc (Message.new (.error .notSupported))) true) =
      [.answer 100 (.error (.protocol .notSupported))] ∧
    next none [.submit 100 reqA, .accept true]
      (.packet 9 (enc (Header.new 7 .spResponse) ++ enc (Message.new (.error .notSupported))) true) =
      [.answer 100 (.error (.protocol .wrongMessage))] ∧
    failureOf .error (enc (Message.new (.error .notSupported))) = some .notSupported ∧
    failureOf .spResponse (enc (Message.new (.error .notSupported))) = some .wrongMessage := by decide +kernel

/-- C123, whole histories: a caller is told of a mismatch of versions only for an undecodable response of version zero, or
because the peer says so in an error message with the caller's message id. -/
theorem C123_told_partial (lim : Option Nat) (evs : List Event) (e : Event) (c : Chan) (x a : U8)
    (h : .answer c (.error (.protocol (.versionMismatch x a))) ∈ next lim evs e) :
    ∃ src bytes ok hdr rest, e = .packet src bytes ok ∧ headerOf bytes = some (hdr, rest) ∧
      ((hdr.messageKind = .spResponse ∧ messageOf rest = none ∧ rest[0]? = some 0 ∧ x = 7 ∧ a = 0) ∨
       (hdr.messageKind = .error ∧
        ∃ v t, messageOf rest = some (⟨v, .error (.versionMismatch x a)⟩, t))) := by
  obtain ⟨src, bytes, ok, hdr, rest, o, rfl, hh, _, _, _, hf⟩ := C124_told lim evs e c _ h
  refine ⟨src, bytes, ok, hdr, rest, rfl, hh, ?_⟩
  obtain ⟨u, i, k⟩ := hdr
  unfold failureOf at hf
  cases k with
  | hostRequest => cases hf
  | hostResponse => cases hf
  | spRequest => cases hf
  | error =>
    refine .inr ⟨rfl, ?_⟩
    cases hm : messageOf rest with
    | none => rw [hm] at hf; cases hf
    | some p =>
      obtain ⟨⟨v, body⟩, t⟩ := p
      rw [hm] at hf
      cases body with
      | error e => cases hf; exact ⟨v, t, rfl⟩
      | _ => cases hf
  | spResponse =>
    refine .inl ⟨rfl, ?_⟩
    cases hm : messageOf rest with
    | none =>
      rw [hm] at hf
      dsimp only at hf
      split at hf
      · next h0 => cases hf; exact ⟨rfl, h0, rfl, rfl⟩
      · cases hf
    | some p =>
      obtain ⟨⟨v, body⟩, t⟩ := p
      rw [hm] at hf
      cases body with
      | spResponse r =>
        dsimp only at hf
        split at hf
        · cases hf
        · split at hf <;> cases hf
      | _ => cases hf

end Xcvr
