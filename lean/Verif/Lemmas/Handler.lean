import Verif.Spec.Handler
import Verif.Lemmas.IoLoop

/-! # Lemmas about the loop and its handler -/

namespace Xcvr

open Spec

namespace Host

theorem run_cons {h h' : Host} {e : HostEvent} {es : List HostEvent} {acts : List Action}
    (hr : h.run (e :: es) = some (h', acts)) :
    ∃ h₁ a₁ a₂, h.step e = some (h₁, a₁) ∧ h₁.run es = some (h', a₂) ∧ acts = a₁ ++ a₂ := by
  rw [run] at hr
  split at hr
  · cases hr
  · rename_i h₁ a₁ hs
    split at hr
    · cases hr
    · rename_i h₂ a₂ hs'
      cases hr
      exact ⟨h₁, a₁, a₂, hs, hs', rfl⟩

theorem run_append {h h₁ : Host} {es es' : List HostEvent} {a₁ : List Action} (h1 : h.run es = some (h₁, a₁)) :
    h.run (es ++ es') = (h₁.run es').map fun p => (p.1, a₁ ++ p.2) := by
  induction es generalizing h a₁ with
  | nil => cases h1; cases hq : h₁.run es' <;> simp [hq]
  | cons e es ih =>
    obtain ⟨h₂, b₁, b₂, hs, hr, rfl⟩ := run_cons h1
    rw [List.cons_append, run, hs]
    dsimp only
    rw [ih hr]
    cases hq : h₁.run es' <;> simp

/-- Invariants of reachable states. -/
structure Inv (h : Host) : Prop where
  incoming : h.incoming.length ≤ h.capacity
  holding : h.holding.length ≤ h.width
  responses : h.responses.length ≤ 1
  alive : h.pending.isSome → h.io.status = .running ∧ h.io.handlerGone = false

theorem inv_init (n : Option Nat) (c w : Nat) : Inv (init n c w) :=
  ⟨Nat.zero_le _, Nat.zero_le _, Nat.zero_le _, fun h => by cases h⟩

end Host

/-- Actions that have nothing to do with the handler. -/
structure PlainKind (acts : List Action) : Prop where
  all : ∀ a ∈ acts, (∀ r, a ≠ .dispatch r) ∧ (∀ p, a ≠ .sendResponse p)

theorem PlainKind.handed {acts : List Action} (h : PlainKind acts) : Spec.handed acts = [] := by
  unfold Spec.handed
  rw [List.filterMap_eq_nil_iff]
  intro a ha
  have := h.all a ha
  cases a <;> simp_all

theorem PlainKind.sent {acts : List Action} (h : PlainKind acts) : responsesSent acts = [] := by
  unfold responsesSent
  rw [List.filterMap_eq_nil_iff]
  intro a ha
  have := h.all a ha
  cases a <;> simp_all

macro "plain" : tactic => `(tactic| exact ⟨by simp [IoState.die, IoState.sendProtocolError]⟩)

namespace IoState

theorem disp_answer (s : IoState) (o : Outstanding) (a : Answer) : PlainKind (s.answerOutstanding o a).2 := by
  unfold answerOutstanding; dsimp only; split <;> plain

theorem disp_sendRequest (s : IoState) (ok : Bool) : PlainKind (s.sendOutgoingRequest ok).2 := by
  unfold sendOutgoingRequest
  split
  · plain
  · dsimp only
    split
    · plain
    · split
      · plain
      · exact disp_answer ..

theorem disp_error (s : IoState) (p : Addr) (h : Header) (e : ProtocolError) (ok : Bool) :
    PlainKind (s.sendProtocolError p h e ok).2 := by
  cases ok <;> plain

theorem disp_failMatching (s : IoState) (h : Header) (e : ProtocolError) : PlainKind (s.failMatching h e).2 := by
  unfold failMatching
  split
  · plain
  · split
    · plain
    · exact disp_answer ..

theorem disp_spError (s : IoState) (h : Header) (rx : Bytes) : PlainKind (s.handleSpError h rx).2 := by
  unfold handleSpError
  split
  · split
    · exact disp_failMatching ..
    · plain
  · exact disp_failMatching ..

theorem disp_spResponse (s : IoState) (h : Header) (rx : Bytes) : PlainKind (s.handleSpResponse h rx).2 := by
  unfold handleSpResponse
  split
  · plain
  · split
    · split
      · plain
      · exact disp_failMatching ..
    · split
      · split
        · exact disp_answer ..
        · plain
      · exact disp_failMatching ..

/-- What a datagram means to the handler. -/
theorem handlePacket_request (s : IoState) (src : Addr) (bytes : Bytes) (ok : Bool) :
    (∀ r, spRequestOf bytes = some r → s.handlePacket src bytes ok = if s.handlerGone then s.die else (s, [.dispatch r])) ∧
    (spRequestOf bytes = none → handed (s.handlePacket src bytes ok).2 = []) := by
  have hm : maxPacketSize = 1060 := rfl
  unfold handlePacket spRequestOf headerOf messageOf
  rw [hm]
  cases hh : (dec (List.take 1060 bytes) : Option (Header × Bytes)) with
  | none => simp [handed]
  | some p =>
    obtain ⟨h, rest⟩ := p
    dsimp only
    cases hk : h.messageKind with
    | spRequest =>
      dsimp only
      rw [if_pos rfl]
      unfold handleSpRequest
      cases hd : (dec rest : Option (Message × Bytes)) with
      | none => exact ⟨fun r hr => (by cases hr), fun _ => (disp_error ..).handed⟩
      | some m =>
        refine ⟨fun r hr => ?_, fun hn => (by cases hn)⟩
        cases hr
        rfl
    | hostRequest => exact ⟨fun r hr => (by cases hr), fun _ => (disp_error ..).handed⟩
    | hostResponse => exact ⟨fun r hr => (by cases hr), fun _ => (disp_error ..).handed⟩
    | error => exact ⟨fun r hr => (by cases hr), fun _ => (disp_spError ..).handed⟩
    | spResponse => exact ⟨fun r hr => (by cases hr), fun _ => (disp_spResponse ..).handed⟩

/-- Only a datagram with a request of the SP has something for the handler. -/
theorem step_request (s : IoState) (e : Event) :
    (handed (s.step e).2 = [] ∧ ∀ src bytes ok r, e = .packet src bytes ok → spRequestOf bytes = some r →
      (s.step e).1.status ≠ .running) ∨
    ∃ src bytes ok r, e = .packet src bytes ok ∧ spRequestOf bytes = some r ∧ s.status = .running ∧
      s.handlerGone = false ∧ s.step e = (s, [.dispatch r]) := by
  cases e with
  | submit c r => exact .inl ⟨rfl, by simp⟩
  | dropCaller c => exact .inl ⟨rfl, by simp⟩
  | closeRequests => exact .inl ⟨rfl, by simp⟩
  | dropHandler => exact .inl ⟨rfl, by simp⟩
  | accept ok =>
    refine .inl ⟨?_, by simp⟩
    simp only [step]
    split
    · rfl
    · unfold handleAccept
      split
      · rfl
      · split
        · rfl
        · exact (disp_sendRequest ..).handed
  | tick ok =>
    refine .inl ⟨?_, by simp⟩
    simp only [step]
    split
    · rfl
    · unfold handleTick
      split
      · rfl
      · dsimp only
        split
        · exact (disp_sendRequest ..).handed
        · split <;> exact (disp_answer ..).handed
  | handlerReply r ok =>
    refine .inl ⟨?_, by simp⟩
    simp only [step]
    split
    · rfl
    · unfold handleReply sendOutgoingResponse
      split
      · dsimp only
        split
        · rfl
        · cases ok <;> rfl
      · rfl
      · rfl
  | recvError =>
    refine .inl ⟨?_, by simp⟩
    simp only [step]
    split <;> rfl
  | packet src bytes ok =>
    by_cases hs : s.status = .running
    · have hst : s.step (.packet src bytes ok) = s.handlePacket src bytes ok := by simp [step, hs]
      rw [hst]
      cases hq : spRequestOf bytes with
      | none =>
        refine .inl ⟨(handlePacket_request s src bytes ok).2 hq, ?_⟩
        intro _ _ _ r he hr
        cases he
        rw [hq] at hr
        cases hr
      | some r =>
        have := (handlePacket_request s src bytes ok).1 r hq
        cases hg : s.handlerGone with
        | true =>
          rw [this, hg]
          exact .inl ⟨rfl, fun _ _ _ _ _ _ => by simp [die]⟩
        | false =>
          rw [this, hg]
          exact .inr ⟨src, bytes, ok, r, rfl, hq, hs, rfl, rfl⟩
    · have hst : s.step (.packet src bytes ok) = (s, []) := by simp [step, hs]
      rw [hst]
      exact .inl ⟨rfl, fun _ _ _ _ _ _ => hs⟩

/-- Only a reply of the handler is transmitted as a response. -/
theorem step_sent (s : IoState) (e : Event) (he : ∀ r ok, e ≠ .handlerReply r ok) :
    responsesSent (s.step e).2 = [] := by
  by_cases hn : s.status ≠ .running
  · cases e <;> first | rfl | (simp [step, hn, responsesSent])
  have hr : s.status = .running := Decidable.not_not.mp hn
  clear hn
  cases e with
  | submit c r => rfl
  | dropCaller c => rfl
  | closeRequests => rfl
  | dropHandler => rfl
  | handlerReply r ok => exact absurd rfl (he r ok)
  | recvError => simp only [step, hr, ne_eq, not_true_eq_false, if_false]; rfl
  | accept ok =>
    simp only [step, hr, ne_eq, not_true_eq_false, if_false]
    unfold handleAccept
    split
    · rfl
    · split
      · rfl
      · exact (disp_sendRequest ..).sent
  | tick ok =>
    simp only [step, hr, ne_eq, not_true_eq_false, if_false]
    unfold handleTick
    split
    · rfl
    · dsimp only
      split
      · exact (disp_sendRequest ..).sent
      · split <;> exact (disp_answer ..).sent
  | packet src bytes ok =>
    simp only [step, hr, ne_eq, not_true_eq_false, if_false]
    unfold handlePacket
    split
    · rfl
    · split
      · exact (disp_error ..).sent
      · exact (disp_error ..).sent
      · exact (disp_spError ..).sent
      · unfold handleSpRequest
        split
        · split <;> rfl
        · exact (disp_error ..).sent
      · exact (disp_spResponse ..).sent

/-- What is transmitted for a reply. -/
theorem step_reply_sent (s : IoState) (r : HandlerReply) (ok : Bool)
    (h : (s.step (.handlerReply r ok)).1.status = .running) :
    responsesSent (s.step (.handlerReply r ok)).2 = (transmission r ok).toList := by
  by_cases hr : s.status = .running
  · simp only [step, hr, ne_eq, not_true_eq_false, if_false, handleReply, sendOutgoingResponse] at h ⊢
    unfold transmission
    split
    · rename_i r
      dsimp only at h
      split at h
      · cases h
      · rename_i hl
        dsimp only
        rw [if_neg hl]
        cases ok <;> rfl
    · rfl
    · rfl
  · simp only [step, hr, ne_eq, not_false_eq_true, if_true] at h

theorem step_handlerGone (s : IoState) (e : Event) (he : e ≠ .dropHandler) :
    (s.step e).1.handlerGone = s.handlerGone := by
  have ha : ∀ (s : IoState) o a, (s.answerOutstanding o a).1.handlerGone = s.handlerGone := by
    intro s o a; unfold answerOutstanding; dsimp only; split <;> rfl
  have hf : ∀ (s : IoState) h e, (s.failMatching h e).1.handlerGone = s.handlerGone := by
    intro s h e
    unfold failMatching
    split
    · rfl
    · split
      · rfl
      · exact ha ..
  have hs : ∀ (s : IoState) ok, (s.sendOutgoingRequest ok).1.handlerGone = s.handlerGone := by
    intro s ok
    unfold sendOutgoingRequest
    split
    · rfl
    · dsimp only
      split
      · rfl
      · split
        · rfl
        · exact ha ..
  by_cases hn : s.status ≠ .running
  · cases e <;> first | rfl | (exact absurd rfl he) | (simp [step, hn])
  have hr : s.status = .running := Decidable.not_not.mp hn
  clear hn
  cases e with
  | submit c r => rfl
  | dropCaller c => rfl
  | closeRequests => rfl
  | dropHandler => exact absurd rfl he
  | accept ok =>
    simp only [step, hr, ne_eq, not_true_eq_false, if_false]
    unfold handleAccept
    split
    · rfl
    · split
      · dsimp only; split <;> rfl
      · exact hs ..
  | tick ok =>
    simp only [step, hr, ne_eq, not_true_eq_false, if_false]
    unfold handleTick
    split
    · rfl
    · dsimp only
      split
      · exact hs ..
      · split <;> exact ha ..
  | handlerReply r ok =>
    simp only [step, hr, ne_eq, not_true_eq_false, if_false]
    unfold handleReply sendOutgoingResponse
    split
    · dsimp only
      split <;> rfl
    · rfl
    · rfl
  | recvError =>
    simp only [step, hr, ne_eq, not_true_eq_false, if_false]
    rfl
  | packet src bytes ok =>
    simp only [step, hr, ne_eq, not_true_eq_false, if_false]
    unfold handlePacket
    split
    · rfl
    · split
      · rfl
      · rfl
      · unfold handleSpError
        split
        · split
          · exact hf ..
          · rfl
        · exact hf ..
      · unfold handleSpRequest
        split
        · split <;> rfl
        · rfl
      · unfold handleSpResponse
        split
        · rfl
        · split
          · split
            · rfl
            · exact hf ..
          · split
            · split
              · exact ha ..
              · rfl
            · exact hf ..

end IoState

theorem dispatched_eq (acts : List Action) : Host.dispatched acts = (handed acts).head? := by
  unfold Host.dispatched handed
  rw [List.head?_filterMap]
  rfl

theorem immediate_of_handed {acts : List Action} (h : handed acts = []) : Host.immediate acts = acts := by
  unfold handed at h
  unfold Host.immediate
  rw [List.filterMap_eq_nil_iff] at h
  rw [List.filter_eq_self]
  intro a ha
  have := h a ha
  cases a <;> simp_all

namespace Host

/-- All shapes of a step, as long as the handler stays. `d` is what a branch of the loop has for the handler. -/
inductive HShape (h : Host) : HostEvent → Host → List Action → Prop where
  /-- A caller does something. -/
  | caller (e : Event) : (∀ a b c, e ≠ .packet a b c) → (h.io.step e).2 = [] →
      (h.io.step e).1.status = h.io.status → (h.io.step e).1.handlerGone = h.io.handlerGone →
      HShape h (.io e) { h with io := (h.io.step e).1 } []
  /-- The loop does something that is not for the handler. -/
  | quiet (e : Event) : h.pending = none → (∀ c r, e ≠ .submit c r) → e ≠ .dropHandler →
      (∀ r ok, e ≠ .handlerReply r ok) → handed (h.io.step e).2 = [] →
      (∀ src bytes ok r, e = .packet src bytes ok → spRequestOf bytes = some r → (h.io.step e).1.status ≠ .running) →
      HShape h (.io e) { h with io := (h.io.step e).1 } (h.io.step e).2
  | request (src : Addr) (bytes : Bytes) (ok : Bool) (r : SpRpcRequest) : h.pending = none →
      spRequestOf bytes = some r → h.io.status = .running → h.io.handlerGone = false →
      h.io.step (.packet src bytes ok) = (h.io, [.dispatch r]) →
      HShape h (.io (.packet src bytes ok)) { h with pending := some r } []
  | put (r : SpRpcRequest) : h.pending = some r → h.incoming.length < h.capacity →
      HShape h .put { h with pending := none, incoming := h.incoming ++ [r] } []
  | take (reply : Option HandlerReply) (r : SpRpcRequest) (rest : List SpRpcRequest) : h.incoming = r :: rest →
      h.holding.length < h.width →
      HShape h (.take reply) { h with incoming := rest, holding := h.holding ++ reply.toList } [.dispatch r]
  | reply (r : HandlerReply) (rest : List HandlerReply) : h.holding = r :: rest → h.io.status = .running →
      h.responses = [] → HShape h .reply { h with holding := rest, responses := [r] } []
  | lost (r : HandlerReply) (rest : List HandlerReply) : h.holding = r :: rest → h.io.status ≠ .running →
      HShape h .reply { h with holding := rest } []
  | drain (ok : Bool) (r : HandlerReply) (rest : List HandlerReply) : h.pending = none → h.responses = r :: rest →
      h.io.status = .running → handed (h.io.step (.handlerReply r ok)).2 = [] →
      HShape h (.drain ok) { h with responses := rest, io := (h.io.step (.handlerReply r ok)).1 }
        (h.io.step (.handlerReply r ok)).2

theorem branch_shape {h h' : Host} {e : Event} {acts : List Action} (hb : h.branch e = some (h', acts)) :
    h.pending = none ∧ h' = { h with io := (h.io.step e).1, pending := dispatched (h.io.step e).2 } ∧
    acts = immediate (h.io.step e).2 := by
  unfold branch at hb
  split at hb
  · cases hb
  · rename_i hp
    cases hb
    exact ⟨by simpa using hp, rfl, rfl⟩

theorem branch_io {h h' : Host} {e : Event} {acts : List Action} (hb : h.branch e = some (h', acts))
    (h1 : ∀ c r, e ≠ .submit c r) (h2 : e ≠ .dropHandler) (h3 : ∀ r ok, e ≠ .handlerReply r ok) :
    HShape h (.io e) h' acts := by
  obtain ⟨hp, rfl, rfl⟩ := branch_shape hb
  rcases IoState.step_request h.io e with ⟨hq, hn⟩ | ⟨src, bytes, ok, r, rfl, hq, hs, hg, he⟩
  · rw [dispatched_eq, hq, immediate_of_handed hq]
    have := HShape.quiet (h := h) e hp h1 h2 h3 hq hn
    rw [List.head?_nil]
    rw [← hp]
    exact this
  · rw [he]
    exact .request src bytes ok r hp hq hs hg he

theorem step_hshape {h h' : Host} {e : HostEvent} {acts : List Action} (he : e ≠ .io .dropHandler)
    (hs : h.step e = some (h', acts)) : HShape h e h' acts := by
  cases e with
  | io e =>
    cases e with
    | submit c r => cases hs; exact .caller _ (by simp) rfl rfl rfl
    | dropCaller c => cases hs; exact .caller _ (by simp) rfl rfl rfl
    | closeRequests => cases hs; exact .caller _ (by simp) rfl rfl rfl
    | dropHandler => exact absurd rfl he
    | accept ok => exact branch_io hs (by simp) (by simp) (by simp)
    | tick ok => exact branch_io hs (by simp) (by simp) (by simp)
    | handlerReply r ok => cases hs
    | packet src bytes ok => exact branch_io hs (by simp) (by simp) (by simp)
    | recvError => exact branch_io hs (by simp) (by simp) (by simp)
  | put =>
    simp only [step] at hs
    split at hs
    · rename_i r hp
      split at hs
      · rename_i hl
        cases hs
        exact .put r hp hl
      · cases hs
    · cases hs
  | take reply =>
    simp only [step] at hs
    split at hs
    · rename_i r rest hi
      split at hs
      · rename_i hl
        cases hs
        exact .take reply r rest hi hl
      · cases hs
    · cases hs
  | reply =>
    simp only [step] at hs
    split at hs
    · rename_i r rest hi
      split at hs
      · rename_i hn
        cases hs
        exact .lost r rest hi hn
      · rename_i hn
        split at hs
        · rename_i hl
          have hl0 : h.responses = [] := List.eq_nil_of_length_eq_zero (by simpa [numOutstandingRequests] using hl)
          cases hs
          have := HShape.reply (h := h) r rest hi (by simpa using hn) hl0
          rw [hl0]
          exact this
        · cases hs
    · cases hs
  | drain ok =>
    simp only [step] at hs
    split at hs
    · rename_i r rest hr
      split at hs
      · cases hs
      · rename_i hn
        have hn' : h.io.status = .running := by simpa using hn
        obtain ⟨hp, rfl, rfl⟩ := branch_shape hs
        dsimp only at hp ⊢
        rcases IoState.step_request h.io (.handlerReply r ok) with ⟨hq, _⟩ | ⟨src, bytes, ok, r, he, _⟩
        · rw [dispatched_eq, hq, immediate_of_handed hq, List.head?_nil]
          have := HShape.drain (h := h) ok r rest hp hr hn' hq
          rw [← hp]
          exact this
        · cases he
    · cases hs

theorem inv_step {h h' : Host} {e : HostEvent} {acts : List Action} (hi : Inv h) (hs : h.step e = some (h', acts)) :
    Inv h' := by
  by_cases he : e = .io .dropHandler
  · subst he
    cases hs
    exact ⟨Nat.zero_le _, Nat.zero_le _, hi.responses, fun h => by cases h⟩
  · cases step_hshape he hs with
    | caller e h0 h1 h2 h3 =>
      exact ⟨hi.incoming, hi.holding, hi.responses, fun hp => ⟨by rw [h2]; exact (hi.alive hp).1, by rw [h3]; exact (hi.alive hp).2⟩⟩
    | quiet e hp => exact ⟨hi.incoming, hi.holding, hi.responses, fun h => by rw [hp] at h; cases h⟩
    | request src bytes ok r hp hq hr hg =>
      exact ⟨hi.incoming, hi.holding, hi.responses, fun _ => ⟨hr, hg⟩⟩
    | put r hp hl => exact ⟨by simp; omega, hi.holding, hi.responses, fun h => by cases h⟩
    | take reply r rest h1 h2 =>
      refine ⟨?_, ?_, hi.responses, hi.alive⟩
      · have := hi.incoming; rw [h1] at this; simp at this; dsimp only; omega
      · cases reply <;> simp <;> omega
    | reply r rest h1 h2 h3 =>
      refine ⟨hi.incoming, ?_, by simp, hi.alive⟩
      have := hi.holding; rw [h1] at this; simp at this; dsimp only; omega
    | lost r rest h1 h2 =>
      refine ⟨hi.incoming, ?_, hi.responses, hi.alive⟩
      have := hi.holding; rw [h1] at this; simp at this; dsimp only; omega
    | drain ok r rest hp hr hs' =>
      refine ⟨hi.incoming, hi.holding, ?_, fun h => by rw [hp] at h; cases h⟩
      have := hi.responses; rw [hr] at this; simp at this; simp [this]

theorem inv_run {h h' : Host} {evs : List HostEvent} {acts : List Action} (hi : Inv h)
    (hr : h.run evs = some (h', acts)) : Inv h' := by
  induction evs generalizing h acts with
  | nil => cases hr; exact hi
  | cons e es ih =>
    obtain ⟨h₁, a₁, a₂, hs, hr', _⟩ := run_cons hr
    exact ih (inv_step hi hs) hr'

theorem size_step {h h' : Host} {e : HostEvent} {acts : List Action} (hs : h.step e = some (h', acts)) :
    h'.capacity = h.capacity ∧ h'.width = h.width := by
  by_cases he : e = .io .dropHandler
  · subst he; cases hs; exact ⟨rfl, rfl⟩
  · cases step_hshape he hs <;> exact ⟨rfl, rfl⟩

theorem size_run {h h' : Host} {evs : List HostEvent} {acts : List Action} (hr : h.run evs = some (h', acts)) :
    h'.capacity = h.capacity ∧ h'.width = h.width := by
  induction evs generalizing h acts with
  | nil => cases hr; exact ⟨rfl, rfl⟩
  | cons e es ih =>
    obtain ⟨h₁, a₁, a₂, hs, hr', _⟩ := run_cons hr
    have h1 := size_step hs
    have h2 := ih hr'
    exact ⟨h2.1.trans h1.1, h2.2.trans h1.2⟩

/-- Everything is full and everybody waits. -/
structure Full (h : Host) : Prop where
  pending : h.pending.isSome
  incoming : h.capacity ≤ h.incoming.length
  holding : h.width ≤ h.holding.length
  responses : h.responses ≠ []
  running : h.io.status = .running

theorem full_step {h h' : Host} {e : HostEvent} {acts : List Action} (hf : Full h) (he : e ≠ .io .dropHandler)
    (hs : h.step e = some (h', acts)) :
    Full h' ∧ h'.pending = h.pending ∧ acts = [] := by
  have hp := hf.pending
  have hi := hf.incoming
  have hh := hf.holding
  cases step_hshape he hs with
  | caller e h0 h1 h2 h3 => exact ⟨⟨hf.pending, hi, hh, hf.responses, by rw [← hf.running]; exact h2⟩, rfl, rfl⟩
  | quiet e h1 => rw [h1] at hp; cases hp
  | request src bytes ok r h1 => rw [h1] at hp; cases hp
  | put r h1 h2 => omega
  | take reply r rest h1 h2 => omega
  | reply r rest h1 h2 h3 => exact absurd h3 hf.responses
  | lost r rest h1 h2 => exact absurd hf.running h2
  | drain ok r rest h1 => rw [h1] at hp; cases hp

theorem full_stalled {h : Host} (hf : Full h) : Stalled h := by
  intro evs
  induction evs generalizing h with
  | nil => intro h' acts _ hr; cases hr; exact ⟨rfl, rfl⟩
  | cons e es ih =>
    intro h' acts hk hr
    obtain ⟨h₁, a₁, a₂, hs, hr', rfl⟩ := run_cons hr
    have hk' : e ≠ .io .dropHandler ∧ keepsHandler es := by
      unfold keepsHandler at hk ⊢
      simp only [List.mem_cons, not_or] at hk
      exact ⟨fun h => hk.1 h.symm, hk.2⟩
    obtain ⟨hf', hp, rfl⟩ := full_step hf hk'.1 hs
    obtain ⟨hp', rfl⟩ := ih hf' h' a₂ hk'.2 hr'
    exact ⟨hp'.trans hp, rfl⟩

theorem not_full_recovers {h : Host} (hi : Inv h) (hc : 0 < h.capacity) (hw : 0 < h.width) (hf : ¬ Full h) :
    Recovers h := by
  intro rep
  cases hp : h.pending with
  | none => exact ⟨[], h, [], by simp, by simp, rfl, hp⟩
  | some r =>
    have hrun := (hi.alive (by rw [hp]; rfl)).1
    by_cases h1 : h.incoming.length < h.capacity
    · refine ⟨[.put], { h with pending := none, incoming := h.incoming ++ [r] }, [],
            by simp, by simp, ?_, ?_⟩
      · simp only [run, step, hp, if_pos h1]
        rfl
      · rfl
    · cases hin : h.incoming with
      | nil => rw [hin] at h1; exact absurd hc h1
      | cons q rest =>
        have hlen : rest.length < h.capacity := by
          have := hi.incoming; rw [hin] at this; simp at this; omega
        by_cases h2 : h.holding.length < h.width
        · refine ⟨[.take rep, .put], { h with pending := none, incoming := rest ++ [r], holding := h.holding ++ rep.toList }, [.dispatch q],
            by simp, by simp, ?_, ?_⟩
          · simp only [run, step, hin, if_pos h2, hp, if_pos hlen]
            rfl
          · rfl
        · cases hho : h.holding with
          | nil => rw [hho] at h2; exact absurd hw h2
          | cons q' rest' =>
            have hre : h.responses = [] := by
              apply Decidable.by_contra
              intro hne
              exact hf ⟨by rw [hp]; rfl, by omega, by omega, hne, hrun⟩
            have hlen' : rest'.length < h.width := by
              have := hi.holding; rw [hho] at this; simp at this; omega
            have hone : ([] : List HandlerReply).length < numOutstandingRequests := by decide
            refine ⟨[.reply, .take rep, .put], { h with pending := none, incoming := rest ++ [r], holding := rest' ++ rep.toList, responses := [q'] }, [.dispatch q],
            by simp, by simp, ?_, ?_⟩
            · simp only [run, step, hho, hrun, hre, if_pos hone, hin, if_pos hlen', hp, if_pos hlen, ne_eq,
                not_true_eq_false, if_false]
              rfl
            · rfl

/-! ## Accounting -/

theorem handed_append (xs ys : List Action) : handed (xs ++ ys) = handed xs ++ handed ys := List.filterMap_append

theorem responsesSent_append (xs ys : List Action) :
    responsesSent (xs ++ ys) = responsesSent xs ++ responsesSent ys := List.filterMap_append

theorem arrived_cons (e : HostEvent) (es : List HostEvent) : arrived (e :: es) = arrived [e] ++ arrived es := by
  rw [← List.singleton_append]
  exact List.filterMap_append

theorem keeps_cons {e : HostEvent} {es : List HostEvent} (hk : keepsHandler (e :: es)) :
    e ≠ .io .dropHandler ∧ keepsHandler es := by
  unfold keepsHandler at hk ⊢
  simp only [List.mem_cons, not_or] at hk
  exact ⟨fun h => hk.1 h.symm, hk.2⟩

theorem dead_step {h h' : Host} {e : HostEvent} {acts : List Action} (he : e ≠ .io .dropHandler)
    (hs : h.step e = some (h', acts)) (hn : h.io.status ≠ .running) : h'.io.status ≠ .running := by
  cases step_hshape he hs with
  | caller e h0 h1 h2 h3 => dsimp only; rw [h2]; exact hn
  | quiet e hp => exact fun hc => hn (step_running hc)
  | request src bytes ok r hp hq hr hg => exact absurd hr hn
  | put r hp hl => exact hn
  | take reply r rest h1 h2 => exact hn
  | reply r rest h1 h2 h3 => exact absurd h2 hn
  | lost r rest h1 h2 => exact hn
  | drain ok r rest hp hr hs' => exact absurd hs' hn

/-- The requests on their way to the handler. -/
def queued (h : Host) : List SpRpcRequest := h.incoming ++ h.pending.toList

/-- Requests are neither lost, invented nor reordered by one step. -/
theorem order_step {h h' : Host} {e : HostEvent} {acts : List Action} (he : e ≠ .io .dropHandler)
    (hs : h.step e = some (h', acts)) :
    ∃ lost, handed acts ++ h'.queued ++ lost = h.queued ++ arrived [e] ∧ (h'.io.status = .running → lost = []) ∧
      (h.io.status ≠ .running → lost = arrived [e]) := by
  unfold queued
  cases step_hshape he hs with
  | caller e h0 h1 h2 h3 =>
    refine ⟨[], ?_, fun _ => rfl, fun _ => ?_⟩
    · cases e <;> first | (exact absurd rfl (h0 _ _ _)) | simp [handed, arrived]
    · cases e <;> first | (exact absurd rfl (h0 _ _ _)) | rfl
  | quiet e hp h1 h2 h3 h4 h5 =>
    refine ⟨arrived [.io e], by rw [h4]; simp, ?_, fun _ => rfl⟩
    intro hr
    cases e with
    | packet src bytes ok =>
      cases hq : spRequestOf bytes with
      | none => simp [arrived, hq]
      | some r => exact absurd hr (h5 src bytes ok r rfl hq)
    | _ => rfl
  | request src bytes ok r hp hq hr hg =>
    refine ⟨[], ?_, fun _ => rfl, fun hn => absurd hr hn⟩
    simp [handed, arrived, hq, hp]
  | put r hp hl => exact ⟨[], by simp [handed, arrived, hp], fun _ => rfl, fun _ => rfl⟩
  | take reply r rest h1 h2 => exact ⟨[], by simp [handed, arrived, h1], fun _ => rfl, fun _ => rfl⟩
  | reply r rest h1 h2 h3 => exact ⟨[], by simp [handed, arrived], fun _ => rfl, fun _ => rfl⟩
  | lost r rest h1 h2 => exact ⟨[], by simp [handed, arrived], fun _ => rfl, fun _ => rfl⟩
  | drain ok r rest hp hr hs' h4 => exact ⟨[], by rw [h4]; simp [arrived], fun _ => rfl, fun _ => rfl⟩

theorem order_run {h h' : Host} {evs : List HostEvent} {acts : List Action} (hk : keepsHandler evs)
    (hr : h.run evs = some (h', acts)) :
    ∃ lost, handed acts ++ h'.queued ++ lost = h.queued ++ arrived evs ∧ (h'.io.status = .running → lost = []) ∧
      (h.io.status ≠ .running → lost = arrived evs ∧ h'.io.status ≠ .running) := by
  induction evs generalizing h acts with
  | nil => cases hr; exact ⟨[], by simp [handed, arrived], fun _ => rfl, fun h => ⟨rfl, h⟩⟩
  | cons e es ih =>
    obtain ⟨h₁, a₁, a₂, hs, hr', rfl⟩ := run_cons hr
    obtain ⟨he, hk'⟩ := keeps_cons hk
    obtain ⟨l₁, h1, h2, h3⟩ := order_step he hs
    obtain ⟨l₂, g1, g2, g3⟩ := ih hk' hr'
    have happ : handed a₁ ++ handed a₂ ++ h'.queued ++ l₂ = handed a₁ ++ (h₁.queued ++ arrived es) := by
      rw [← g1]; simp
    rw [handed_append, arrived_cons]
    by_cases hr1 : h₁.io.status = .running
    · have := h2 hr1
      subst this
      refine ⟨l₂, ?_, g2, fun hn => absurd hr1 (dead_step he hs hn)⟩
      rw [happ, ← List.append_assoc, ← List.append_assoc, ← h1]
      simp
    · obtain ⟨rfl, g4⟩ := g3 hr1
      refine ⟨l₁ ++ arrived es, ?_, fun hc => absurd hc g4, fun hn => ⟨by rw [h3 hn], g4⟩⟩
      have := List.append_cancel_right g1
      rw [← List.append_assoc (h.queued), ← h1, ← this]
      simp

/-- The replies on their way to the loop. -/
def waiting (h : Host) : List HandlerReply := h.responses ++ h.holding

theorem replied_cons (e : HostEvent) (es : List HostEvent) : replied (e :: es) = replied [e] ++ replied es := by
  rw [← List.singleton_append]
  exact List.filterMap_append

theorem drains_cons (e : HostEvent) (es : List HostEvent) : drains (e :: es) = drains [e] ++ drains es := by
  rw [← List.singleton_append]
  exact List.filterMap_append

/-- Replies are neither lost, invented nor reordered by one step, and what is transmitted is what they say. -/
theorem reply_step {h h' : Host} {e : HostEvent} {acts : List Action} (he : e ≠ .io .dropHandler) (hi : Inv h)
    (hs : h.step e = some (h', acts)) (hr : h'.io.status = .running) :
    ∃ drained, drained ++ h'.waiting = h.waiting ++ replied [e] ∧ drained.length = (drains [e]).length ∧
      responsesSent acts = (List.zip drained (drains [e])).filterMap fun p => transmission p.1 p.2 := by
  unfold waiting
  cases step_hshape he hs with
  | caller e h0 h1 h2 h3 => exact ⟨[], by simp [replied], rfl, rfl⟩
  | quiet e hp h1 h2 h3 h4 h5 =>
    refine ⟨[], by simp [replied], rfl, ?_⟩
    rw [IoState.step_sent _ _ h3]
    rfl
  | request src bytes ok r hp hq hr hg => exact ⟨[], by simp [replied], rfl, rfl⟩
  | put r hp hl => exact ⟨[], by simp [replied], rfl, rfl⟩
  | take reply r rest h1 h2 =>
    refine ⟨[], ?_, rfl, rfl⟩
    cases reply <;> simp [replied]
  | reply r rest h1 h2 h3 => exact ⟨[], by simp [replied, h1, h3], rfl, rfl⟩
  | lost r rest h1 h2 => exact absurd hr h2
  | drain ok r rest hp hq hs' h4 =>
    refine ⟨[r], by simp [replied, hq], rfl, ?_⟩
    rw [IoState.step_reply_sent _ _ _ hr]
    simp only [drains, List.filterMap_cons, List.filterMap_nil, List.zip_cons_cons, List.zip_nil_right]
    cases transmission r ok <;> rfl

theorem running_of_step {h h' : Host} {e : HostEvent} {acts : List Action} (he : e ≠ .io .dropHandler)
    (hs : h.step e = some (h', acts)) (hr : h'.io.status = .running) : h.io.status = .running :=
  Decidable.byContradiction fun hn => dead_step he hs hn hr

theorem running_of_run {h h' : Host} {evs : List HostEvent} {acts : List Action} (hk : keepsHandler evs)
    (hr : h.run evs = some (h', acts)) (h1 : h'.io.status = .running) : h.io.status = .running := by
  induction evs generalizing h acts with
  | nil => cases hr; exact h1
  | cons e es ih =>
    obtain ⟨h₁, a₁, a₂, hs, hr', rfl⟩ := run_cons hr
    obtain ⟨he, hk'⟩ := keeps_cons hk
    exact running_of_step he hs (ih hk' hr')

theorem reply_run {h h' : Host} {evs : List HostEvent} {acts : List Action} (hk : keepsHandler evs) (hi : Inv h)
    (hr : h.run evs = some (h', acts)) (h1 : h'.io.status = .running) :
    ∃ drained, drained ++ h'.waiting = h.waiting ++ replied evs ∧ drained.length = (drains evs).length ∧
      responsesSent acts = (List.zip drained (drains evs)).filterMap fun p => transmission p.1 p.2 := by
  induction evs generalizing h acts with
  | nil => cases hr; exact ⟨[], by simp [replied], rfl, rfl⟩
  | cons e es ih =>
    obtain ⟨h₁, a₁, a₂, hs, hr', rfl⟩ := run_cons hr
    obtain ⟨he, hk'⟩ := keeps_cons hk
    obtain ⟨d₁, p1, p2, p3⟩ := reply_step he hi hs (running_of_run hk' hr' h1)
    obtain ⟨d₂, q1, q2, q3⟩ := ih hk' (inv_step hi hs) hr'
    refine ⟨d₁ ++ d₂, ?_, ?_, ?_⟩
    · rw [List.append_assoc, q1, replied_cons, ← List.append_assoc, p1]; simp
    · rw [drains_cons]; simp [p2, q2]
    · rw [responsesSent_append, drains_cons, List.zip_append p2, List.filterMap_append, p3, q3]

/-- No more is on the way than arrived, and no more replies than were given. -/
theorem sizes_run {h h' : Host} {evs : List HostEvent} {acts : List Action} (hk : keepsHandler evs)
    (hr : h.run evs = some (h', acts)) :
    h'.queued.length + h'.waiting.length ≤ h.queued.length + h.waiting.length + (arrived evs).length ∧
    h'.waiting.length ≤ h.waiting.length + (replied evs).length := by
  induction evs generalizing h acts with
  | nil => cases hr; exact ⟨Nat.le_add_right .., Nat.le_add_right ..⟩
  | cons e es ih =>
    obtain ⟨h₁, a₁, a₂, hs, hr', rfl⟩ := run_cons hr
    obtain ⟨he, hk'⟩ := keeps_cons hk
    obtain ⟨i1, i2⟩ := ih hk' hr'
    have key : h₁.queued.length + h₁.waiting.length ≤ h.queued.length + h.waiting.length + (arrived [e]).length ∧
        h₁.waiting.length ≤ h.waiting.length + (replied [e]).length := by
      unfold queued waiting
      cases step_hshape he hs with
      | caller e h0 h1 h2 h3 => constructor <;> simp <;> omega
      | quiet e hp h1 h2 h3 h4 h5 => constructor <;> simp <;> omega
      | request src bytes ok r hp hq hr hg => constructor <;> simp [arrived, hq, hp] <;> omega
      | put r hp hl => constructor <;> simp [hp] <;> omega
      | take reply r rest h1 h2 => cases reply <;> constructor <;> simp [h1, replied] <;> omega
      | reply r rest h1 h2 h3 => constructor <;> simp [h1, h3] <;> omega
      | lost r rest h1 h2 => constructor <;> simp [h1] <;> omega
      | drain ok r rest hp hq hs' h4 => constructor <;> simp [hq] <;> omega
    rw [arrived_cons, replied_cons]
    simp only [List.length_append]
    omega

/-! ## The loop alone -/

theorem immediate_append (xs ys : List Action) : immediate (xs ++ ys) = immediate xs ++ immediate ys :=
  List.filter_append ..

theorem refines_step {h h' : Host} {e : HostEvent} {acts : List Action} (he : e ≠ .io .dropHandler)
    (hs : h.step e = some (h', acts)) :
    ∃ ioEvs, submitted ioEvs = hostSubmitted [e] ∧ (h.io.run ioEvs).1 = h'.io ∧
      immediate (h.io.run ioEvs).2 = immediate acts := by
  have stays : ∀ e, hostSubmitted [e] = [] → h'.io = h.io → immediate acts = [] →
      ∃ ioEvs, submitted ioEvs = hostSubmitted [e] ∧ (h.io.run ioEvs).1 = h'.io ∧
        immediate (h.io.run ioEvs).2 = immediate acts := by
    intro e h1 h2 h3
    refine ⟨[], ?_, ?_, ?_⟩
    · rw [h1]; rfl
    · rw [h2]; rfl
    · rw [h3]; rfl
  cases step_hshape he hs with
  | caller e h0 h1 h2 h3 =>
    refine ⟨[e], ?_, ?_, ?_⟩
    · cases e <;> rfl
    · rw [run_single]
    · rw [run_single, h1]
  | quiet e hp h1 h2 h3 h4 h5 =>
    refine ⟨[e], ?_, ?_, ?_⟩
    · cases e <;> rfl
    · rw [run_single]
    · rw [run_single]
  | request src bytes ok r hp hq hr hg h1 =>
    refine ⟨[.packet src bytes ok], rfl, ?_, ?_⟩
    · rw [run_single, h1]
    · rw [run_single, h1]; rfl
  | put r hp hl => exact stays _ rfl rfl rfl
  | take reply r rest h1 h2 => exact stays _ rfl rfl rfl
  | reply r rest h1 h2 h3 => exact stays _ rfl rfl rfl
  | lost r rest h1 h2 => exact stays _ rfl rfl rfl
  | drain ok r rest hp hq hs' h4 =>
    refine ⟨[.handlerReply r ok], rfl, ?_, ?_⟩
    · rw [run_single]
    · rw [run_single]

theorem refines_run {h h' : Host} {evs : List HostEvent} {acts : List Action} (hk : keepsHandler evs)
    (hr : h.run evs = some (h', acts)) :
    ∃ ioEvs, submitted ioEvs = hostSubmitted evs ∧ (h.io.run ioEvs).1 = h'.io ∧
      immediate (h.io.run ioEvs).2 = immediate acts := by
  induction evs generalizing h acts with
  | nil => cases hr; exact ⟨[], rfl, rfl, rfl⟩
  | cons e es ih =>
    obtain ⟨h₁, a₁, a₂, hs, hr', rfl⟩ := run_cons hr
    obtain ⟨he, hk'⟩ := keeps_cons hk
    obtain ⟨es₁, p1, p2, p3⟩ := refines_step he hs
    obtain ⟨es₂, q1, q2, q3⟩ := ih hk' hr'
    refine ⟨es₁ ++ es₂, ?_, ?_, ?_⟩
    · rw [submitted_append, p1, q1]
      unfold hostSubmitted
      rw [← List.filterMap_append]
      rfl
    · rw [Xcvr.run_append]; dsimp only; rw [p2, q2]
    · rw [Xcvr.run_append]; dsimp only; rw [p2, immediate_append, immediate_append, p3, q3]

theorem answered_immediate (acts : List Action) : answered (immediate acts) = answered acts := by
  unfold answered immediate
  rw [List.filterMap_filter]
  congr 1
  funext a
  cases a <;> rfl

/-! ## Filling everything -/

theorem run_snd_append {h h₁ h₂ : Host} {es es' : List HostEvent} {a₁ a₂ : List Action} (h1 : h.run es = some (h₁, a₁))
    (h2 : h₁.run es' = some (h₂, a₂)) : h.run (es ++ es') = some (h₂, a₁ ++ a₂) := by
  rw [run_append h1, h2]; rfl

theorem step_request_packet {h : Host} {bytes : Bytes} {r : SpRpcRequest} (src : Addr) (ok : Bool)
    (hb : spRequestOf bytes = some r) (hp : h.pending = none) (hr : h.io.status = .running)
    (hg : h.io.handlerGone = false) :
    h.step (.io (.packet src bytes ok)) = some ({ h with pending := some r }, []) := by
  have h1 : h.io.step (.packet src bytes ok) = (h.io, [.dispatch r]) := by
    have := (IoState.handlePacket_request h.io src bytes ok).1 r hb
    rw [hg] at this
    simp only [IoState.step, hr, ne_eq, not_true_eq_false, if_false, this]
    rfl
  simp only [step, branch, hp, h1]
  rfl

/-- Requests that only fill the handler's channel. -/
theorem fill_incoming {bytes : Bytes} {r : SpRpcRequest} (src : Addr) (ok : Bool) (hb : spRequestOf bytes = some r) :
    ∀ (n : Nat) (h : Host), h.pending = none → h.io.status = .running → h.io.handlerGone = false →
    h.incoming.length + n ≤ h.capacity →
    h.run (List.replicate n [.io (.packet src bytes ok), .put]).flatten =
      some ({ h with incoming := h.incoming ++ List.replicate n r }, []) := by
  intro n
  induction n with
  | zero => intro h _ _ _ _; simp [run]
  | succ n ih =>
    intro h hp hr hg hl
    rw [List.replicate_succ, List.flatten_cons]
    have h1 : h.run [.io (.packet src bytes ok), .put] = some ({ h with incoming := h.incoming ++ [r] }, []) := by
      have hlt : h.incoming.length < h.capacity := by omega
      rw [run, step_request_packet src ok hb hp hr hg]
      simp only [run, step, if_pos hlt, List.append_nil]
      simp [hp]
    have h2 := ih { h with incoming := h.incoming ++ [r] } hp hr hg (by simp; omega)
    rw [run_snd_append h1 h2]
    simp [List.replicate_succ]

/-- Requests the handler takes, one reply after the other having to wait. -/
theorem fill_holding {bytes : Bytes} {r : SpRpcRequest} (src : Addr) (ok : Bool) (rep : HandlerReply)
    (hb : spRequestOf bytes = some r) :
    ∀ (n : Nat) (h : Host), h.pending = none → h.io.status = .running → h.io.handlerGone = false →
    h.incoming = [] → 0 < h.capacity → h.holding.length + n ≤ h.width →
    h.run (List.replicate n [.io (.packet src bytes ok), .put, .take (some rep)]).flatten =
      some ({ h with holding := h.holding ++ List.replicate n rep }, List.replicate n (.dispatch r)) := by
  intro n
  induction n with
  | zero => intro h _ _ _ _ _ _; simp [run]
  | succ n ih =>
    intro h hp hr hg hi hc hl
    rw [List.replicate_succ, List.flatten_cons]
    have h1 : h.run [.io (.packet src bytes ok), .put, .take (some rep)] =
        some ({ h with holding := h.holding ++ [rep] }, [.dispatch r]) := by
      have hlt : h.incoming.length < h.capacity := by rw [hi]; exact hc
      have hlt' : h.holding.length < h.width := by omega
      rw [run, step_request_packet src ok hb hp hr hg]
      simp only [run, step, hi, List.length_nil, if_pos hc, List.nil_append, if_pos hlt']
      simp [hp]
    have h2 := ih { h with holding := h.holding ++ [rep] } hp hr hg hi hc (by simp; omega)
    rw [run_snd_append h1 h2]
    simp [List.replicate_succ]

/-- A history that fills everything. -/
def flood (src : Addr) (bytes : Bytes) (rep : HandlerReply) (capacity width : Nat) : List HostEvent :=
  [.io (.packet src bytes true), .put, .take (some rep), .reply] ++
  (List.replicate width [.io (.packet src bytes true), .put, .take (some rep)]).flatten ++
  (List.replicate capacity [.io (.packet src bytes true), .put]).flatten ++ [.io (.packet src bytes true)]

theorem flood_fills {bytes : Bytes} {r : SpRpcRequest} (src : Addr) (rep : HandlerReply) (hb : spRequestOf bytes = some r)
    (h : Host) (hp : h.pending = none) (hr : h.io.status = .running) (hg : h.io.handlerGone = false)
    (hi : h.incoming = []) (hh : h.holding = []) (hre : h.responses = []) (hc : 0 < h.capacity) (hw : 0 < h.width) :
    ∃ h' acts, h.run (flood src bytes rep h.capacity h.width) = some (h', acts) ∧ Full h' ∧ h'.io = h.io ∧
      answered acts = [] := by
  have hlt : h.incoming.length < h.capacity := by rw [hi]; exact hc
  have hlt' : h.holding.length < h.width := by rw [hh]; exact hw
  have hone : ([] : List HandlerReply).length < numOutstandingRequests := by decide
  have h1 : h.run [.io (.packet src bytes true), .put, .take (some rep), .reply] =
      some ({ h with responses := [rep] }, [.dispatch r]) := by
    rw [run, step_request_packet src true hb hp hr hg]
    simp only [run, step, hi, hh, List.length_nil, if_pos hc, List.nil_append, if_pos hw, hre, hr, numOutstandingRequests]
    simp [hp, hh, hi]
  have h2 := fill_holding (r := r) src true rep hb h.width { h with responses := [rep] } hp hr hg hi hc (by simp [hh])
  have h3 := fill_incoming (r := r) src true hb h.capacity
    { h with responses := [rep], holding := h.holding ++ List.replicate h.width rep } hp hr hg (by simp [hi])
  have h5 : ∀ g : Host, g.pending = none → g.io = h.io →
      g.run [.io (.packet src bytes true)] = some ({ g with pending := some r }, []) := by
    intro g hg1 hg2
    rw [run, step_request_packet src true hb hg1 (by rw [hg2]; exact hr) (by rw [hg2]; exact hg)]
    rfl
  refine ⟨_, _, run_snd_append (run_snd_append (run_snd_append h1 h2) h3) (h5 _ hp rfl), ⟨rfl, ?_, ?_, ?_, hr⟩, rfl, ?_⟩
  · simp
  · simp
  · simp
  · unfold answered
    rw [List.filterMap_eq_nil_iff]
    simp only [List.append_nil, List.mem_append, List.mem_singleton, List.mem_replicate]
    rintro a (rfl | ⟨_, rfl⟩) <;> rfl

theorem arrived_flood {bytes : Bytes} {r : SpRpcRequest} (src : Addr) (rep : HandlerReply) (c w : Nat)
    (hb : spRequestOf bytes = some r) : (arrived (flood src bytes rep c w)).length = c + w + 2 := by
  have app : ∀ xs ys, arrived (xs ++ ys) = arrived xs ++ arrived ys := fun _ _ => List.filterMap_append
  have h1 : ∀ n, (arrived (List.replicate n [HostEvent.io (.packet src bytes true), .put, .take (some rep)]).flatten).length = n := by
    intro n
    induction n with
    | zero => rfl
    | succ n ih =>
      rw [List.replicate_succ, List.flatten_cons, app, List.length_append, ih]
      simp [arrived, hb, Nat.add_comm]
  have h2 : ∀ n, (arrived (List.replicate n [HostEvent.io (.packet src bytes true), .put]).flatten).length = n := by
    intro n
    induction n with
    | zero => rfl
    | succ n ih =>
      rw [List.replicate_succ, List.flatten_cons, app, List.length_append, ih]
      simp [arrived, hb, Nat.add_comm]
  unfold flood
  rw [app, app, app, List.length_append, List.length_append, List.length_append, h1, h2]
  simp [arrived, hb]
  omega

theorem keeps_flood (src : Addr) (bytes : Bytes) (rep : HandlerReply) (c w : Nat) : keepsHandler (flood src bytes rep c w) := by
  unfold keepsHandler flood
  simp

end Host

end Xcvr
