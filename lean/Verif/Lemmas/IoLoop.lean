import Verif.Spec.IoLoop

/-! Helper lemmas for C21-C31: the shape of every step, and invariants over histories. -/

namespace Xcvr

open Spec IoState

theorem run_append (s : IoState) (xs ys : List Event) :
    s.run (xs ++ ys) = (((s.run xs).1.run ys).1, (s.run xs).2 ++ ((s.run xs).1.run ys).2) := by
  induction xs generalizing s with
  | nil => simp [run]
  | cons x xs ih => simp [run, ih]

theorem run_single (s : IoState) (e : Event) : s.run [e] = s.step e := by simp [run]

theorem run_snoc (s : IoState) (xs : List Event) (e : Event) :
    s.run (xs ++ [e]) = (((s.run xs).1.step e).1, (s.run xs).2 ++ ((s.run xs).1.step e).2) := by
  rw [run_append, run_single]

/-- Why an outstanding request is answered. -/
inductive Reason (limit : Nat) (o : Outstanding) : Event → Answer → Prop where
  | io : o.nRetries < limit → Reason limit o (.tick false) (.error .io)
  | retries (ok : Bool) : limit ≤ o.nRetries → Reason limit o (.tick ok) (.error (.maxRetries o.nRetries))
  | faults (ok : Bool) : o.nRetries < limit → 5 ≤ o.nErrorMessages →
      Reason limit o (.tick ok) (.error (.maxFaultMessages o.nErrorMessages))
  | proto (src : Addr) (bytes : Bytes) (ok : Bool) (h : Header) (rest : Bytes) (e : ProtocolError) :
      headerOf bytes = some (h, rest) → h.messageId = o.request.header.messageId →
      (h.messageKind = .error ∨ h.messageKind = .spResponse) →
      Reason limit o (.packet src bytes ok) (.error (.protocol e))
  | response (src : Addr) (bytes : Bytes) (ok : Bool) (h : Header) (rest : Bytes) (m : Message) (r : SpResponse)
      (t : Bytes) : headerOf bytes = some (h, rest) → h.messageKind = .spResponse →
      h.messageId = o.request.header.messageId → messageOf rest = some (m, t) → m.body = .spResponse r →
      Reason limit o (.packet src bytes ok) (collectResponse h m r t)

/-- All shapes of a step. -/
inductive Shape (s : IoState) : Event → IoState → List Action → Prop where
  | submit (c : Chan) (r : HostRpcRequest) : Shape s (.submit c r) { s with queue := s.queue ++ [(c, r)] } []
  | env (e : Event) (s' : IoState) : (∀ c r, e ≠ .submit c r) → faulty e = false →
      (∀ ok, e ≠ .tick ok) → (∀ ok, e ≠ .accept ok) →
      s'.limit = s.limit → s'.outstanding = s.outstanding → s'.queue = s.queue → s'.status = s.status →
      Shape s e s' []
  | dead (e : Event) (s' : IoState) : (∀ c r, e ≠ .submit c r) → s'.status ≠ .running → s'.limit = s.limit →
      Shape s e s' []
  | quiet (e : Event) (acts : List Action) : s.status = .running → (∀ c r, e ≠ .submit c r) →
      (∀ ok, e = .tick ok → s.outstanding = none) →
      (∀ a ∈ acts, concerns a = none) →
      Shape s e { s with outstanding := s.outstanding.map fun o =>
        { o with nErrorMessages := o.nErrorMessages + (if faulty e then 1 else 0) } } acts
  | start (c : Chan) (r : HostRpcRequest) (q : List (Chan × HostRpcRequest)) : s.status = .running →
      s.outstanding = none → s.queue = (c, r) :: q →
      Shape s (.accept true) { s with queue := q, outstanding := some ⟨c, r, 1, 0⟩ } [.sendRequest c (requestPacket r)]
  | startFail (c : Chan) (r : HostRpcRequest) (q : List (Chan × HostRpcRequest)) : s.status = .running →
      s.outstanding = none → s.queue = (c, r) :: q →
      Shape s (.accept false) { s with queue := q, outstanding := none } [.answer c (.error .io)]
  | resend (o : Outstanding) : s.status = .running → s.outstanding = some o → o.nRetries < s.limit →
      o.nErrorMessages < 5 →
      Shape s (.tick true) { s with outstanding := some { o with nRetries := o.nRetries + 1 } }
        [.sendRequest o.chan (requestPacket o.request)]
  | reply (o : Outstanding) (e : Event) (a : Answer) : s.status = .running → s.outstanding = some o →
      Reason s.limit o e a → (∀ c r, e ≠ .submit c r) →
      Shape s e { s with outstanding := none } [.answer o.chan a]

theorem status_cases (s : IoState) (h : ¬ s.status ≠ .running) : s.status = .running := by
  simpa using h

theorem quiet_id (s : IoState) (e : Event) (hf : faulty e = false) :
    ({ s with outstanding := s.outstanding.map fun o =>
        { o with nErrorMessages := o.nErrorMessages + (if faulty e then 1 else 0) } } : IoState) = s := by
  cases s with
  | mk l o q c d h st => cases o <;> simp [hf]

theorem quiet_faulty (s : IoState) (e : Event) (hf : faulty e = true) :
    ({ s with outstanding := s.outstanding.map fun o =>
        { o with nErrorMessages := o.nErrorMessages + (if faulty e then 1 else 0) } } : IoState) = s.incrementFaulty := by
  simp [hf, incrementFaulty]

theorem shape_quiet_id (s : IoState) (e : Event) (acts : List Action) (hr : s.status = .running)
    (h1 : ∀ c r, e ≠ .submit c r) (h2 : ∀ ok, e = .tick ok → s.outstanding = none)
    (h4 : ∀ a ∈ acts, concerns a = none) (hf : faulty e = false) : Shape s e s acts := by
  have := Shape.quiet (s := s) e acts hr h1 h2 h4
  rwa [quiet_id s e hf] at this

theorem shape_quiet_faulty (s : IoState) (e : Event) (acts : List Action) (hr : s.status = .running)
    (h1 : ∀ c r, e ≠ .submit c r) (h2 : ∀ ok, e = .tick ok → s.outstanding = none)
    (h4 : ∀ a ∈ acts, concerns a = none) (hf : faulty e = true) : Shape s e s.incrementFaulty acts := by
  have := Shape.quiet (s := s) e acts hr h1 h2 h4
  rwa [quiet_faulty s e hf] at this

theorem shape_answer (s : IoState) (o : Outstanding) (e : Event) (a : Answer) (hr : s.status = .running)
    (ho : s.outstanding = some o) (h : Reason s.limit o e a) (h1 : ∀ c r, e ≠ .submit c r) :
    Shape s e (s.answerOutstanding o a).1 (s.answerOutstanding o a).2 := by
  unfold answerOutstanding
  split
  · exact .dead _ _ h1 (by simp [die]) rfl
  · exact .reply o e a hr ho h h1

/-- After counting the message as faulty, a matching failure is the same answer as before counting. -/
theorem failMatching_faulty (s : IoState) (h : Header) (err : ProtocolError) :
    (s.outstanding = none ∧ s.incrementFaulty.failMatching h err = (s.incrementFaulty, [])) ∨
    (∃ o, s.outstanding = some o ∧ o.request.header.messageId ≠ h.messageId ∧
      s.incrementFaulty.failMatching h err = (s.incrementFaulty, [])) ∨
    (∃ o, s.outstanding = some o ∧ o.request.header.messageId = h.messageId ∧
      s.incrementFaulty.failMatching h err = s.answerOutstanding o (.error (.protocol err))) := by
  cases ho : s.outstanding with
  | none => left; simp [incrementFaulty, failMatching, ho]
  | some o =>
    right
    by_cases hid : o.request.header.messageId = h.messageId
    · right; exact ⟨o, rfl, hid, by simp [incrementFaulty, failMatching, ho, hid, answerOutstanding, die]⟩
    · left; exact ⟨o, rfl, hid, by simp [incrementFaulty, failMatching, ho, hid]⟩

theorem shape_failMatching_faulty (s : IoState) (src : Addr) (bytes : Bytes) (ok : Bool) (h : Header) (rest : Bytes)
    (err : ProtocolError) (hr : s.status = .running) (hh : headerOf bytes = some (h, rest))
    (hk : h.messageKind = .error ∨ h.messageKind = .spResponse) (hf : faulty (.packet src bytes ok) = true) :
    Shape s (.packet src bytes ok) (s.incrementFaulty.failMatching h err).1 (s.incrementFaulty.failMatching h err).2 := by
  rcases failMatching_faulty s h err with ⟨_, he⟩ | ⟨o, _, _, he⟩ | ⟨o, ho, hid, he⟩
  · rw [he]; exact shape_quiet_faulty s _ _ hr (by simp) (by simp) (by simp) hf
  · rw [he]; exact shape_quiet_faulty s _ _ hr (by simp) (by simp) (by simp) hf
  · rw [he]; exact shape_answer s o _ _ hr ho (.proto src bytes ok h rest err hh hid.symm hk) (by simp)

theorem shape_packet (s : IoState) (src : Addr) (bytes : Bytes) (ok : Bool) (hr : s.status = .running) :
    Shape s (.packet src bytes ok) (s.handlePacket src bytes ok).1 (s.handlePacket src bytes ok).2 := by
  have hm : maxPacketSize = 1060 := rfl
  unfold handlePacket
  rw [hm]
  cases hh : (dec (List.take 1060 bytes) : Option (Header × Bytes)) with
  | none =>
    exact shape_quiet_faulty s _ _ hr (by simp) (by simp) (by simp) (by simp [faulty, headerOf, hh])
  | some p =>
    obtain ⟨h, rest⟩ := p
    have hh' : headerOf bytes = some (h, rest) := hh
    dsimp only
    split
    · rename_i hk
      refine shape_quiet_faulty s _ _ hr (by simp) (by simp) ?_ (by simp [faulty, hh', hk])
      cases ok <;> simp [sendProtocolError, concerns]
    · rename_i hk
      refine shape_quiet_faulty s _ _ hr (by simp) (by simp) ?_ (by simp [faulty, hh', hk])
      cases ok <;> simp [sendProtocolError, concerns]
    · rename_i hk
      have hf : faulty (.packet src bytes ok) = true := by simp [faulty, hh', hk]
      unfold handleSpError
      split
      · split
        · exact shape_failMatching_faulty s src bytes ok h rest _ hr hh' (.inl hk) hf
        · exact shape_quiet_faulty s _ _ hr (by simp) (by simp) (by simp) hf
      · exact shape_failMatching_faulty s src bytes ok h rest _ hr hh' (.inl hk) hf
    · rename_i hk
      have hf : faulty (.packet src bytes ok) = false := by simp [faulty, hh', hk]
      unfold handleSpRequest
      split
      · split
        · exact .dead _ _ (by simp) (by simp [die]) rfl
        · exact shape_quiet_id s _ _ hr (by simp) (by simp) (by simp [concerns]) hf
      · refine shape_quiet_id s _ _ hr (by simp) (by simp) ?_ hf
        cases ok <;> simp [sendProtocolError, concerns]
    · rename_i hk
      unfold handleSpResponse
      cases ho : s.outstanding with
      | none =>
        dsimp only
        have := Shape.quiet (s := s) (.packet src bytes ok) [] hr (by simp) (by simp) (by simp)
        rw [ho] at this
        have e : ({ s with outstanding := (none : Option Outstanding).map fun o : Outstanding =>
          { o with nErrorMessages := o.nErrorMessages + (if faulty (.packet src bytes ok) then 1 else 0) } } : IoState) = s := by
          cases s; simp_all
        rwa [e] at this
      | some o =>
        dsimp only
        cases hd : (dec rest : Option (Message × Bytes)) with
        | none =>
          have hf : faulty (.packet src bytes ok) = true := by simp [faulty, hh', hk, messageOf, hd]
          dsimp only
          split
          · exact .dead _ _ (by simp) (by simp [die]) rfl
          · exact shape_failMatching_faulty s src bytes ok h _ _ hr hh' (.inr hk) hf
        | some p =>
          obtain ⟨m, t⟩ := p
          have hf : faulty (.packet src bytes ok) = false := by simp [faulty, hh', hk, messageOf, hd]
          dsimp only
          split
          · rename_i r hb
            split
            · rename_i hid
              exact shape_answer s o _ _ hr ho (.response src bytes ok h rest m r t hh' hk hid.symm hd hb) (by simp)
            · exact shape_quiet_id s _ _ hr (by simp) (by simp) (by simp) hf
          · unfold failMatching
            rw [ho]
            dsimp only
            split
            · exact shape_quiet_id s _ _ hr (by simp) (by simp) (by simp) hf
            · rename_i hid
              exact shape_answer s o _ _ hr ho (.proto src bytes ok h rest _ hh' (by simpa using Eq.symm (by simpa using hid)) (.inr hk)) (by simp)

/-- Every step has one of the shapes. -/
theorem step_shape (s : IoState) (e : Event) : Shape s e (s.step e).1 (s.step e).2 := by
  cases e with
  | submit c r => exact .submit c r
  | dropCaller c => exact .env _ _ (by simp) rfl (by simp) (by simp) rfl rfl rfl rfl
  | closeRequests => exact .env _ _ (by simp) rfl (by simp) (by simp) rfl rfl rfl rfl
  | dropHandler => exact .env _ _ (by simp) rfl (by simp) (by simp) rfl rfl rfl rfl
  | accept ok =>
    simp only [step]
    split
    · rename_i h; exact .dead _ _ (by simp) h rfl
    · rename_i h
      have hr := status_cases s h
      unfold handleAccept
      cases ho : s.outstanding with
      | some o => exact shape_quiet_id s _ _ hr (by simp) (by simp) (by simp) rfl
      | none =>
        dsimp only
        cases hq : s.queue with
        | nil =>
          dsimp only
          split
          · exact .dead _ _ (by simp) (by simp) rfl
          · exact shape_quiet_id s _ _ hr (by simp) (by simp) (by simp) rfl
        | cons p q =>
          obtain ⟨c, r⟩ := p
          simp only [sendOutgoingRequest]
          split
          · exact .dead _ _ (by simp) (by simp [die]) rfl
          · cases ok with
            | true => simpa using Shape.start c r q hr ho hq
            | false =>
              simp only [Bool.false_eq_true, if_false, answerOutstanding]
              split
              · exact .dead _ _ (by simp) (by simp [die]) rfl
              · exact .startFail c r q hr ho hq
  | tick ok =>
    simp only [step]
    split
    · rename_i h; exact .dead _ _ (by simp) h rfl
    · rename_i h
      have hr := status_cases s h
      unfold handleTick
      cases ho : s.outstanding with
      | none => exact shape_quiet_id s _ _ hr (by simp) (by simp [ho]) (by simp) rfl
      | some o =>
        simp only [numAllowedErrorMessages, ge_iff_le]
        split
        · rename_i hl
          simp only [sendOutgoingRequest, ho]
          split
          · exact .dead _ _ (by simp) (by simp [die]) rfl
          · cases ok with
            | true =>
              simp only [if_true]
              exact .resend o hr ho (by omega) (by omega)
            | false =>
              simp only [Bool.false_eq_true, if_false]
              exact shape_answer s o _ _ hr ho (.io (by omega)) (by simp)
        · split
          · rename_i hl; exact shape_answer s o _ _ hr ho (.retries ok hl) (by simp)
          · exact shape_answer s o _ _ hr ho (.faults ok (by omega) (by omega)) (by simp)
  | handlerReply r ok =>
    simp only [step]
    split
    · rename_i h; exact .dead _ _ (by simp) h rfl
    · rename_i h
      have hr := status_cases s h
      unfold handleReply
      split
      · unfold sendOutgoingResponse
        dsimp only
        split
        · exact .dead _ _ (by simp) (by simp [die]) rfl
        · refine shape_quiet_id s _ _ hr (by simp) (by simp) ?_ rfl
          cases ok <;> simp [concerns]
      · exact shape_quiet_id s _ _ hr (by simp) (by simp) (by simp) rfl
      · exact shape_quiet_id s _ _ hr (by simp) (by simp) (by simp) rfl
  | packet src bytes ok =>
    simp only [step]
    split
    · rename_i h; exact .dead _ _ (by simp) h rfl
    · rename_i h; exact shape_packet s src bytes ok (status_cases s h)
  | recvError =>
    simp only [step]
    split
    · rename_i h; exact .dead _ _ (by simp) h rfl
    · rename_i h
      exact shape_quiet_faulty s _ _ (status_cases s h) (by simp) (by simp) (by simp) rfl

/-- Induction over histories, at their end. -/
theorem hist_induction {lim : Option Nat} {P : List Event → IoState → List Action → Prop} (h0 : P [] (init lim) [])
    (hs : ∀ evs e s acts s' new, (init lim).run evs = (s, acts) → P evs s acts → s.step e = (s', new) →
      Shape s e s' new → P (evs ++ [e]) s' (acts ++ new)) :
    ∀ evs, P evs ((init lim).run evs).1 ((init lim).run evs).2 := by
  suffices h : ∀ n evs, evs.length = n → P evs ((init lim).run evs).1 ((init lim).run evs).2 from
    fun evs => h _ evs rfl
  intro n
  induction n with
  | zero => intro evs h; rw [List.length_eq_zero_iff.mp h]; exact h0
  | succ n ih =>
    intro evs h
    rcases List.eq_nil_or_concat evs with rfl | ⟨xs, e, rfl⟩
    · simp at h
    · rw [List.concat_eq_append, run_snoc]
      refine hs xs e _ _ _ _ rfl (ih xs (by simpa using h)) rfl (step_shape _ e)

@[simp] theorem submitted_append (xs ys : List Event) : submitted (xs ++ ys) = submitted xs ++ submitted ys := by
  simp [submitted]

@[simp] theorem answered_append (xs ys : List Action) : answered (xs ++ ys) = answered xs ++ answered ys := by
  simp [answered]

@[simp] theorem sentFor_append (c : Chan) (xs ys : List Action) : sentFor c (xs ++ ys) = sentFor c xs ++ sentFor c ys := by
  simp [sentFor]

@[simp] theorem faults_append (xs ys : List Event) : faults (xs ++ ys) = faults xs + faults ys := by
  simp [faults]

theorem submitted_other (e : Event) (h : ∀ c r, e ≠ .submit c r) : submitted [e] = [] := by
  cases e <;> first | rfl | exact absurd rfl (h _ _)

theorem answered_none {acts : List Action} (h : ∀ a ∈ acts, concerns a = none) : answered acts = [] := by
  unfold answered
  rw [List.filterMap_eq_nil_iff]
  intro a ha
  have := h a ha
  cases a <;> simp_all [concerns]

theorem sentFor_none {acts : List Action} (c : Chan) (h : ∀ a ∈ acts, concerns a = none) : sentFor c acts = [] := by
  unfold sentFor
  rw [List.filterMap_eq_nil_iff]
  intro a ha
  have := h a ha
  cases a <;> simp_all [concerns]

@[simp] theorem answered_answer (c : Chan) (a : Answer) : answered [.answer c a] = [c] := rfl
@[simp] theorem answered_send (c : Chan) (p : Bytes) : answered [.sendRequest c p] = [] := rfl
@[simp] theorem answered_nil : answered [] = [] := rfl
@[simp] theorem sentFor_nil (c : Chan) : sentFor c [] = [] := rfl
@[simp] theorem sentFor_answer (c c' : Chan) (a : Answer) : sentFor c [.answer c' a] = [] := rfl
@[simp] theorem sentFor_send (c c' : Chan) (p : Bytes) :
    sentFor c [.sendRequest c' p] = if c' = c then [p] else [] := by
  by_cases h : c' = c <;> simp [sentFor, h]

/-- Order, provenance and retry count. -/
structure OrderInv (lim : Option Nat) (evs : List Event) (s : IoState) (acts : List Action) : Prop where
  limit : s.limit = lim.getD usizeMax
  pre : answered acts <+: submitted evs
  order : s.status = .running →
    submitted evs = answered acts ++ (s.outstanding.toList.map (·.chan) ++ s.queue.map (·.1))
  queued : s.status = .running → ∀ p ∈ s.queue, Event.submit p.1 p.2 ∈ evs
  out : s.status = .running → ∀ o, s.outstanding = some o → Event.submit o.chan o.request ∈ evs
  serial : ∀ p a q, acts = p ++ a :: q → ∀ c, concerns a = some c → (submitted evs)[(answered p).length]? = some c
  retries : s.status = .running → ∀ o, s.outstanding = some o → 1 ≤ o.nRetries ∧ o.nRetries ≤ max 1 s.limit

theorem serial_mono {xs ys : List Chan} {acts : List Action}
    (h : ∀ p a q, acts = p ++ a :: q → ∀ c, concerns a = some c → xs[(answered p).length]? = some c) :
    ∀ p a q, acts = p ++ a :: q → ∀ c, concerns a = some c → (xs ++ ys)[(answered p).length]? = some c := by
  intro p a q he c hc
  have := h p a q he c hc
  have hl := (List.getElem?_eq_some_iff.mp this).1
  rw [List.getElem?_append_left hl]; exact this

theorem serial_append {xs : List Chan} {acts new : List Action}
    (h : ∀ p a q, acts = p ++ a :: q → ∀ c, concerns a = some c → xs[(answered p).length]? = some c)
    (hn : ∀ p a q, new = p ++ a :: q → ∀ c, concerns a = some c →
      xs[(answered acts).length + (answered p).length]? = some c) :
    ∀ p a q, acts ++ new = p ++ a :: q → ∀ c, concerns a = some c → xs[(answered p).length]? = some c := by
  intro p a q he c hc
  rcases List.append_eq_append_iff.mp he with ⟨p', hp, hnew⟩ | ⟨q', hact, hq⟩
  · subst hp
    rw [answered_append, List.length_append]
    exact hn p' a q hnew c hc
  · cases q' with
    | nil =>
      simp only [List.append_nil] at hact
      subst hact
      have := hn [] a q (by simpa using hq.symm) c hc
      simpa using this
    | cons b q' =>
      simp only [List.cons_append, List.cons.injEq] at hq
      obtain ⟨rfl, _⟩ := hq
      exact h p a q' hact c hc

theorem serial_none {xs : List Chan} {acts new : List Action}
    (h : ∀ p a q, acts = p ++ a :: q → ∀ c, concerns a = some c → xs[(answered p).length]? = some c)
    (hn : ∀ a ∈ new, concerns a = none) :
    ∀ p a q, acts ++ new = p ++ a :: q → ∀ c, concerns a = some c → xs[(answered p).length]? = some c := by
  refine serial_append h ?_
  intro p a q he c hc
  have := hn a (by rw [he]; simp)
  rw [this] at hc; cases hc

theorem serial_one {xs : List Chan} {acts : List Action} {x : Action}
    (h : ∀ p a q, acts = p ++ a :: q → ∀ c, concerns a = some c → xs[(answered p).length]? = some c)
    (hx : ∀ c, concerns x = some c → xs[(answered acts).length]? = some c) :
    ∀ p a q, acts ++ [x] = p ++ a :: q → ∀ c, concerns a = some c → xs[(answered p).length]? = some c := by
  refine serial_append h ?_
  intro p a q he c hc
  cases p with
  | nil =>
    simp only [List.nil_append, List.cons.injEq] at he
    obtain ⟨rfl, _⟩ := he
    simpa using hx c hc
  | cons b p => simp at he

theorem order_inv (lim : Option Nat) (evs : List Event) :
    OrderInv lim evs ((init lim).run evs).1 ((init lim).run evs).2 := by
  refine hist_induction (P := OrderInv lim) ?_ ?_ evs
  · constructor <;> simp [init, submitted, answered]
  · intro evs e s acts s' new _ inv _ sh
    cases sh with
    | submit c r =>
      have hsub : submitted [Event.submit c r] = [c] := rfl
      refine ⟨inv.limit, ?_, ?_, ?_, ?_, ?_, inv.retries⟩
      · rw [List.append_nil, submitted_append]; exact inv.pre.trans (List.prefix_append _ _)
      · intro h; rw [submitted_append, inv.order h]; simp [hsub]
      · intro h p hp
        simp only [List.mem_append, List.mem_singleton] at hp
        rcases hp with hp | hp
        · exact List.mem_append_left _ (inv.queued h p hp)
        · subst hp; simp
      · intro h o ho; exact List.mem_append_left _ (inv.out h o ho)
      · rw [List.append_nil, submitted_append]; exact serial_mono inv.serial
    | env _ _ h1 h2 h3 h4 hl ho hq hst =>
      have hsub := submitted_other e h1
      simp only [List.append_nil]
      refine ⟨hl.trans inv.limit, ?_, ?_, ?_, ?_, ?_, ?_⟩
      · rw [submitted_append, hsub, List.append_nil]; exact inv.pre
      · intro h; rw [submitted_append, hsub, List.append_nil, ho, hq]; exact inv.order (hst ▸ h)
      · intro h p hp; exact List.mem_append_left _ (inv.queued (hst ▸ h) p (hq ▸ hp))
      · intro h o hoo; exact List.mem_append_left _ (inv.out (hst ▸ h) o (ho ▸ hoo))
      · rw [submitted_append, hsub, List.append_nil]; exact inv.serial
      · intro h o hoo; rw [hl]; exact inv.retries (hst ▸ h) o (ho ▸ hoo)
    | dead _ _ h1 hst hl =>
      have hsub := submitted_other e h1
      simp only [List.append_nil]
      refine ⟨hl.trans inv.limit, ?_, fun h => absurd h hst, fun h => absurd h hst, fun h => absurd h hst, ?_,
        fun h => absurd h hst⟩
      · rw [submitted_append, hsub, List.append_nil]; exact inv.pre
      · rw [submitted_append, hsub, List.append_nil]; exact inv.serial
    | quiet _ _ hr h1 h2 h4 =>
      have hsub := submitted_other e h1
      have hans := answered_none h4
      refine ⟨inv.limit, ?_, ?_, ?_, ?_, ?_, ?_⟩
      · rw [submitted_append, hsub, List.append_nil, answered_append, hans, List.append_nil]; exact inv.pre
      · intro h; rw [submitted_append, hsub, List.append_nil, answered_append, hans, List.append_nil, inv.order hr]
        cases s.outstanding <;> simp
      · intro h p hp; exact List.mem_append_left _ (inv.queued hr p hp)
      · intro h o ho
        simp only [Option.map_eq_some_iff] at ho
        obtain ⟨o', ho', rfl⟩ := ho
        exact List.mem_append_left _ (inv.out hr o' ho')
      · rw [submitted_append, hsub, List.append_nil]; exact serial_none inv.serial h4
      · intro h o ho
        simp only [Option.map_eq_some_iff] at ho
        obtain ⟨o', ho', rfl⟩ := ho
        exact inv.retries hr o' ho'
    | start c r q hr ho hq =>
      have hsub : submitted [Event.accept true] = [] := rfl
      have hord := inv.order hr
      rw [ho, hq] at hord
      refine ⟨inv.limit, ?_, ?_, ?_, ?_, ?_, ?_⟩
      · rw [submitted_append, hsub, List.append_nil, answered_append]; simpa using inv.pre
      · intro _; rw [submitted_append, hsub, List.append_nil, hord]; simp
      · intro _ p hp; exact List.mem_append_left _ (inv.queued hr p (by rw [hq]; exact List.mem_cons_of_mem _ hp))
      · intro _ o hoo
        simp only [Option.some.injEq] at hoo; subst hoo
        exact List.mem_append_left _ (inv.queued hr (c, r) (by rw [hq]; exact List.mem_cons_self))
      · rw [submitted_append, hsub, List.append_nil]
        refine serial_one inv.serial ?_
        intro c' hc'
        simp only [concerns, Option.some.injEq] at hc'; subst hc'
        rw [hord]; simp
      · intro _ o hoo
        simp only [Option.some.injEq] at hoo; subst hoo
        exact ⟨Nat.le_refl _, Nat.le_max_left _ _⟩
    | startFail c r q hr ho hq =>
      have hsub : submitted [Event.accept false] = [] := rfl
      have hord := inv.order hr
      rw [ho, hq] at hord
      have hord' : submitted evs = answered acts ++ [c] ++ q.map (·.1) := by rw [hord]; simp
      refine ⟨inv.limit, ?_, ?_, ?_, ?_, ?_, ?_⟩
      · rw [submitted_append, hsub, List.append_nil, answered_append, hord']; exact List.prefix_append _ _
      · intro _; rw [submitted_append, hsub, List.append_nil, hord']; simp
      · intro _ p hp; exact List.mem_append_left _ (inv.queued hr p (by rw [hq]; exact List.mem_cons_of_mem _ hp))
      · intro _ o hoo; cases hoo
      · rw [submitted_append, hsub, List.append_nil]
        refine serial_one inv.serial ?_
        intro c' hc'
        simp only [concerns, Option.some.injEq] at hc'; subst hc'
        rw [hord]; simp
      · intro _ o hoo; cases hoo
    | resend o hr ho hl he =>
      have hsub : submitted [Event.tick true] = [] := rfl
      have hord := inv.order hr
      rw [ho] at hord
      refine ⟨inv.limit, ?_, ?_, ?_, ?_, ?_, ?_⟩
      · rw [submitted_append, hsub, List.append_nil, answered_append]; simpa using inv.pre
      · intro _; rw [submitted_append, hsub, List.append_nil, hord]; simp
      · intro _ p hp; exact List.mem_append_left _ (inv.queued hr p hp)
      · intro _ o' hoo
        simp only [Option.some.injEq] at hoo; subst hoo
        exact List.mem_append_left _ (inv.out hr o ho)
      · rw [submitted_append, hsub, List.append_nil]
        refine serial_one inv.serial ?_
        intro c' hc'
        simp only [concerns, Option.some.injEq] at hc'; subst hc'
        rw [hord]; simp
      · intro _ o' hoo
        simp only [Option.some.injEq] at hoo; subst hoo
        dsimp only
        omega
    | reply o _ a hr ho hre h1 =>
      have hsub := submitted_other e h1
      have hord := inv.order hr
      rw [ho] at hord
      have hord' : submitted evs = answered acts ++ [o.chan] ++ s.queue.map (·.1) := by rw [hord]; simp
      refine ⟨inv.limit, ?_, ?_, ?_, ?_, ?_, ?_⟩
      · rw [submitted_append, hsub, List.append_nil, answered_append, hord']; exact List.prefix_append _ _
      · intro _; rw [submitted_append, hsub, List.append_nil, hord']; simp
      · intro _ p hp; exact List.mem_append_left _ (inv.queued hr p hp)
      · intro _ o hoo; cases hoo
      · rw [submitted_append, hsub, List.append_nil]
        refine serial_one inv.serial ?_
        intro c' hc'
        simp only [concerns, Option.some.injEq] at hc'; subst hc'
        rw [hord]; simp
      · intro _ o hoo; cases hoo

/-- What has been transmitted, when callers are distinct. -/
structure SentInv (lim : Option Nat) (evs : List Event) (s : IoState) (acts : List Action) : Prop where
  out : s.status = .running → ∀ o, s.outstanding = some o →
    sentFor o.chan acts = List.replicate o.nRetries (requestPacket o.request)
  queued : s.status = .running → ∀ p ∈ s.queue, sentFor p.1 acts = []
  known : ∀ c, sentFor c acts ≠ [] → c ∈ submitted evs
  all : ∀ c, sentFor c acts ≠ [] → ∃ n r, Event.submit c r ∈ evs ∧ sentFor c acts = List.replicate n (requestPacket r) ∧
    n ≤ max 1 (lim.getD usizeMax)

theorem sent_inv (lim : Option Nat) (evs : List Event) :
    (submitted evs).Nodup → SentInv lim evs ((init lim).run evs).1 ((init lim).run evs).2 := by
  refine hist_induction (P := fun evs s acts => (submitted evs).Nodup → SentInv lim evs s acts) ?_ ?_ evs
  · intro _; constructor <;> simp [init]
  · intro evs e s acts s' new hrun inv' _ sh hnd
    have hnd' : (submitted evs).Nodup := by
      rw [submitted_append] at hnd; exact (List.nodup_append.mp hnd).1
    have inv := inv' hnd'
    have ord : OrderInv lim evs s acts := by have := order_inv lim evs; rwa [hrun] at this
    have keepAll : ∀ new : List Action, (∀ c, sentFor c new = []) →
        (∀ c, sentFor c (acts ++ new) ≠ [] → c ∈ submitted (evs ++ [e])) ∧
        (∀ c, sentFor c (acts ++ new) ≠ [] → ∃ n r, Event.submit c r ∈ evs ++ [e] ∧
          sentFor c (acts ++ new) = List.replicate n (requestPacket r) ∧ n ≤ max 1 (lim.getD usizeMax)) := by
      intro new hn
      constructor
      · intro c hc
        rw [sentFor_append, hn, List.append_nil] at hc
        rw [submitted_append]; exact List.mem_append_left _ (inv.known c hc)
      · intro c hc
        rw [sentFor_append, hn, List.append_nil] at hc ⊢
        obtain ⟨n, r, h1, h2, h3⟩ := inv.all c hc
        exact ⟨n, r, List.mem_append_left _ h1, h2, h3⟩
    cases sh with
    | submit c r =>
      obtain ⟨k1, k2⟩ := keepAll [] (fun _ => rfl)
      refine ⟨?_, ?_, k1, k2⟩
      · intro h o ho; rw [List.append_nil]; exact inv.out h o ho
      · intro h p hp
        rw [List.append_nil]
        simp only [List.mem_append, List.mem_singleton] at hp
        rcases hp with hp | hp
        · exact inv.queued h p hp
        · subst hp
          have hsub : submitted [Event.submit c r] = [c] := rfl
          rw [submitted_append, hsub, List.nodup_append] at hnd
          have hc : c ∉ submitted evs := fun hc => hnd.2.2 c hc c (by simp) rfl
          exact Classical.byContradiction fun hne => hc (inv.known c hne)
    | env _ _ h1 h2 h3 h4 hl ho hq hst =>
      obtain ⟨k1, k2⟩ := keepAll [] (fun _ => rfl)
      refine ⟨?_, ?_, k1, k2⟩
      · intro h o hoo; rw [List.append_nil]; exact inv.out (hst ▸ h) o (ho ▸ hoo)
      · intro h p hp; rw [List.append_nil]; exact inv.queued (hst ▸ h) p (hq ▸ hp)
    | dead _ _ h1 hst hl =>
      obtain ⟨k1, k2⟩ := keepAll [] (fun _ => rfl)
      exact ⟨fun h => absurd h hst, fun h => absurd h hst, k1, k2⟩
    | quiet _ _ hr h1 h2 h4 =>
      obtain ⟨k1, k2⟩ := keepAll new (fun c => sentFor_none c h4)
      refine ⟨?_, ?_, k1, k2⟩
      · intro h o ho
        simp only [Option.map_eq_some_iff] at ho
        obtain ⟨o', ho', rfl⟩ := ho
        rw [sentFor_append, sentFor_none _ h4, List.append_nil]; exact inv.out hr o' ho'
      · intro h p hp; rw [sentFor_append, sentFor_none _ h4, List.append_nil]; exact inv.queued hr p hp
    | start c r q hr ho hq =>
      have hord := ord.order hr
      rw [ho, hq] at hord
      have h0 : sentFor c acts = [] := inv.queued hr (c, r) (by rw [hq]; exact List.mem_cons_self)
      have hmem : Event.submit c r ∈ evs := ord.queued hr (c, r) (by rw [hq]; exact List.mem_cons_self)
      have hne : ∀ p ∈ q, c ≠ p.1 := by
        intro p hp he
        rw [hord] at hnd'
        simp only [Option.toList_none, List.map_nil, List.nil_append, List.map_cons] at hnd'
        have := (List.nodup_cons.mp (List.nodup_append.mp hnd').2.1).1
        exact this (he ▸ List.mem_map_of_mem hp)
      refine ⟨?_, ?_, ?_, ?_⟩
      · intro _ o hoo
        simp only [Option.some.injEq] at hoo; subst hoo
        simp [h0]
      · intro _ p hp
        simp only [sentFor_append, sentFor_send, if_neg (hne p hp), List.append_nil]
        exact inv.queued hr p (by rw [hq]; exact List.mem_cons_of_mem _ hp)
      · intro c' hc'
        rw [submitted_append]
        apply List.mem_append_left
        by_cases h : c = c'
        · subst h; rw [hord]; simp
        · simp only [sentFor_append, sentFor_send, if_neg h, List.append_nil] at hc'
          exact inv.known c' hc'
      · intro c' hc'
        by_cases h : c = c'
        · subst h
          exact ⟨1, r, List.mem_append_left _ hmem, by simp [h0], Nat.le_max_left _ _⟩
        · simp only [sentFor_append, sentFor_send, if_neg h, List.append_nil] at hc' ⊢
          obtain ⟨n, r, h1, h2, h3⟩ := inv.all c' hc'
          exact ⟨n, r, List.mem_append_left _ h1, h2, h3⟩
    | startFail c r q hr ho hq =>
      obtain ⟨k1, k2⟩ := keepAll [.answer c (.error .io)] (fun _ => rfl)
      refine ⟨fun _ o hoo => (by cases hoo), ?_, k1, k2⟩
      intro _ p hp
      simp only [sentFor_append, sentFor_answer, List.append_nil]
      exact inv.queued hr p (by rw [hq]; exact List.mem_cons_of_mem _ hp)
    | resend o hr ho hl he =>
      have hord := ord.order hr
      rw [ho] at hord
      have hout := inv.out hr o ho
      have hmem := ord.out hr o ho
      have hret := ord.retries hr o ho
      have hlim := ord.limit
      have hne : ∀ p ∈ s.queue, o.chan ≠ p.1 := by
        intro p hp he
        rw [hord] at hnd'
        simp only [Option.toList_some, List.map_cons, List.map_nil, List.cons_append, List.nil_append] at hnd'
        have := (List.nodup_cons.mp (List.nodup_append.mp hnd').2.1).1
        exact this (he ▸ List.mem_map_of_mem hp)
      refine ⟨?_, ?_, ?_, ?_⟩
      · intro _ o' hoo
        simp only [Option.some.injEq] at hoo; subst hoo
        simp [hout, List.replicate_succ']
      · intro _ p hp
        simp only [sentFor_append, sentFor_send, if_neg (hne p hp), List.append_nil]
        exact inv.queued hr p hp
      · intro c' hc'
        rw [submitted_append]
        apply List.mem_append_left
        by_cases h : o.chan = c'
        · subst h; rw [hord]; simp
        · simp only [sentFor_append, sentFor_send, if_neg h, List.append_nil] at hc'
          exact inv.known c' hc'
      · intro c' hc'
        by_cases h : o.chan = c'
        · subst h
          refine ⟨o.nRetries + 1, o.request, List.mem_append_left _ hmem, by simp [hout, List.replicate_succ'], ?_⟩
          rw [← hlim]; omega
        · simp only [sentFor_append, sentFor_send, if_neg h, List.append_nil] at hc' ⊢
          obtain ⟨n, r, h1, h2, h3⟩ := inv.all c' hc'
          exact ⟨n, r, List.mem_append_left _ h1, h2, h3⟩
    | reply o _ a hr ho hre h1 =>
      obtain ⟨k1, k2⟩ := keepAll [.answer o.chan a] (fun _ => rfl)
      refine ⟨fun _ o hoo => (by cases hoo), ?_, k1, k2⟩
      intro _ p hp
      simp only [sentFor_append, sentFor_answer, List.append_nil]
      exact inv.queued hr p hp

/-- When the outstanding request was accepted, and what has been counted against it since. -/
def SinceAccept (lim : Option Nat) (evs : List Event) (o : Outstanding) (acts : List Action) : Prop :=
  ∃ pre post, evs = pre ++ .accept true :: post ∧ ((init lim).run pre).1.status = .running ∧
    ((init lim).run pre).1.outstanding = none ∧
    ((init lim).run pre).1.queue.head? = some (o.chan, o.request) ∧
    o.nErrorMessages = faults post ∧ answered acts = answered ((init lim).run pre).2

theorem since_accept (lim : Option Nat) (evs : List Event) :
    ((init lim).run evs).1.status = .running → ∀ o, ((init lim).run evs).1.outstanding = some o →
      SinceAccept lim evs o ((init lim).run evs).2 := by
  refine hist_induction (P := fun evs s acts => s.status = .running → ∀ o, s.outstanding = some o →
    SinceAccept lim evs o acts) ?_ ?_ evs
  · intro _ o h; cases h
  · intro evs e s acts s' new hrun inv _ sh hst o' ho'
    have extend : ∀ (o o' : Outstanding) (new : List Action), s.outstanding = some o → s.status = .running →
        o'.chan = o.chan → o'.request = o.request → o'.nErrorMessages = o.nErrorMessages + faults [e] →
        answered new = [] → SinceAccept lim (evs ++ [e]) o' (acts ++ new) := by
      intro o o' new ho hr hc hq hn ha
      obtain ⟨pre, post, rfl, h1, h2, h3, h4, h5⟩ := inv hr o ho
      refine ⟨pre, post ++ [e], by simp, h1, h2, by rw [hc, hq]; exact h3, ?_, ?_⟩
      · rw [hn, h4, faults_append]
      · rw [answered_append, ha, List.append_nil, h5]
    cases sh with
    | submit c r => exact extend o' o' [] ho' hst rfl rfl rfl rfl
    | env _ _ h1 h2 h3 h4 hl ho hq hs =>
      refine extend o' o' [] (ho ▸ ho') (hs ▸ hst) rfl rfl ?_ rfl
      simp [faults, h2]
    | dead _ _ h1 hs hl => exact absurd hst hs
    | quiet _ _ hr h1 h2 h4 =>
      simp only [Option.map_eq_some_iff] at ho'
      obtain ⟨o, ho, rfl⟩ := ho'
      refine extend o _ new ho hr rfl rfl ?_ (answered_none h4)
      simp [faults, List.countP_cons]
    | start c r q hr ho hq =>
      simp only [Option.some.injEq] at ho'; subst ho'
      refine ⟨evs, [], rfl, ?_, ?_, ?_, rfl, ?_⟩
      · rw [hrun]; exact hr
      · rw [hrun]; exact ho
      · rw [hrun]; simp [hq]
      · rw [hrun]; simp
    | startFail c r q hr ho hq => cases ho'
    | resend o hr ho hl he =>
      simp only [Option.some.injEq] at ho'; subst ho'
      exact extend o _ _ ho hr rfl rfl rfl rfl
    | reply o _ a hr ho hre h1 => cases ho'

/-- Once dead, a loop stays dead. -/
theorem step_running {s : IoState} {e : Event} (h : (s.step e).1.status = .running) : s.status = .running := by
  have sh := step_shape s e
  generalize hs : (s.step e).1 = s' at *
  generalize (s.step e).2 = new at *
  cases sh with
  | submit c r => exact h
  | env _ _ _ _ _ _ _ _ _ hst => exact hst ▸ h
  | dead _ _ _ hst => exact absurd h hst
  | quiet _ _ hr => exact hr
  | start _ _ _ hr => exact hr
  | startFail _ _ _ hr => exact hr
  | resend _ hr => exact hr
  | reply _ _ _ hr => exact hr

theorem run_running {s : IoState} {evs : List Event} (h : (s.run evs).1.status = .running) : s.status = .running := by
  induction evs generalizing s with
  | nil => exact h
  | cons e es ih => exact step_running (ih h)

/-- Ticks use up the retries of an outstanding request. -/
theorem ticks_answer (evs : List Event) : ∀ (s : IoState) (o : Outstanding), s.outstanding = some o →
    1 ≤ o.nRetries → (s.run evs).1.status = .running → max 1 s.limit < o.nRetries + ticks evs →
    o.nRetries ≤ max 1 s.limit → o.chan ∈ answered (s.run evs).2 := by
  induction evs with
  | nil => intro s o ho h1 hst hlt hle; simp [ticks] at hlt; omega
  | cons e es ih =>
    intro s o ho h1 hst hlt hle
    have hcons : s.run (e :: es) = (((s.step e).1.run es).1, (s.step e).2 ++ ((s.step e).1.run es).2) := rfl
    rw [hcons] at hst ⊢
    dsimp only at hst ⊢
    have hst1 := run_running hst
    have sh := step_shape s e
    have ht : ticks (e :: es) = ticks es + ticks [e] := by simp [ticks, List.countP_cons]
    rw [answered_append]
    generalize hs : (s.step e).1 = s' at *
    generalize (s.step e).2 = new at *
    cases sh with
    | submit c r => 
      apply List.mem_append_right
      refine ih _ o ho h1 hst ?_ hle
      rw [ht] at hlt; simpa [ticks] using hlt
    | env _ _ _ h2 h3 h4 hl hoo _ _ =>
      apply List.mem_append_right
      refine ih _ o (hoo ▸ ho) h1 hst ?_ (hl ▸ hle)
      have : ticks [e] = 0 := by cases e <;> first | rfl | exact absurd rfl (h3 _)
      rw [ht, this] at hlt; rw [hl]; exact hlt
    | dead _ _ _ hd => exact absurd hst1 hd
    | quiet _ _ hr h2 h3 =>
      apply List.mem_append_right
      refine ih _ { o with nErrorMessages := o.nErrorMessages + (if faulty e then 1 else 0) } (by simp [ho]) h1 hst ?_ hle
      have : ticks [e] = 0 := by
        cases e <;> first | rfl | exact absurd (h3 _ rfl) (by rw [ho]; simp)
      rw [ht, this] at hlt; exact hlt
    | start c r q hr hn => rw [ho] at hn; cases hn
    | startFail c r q hr hn => rw [ho] at hn; cases hn
    | resend o' hr ho' hl he =>
      rw [ho] at ho'; cases ho'
      apply List.mem_append_right
      refine ih _ { o with nRetries := o.nRetries + 1 } rfl (by simp) hst ?_ ?_
      · have : ticks [Event.tick true] = 1 := rfl
        rw [ht, this] at hlt; dsimp only; omega
      · dsimp only; omega
    | reply o' _ a hr ho' =>
      rw [ho] at ho'; cases ho'
      exact List.mem_append_left _ (by simp)

end Xcvr
