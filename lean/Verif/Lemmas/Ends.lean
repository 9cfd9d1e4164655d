import Verif.Spec.Ends
import Verif.Lemmas.System
import Verif.Lemmas.Bounds

/-! # Lemmas: the work left to do shrinks -/

namespace Xcvr

open Spec Prog IoState Sys

variable {α : Type}

/-! ## Programs -/

theorem prog_ends (p : Prog α) : ∃ t o, Runs p t o := by
  induction p with
  | ret a => exact ⟨[], _, runs_ret.2 ⟨rfl, rfl⟩⟩
  | fail e => exact ⟨[], _, runs_fail.2 ⟨rfl, rfl⟩⟩
  | panic => exact ⟨[], _, runs_panic.2 ⟨rfl, rfl⟩⟩
  | rpc c k ih =>
    obtain ⟨t, o, h⟩ := ih .gone
    exact ⟨(c, .gone) :: t, o, rfl, h⟩

theorem atMost_next {n : Nat} {c : Call} {k : Reply → Prog α} (h : AtMost n (.rpc c k)) (r : Reply) :
    1 ≤ n ∧ AtMost (n - 1) (k r) := by
  constructor
  · obtain ⟨t, o, hr⟩ := prog_ends (k r)
    have := h ((c, r) :: t) o ⟨rfl, hr⟩
    rw [List.length_cons] at this
    omega
  · intro t o hr
    have := h ((c, r) :: t) o ⟨rfl, hr⟩
    rw [List.length_cons] at this
    omega

/-! ## The loop -/

/-- Steps the loop has still to make for the requests it has. -/
def ioCost (L : Nat) (s : IoState) : Nat :=
  if s.status = .running then
    s.queue.length * (1 + L) + (match s.outstanding with
      | some o => L + 1 - o.nRetries
      | none => 0)
  else 0

/-- The retry count is within the limit. -/
structure Limited (L : Nat) (s : IoState) : Prop where
  limit : max 1 s.limit = L
  retries : s.status = .running → ∀ o, s.outstanding = some o → o.nRetries ≤ L

theorem ioCost_dead {L : Nat} {s : IoState} (h : s.status ≠ .running) : ioCost L s = 0 := if_neg h

theorem limited_shape {L : Nat} {s s' : IoState} {e : Event} {acts : List Action} (hl : Limited L s) (h : Shape s e s' acts) :
    Limited L s' := by
  cases h with
  | submit c r => exact ⟨hl.limit, hl.retries⟩
  | env e s' _ _ _ _ h1 h2 _ h3 => exact ⟨by rw [h1]; exact hl.limit, fun hr o ho => hl.retries (h3 ▸ hr) o (h2 ▸ ho)⟩
  | dead e s' _ h1 h2 => exact ⟨by rw [h2]; exact hl.limit, fun hr => absurd hr h1⟩
  | quiet e acts hr _ _ _ =>
    refine ⟨hl.limit, fun _ o ho => ?_⟩
    dsimp only at ho
    obtain ⟨o', ho', rfl⟩ := Option.map_eq_some_iff.1 ho
    exact hl.retries hr o' ho'
  | start c r q hr ho hq =>
    refine ⟨hl.limit, fun _ o h => ?_⟩
    cases h
    have := hl.limit
    show 1 ≤ L
    omega
  | startFail c r q hr ho hq => exact ⟨hl.limit, fun _ o h => by cases h⟩
  | resend o hr ho h1 h2 =>
    refine ⟨hl.limit, fun _ o' h => ?_⟩
    cases h
    have := hl.limit
    show o.nRetries + 1 ≤ L
    omega
  | reply o e a hr ho _ _ => exact ⟨hl.limit, fun _ o h => by cases h⟩

/-- No event but a new request makes more work for the loop. -/
theorem ioCost_shape {L : Nat} {s s' : IoState} {e : Event} {acts : List Action} (hl : Limited L s) (h : Shape s e s' acts)
    (hs : ∀ c r, e ≠ .submit c r) : ioCost L s' ≤ ioCost L s := by
  cases h with
  | submit c r => exact absurd rfl (hs c r)
  | env e s' _ _ _ _ h1 h2 h4 h3 => simp only [ioCost, h2, h4, h3]; exact Nat.le_refl _
  | dead e s' _ h1 h2 => rw [ioCost_dead h1]; exact Nat.zero_le _
  | quiet e acts hr _ _ _ =>
    simp only [ioCost, hr, if_true]
    cases s.outstanding <;> exact Nat.le_refl _
  | start c r q hr ho hq =>
    simp only [ioCost, hr, if_true, ho, hq, List.length_cons, Nat.add_mul]
    omega
  | startFail c r q hr ho hq =>
    simp only [ioCost, hr, if_true, ho, hq, List.length_cons, Nat.add_mul]
    omega
  | resend o hr ho h1 h2 =>
    simp only [ioCost, hr, if_true, ho]
    omega
  | reply o e a hr ho _ _ =>
    simp only [ioCost, hr, if_true, ho]
    omega

theorem ioCost_submit {L : Nat} (s : IoState) (c : Chan) (r : HostRpcRequest) :
    ioCost L (s.step (.submit c r)).1 ≤ ioCost L s + (1 + L) := by
  unfold ioCost
  simp only [IoState.step, List.length_append, List.length_singleton, Nat.add_mul, Nat.one_mul]
  split <;> omega

/-- An effective tick is one step less. -/
theorem ioCost_tick {L : Nat} {s : IoState} (hl : Limited L s) (ok : Bool) (hr : s.status = .running) {o : Outstanding}
    (ho : s.outstanding = some o) : ioCost L (s.step (.tick ok)).1 + 1 ≤ ioCost L s := by
  have hn := hl.retries hr o ho
  have hle := hl.limit
  have : 1 ≤ ioCost L s := by
    simp only [ioCost, hr, if_true, ho]
    omega
  have sh := step_shape s (.tick ok)
  generalize hs : s.step (.tick ok) = r at sh ⊢
  obtain ⟨s', acts⟩ := r
  dsimp only at sh ⊢
  cases sh with
  | env e s' _ _ h => exact absurd rfl (h ok)
  | dead e s' _ h1 h2 => rw [ioCost_dead h1]; omega
  | quiet e acts hr _ h _ => rw [h ok rfl] at ho; cases ho
  | resend o' hr ho' h1 h2 =>
    rw [ho] at ho'
    cases ho'
    simp only [ioCost, hr, if_true, ho]
    omega
  | reply o' e a hr ho' _ _ =>
    rw [ho] at ho'
    cases ho'
    simp only [ioCost, hr, if_true, ho]
    omega

theorem ioCost_accept {L : Nat} {s : IoState} (hl : Limited L s) (ok : Bool) (hr : s.status = .running)
    (ho : s.outstanding = none) {p : Chan × HostRpcRequest} {q : List (Chan × HostRpcRequest)} (hq : s.queue = p :: q) :
    ioCost L (s.step (.accept ok)).1 + 1 ≤ ioCost L s := by
  have hle := hl.limit
  have h1 : ioCost L s = q.length * (1 + L) + (1 + L) := by
    simp only [ioCost, hr, if_true, ho, hq, List.length_cons, Nat.add_mul]
    omega
  have key : ∀ s' : IoState, s'.queue = q → (∀ o, s'.outstanding = some o → o.nRetries = 1) →
      ioCost L s' + 1 ≤ ioCost L s := by
    intro s' h2 h3
    rw [h1]
    unfold ioCost
    split
    · rw [h2]
      cases h4 : s'.outstanding with
      | none => dsimp only; omega
      | some o => dsimp only; rw [h3 o h4]; omega
    · omega
  obtain ⟨c, r⟩ := p
  simp only [IoState.step, hr, ne_eq, not_true_eq_false, if_false, handleAccept, ho, hq, sendOutgoingRequest]
  split
  · rw [ioCost_dead (by simp [die]), h1]
    omega
  · split
    · exact key _ rfl (fun o h => by cases h; rfl)
    · unfold answerOutstanding
      dsimp only
      split
      · exact key _ rfl (fun o h => by simp [die] at h)
      · exact key _ rfl (fun o h => by cases h)

/-! ## The system -/

/-- Steps left for a task that makes at most `r` more calls, apart from those of the loop for it. -/
def taskCost (L r : Nat) (tk : Task α) : Nat :=
  match tk.phase with
  | .ready => r * (4 + L)
  | .numbered _ => r * (4 + L) - 1
  | .waiting .. => (r - 1) * (4 + L) + 1
  | .cancelled => 0

/-- Steps left. -/
def sysCost (L : Nat) (rs : List Nat) (s : Sys α) : Nat := (List.zipWith (taskCost L) rs s.tasks).sum + ioCost L s.io

/-- Every task makes at most so many more calls. -/
structure Budget (L : Nat) (rs : List Nat) (s : Sys α) : Prop where
  io : Limited L s.io
  tasks : Pairs (fun r tk => AtMost r tk.prog) rs (s.tasks)

theorem pairs_get {β γ : Type} {R : β → γ → Prop} {l : List β} {l' : List γ} (h : Pairs R l l') {i : Nat} {b : γ}
    (hb : l'[i]? = some b) : ∃ a, l[i]? = some a ∧ R a b := by
  induction h generalizing i with
  | nil => simp at hb
  | cons hr _ ih =>
    cases i with
    | zero => simp only [List.getElem?_cons_zero, Option.some.injEq] at hb; subst hb; exact ⟨_, rfl, hr⟩
    | succ i => exact ih hb

theorem pairs_set {β γ : Type} {R : β → γ → Prop} {l : List β} {l' : List γ} (h : Pairs R l l') (i : Nat) {a : β} {b : γ}
    (hab : R a b) : Pairs R (l.set i a) (l'.set i b) := by
  induction h generalizing i with
  | nil => exact .nil
  | cons hr hp ih =>
    cases i with
    | zero => exact .cons hab hp
    | succ i => exact .cons hr (ih i)

theorem zipWith_set {β γ : Type} (f : β → γ → Nat) {l : List β} {l' : List γ} {i : Nat} {a a' : β} {b b' : γ}
    (ha : l[i]? = some a) (hb : l'[i]? = some b) :
    (List.zipWith f (l.set i a') (l'.set i b')).sum + f a b = (List.zipWith f l l').sum + f a' b' := by
  induction l generalizing l' i with
  | nil => simp at ha
  | cons x l ih =>
    cases l' with
    | nil => simp at hb
    | cons y l' =>
      cases i with
      | zero =>
        simp only [List.getElem?_cons_zero, Option.some.injEq] at ha hb
        subst ha; subst hb
        simp only [List.set_cons_zero, List.zipWith_cons_cons, List.sum_cons]
        omega
      | succ i =>
        have := ih (l' := l') (i := i) ha hb
        simp only [List.set_cons_succ, List.zipWith_cons_cons, List.sum_cons]
        omega

theorem runLoop_io (s : Sys α) (e : Event) : (s.runLoop e).io = (s.io.step e).1 := rfl
theorem runLoop_tasks (s : Sys α) (e : Event) : (s.runLoop e).tasks = s.tasks := rfl

theorem budget_loop {L : Nat} {rs : List Nat} {s : Sys α} (h : Budget L rs s) (e : Event) : Budget L rs (s.runLoop e) :=
  ⟨limited_shape h.io (step_shape _ _), h.tasks⟩

theorem sysCost_loop {L : Nat} {rs : List Nat} {s : Sys α} (h : Budget L rs s) (e : Event) (hs : ∀ c r, e ≠ .submit c r) :
    sysCost L rs (s.runLoop e) ≤ sysCost L rs s := by
  have := ioCost_shape h.io (step_shape s.io e) hs
  unfold sysCost
  rw [runLoop_io, runLoop_tasks]
  omega

/-- A step by the tool is one less to make, and no step makes for more. -/
theorem sysCost_step {L : Nat} {rs : List Nat} {s s' : Sys α} {e : SysEvent} (h : Budget L rs s) (hs : s.step e = some s') :
    ∃ rs', Budget L rs' s' ∧ sysCost L rs' s' + (if Works s e then 1 else 0) ≤ sysCost L rs s := by
  cases e with
  | number i =>
    simp only [Sys.step] at hs
    split at hs
    · rename_i c k past ht
      cases hs
      obtain ⟨r, h1, h2⟩ := pairs_get h.tasks ht
      have h3 := (atMost_next h2 .gone).1
      refine ⟨rs.set i r, ⟨h.io, pairs_set h.tasks i h2⟩, ?_⟩
      have := zipWith_set (taskCost L) (a' := r)
        (b' := (⟨.rpc c k, .numbered { header := (nextHeader s.counter c.kind).1, message := c.message, data := c.data },
          past⟩ : Task α)) h1 ht
      have hp : 1 ≤ r * (4 + L) := Nat.le_trans h3 (Nat.le_mul_of_pos_right _ (by omega))
      simp only [Works, if_true, sysCost]
      simp only [taskCost] at this ⊢
      omega
    · cases hs
  | submit i =>
    simp only [Sys.step] at hs
    split at hs
    · rename_i c k req past ht
      obtain ⟨r, h1, h2⟩ := pairs_get h.tasks ht
      have h3 := (atMost_next h2 .gone).1
      have hm : r * (4 + L) = (r - 1) * (4 + L) + (4 + L) := by
        rw [← Nat.succ_mul]
        congr 1
        omega
      split at hs
      · cases hs
        refine ⟨rs.set i r, ⟨(budget_loop h _).io, pairs_set h.tasks i h2⟩, ?_⟩
        have := zipWith_set (taskCost L) (a' := r) (b' := (⟨.rpc c k, .waiting s.nextChan req, past⟩ : Task α)) h1 ht
        have hi := ioCost_submit (L := L) s.io s.nextChan req
        simp only [Works, if_true, sysCost, runLoop_io]
        simp only [taskCost] at this ⊢
        omega
      · cases hs
        refine ⟨rs.set i (r - 1), ⟨h.io, pairs_set h.tasks i (atMost_next h2 _).2⟩, ?_⟩
        have := zipWith_set (taskCost L) (a' := r - 1) (b' := resume c k past .gone) h1 ht
        simp only [Works, if_true, sysCost]
        simp only [taskCost, resume] at this ⊢
        omega
    · cases hs
  | receive i =>
    simp only [Sys.step] at hs
    split at hs
    · rename_i c k chan req past ht
      obtain ⟨r, h1, h2⟩ := pairs_get h.tasks ht
      have key : ∀ rep, Budget L (rs.set i (r - 1)) { s with tasks := s.tasks.set i (resume c k past rep) } ∧
          sysCost L (rs.set i (r - 1)) { s with tasks := s.tasks.set i (resume c k past rep) } + 1 ≤ sysCost L rs s := by
        intro rep
        refine ⟨⟨h.io, pairs_set h.tasks i (atMost_next h2 _).2⟩, ?_⟩
        have := zipWith_set (taskCost L) (a' := r - 1) (b' := resume c k past rep) h1 ht
        simp only [sysCost]
        simp only [taskCost, resume] at this ⊢
        omega
      split at hs
      · cases hs
        exact ⟨_, (key _).1, (key _).2⟩
      · split at hs
        · cases hs
        · cases hs
          exact ⟨_, (key _).1, (key _).2⟩
    · cases hs
  | cancel i =>
    simp only [Sys.step] at hs
    split at hs
    · rename_i p chan req past ht
      cases hs
      obtain ⟨r, h1, h2⟩ := pairs_get h.tasks ht
      refine ⟨rs.set i r, ⟨(budget_loop h _).io, pairs_set h.tasks i h2⟩, ?_⟩
      have := zipWith_set (taskCost L) (a' := r) (b' := (⟨p, .cancelled, past⟩ : Task α)) h1 ht
      have hi := ioCost_shape h.io (step_shape s.io (.dropCaller chan)) (by simp)
      simp only [Works, Bool.false_eq_true, if_false, sysCost, runLoop_io]
      simp only [taskCost] at this ⊢
      omega
    · rename_i p ph past _ ht
      cases hs
      obtain ⟨r, h1, h2⟩ := pairs_get h.tasks ht
      refine ⟨rs.set i r, ⟨h.io, pairs_set h.tasks i h2⟩, ?_⟩
      have := zipWith_set (taskCost L) (a' := r) (b' := (⟨p, .cancelled, past⟩ : Task α)) h1 ht
      have hz : taskCost L r (⟨p, .cancelled, past⟩ : Task α) = 0 := rfl
      simp only [Works, Bool.false_eq_true, if_false, sysCost]
      omega
    · cases hs
  | sp received out =>
    simp only [Sys.step] at hs
    split at hs
    · cases hs; exact ⟨rs, ⟨h.io, h.tasks⟩, Nat.le_refl _⟩
    · cases hs
  | deliver src bytes ok =>
    simp only [Sys.step] at hs
    split at hs
    · cases hs; exact ⟨rs, budget_loop h _, sysCost_loop h _ (by simp)⟩
    · cases hs
  | noise src bytes ok =>
    simp only [Sys.step] at hs
    split at hs
    · cases hs
    · cases hs; exact ⟨rs, budget_loop h _, sysCost_loop h _ (by simp)⟩
  | loop e =>
    have quiet : (∀ c r, e ≠ .submit c r) → s.runLoop e = s' → (Works s (.loop e) = false) →
        ∃ rs', Budget L rs' s' ∧ sysCost L rs' s' + (if Works s (.loop e) then 1 else 0) ≤ sysCost L rs s := by
      rintro h1 rfl h2
      rw [h2]
      exact ⟨rs, budget_loop h _, sysCost_loop h _ h1⟩
    cases e with
    | submit c r => cases hs
    | dropCaller c => cases hs
    | packet src bytes ok => cases hs
    | closeRequests => exact quiet (by simp) (Option.some.inj hs) rfl
    | dropHandler => exact quiet (by simp) (Option.some.inj hs) rfl
    | handlerReply r ok => exact quiet (by simp) (Option.some.inj hs) rfl
    | recvError => exact quiet (by simp) (Option.some.inj hs) rfl
    | accept ok =>
      cases hw : Works s (.loop (.accept ok)) with
      | false => rw [← hw]; exact quiet (by simp) (Option.some.inj hs) hw
      | true =>
        cases (Option.some.inj hs : s.runLoop (.accept ok) = s')
        simp only [Works, Bool.and_eq_true, beq_iff_eq, Option.isNone_iff_eq_none, Bool.not_eq_eq_eq_not, Bool.not_true,
          List.isEmpty_eq_false_iff] at hw
        obtain ⟨p, q, hq⟩ := List.exists_cons_of_ne_nil hw.2
        have := ioCost_accept h.io ok hw.1.1 hw.1.2 hq
        refine ⟨rs, budget_loop h _, ?_⟩
        simp only [if_true, sysCost, runLoop_io, runLoop_tasks]
        omega
    | tick ok =>
      cases hw : Works s (.loop (.tick ok)) with
      | false => rw [← hw]; exact quiet (by simp) (Option.some.inj hs) hw
      | true =>
        cases (Option.some.inj hs : s.runLoop (.tick ok) = s')
        simp only [Works, Bool.and_eq_true, beq_iff_eq, Option.isSome_iff_exists] at hw
        obtain ⟨hr, o, ho⟩ := hw
        have := ioCost_tick h.io ok hr ho
        refine ⟨rs, budget_loop h _, ?_⟩
        simp only [if_true, sysCost, runLoop_io, runLoop_tasks]
        omega

theorem work_le {L : Nat} {s : Sys α} (evs : List SysEvent) {rs : List Nat} (h : Budget L rs s) :
    (∃ s', s.run evs = some s') → work s evs ≤ sysCost L rs s := by
  induction evs generalizing s rs with
  | nil => exact fun _ => Nat.zero_le _
  | cons e es ih =>
    rintro ⟨s', hs⟩
    simp only [Sys.run] at hs
    unfold work
    cases he : s.step e with
    | none => rw [he] at hs; cases hs
    | some s₁ =>
      rw [he] at hs
      obtain ⟨rs', h1, h2⟩ := sysCost_step h he
      have := ih h1 ⟨s', hs⟩
      dsimp only
      omega

/-! ## Progress -/

/-- Every call waiting for an answer has one, or its request is with the loop, if that runs. -/
def Tracked (s : Sys α) : Prop :=
  ∀ (i : Nat) (tk : Task α) chan req, s.tasks[i]? = some tk → tk.phase = .waiting chan req → s.io.status = .running →
    (∃ a, (chan, a) ∈ s.mail) ∨ (∃ o, s.io.outstanding = some o ∧ o.chan = chan) ∨ ∃ r, (chan, r) ∈ s.io.queue

/-- The request is answered or with the loop, if that runs. -/
def Kept' (chan : Chan) (io : IoState) (mail : List (Chan × Answer)) : Prop :=
  io.status = .running →
    (∃ a, (chan, a) ∈ mail) ∨ (∃ o, io.outstanding = some o ∧ o.chan = chan) ∨ ∃ r, (chan, r) ∈ io.queue

theorem kept_shape {chan : Chan} {io io' : IoState} {e : Event} {acts : List Action} {mail : List (Chan × Answer)}
    (hd : io.status ≠ .running → io'.status ≠ .running)
    (h : Kept' chan io mail) (sh : Shape io e io' acts) : Kept' chan io' (mail ++ posted acts) := by
  intro hr
  have hr0 : io.status = .running := by
    cases hs : io.status with
    | running => rfl
    | exited => exact absurd hr (hd (by rw [hs]; decide))
    | panicked => exact absurd hr (hd (by rw [hs]; decide))
  rcases h hr0 with ⟨a, h⟩ | ⟨o, ho, hc⟩ | ⟨r, hq⟩
  · exact .inl ⟨a, List.mem_append_left _ h⟩
  · cases sh with
    | submit c r => exact .inr (.inl ⟨o, ho, hc⟩)
    | env e s' _ _ _ _ h1 h2 h3 h4 => exact .inr (.inl ⟨o, h2 ▸ ho, hc⟩)
    | dead e s' _ h1 h2 => exact absurd hr h1
    | quiet e acts _ _ _ _ =>
      refine .inr (.inl ⟨{ o with nErrorMessages := o.nErrorMessages + (if faulty e then 1 else 0) }, ?_, ?_⟩)
      · dsimp only; rw [ho]; rfl
      · exact hc
    | start c r q _ h1 h2 => rw [ho] at h1; cases h1
    | startFail c r q _ h1 h2 => rw [ho] at h1; cases h1
    | resend o' _ h1 _ _ => rw [ho] at h1; cases h1; exact .inr (.inl ⟨_, rfl, hc⟩)
    | reply o' e a _ h1 _ _ =>
      rw [ho] at h1; cases h1
      exact .inl ⟨a, List.mem_append_right _ (by rw [← hc]; exact List.mem_singleton.2 rfl)⟩
  · cases sh with
    | submit c r' => exact .inr (.inr ⟨r, List.mem_append_left _ hq⟩)
    | env e s' _ _ _ _ h1 h2 h3 h4 => exact .inr (.inr ⟨r, h3 ▸ hq⟩)
    | dead e s' _ h1 h2 => exact absurd hr h1
    | quiet e acts _ _ _ _ => exact .inr (.inr ⟨r, hq⟩)
    | start c r' q _ h1 h2 =>
      rw [h2] at hq
      rcases List.mem_cons.1 hq with h | h
      · cases h; exact .inr (.inl ⟨_, rfl, rfl⟩)
      · exact .inr (.inr ⟨r, h⟩)
    | startFail c r' q _ h1 h2 =>
      rw [h2] at hq
      rcases List.mem_cons.1 hq with h | h
      · cases h; exact .inl ⟨_, List.mem_append_right _ (List.mem_singleton.2 rfl)⟩
      · exact .inr (.inr ⟨r, h⟩)
    | resend o' _ h1 _ _ => exact .inr (.inr ⟨r, hq⟩)
    | reply o' e a _ h1 _ _ => exact .inr (.inr ⟨r, hq⟩)

theorem dead_stays (io : IoState) (e : Event) (h : io.status ≠ .running) : (io.step e).1.status ≠ .running := by
  cases e <;> simp [IoState.step, h]

theorem tracked_loop {s : Sys α} (h : Tracked s) (e : Event) : Tracked (s.runLoop e) := by
  intro i tk chan req ht hp
  exact kept_shape (dead_stays _ _) (fun hr => h i tk chan req ht hp hr) (step_shape s.io e)

theorem tracked_set {s : Sys α} (h : Tracked s) (i : Nat) (tk : Task α)
    (hk : ∀ chan req, tk.phase = .waiting chan req → Kept' chan s.io s.mail) :
    Tracked { s with tasks := s.tasks.set i tk } := by
  intro j t chan req ht hp
  dsimp only at ht
  rw [List.getElem?_set] at ht
  split at ht
  · split at ht
    · cases ht; exact hk chan req hp
    · cases ht
  · exact h j t chan req ht hp

theorem tracked_step {s s' : Sys α} {e : SysEvent} (h : Tracked s) (hs : s.step e = some s') : Tracked s' := by
  cases e with
  | number i =>
    simp only [Sys.step] at hs
    split at hs
    · cases hs
      exact fun j t chan req => tracked_set h i ⟨_, .numbered _, _⟩ (by simp) j t chan req
    · cases hs
  | submit i =>
    simp only [Sys.step] at hs
    split at hs
    · rename_i c k req past ht
      split at hs
      · cases hs
        refine fun j t chan req' => tracked_set (tracked_loop h (.submit s.nextChan req)) i
          ⟨.rpc c k, .waiting s.nextChan req, past⟩ ?_ j t chan req'
        intro chan req' hp
        cases hp
        exact fun _ => .inr (.inr ⟨req, List.mem_append_right _ (List.mem_singleton.2 rfl)⟩)
      · cases hs
        exact tracked_set h i _ (by simp [resume])
    · cases hs
  | receive i =>
    simp only [Sys.step] at hs
    split at hs
    · split at hs
      · cases hs
        exact tracked_set h i _ (by simp [resume])
      · split at hs
        · cases hs
        · cases hs
          exact tracked_set h i _ (by simp [resume])
    · cases hs
  | cancel i =>
    simp only [Sys.step] at hs
    split at hs
    · cases hs
      exact tracked_set (tracked_loop h _) i ⟨_, .cancelled, _⟩ (by simp)
    · cases hs
      exact tracked_set h i ⟨_, .cancelled, _⟩ (by simp)
    · cases hs
  | sp received out =>
    simp only [Sys.step] at hs
    split at hs
    · cases hs; exact h
    · cases hs
  | deliver src bytes ok =>
    simp only [Sys.step] at hs
    split at hs
    · cases hs; exact tracked_loop h _
    · cases hs
  | noise src bytes ok =>
    simp only [Sys.step] at hs
    split at hs
    · cases hs
    · cases hs; exact tracked_loop h _
  | loop e =>
    simp only [Sys.step] at hs
    split at hs <;> first | (cases hs; done) | (cases hs; exact tracked_loop h _)

theorem tracked_run {s s' : Sys α} (evs : List SysEvent) (h : Tracked s) (hs : s.run evs = some s') : Tracked s' := by
  induction evs generalizing s with
  | nil => cases hs; exact h
  | cons e es ih =>
    simp only [Sys.run] at hs
    cases he : s.step e with
    | none => rw [he] at hs; cases hs
    | some s₁ => rw [he] at hs; exact ih (tracked_step h he) hs

theorem lookup_isSome {β : Type} {l : List (Chan × β)} {c : Chan} {b : β} (h : (c, b) ∈ l) : ∃ b', l.lookup c = some b' := by
  induction l with
  | nil => cases h
  | cons x l ih =>
    obtain ⟨c', b'⟩ := x
    rw [List.lookup_cons]
    cases hc : c == c' with
    | true => exact ⟨_, rfl⟩
    | false =>
      rcases List.mem_cons.1 h with h | h
      · cases h; simp at hc
      · exact ih h

/-- Some step brings an unfinished task forward. -/
theorem can_work {s : Sys α} (h : Tracked s) {i : Nat} {tk : Task α} (ht : s.tasks[i]? = some tk) (hu : Unfinished tk) :
    ∃ e s', s.step e = some s' ∧ Works s e = true := by
  obtain ⟨hnc, c, k, hp⟩ := hu
  obtain ⟨prog, phase, past⟩ := tk
  dsimp only at hp hnc
  subst hp
  cases phase with
  | ready => exact ⟨.number i, _, by simp only [Sys.step, ht]; rfl, rfl⟩
  | numbered req =>
    refine ⟨.submit i, ?_⟩
    simp only [Sys.step, ht, Works]
    split <;> exact ⟨_, rfl, trivial⟩
  | cancelled => exact absurd rfl hnc
  | waiting chan req =>
    by_cases hr : s.io.status = .running
    · rcases h i _ chan req ht rfl hr with ⟨a, hm⟩ | ⟨o, ho, -⟩ | ⟨r, hq⟩
      · obtain ⟨b, hb⟩ := lookup_isSome hm
        exact ⟨.receive i, _, by simp only [Sys.step, ht, hb]; rfl, rfl⟩
      · exact ⟨.loop (.tick true), _, rfl, by simp [Works, hr, ho]⟩
      · cases ho : s.io.outstanding with
        | some o => exact ⟨.loop (.tick true), _, rfl, by simp [Works, hr, ho]⟩
        | none =>
          exact ⟨.loop (.accept true), _, rfl, by
            simp only [Works, hr, ho, BEq.rfl, Option.isNone_none, Bool.true_and, Bool.not_eq_eq_eq_not, Bool.not_true,
              List.isEmpty_eq_false_iff]
            exact List.ne_nil_of_mem hq⟩
    · cases hm : s.mail.lookup chan with
      | some a => exact ⟨.receive i, _, by simp only [Sys.step, ht, hm]; rfl, rfl⟩
      | none => exact ⟨.receive i, _, by simp only [Sys.step, ht, hm, if_neg hr]; rfl, rfl⟩

/-! ## Datagrams -/

/-- Datagrams the loop may still send for the requests it has. -/
def ioSends (L : Nat) (s : IoState) : Nat :=
  if s.status = .running then
    s.queue.length * L + (match s.outstanding with
      | some o => L - o.nRetries
      | none => 0)
  else 0

theorem ioSends_dead {L : Nat} {s : IoState} (h : s.status ≠ .running) : ioSends L s = 0 := if_neg h

theorem sent_quiet {acts : List Action} (h : ∀ a ∈ acts, concerns a = none) : sent acts = [] := by
  unfold sent
  rw [List.filterMap_eq_nil_iff]
  intro a ha
  have := h a ha
  cases a <;> first | rfl | cases this

theorem ioSends_shape {L : Nat} {s s' : IoState} {e : Event} {acts : List Action} (hl : Limited L s) (h : Shape s e s' acts)
    (hs : ∀ c r, e ≠ .submit c r) : (sent acts).length + ioSends L s' ≤ ioSends L s := by
  have hle := hl.limit
  cases h with
  | submit c r => exact absurd rfl (hs c r)
  | env e s' _ _ _ _ h1 h2 h4 h3 => simp only [ioSends, h2, h4, h3, sent, List.filterMap_nil, List.length_nil]; omega
  | dead e s' _ h1 h2 => rw [ioSends_dead h1]; exact Nat.zero_le _
  | quiet e acts hr _ _ h =>
    simp only [ioSends, hr, if_true, sent_quiet h]
    cases s.outstanding <;> simp
  | start c r q hr ho hq =>
    simp only [ioSends, hr, if_true, ho, hq, List.length_cons, Nat.add_mul, sent, List.filterMap_cons, List.filterMap_nil,
      List.length_nil]
    omega
  | startFail c r q hr ho hq =>
    simp only [ioSends, hr, if_true, ho, hq, List.length_cons, Nat.add_mul, sent, List.filterMap_cons, List.filterMap_nil,
      List.length_nil]
    omega
  | resend o hr ho h1 h2 =>
    simp only [ioSends, hr, if_true, ho, sent, List.filterMap_cons, List.filterMap_nil, List.length_nil, List.length_cons]
    omega
  | reply o e a hr ho _ _ =>
    simp only [ioSends, hr, if_true, ho, sent, List.filterMap_cons, List.filterMap_nil, List.length_nil]
    omega

theorem ioSends_submit {L : Nat} (s : IoState) (c : Chan) (r : HostRpcRequest) :
    (sent (s.step (.submit c r)).2).length + ioSends L (s.step (.submit c r)).1 ≤ ioSends L s + L := by
  unfold ioSends
  simp only [IoState.step, List.length_append, List.length_singleton, Nat.add_mul, Nat.one_mul, sent, List.filterMap_nil,
    List.length_nil]
  split <;> omega

/-- Datagrams that may still be sent for a task that makes at most `r` more calls, apart from those of the loop. -/
def taskSends (L r : Nat) (tk : Task α) : Nat :=
  match tk.phase with
  | .ready | .numbered _ => r * L
  | .waiting .. => (r - 1) * L
  | .cancelled => 0

/-- Datagrams sent, and those that may still be. -/
def sysSends (L : Nat) (rs : List Nat) (s : Sys α) : Nat :=
  s.wire.length + (List.zipWith (taskSends L) rs s.tasks).sum + ioSends L s.io

theorem sysSends_loop {L : Nat} {rs : List Nat} {s : Sys α} (h : Budget L rs s) (e : Event) (hs : ∀ c r, e ≠ .submit c r) :
    sysSends L rs (s.runLoop e) ≤ sysSends L rs s := by
  have := ioSends_shape h.io (step_shape s.io e) hs
  unfold sysSends
  rw [runLoop_io, runLoop_tasks]
  show (s.wire ++ sent (s.io.step e).2).length + _ + _ ≤ _
  rw [List.length_append]
  omega

theorem sysSends_step {L : Nat} {rs : List Nat} {s s' : Sys α} {e : SysEvent} (h : Budget L rs s) (hs : s.step e = some s') :
    ∃ rs', Budget L rs' s' ∧ sysSends L rs' s' ≤ sysSends L rs s := by
  cases e with
  | number i =>
    simp only [Sys.step] at hs
    split at hs
    · rename_i c k past ht
      cases hs
      obtain ⟨r, h1, h2⟩ := pairs_get h.tasks ht
      refine ⟨rs.set i r, ⟨h.io, pairs_set h.tasks i h2⟩, ?_⟩
      have := zipWith_set (taskSends L) (a' := r)
        (b' := (⟨.rpc c k, .numbered { header := (nextHeader s.counter c.kind).1, message := c.message, data := c.data },
          past⟩ : Task α)) h1 ht
      simp only [sysSends]
      simp only [taskSends] at this ⊢
      omega
    · cases hs
  | submit i =>
    simp only [Sys.step] at hs
    split at hs
    · rename_i c k req past ht
      obtain ⟨r, h1, h2⟩ := pairs_get h.tasks ht
      have h3 := (atMost_next h2 .gone).1
      have hm : r * L = (r - 1) * L + L := by
        rw [← Nat.succ_mul]
        congr 1
        omega
      split at hs
      · cases hs
        refine ⟨rs.set i r, ⟨(budget_loop h _).io, pairs_set h.tasks i h2⟩, ?_⟩
        have := zipWith_set (taskSends L) (a' := r) (b' := (⟨.rpc c k, .waiting s.nextChan req, past⟩ : Task α)) h1 ht
        have hi := ioSends_submit (L := L) s.io s.nextChan req
        have hw : (s.runLoop (.submit s.nextChan req)).wire.length =
            s.wire.length + (sent (s.io.step (.submit s.nextChan req)).2).length := List.length_append
        simp only [sysSends, runLoop_io, hw]
        simp only [taskSends] at this ⊢
        omega
      · cases hs
        refine ⟨rs.set i (r - 1), ⟨h.io, pairs_set h.tasks i (atMost_next h2 _).2⟩, ?_⟩
        have := zipWith_set (taskSends L) (a' := r - 1) (b' := resume c k past .gone) h1 ht
        simp only [sysSends]
        simp only [taskSends, resume] at this ⊢
        omega
    · cases hs
  | receive i =>
    simp only [Sys.step] at hs
    split at hs
    · rename_i c k chan req past ht
      obtain ⟨r, h1, h2⟩ := pairs_get h.tasks ht
      have key : ∀ rep, Budget L (rs.set i (r - 1)) { s with tasks := s.tasks.set i (resume c k past rep) } ∧
          sysSends L (rs.set i (r - 1)) { s with tasks := s.tasks.set i (resume c k past rep) } ≤ sysSends L rs s := by
        intro rep
        refine ⟨⟨h.io, pairs_set h.tasks i (atMost_next h2 _).2⟩, ?_⟩
        have := zipWith_set (taskSends L) (a' := r - 1) (b' := resume c k past rep) h1 ht
        simp only [sysSends]
        simp only [taskSends, resume] at this ⊢
        omega
      split at hs
      · cases hs
        exact ⟨_, (key _).1, (key _).2⟩
      · split at hs
        · cases hs
        · cases hs
          exact ⟨_, (key _).1, (key _).2⟩
    · cases hs
  | cancel i =>
    simp only [Sys.step] at hs
    split at hs
    · rename_i p chan req past ht
      cases hs
      obtain ⟨r, h1, h2⟩ := pairs_get h.tasks ht
      refine ⟨rs.set i r, ⟨(budget_loop h _).io, pairs_set h.tasks i h2⟩, ?_⟩
      have := zipWith_set (taskSends L) (a' := r) (b' := (⟨p, .cancelled, past⟩ : Task α)) h1 ht
      have hi := ioSends_shape h.io (step_shape s.io (.dropCaller chan)) (by simp)
      have hw : (s.runLoop (.dropCaller chan)).wire.length =
          s.wire.length + (sent (s.io.step (.dropCaller chan)).2).length := List.length_append
      simp only [sysSends, runLoop_io, hw]
      simp only [taskSends] at this ⊢
      omega
    · rename_i p ph past _ ht
      cases hs
      obtain ⟨r, h1, h2⟩ := pairs_get h.tasks ht
      refine ⟨rs.set i r, ⟨h.io, pairs_set h.tasks i h2⟩, ?_⟩
      have := zipWith_set (taskSends L) (a' := r) (b' := (⟨p, .cancelled, past⟩ : Task α)) h1 ht
      have hz : taskSends L r (⟨p, .cancelled, past⟩ : Task α) = 0 := rfl
      simp only [sysSends]
      omega
    · cases hs
  | sp received out =>
    simp only [Sys.step] at hs
    split at hs
    · cases hs; exact ⟨rs, ⟨h.io, h.tasks⟩, Nat.le_refl _⟩
    · cases hs
  | deliver src bytes ok =>
    simp only [Sys.step] at hs
    split at hs
    · cases hs; exact ⟨rs, budget_loop h _, sysSends_loop h _ (by simp)⟩
    · cases hs
  | noise src bytes ok =>
    simp only [Sys.step] at hs
    split at hs
    · cases hs
    · cases hs; exact ⟨rs, budget_loop h _, sysSends_loop h _ (by simp)⟩
  | loop e =>
    have : (∀ c r, e ≠ .submit c r) ∧ s.runLoop e = s' := by
      cases e <;> first | (cases hs; done) | exact ⟨by simp, Option.some.inj hs⟩
    obtain ⟨h1, rfl⟩ := this
    exact ⟨rs, budget_loop h _, sysSends_loop h _ h1⟩

theorem sends_run {L : Nat} {s s' : Sys α} (evs : List SysEvent) {rs : List Nat} (h : Budget L rs s)
    (hs : s.run evs = some s') : ∃ rs', Budget L rs' s' ∧ sysSends L rs' s' ≤ sysSends L rs s := by
  induction evs generalizing s rs with
  | nil => cases hs; exact ⟨rs, h, Nat.le_refl _⟩
  | cons e es ih =>
    simp only [Sys.run] at hs
    cases he : s.step e with
    | none => rw [he] at hs; cases hs
    | some s₁ =>
      rw [he] at hs
      obtain ⟨rs', h1, h2⟩ := sysSends_step h he
      obtain ⟨rs'', h3, h4⟩ := ih h1 hs
      exact ⟨rs'', h3, Nat.le_trans h4 h2⟩

/-! ## At the start -/

theorem budget_init (lim : Option Nat) {bs : List Nat} {progs : List (Prog α)} (h : Pairs AtMost bs progs) :
    Budget (max 1 (limitOf lim)) bs (Sys.init lim progs) := by
  refine ⟨⟨rfl, fun _ o h => by cases h⟩, ?_⟩
  show Pairs (fun r (tk : Task α) => AtMost r tk.prog) bs (progs.map fun p => ({ prog := p } : Task α))
  induction h with
  | nil => exact .nil
  | cons h1 _ ih => exact .cons h1 ih

theorem sum_tasks (f : Nat → Task α → Nat) (K : Nat) {bs : List Nat} {progs : List (Prog α)} (h : Pairs AtMost bs progs)
    (hf : ∀ b p, f b { prog := p } = b * K) :
    (List.zipWith f bs (progs.map fun p => { prog := p })).sum = bs.sum * K := by
  induction h with
  | nil => simp
  | cons _ _ ih => rw [List.map_cons, List.zipWith_cons_cons, List.sum_cons, List.sum_cons, ih, hf, Nat.add_mul]

theorem sysCost_init (L : Nat) (lim : Option Nat) {bs : List Nat} {progs : List (Prog α)} (h : Pairs AtMost bs progs) :
    sysCost L bs (Sys.init lim progs) = bs.sum * (4 + L) := by
  have := sum_tasks (taskCost L) (4 + L) h fun _ _ => rfl
  simp only [sysCost, Sys.init, IoState.init, this, ioCost, if_true, List.length_nil, Nat.zero_mul, Nat.add_zero]

theorem sysSends_init (L : Nat) (lim : Option Nat) {bs : List Nat} {progs : List (Prog α)} (h : Pairs AtMost bs progs) :
    sysSends L bs (Sys.init lim progs) = bs.sum * L := by
  have := sum_tasks (taskSends L) L h fun _ _ => rfl
  simp only [sysSends, Sys.init, IoState.init, this, ioSends, if_true, List.length_nil, Nat.zero_mul, Nat.add_zero,
    Nat.zero_add]

theorem tracked_init (lim : Option Nat) (progs : List (Prog α)) : Tracked (Sys.init lim progs) := by
  intro i tk chan req ht hp
  simp only [Sys.init, List.getElem?_map, Option.map_eq_some_iff] at ht
  obtain ⟨p, -, rfl⟩ := ht
  cases hp

end Xcvr
