import Verif.Lemmas.Timed

/-! # How long a request may wait: lemmas for C128-C129 -/

namespace Xcvr

open Spec IoState

namespace Timed

/-- The time a request takes at most once it is transmitted. -/
def round (late limit period : Nat) : Nat := max 1 limit * (period + late)

/-- When the loop has finished at the latest with the request in progress. -/
def finish (late : Nat) (io : IoState) (t : Timer) : Nat :=
  match io.outstanding with
  | some o => t.due + late + (io.limit - o.nRetries) * (t.period + late)
  | none => t.now

/-- A caller is answered before `T`, unless the loop dies. -/
inductive Waiting (late : Nat) (io : IoState) (t : Timer) (c : Chan) (T : Nat) : Prop where
  | current (o : Outstanding) : io.outstanding = some o → o.chan = c → finish late io t ≤ T → Waiting late io t c T
  | queued (xs ys : List Chan) : io.queue.map (·.1) = xs ++ c :: ys →
      finish late io t + (xs.length + 1) * round late io.limit t.period ≤ T → Waiting late io t c T

/-- The timer while a request is in progress. -/
def TimerInv (late : Nat) (io : IoState) (t : Timer) : Prop :=
  io.status = .running → ∀ o, io.outstanding = some o → 1 ≤ o.nRetries ∧ t.now ≤ t.due + late ∧ t.due ≤ t.now + t.period

/-- A step of the loop, and what it does to the timer. -/
structure Moves (io : IoState) (t : Timer) (e : Event) (io' : IoState) (t' : Timer) (acts : List Action) : Prop where
  shape : Shape io e io' acts
  now : t'.now = t.now
  period : t'.period = t.period
  reset : sends acts = true → t'.due = t.now + t.period
  kept : sends acts = false → (∀ ok, e ≠ .tick ok) → t'.due = t.due
  tick : ∀ ok, e = .tick ok → io.status = .running ∧ io.outstanding.isSome ∧ t.due ≤ t.now

theorem step_moves {s s' : Timed} {e : Event} {acts : List (Nat × Action)} (h : s.step (.io e) = some (s', acts)) :
    Moves s.io s.timer e s'.io s'.timer (acts.map (·.2)) := by
  obtain ⟨k1, -, k3, k4, k5, k6, k7⟩ := step_io h
  have sh := step_shape s.io e
  rw [k1] at sh
  exact ⟨sh, k3, k4, k5, k6, k7⟩

theorem quiet_not_tick {io io' : IoState} {t t' : Timer} {e : Event} {acts : List Action} (m : Moves io t e io' t' acts)
    (h : ∀ ok, e = .tick ok → io.outstanding = none) : ∀ ok, e ≠ .tick ok := by
  intro ok he
  have := (m.tick ok he).2.1
  rw [h ok he] at this
  cases this

theorem timerInv_moves {late : Nat} {io io' : IoState} {t t' : Timer} {e : Event} {acts : List Action}
    (m : Moves io t e io' t' acts) (inv : TimerInv late io t) : TimerInv late io' t' := by
  have mt := m
  obtain ⟨sh, hn, hp, hr, hk, ht⟩ := m
  intro hst o' ho'
  cases sh with
  | submit c r =>
    rw [hn, hp, hk rfl (by simp)]
    exact inv hst o' ho'
  | env _ _ h1 h2 h3 h4 hl ho hq hs =>
    rw [hn, hp, hk rfl h3]
    exact inv (hs ▸ hst) o' (ho ▸ ho')
  | dead _ _ h1 hs hl => exact absurd hst hs
  | quiet _ _ hr' h1 h2 h4 =>
    rw [hn, hp, hk (sends_none h4) (quiet_not_tick mt h2)]
    simp only [Option.map_eq_some_iff] at ho'
    obtain ⟨o, ho, rfl⟩ := ho'
    exact inv hr' o ho
  | start c r q hr' ho hq =>
    rw [hn, hp, hr rfl]
    cases ho'
    exact ⟨Nat.le_refl _, by omega, Nat.le_refl _⟩
  | startFail c r q hr' ho hq => cases ho'
  | resend o hr' ho hl he =>
    rw [hn, hp, hr rfl]
    cases ho'
    exact ⟨by simp, by omega, Nat.le_refl _⟩
  | reply o _ a hr' ho hre h1 => cases ho'

theorem finish_none {late : Nat} {io : IoState} {t : Timer} (h : io.outstanding = none) : finish late io t = t.now := by
  unfold finish; rw [h]

theorem finish_some {late : Nat} {io : IoState} {t : Timer} {o : Outstanding} (h : io.outstanding = some o) :
    finish late io t = t.due + late + (io.limit - o.nRetries) * (t.period + late) := by
  unfold finish; rw [h]

/-- A request that is accepted is finished within one round. -/
theorem finish_start (late limit period now : Nat) :
    now + period + late + (limit - 1) * (period + late) = now + round late limit period := by
  unfold round
  cases limit with
  | zero => simp; omega
  | succ n =>
    rw [show max 1 (n + 1) = n + 1 by omega, Nat.succ_mul]
    simp only [Nat.add_sub_cancel]
    omega

theorem now_le_finish {late : Nat} {io : IoState} {t : Timer} (hr : io.status = .running) (inv : TimerInv late io t) :
    t.now ≤ finish late io t := by
  cases ho : io.outstanding with
  | none => rw [finish_none ho]; exact Nat.le_refl _
  | some o =>
    rw [finish_some ho]
    have := (inv hr o ho).2.1
    omega

theorem waiting_moves {late : Nat} {io io' : IoState} {t t' : Timer} {e : Event} {acts : List Action} {c : Chan} {T : Nat}
    (m : Moves io t e io' t' acts) (inv : TimerInv late io t) (hst : io'.status = .running) (w : Waiting late io t c T) :
    c ∈ answered acts ∨ Waiting late io' t' c T := by
  have mt := m
  obtain ⟨sh, hn, hp, hr, hk, ht⟩ := m
  cases sh with
  | submit d r =>
    have hf : finish late { io with queue := io.queue ++ [(d, r)] } t' = finish late io t := by
      simp only [finish, hn, hp, hk rfl (by simp)]
    right
    cases w with
    | current o h1 h2 h3 => exact .current o h1 h2 (by rw [hf]; exact h3)
    | queued xs ys h1 h2 =>
      refine .queued xs (ys ++ [d]) (by simp [h1]) ?_
      rw [hf, hp]; exact h2
  | env _ _ h1 h2 h3 h4 hl ho hq hs =>
    have hf : finish late io' t' = finish late io t := by
      simp only [finish, hn, hp, hk rfl h3, ho, hl]
    right
    cases w with
    | current o h1 h2 h3 => exact .current o (ho ▸ h1) h2 (by rw [hf]; exact h3)
    | queued xs ys h1 h2 => exact .queued xs ys (by rw [hq, h1]) (by rw [hf, hp, hl]; exact h2)
  | dead _ _ h1 hs hl => exact absurd hst hs
  | quiet _ _ hr' h1 h2 h4 =>
    have hk := hk (sends_none h4) (quiet_not_tick mt h2)
    have hf : finish late { io with outstanding := io.outstanding.map fun o =>
        { o with nErrorMessages := o.nErrorMessages + (if faulty e then 1 else 0) } } t' = finish late io t := by
      simp only [finish, hn, hp, hk]
      cases io.outstanding <;> rfl
    right
    cases w with
    | current o h1 h2 h3 =>
      refine .current { o with nErrorMessages := o.nErrorMessages + (if faulty e then 1 else 0) } (by simp [h1]) h2 ?_
      rw [hf]; exact h3
    | queued xs ys h1 h2 => exact .queued xs ys h1 (by rw [hf, hp]; exact h2)
  | start d r q hr' ho hq =>
    right
    have hdue := hr rfl
    have hf : finish late { io with queue := q, outstanding := some ⟨d, r, 1, 0⟩ } t' =
        finish late io t + round late io.limit t.period := by
      rw [finish_none ho]
      simp only [finish, hp, hdue]
      exact finish_start late io.limit t.period t.now
    cases w with
    | current o h1 h2 h3 => rw [ho] at h1; cases h1
    | queued xs ys h1 h2 =>
      rw [hq] at h1
      cases xs with
      | nil =>
        simp only [List.map_cons, List.nil_append, List.cons.injEq] at h1
        refine .current _ rfl h1.1 ?_
        rw [hf]
        simpa using h2
      | cons x xs =>
        simp only [List.map_cons, List.cons_append, List.cons.injEq] at h1
        refine .queued xs ys h1.2 ?_
        rw [hf, hp]
        simp only [List.length_cons, Nat.succ_mul] at h2 ⊢
        omega
  | startFail d r q hr' ho hq =>
    have hf : finish late { io with queue := q, outstanding := none } t' = finish late io t := by
      rw [finish_none ho]; exact hn
    cases w with
    | current o h1 h2 h3 => rw [ho] at h1; cases h1
    | queued xs ys h1 h2 =>
      rw [hq] at h1
      cases xs with
      | nil =>
        simp only [List.map_cons, List.nil_append, List.cons.injEq] at h1
        left
        simp [answered, h1.1]
      | cons x xs =>
        simp only [List.map_cons, List.cons_append, List.cons.injEq] at h1
        right
        refine .queued xs ys h1.2 ?_
        rw [hf, hp]
        simp only [List.length_cons, Nat.succ_mul] at h2 ⊢
        omega
  | resend o hr' ho hl he =>
    right
    have hdue := hr rfl
    obtain ⟨h1, h2, h3⟩ := inv hr' o ho
    have hf : finish late { io with outstanding := some { o with nRetries := o.nRetries + 1 } } t' ≤ finish late io t := by
      rw [finish_some ho]
      simp only [finish, hp, hdue]
      have : io.limit - o.nRetries = io.limit - (o.nRetries + 1) + 1 := by omega
      rw [this, Nat.succ_mul]
      omega
    cases w with
    | current o' h1 h2 h3 =>
      rw [ho] at h1; cases h1
      exact .current _ rfl h2 (Nat.le_trans hf h3)
    | queued xs ys h1 h2 =>
      refine .queued xs ys h1 ?_
      rw [hp]
      exact Nat.le_trans (Nat.add_le_add_right hf _) h2
  | reply o _ a hr' ho hre h1 =>
    have hf : finish late { io with outstanding := none } t' ≤ finish late io t := by
      rw [finish_none rfl, hn]
      exact now_le_finish hr' inv
    cases w with
    | current o' h1 h2 h3 =>
      rw [ho] at h1; cases h1
      left
      simp [answered, h2]
    | queued xs ys h1 h2 =>
      right
      refine .queued xs ys h1 ?_
      rw [hp]
      exact Nat.le_trans (Nat.add_le_add_right hf _) h2

/-- Time passes, and the loop is on time. -/
theorem timerInv_elapse {late d : Nat} {io : IoState} {t : Timer} (inv : TimerInv late io t)
    (h : io.status = .running → io.outstanding.isSome → t.now + d ≤ t.due + late) :
    TimerInv late io { t with now := t.now + d } := by
  intro hr o ho
  obtain ⟨h1, h2, h3⟩ := inv hr o ho
  exact ⟨h1, h hr (by rw [ho]; rfl), by show t.due ≤ t.now + d + t.period; omega⟩

theorem waiting_elapse {late d : Nat} {io : IoState} {t : Timer} {c : Chan} {T : Nat} (w : Waiting late io t c T)
    (h : io.outstanding = none → io.queue ≠ [] → d = 0) : Waiting late io { t with now := t.now + d } c T := by
  cases w with
  | current o h1 h2 h3 =>
    refine .current o h1 h2 ?_
    rw [finish_some h1] at h3 ⊢
    exact h3
  | queued xs ys h1 h2 =>
    refine .queued xs ys h1 ?_
    have hf : finish late io { t with now := t.now + d } = finish late io t := by
      cases ho : io.outstanding with
      | none =>
        rw [finish_none ho, finish_none ho]
        have := h ho (by intro hq; rw [hq] at h1; simp at h1)
        rw [this]; rfl
      | some o => rw [finish_some ho, finish_some ho]
    rw [hf]
    exact h2

theorem waiting_now {late : Nat} {io : IoState} {t : Timer} {c : Chan} {T : Nat} (hr : io.status = .running)
    (inv : TimerInv late io t) (w : Waiting late io t c T) : t.now ≤ T := by
  have := now_le_finish hr inv
  cases w with
  | current o h1 h2 h3 => omega
  | queued xs ys h1 h2 => omega

/-- A new submission waits for those before it. -/
theorem waiting_submit {late : Nat} {io : IoState} {t : Timer} (hr : io.status = .running) (inv : TimerInv late io t)
    (c : Chan) (r : HostRpcRequest) :
    Waiting late { io with queue := io.queue ++ [(c, r)] } t c
      (t.now + (io.outstanding.toList.length + io.queue.length + 1) * round late io.limit t.period) := by
  refine .queued (io.queue.map (·.1)) [] (by simp) ?_
  show finish late io t + _ ≤ _
  rw [List.length_map]
  cases ho : io.outstanding with
  | none => rw [finish_none ho]; simp
  | some o =>
    obtain ⟨h1, h2, h3⟩ := inv hr o ho
    have hf : finish late io t ≤ t.now + round late io.limit t.period := by
      rw [finish_some ho, ← finish_start late io.limit t.period t.now]
      have : (io.limit - o.nRetries) * (t.period + late) ≤ (io.limit - 1) * (t.period + late) :=
        Nat.mul_le_mul_right _ (by omega)
      omega
    simp only [Option.toList_some, List.length_cons, List.length_nil, Nat.zero_add]
    rw [show 1 + io.queue.length + 1 = (io.queue.length + 1) + 1 by omega, Nat.succ_mul (io.queue.length + 1)]
    omega

/-- Whom an answer is for. -/
theorem mem_answeredIn {c : Chan} {acts : List (Nat × Action)} (h : c ∈ answeredIn acts) : ∃ t a, (t, .answer c a) ∈ acts := by
  simp only [answeredIn, answered, List.mem_filterMap, List.mem_map] at h
  obtain ⟨a, ⟨⟨t, b⟩, hb, rfl⟩, ha⟩ := h
  cases b with
  | answer c' a' => cases ha; exact ⟨t, a', hb⟩
  | _ => cases ha

/-- The steps of a history in which the loop is on time. -/
theorem prompt_step {late : Nat} {s s' : Timed} {e : TimedEvent} {acts : List (Nat × Action)}
    (h : s.step e = some (s', acts)) (hp : OnTime late s e) (inv : TimerInv late s.io s.timer) :
    TimerInv late s'.io s'.timer ∧ (s.io.status = .running → s'.io.status = .running → ∀ c T, Waiting late s.io s.timer c T →
      (∃ t a, (t, .answer c a) ∈ acts ∧ t ≤ T) ∨ Waiting late s'.io s'.timer c T) := by
  cases e with
  | elapse d =>
    cases h
    refine ⟨timerInv_elapse inv fun h1 h2 => (hp h1).1 h2, fun _ hr c T w => .inr ?_⟩
    exact waiting_elapse w fun h1 h2 => (hp hr).2 h1 h2
  | io e =>
    have m := step_moves h
    refine ⟨timerInv_moves m inv, fun hr hr' c T w => ?_⟩
    rcases waiting_moves m inv hr' w with hc | w'
    · obtain ⟨t, a, hta⟩ := mem_answeredIn hc
      have := (step_io h).2.1 _ hta
      have hn := waiting_now hr inv w
      exact .inl ⟨t, a, hta, by rw [show t = s.timer.now from this]; exact hn⟩
    · exact .inr w'

theorem step_running' {s s' : Timed} {e : TimedEvent} {acts : List (Nat × Action)} (h : s.step e = some (s', acts))
    (hr : s'.io.status = .running) : s.io.status = .running := by
  cases e with
  | elapse d => cases h; exact hr
  | io e =>
    obtain ⟨k1, -⟩ := step_io h
    refine step_running (e := e) ?_
    rw [k1]; exact hr

theorem run_running' {s s' : Timed} {es : List TimedEvent} {acts : List (Nat × Action)} (h : s.run es = some (s', acts))
    (hr : s'.io.status = .running) : s.io.status = .running := by
  induction es generalizing s acts with
  | nil => cases h; exact hr
  | cons e es ih =>
    obtain ⟨s₁, a₁, a₂, h1, h2, rfl⟩ := run_cons h
    exact step_running' h1 (ih h2)

theorem run_period {s s' : Timed} {es : List TimedEvent} {acts : List (Nat × Action)} (h : s.run es = some (s', acts)) :
    s'.timer.period = s.timer.period := by
  induction es generalizing s acts with
  | nil => cases h; rfl
  | cons e es ih =>
    obtain ⟨s₁, a₁, a₂, h1, h2, rfl⟩ := run_cons h
    rw [ih h2]
    cases e with
    | elapse d => cases h1; rfl
    | io e => exact (step_io h1).2.2.2.1

theorem prompt_run {late : Nat} {s s' : Timed} {es : List TimedEvent} {acts : List (Nat × Action)}
    (h : s.run es = some (s', acts)) (hp : Prompt late s es) (inv : TimerInv late s.io s.timer) :
    TimerInv late s'.io s'.timer ∧ (s'.io.status = .running → ∀ c T, Waiting late s.io s.timer c T →
      (∃ t a, (t, .answer c a) ∈ acts ∧ t ≤ T) ∨ Waiting late s'.io s'.timer c T) := by
  induction es generalizing s acts with
  | nil => cases h; exact ⟨inv, fun _ c T w => .inr w⟩
  | cons e es ih =>
    obtain ⟨s₁, a₁, a₂, h1, h2, rfl⟩ := run_cons h
    obtain ⟨hp1, hp2⟩ := hp
    obtain ⟨i1, i2⟩ := prompt_step h1 hp1 inv
    obtain ⟨j1, j2⟩ := ih h2 (hp2 _ _ h1) i1
    refine ⟨j1, fun hr c T w => ?_⟩
    have hr₁ := run_running' h2 hr
    rcases i2 (step_running' h1 hr₁) hr₁ c T w with ⟨t, a, hc, ht⟩ | w
    · exact .inl ⟨t, a, List.mem_append_left _ hc, ht⟩
    · rcases j2 hr c T w with ⟨t, a, hc, ht⟩ | w
      · exact .inl ⟨t, a, List.mem_append_right _ hc, ht⟩
      · exact .inr w

theorem prompt_append {late : Nat} {s s₁ : Timed} {xs ys : List TimedEvent} {a₁ : List (Nat × Action)}
    (hp : Prompt late s (xs ++ ys)) (h : s.run xs = some (s₁, a₁)) : Prompt late s xs ∧ Prompt late s₁ ys := by
  induction xs generalizing s a₁ with
  | nil => cases h; exact ⟨trivial, hp⟩
  | cons x xs ih =>
    obtain ⟨s₂, b₁, b₂, h1, h2, rfl⟩ := run_cons h
    obtain ⟨p1, p2⟩ := hp
    obtain ⟨q1, q2⟩ := ih (p2 _ _ h1) h2
    refine ⟨⟨p1, fun s' acts h => ?_⟩, q2⟩
    rw [h1] at h
    cases h
    exact q1

/-- An answer is all that is done in the step that gives it. -/
theorem answer_alone {s s' : Timed} {e : TimedEvent} {new before later : List (Nat × Action)} {t : Nat} {c : Chan}
    {a : Answer} (h : s.step e = some (s', new)) (hn : new = before ++ (t, .answer c a) :: later) :
    before = [] ∧ ∃ e', e = .io e' ∧ .answer c a ∈ (s.io.step e').2 ∧ t = s.timer.now := by
  cases e with
  | elapse d => cases h; simp at hn
  | io e =>
    obtain ⟨k1, k2, -⟩ := step_io h
    have m := step_moves h
    have hm : (Action.answer c a) ∈ new.map (·.2) := by rw [hn]; simp
    refine ⟨?_, e, rfl, by rw [k1]; exact hm, k2 (t, .answer c a) (by rw [hn]; simp)⟩
    have key : ∀ b : Action, new.map (·.2) = [b] → before = [] := by
      intro b hb
      rw [hn] at hb
      have := congrArg List.length hb
      simp at this
      exact List.length_eq_zero_iff.mp (by omega)
    have sh := m.shape
    generalize hx : new.map (·.2) = acts at *
    generalize s'.io = io' at sh
    cases sh with
    | submit _ _ => cases hm
    | env _ _ _ _ _ _ _ _ _ _ => cases hm
    | dead _ _ _ _ _ => cases hm
    | quiet _ _ _ _ _ h4 => have := h4 _ hm; cases this
    | start _ _ _ _ _ _ => exact key _ rfl
    | startFail _ _ _ _ _ _ => exact key _ rfl
    | resend _ _ _ _ _ => exact key _ rfl
    | reply _ _ _ _ _ _ _ => exact key _ rfl

/-- An answer in a history is given by one of its steps. -/
theorem answer_splits {s₀ s : Timed} {evs : List TimedEvent} {acts before later : List (Nat × Action)} {t : Nat} {c : Chan}
    {a : Answer} (h : s₀.run evs = some (s, acts)) (ha : acts = before ++ (t, .answer c a) :: later) :
    ∃ xs e ys s₁, evs = xs ++ .io e :: ys ∧ s₀.run xs = some (s₁, before) ∧ .answer c a ∈ (s₁.io.step e).2 ∧
      t = s₁.timer.now := by
  revert before t c a later
  refine hist_induction (P := fun evs s acts => ∀ {before later : List (Nat × Action)} {t : Nat} {c : Chan}
    {a : Answer}, acts = before ++ (t, .answer c a) :: later →
    ∃ xs e ys s₁, evs = xs ++ .io e :: ys ∧ s₀.run xs = some (s₁, before) ∧ .answer c a ∈ (s₁.io.step e).2 ∧
      t = s₁.timer.now) ?_ ?_ h
  · intro before later t c a ha
    simp at ha
  · intro evs e s acts s' new hrun ih hstep before later t c a ha
    rw [List.append_eq_append_iff] at ha
    rcases ha with ⟨m, rfl, hm⟩ | ⟨m, rfl, hm⟩
    · obtain ⟨rfl, e', rfl, h1, h2⟩ := answer_alone hstep hm
      exact ⟨evs, e', [], s, rfl, by rw [List.append_nil]; exact hrun, h1, h2⟩
    · cases m with
      | nil =>
        rw [List.nil_append] at hm
        obtain ⟨-, e', rfl, h1, h2⟩ := answer_alone (before := []) hstep hm.symm
        exact ⟨evs, e', [], s, rfl, by rw [List.append_nil] at hrun; exact hrun, h1, h2⟩
      | cons y m =>
        simp only [List.cons_append, List.cons.injEq] at hm
        obtain ⟨rfl, -⟩ := hm
        obtain ⟨xs, e', ys, s₁, rfl, h1, h2, h3⟩ := ih rfl
        exact ⟨xs, e', ys ++ [e], s₁, by simp, h1, h2, h3⟩

/-- Times that are apart add up. -/
theorem apart_sum {period t : Nat} {ts : List Nat} (h1 : ts.Pairwise (fun x y => x + period ≤ y))
    (h2 : ∀ x ∈ ts, x + period ≤ t) (k : Nat) (hk : k < ts.length) : ts[k] + (ts.length - k) * period ≤ t := by
  induction ts generalizing k with
  | nil => simp at hk
  | cons x xs ih =>
    rw [List.pairwise_cons] at h1
    have ih := ih h1.2 fun y hy => h2 y (List.mem_cons_of_mem _ hy)
    cases k with
    | succ k =>
      simp only [List.length_cons, List.getElem_cons_succ, Nat.add_sub_add_right]
      exact ih k (by simpa using hk)
    | zero =>
      simp only [List.length_cons, List.getElem_cons_zero, Nat.sub_zero]
      cases xs with
      | nil => simpa using h2 x List.mem_cons_self
      | cons y ys =>
        have := ih 0 (by simp)
        simp only [List.length_cons, List.getElem_cons_zero, Nat.sub_zero] at this
        have := h1.1 y List.mem_cons_self
        simp only [List.length_cons, Nat.succ_mul] at *
        omega

end Timed

end Xcvr
