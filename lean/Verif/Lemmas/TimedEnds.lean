import Verif.Lemmas.TimedSys

/-! # A prompt history can always go on until all is done: lemmas for C130 -/

namespace Xcvr

open Spec IoState Timed Prog

namespace TimedSys

variable {α : Type}

/-- Tasks in the middle of a call are in the middle of a call. -/
def Calling (s : Sys α) : Prop :=
  ∀ (i : Nat) (tk : Task α), s.tasks[i]? = some tk → tk.phase ≠ .ready → tk.phase ≠ .cancelled → ∃ c k, tk.prog = .rpc c k

theorem calling_set {s s' : Sys α} {i : Nat} {new : Task α} (h : Calling s) (ht : s'.tasks = s.tasks.set i new)
    (hn : new.phase ≠ .ready → new.phase ≠ .cancelled → ∃ c k, new.prog = .rpc c k) : Calling s' := by
  intro j tk hj h1 h2
  rw [ht] at hj
  by_cases hij : i = j
  · subst hij
    rw [List.getElem?_set] at hj
    simp only [if_true] at hj
    split at hj
    · cases hj; exact hn h1 h2
    · cases hj
  · rw [List.getElem?_set_ne hij] at hj
    exact h j tk hj h1 h2

theorem calling_step {s s' : Sys α} {e : SysEvent} (h : Calling s) (hs : s.step e = some s') : Calling s' := by
  cases e with
  | number i =>
    simp only [Sys.step] at hs
    split at hs
    · rename_i c k past ht
      cases hs
      exact calling_set h rfl fun _ _ => ⟨c, k, rfl⟩
    · cases hs
  | submit i =>
    simp only [Sys.step] at hs
    split at hs
    · rename_i c k req past ht
      split at hs
      · cases hs; exact calling_set h rfl fun _ _ => ⟨c, k, rfl⟩
      · cases hs; exact calling_set h rfl fun h _ => absurd rfl h
    · cases hs
  | receive i =>
    simp only [Sys.step] at hs
    split at hs
    · rename_i c k chan req past ht
      split at hs
      · cases hs; exact calling_set h rfl fun h _ => absurd rfl h
      · split at hs
        · cases hs
        · cases hs; exact calling_set h rfl fun h _ => absurd rfl h
    · cases hs
  | cancel i =>
    simp only [Sys.step] at hs
    split at hs
    · rename_i ht; cases hs; exact calling_set h rfl fun _ h => absurd rfl h
    · rename_i ht; cases hs; exact calling_set h rfl fun _ h => absurd rfl h
    · cases hs
  | sp r out =>
    simp only [Sys.step] at hs
    split at hs
    · cases hs; exact h
    · cases hs
  | deliver src bytes ok =>
    simp only [Sys.step] at hs
    split at hs
    · cases hs; exact h
    · cases hs
  | noise src bytes ok =>
    simp only [Sys.step] at hs
    split at hs
    · cases hs
    · cases hs; exact h
  | loop e =>
    simp only [Sys.step] at hs
    split at hs <;> cases hs
    exact h

theorem calling_run {s s' : Sys α} {es : List SysEvent} (h : Calling s) (hs : s.run es = some s') : Calling s' := by
  induction es generalizing s with
  | nil => cases hs; exact h
  | cons e es ih =>
    unfold Sys.run at hs
    split at hs
    · rename_i s₁ h1
      exact ih (calling_step h h1) hs
    · cases hs

theorem calling_init (lim : Option Nat) (progs : List (Prog α)) : Calling (Sys.init lim progs) := by
  intro i tk hi h1
  simp only [Sys.init, List.getElem?_map, Option.map_eq_some_iff] at hi
  obtain ⟨p, -, rfl⟩ := hi
  exact absurd rfl h1

/-- The steps that are left. -/
def measure (L n : Nat) (rs : List Nat) (x : TimedSys α) : Nat := 2 * sysCost L rs x.sys + (n - x.line.length)

theorem act_line {x x' : TimedSys α} {t : Timer} {line : List Nat} {e : SysEvent} (h : x.act t line e = some x') :
    x'.line = line := by
  unfold act at h
  split at h
  · cases h; rfl
  · cases h

theorem step_line {x x' : TimedSys α} {e : SysEvent} (h : x.step (.sys e) = some x') : x.line.length ≤ x'.line.length + 1 := by
  have herase : ∀ i, x.line.length ≤ (x.line.erase i).length + 1 := by
    intro i
    rw [List.length_erase]
    split <;> omega
  unfold step at h
  split at h
  · cases ‹TimedSysEvent.sys e = _›
  · cases ‹TimedSysEvent.sys e = _›
  · cases ‹TimedSysEvent.sys e = _›
    split at h
    · rw [act_line h]; omega
    · cases h
  · cases ‹TimedSysEvent.sys e = _›
    split at h
    · split at h
      · rw [act_line h]; exact herase _
      · cases h
    · split at h
      · rw [act_line h]; exact herase _
      · cases h
  · cases ‹TimedSysEvent.sys e = _›
    rw [act_line h]; exact herase _
  · cases ‹TimedSysEvent.sys e = _›
    rw [act_line h]; omega

/-- A step of the tool brings it forward. -/
theorem works_measure {L n : Nat} {rs : List Nat} {x x' : TimedSys α} {e : SysEvent} (hb : Budget L rs x.sys)
    (h : x.step (.sys e) = some x') (hw : Works x.sys e = true) :
    ∃ rs', Budget L rs' x'.sys ∧ measure L n rs' x' < measure L n rs x := by
  obtain ⟨rs', h1, h2⟩ := sysCost_step hb (step_sys h)
  refine ⟨rs', h1, ?_⟩
  have := step_line h
  rw [hw] at h2
  unfold measure
  simp only [if_true] at h2
  omega

/-- What holds of every state in a prompt history. -/
structure Ready (P : Params) (x : TimedSys α) : Prop where
  good : Good P x
  tracked : Tracked x.sys
  calling : Calling x.sys

/-- A single step. -/
theorem run_one {x x' : TimedSys α} {e : TimedSysEvent} (h : x.step e = some x') : x.run [e] = some x' := by
  simp only [run, h]

theorem act_of {x : TimedSys α} {t : Timer} {line : List Nat} {e : SysEvent} {s' : Sys α} (h : x.sys.step e = some s') :
    ∃ x', x.act t line e = some x' := by
  simp only [act, h]
  exact ⟨_, rfl⟩

theorem line_le {P : Params} {x : TimedSys α} (g : Good P x) {i : Nat} {tk : Task α} {r : HostRpcRequest}
    (hi : x.sys.tasks[i]? = some tk) (hp : tk.phase = .numbered r) (hn : i ∉ x.line) : x.line.length + 1 ≤ P.n := by
  have hsub : (x.line ++ [i]) ⊆ List.range x.sys.tasks.length := by
    intro j hj
    rw [List.mem_range]
    rcases List.mem_append.mp hj with h | h
    · obtain ⟨tk', _, h1, -⟩ := g.inLine j h
      exact (List.getElem?_eq_some_iff.mp h1).1
    · rw [List.mem_singleton] at h
      subst h
      exact (List.getElem?_eq_some_iff.mp hi).1
  have := (inv_lineUp g hi hp hn).lineNodup.length_le_of_subset hsub
  rw [List.length_append, List.length_range, g.length] at this
  exact this

/-- A task that has something to do does it. -/
theorem forward_task {P : Params} {L : Nat} {rs : List Nat} {x : TimedSys α} (r : Ready P x) (hb : Budget L rs x.sys)
    {i : Nat} {tk : Task α} (hi : x.sys.tasks[i]? = some tk) (hn : ¬Resting x i tk) :
    ∃ e x' rs', x.step e = some x' ∧ (∀ d, e ≠ .elapse d) ∧ Budget L rs' x'.sys ∧ measure L P.n rs' x' < measure L P.n rs x := by
  have sys : ∀ {e : SysEvent} {x' : TimedSys α}, x.step (.sys e) = some x' → Works x.sys e = true →
      ∃ e x' rs', x.step e = some x' ∧ (∀ d, e ≠ .elapse d) ∧ Budget L rs' x'.sys ∧
        measure L P.n rs' x' < measure L P.n rs x := by
    intro e x' h hw
    obtain ⟨rs', h1, h2⟩ := works_measure hb h hw
    exact ⟨.sys e, x', rs', h, (fun d k => by cases k), h1, h2⟩
  obtain ⟨p, phase, past⟩ := tk
  cases phase with
  | ready =>
    have hr : ¬Ended (⟨p, .ready, past⟩ : Task α) := hn
    cases p with
    | rpc c k =>
      obtain ⟨x', hx⟩ := act_of (x := x) (t := x.timer) (line := x.line) (e := .number i)
        (by simp only [Sys.step, hi]; rfl)
      exact sys (e := .number i) hx rfl
    | ret a => exact absurd (fun c k h => by cases h) hr
    | fail e => exact absurd (fun c k h => by cases h) hr
    | panic => exact absurd (fun c k h => by cases h) hr
  | cancelled => exact absurd trivial hn
  | waiting chan req =>
    obtain ⟨c, k, rfl⟩ := r.calling i _ hi (fun h => by cases h) (fun h => by cases h)
    have hr : ¬(x.sys.io.status = .running ∧ x.sys.mail.lookup chan = none) := hn
    have : ∃ s', x.sys.step (.receive i) = some s' := by
      cases hm : x.sys.mail.lookup chan with
      | some a => exact ⟨_, by simp only [Sys.step, hi, hm]; rfl⟩
      | none =>
        have : ¬x.sys.io.status = .running := fun h => hr ⟨h, hm⟩
        exact ⟨_, by simp only [Sys.step, hi, hm, if_neg this]; rfl⟩
    obtain ⟨s', hs⟩ := this
    obtain ⟨x', hx⟩ := act_of (x := x) (t := x.timer) (line := x.line) hs
    exact sys (e := .receive i) hx rfl
  | numbered req =>
    obtain ⟨c, k, rfl⟩ := r.calling i _ hi (fun h => by cases h) (fun h => by cases h)
    have submit : ∀ {j : Nat} {tk : Task α} {q : HostRpcRequest}, x.sys.tasks[j]? = some tk → tk.phase = .numbered q →
        ∃ s', x.sys.step (.submit j) = some s' := by
      intro j tk q hj hq
      obtain ⟨p, phase, past⟩ := tk
      dsimp only at hq
      subst hq
      obtain ⟨c, k, rfl⟩ := r.calling j _ hj (fun h => by cases h) (fun h => by cases h)
      simp only [Sys.step, hj]
      split <;> exact ⟨_, rfl⟩
    by_cases hl : i ∈ x.line
    · by_cases hr : x.sys.io.status = .running
      · have hq : x.sys.io.queue.length < numOutstandingRequests := by
          refine Nat.lt_of_not_le fun h => ?_
          exact hn ⟨hr, hl, h⟩
        cases hx : x.line with
        | nil => rw [hx] at hl; cases hl
        | cons j rest =>
          obtain ⟨tk, q, h1, h2⟩ := r.good.inLine j (by rw [hx]; exact List.mem_cons_self)
          obtain ⟨s', hs⟩ := submit h1 h2
          obtain ⟨x', hx'⟩ := act_of (x := x) (t := x.timer) (line := x.line.erase j) hs
          refine sys (e := .submit j) (x' := x') ?_ rfl
          unfold step
          dsimp only
          rw [if_pos hr, if_pos ⟨by rw [hx]; rfl, hq⟩]
          exact hx'
      · obtain ⟨s', hs⟩ := submit hi rfl
        obtain ⟨x', hx'⟩ := act_of (x := x) (t := x.timer) (line := x.line.erase i) hs
        refine sys (e := .submit i) (x' := x') ?_ rfl
        unfold step
        dsimp only
        rw [if_neg hr, if_pos hl]
        exact hx'
    · refine ⟨.lineUp i, { x with line := x.line ++ [i] }, rs, ?_, (fun d k => by cases k), hb, ?_⟩
      · unfold step
        simp only [hi, if_neg hl]
      · have := line_le r.good hi rfl hl
        unfold measure
        simp only [List.length_append, List.length_cons, List.length_nil]
        omega

/-- If no task has, the loop has, or time passes until it has. -/
theorem forward_loop {P : Params} {L : Nat} {rs : List Nat} {x : TimedSys α} (r : Ready P x) (hb : Budget L rs x.sys)
    (hrest : ∀ i tk, x.sys.tasks[i]? = some tk → Resting x i tk) {i : Nat} {tk : Task α} (hi : x.sys.tasks[i]? = some tk)
    (hu : Unfinished tk) :
    ∃ es x' rs', x.run es = some x' ∧ SysPrompt P.late x es ∧ Budget L rs' x'.sys ∧
      measure L P.n rs' x' < measure L P.n rs x := by
  have hr : x.sys.io.status = .running := by
    have := hrest i tk hi
    unfold Resting at this
    split at this
    · obtain ⟨-, c, k, h⟩ := hu
      exact absurd h (this c k)
    · exact this.1
    · exact this.1
    · exact absurd ‹_› hu.1
  cases ho : x.sys.io.outstanding with
  | some o =>
    have ht := r.good.timer hr o ho
    have hle : x.timer.due ≤ x.timer.now + (x.timer.due - x.timer.now) := by omega
    obtain ⟨x₂, hx₂⟩ := act_of (x := { x with timer := { x.timer with now := x.timer.now + (x.timer.due - x.timer.now) } })
      (t := Timer.ticked { x.timer with now := x.timer.now + (x.timer.due - x.timer.now) }) (line := x.line)
      (e := .loop (.tick true)) rfl
    have hstep : step { x with timer := { x.timer with now := x.timer.now + (x.timer.due - x.timer.now) } }
        (.sys (.loop (.tick true))) = some x₂ := by
      unfold step
      dsimp only
      rw [if_pos ⟨hr, by rw [ho]; rfl, hle⟩]
      exact hx₂
    obtain ⟨rs', h1, h2⟩ := works_measure (n := P.n)
      (x := { x with timer := { x.timer with now := x.timer.now + (x.timer.due - x.timer.now) } }) hb hstep
      (by simp [Works, hr, ho])
    refine ⟨[.elapse (x.timer.due - x.timer.now), .sys (.loop (.tick true))], x₂, rs', ?_, ?_, h1, h2⟩
    · simp only [run, show x.step (.elapse (x.timer.due - x.timer.now)) = some _ from rfl, hstep]
    · refine ⟨.inr ⟨hrest, fun _ => ⟨fun _ => ?_, fun h => by rw [show x.sys.io.outstanding = none from h] at ho; cases ho⟩⟩,
        fun x' hx => ⟨trivial, fun _ _ => trivial⟩⟩
      show x.timer.now + (x.timer.due - x.timer.now) ≤ x.timer.due + P.late
      omega
  | none =>
    have hq : x.sys.io.queue ≠ [] := by
      intro hq
      have := hrest i tk hi
      unfold Resting at this
      split at this
      · obtain ⟨-, c, k, h⟩ := hu
        exact absurd h (this c k)
      · have := this.2.2
        rw [hq] at this
        exact absurd this (by decide)
      · rename_i chan req hph
        rcases r.tracked i tk chan req hi hph hr with ⟨a, ha⟩ | ⟨o, ho', -⟩ | ⟨q, hq'⟩
        · exact noMail_iff.mpr this.2 _ ha rfl
        · rw [ho] at ho'; cases ho'
        · rw [hq] at hq'; cases hq'
      · exact absurd ‹_› hu.1
    obtain ⟨x', hx⟩ := act_of (x := x) (t := x.timer) (line := x.line) (e := .loop (.accept true)) rfl
    have hstep : x.step (.sys (.loop (.accept true))) = some x' := hx
    obtain ⟨rs', h1, h2⟩ := works_measure (n := P.n) hb hstep (by
      simp only [Works, hr, ho, BEq.rfl, Option.isNone_none, Bool.true_and, Bool.not_eq_eq_eq_not, Bool.not_true,
        List.isEmpty_eq_false_iff]
      exact hq)
    exact ⟨[.sys (.loop (.accept true))], x', rs', run_one hstep, ⟨trivial, fun _ _ => trivial⟩, h1, h2⟩

theorem run_trans {x y z : TimedSys α} {xs ys : List TimedSysEvent} (h1 : x.run xs = some y) (h2 : y.run ys = some z) :
    x.run (xs ++ ys) = some z := by
  induction xs generalizing x with
  | nil => cases h1; exact h2
  | cons e es ih =>
    unfold run at h1
    split at h1
    · rename_i x₁ hx
      rw [List.cons_append, run, hx]
      exact ih h1
    · cases h1

theorem prompt_trans {late : Nat} {x y : TimedSys α} {xs ys : List TimedSysEvent} (h1 : x.run xs = some y)
    (p1 : SysPrompt late x xs) (p2 : SysPrompt late y ys) : SysPrompt late x (xs ++ ys) := by
  induction xs generalizing x with
  | nil => cases h1; exact p2
  | cons e es ih =>
    unfold run at h1
    split at h1
    · rename_i x₁ hx
      refine ⟨p1.1, fun x' hx' => ?_⟩
      rw [hx] at hx'
      cases hx'
      exact ih h1 (p1.2 _ hx)
    · cases h1

theorem ready_run {P : Params} {x x' : TimedSys α} {es : List TimedSysEvent} (r : Ready P x) (h : x.run es = some x')
    (hp : SysPrompt P.late x es) : Ready P x' :=
  ⟨good_run r.good h hp, tracked_run _ r.tracked (run_untimedSys h), calling_run r.calling (run_untimedSys h)⟩

/-- A prompt history can go on until no task has anything left to do. -/
theorem can_end {P : Params} {L : Nat} (n : Nat) : ∀ {rs : List Nat} {x : TimedSys α}, measure L P.n rs x < n → Ready P x →
    Budget L rs x.sys → ∃ es x', x.run es = some x' ∧ SysPrompt P.late x es ∧
      ∀ (i : Nat) (tk : Task α), x'.sys.tasks[i]? = some tk → ¬Unfinished tk := by
  induction n with
  | zero => intro rs x h; omega
  | succ n ih =>
    intro rs x hm r hb
    by_cases hu : ∃ (i : Nat) (tk : Task α), x.sys.tasks[i]? = some tk ∧ Unfinished tk
    · obtain ⟨i, tk, hi, hu⟩ := hu
      have : ∃ es x' rs', x.run es = some x' ∧ SysPrompt P.late x es ∧ Budget L rs' x'.sys ∧
          measure L P.n rs' x' < measure L P.n rs x := by
        by_cases hrest : ∀ i tk, x.sys.tasks[i]? = some tk → Resting x i tk
        · exact forward_loop r hb hrest hi hu
        · simp only [Classical.not_forall] at hrest
          obtain ⟨j, tj, hj, hn⟩ := hrest
          obtain ⟨e, x', rs', h1, h2, h3, h4⟩ := forward_task r hb hj hn
          refine ⟨[e], x', rs', run_one h1, ⟨?_, fun _ _ => trivial⟩, h3, h4⟩
          cases e with
          | elapse d => exact absurd rfl (h2 d)
          | _ => trivial
      obtain ⟨es, x', rs', h1, h2, h3, h4⟩ := this
      obtain ⟨es', x'', k1, k2, k3⟩ := ih (by omega) (ready_run r h1 h2) h3
      exact ⟨es ++ es', x'', run_trans h1 k1, prompt_trans h1 h2 k2, k3⟩
    · exact ⟨[], x, rfl, trivial, fun i tk hi h => hu ⟨i, tk, hi, h⟩⟩

end TimedSys

end Xcvr
