import Verif.Spec.Timed
import Verif.Lemmas.IoLoop

/-! # The loop in time: lemmas for C127-C129 -/

namespace Xcvr

open Spec IoState

namespace Timed

/-- The same history without times. -/
def untimed (evs : List TimedEvent) : List Event := evs.filterMap fun | .io e => some e | _ => none

theorem run_cons {s s' : Timed} {e : TimedEvent} {es : List TimedEvent} {acts : List (Nat × Action)}
    (h : s.run (e :: es) = some (s', acts)) :
    ∃ s₁ a₁ a₂, s.step e = some (s₁, a₁) ∧ s₁.run es = some (s', a₂) ∧ acts = a₁ ++ a₂ := by
  unfold run at h
  split at h
  · cases h
  · next s₁ a₁ h1 =>
    split at h
    · cases h
    · next s₂ a₂ h2 => cases h; exact ⟨s₁, a₁, a₂, h1, h2, rfl⟩

theorem run_append {s s' : Timed} {xs ys : List TimedEvent} {acts : List (Nat × Action)}
    (h : s.run (xs ++ ys) = some (s', acts)) :
    ∃ s₁ a₁ a₂, s.run xs = some (s₁, a₁) ∧ s₁.run ys = some (s', a₂) ∧ acts = a₁ ++ a₂ := by
  induction xs generalizing s acts with
  | nil => exact ⟨s, [], acts, rfl, h, rfl⟩
  | cons x xs ih =>
    obtain ⟨s₁, a₁, a₂, h1, h2, rfl⟩ := run_cons h
    obtain ⟨s₂, b₁, b₂, h3, h4, rfl⟩ := ih h2
    refine ⟨s₂, a₁ ++ b₁, b₂, ?_, h4, by simp⟩
    unfold run
    rw [h1]
    dsimp only
    rw [h3]

theorem run_snoc_of {s s₁ s₂ : Timed} {xs : List TimedEvent} {e : TimedEvent} {a₁ a₂ : List (Nat × Action)}
    (h : s.run xs = some (s₁, a₁)) (h' : s₁.step e = some (s₂, a₂)) : s.run (xs ++ [e]) = some (s₂, a₁ ++ a₂) := by
  induction xs generalizing s a₁ with
  | nil =>
    cases h
    simp [run, h']
  | cons x xs ih =>
    obtain ⟨s₃, b₁, b₂, h1, h2, rfl⟩ := run_cons h
    simp only [List.cons_append]
    unfold run
    rw [h1]
    dsimp only
    rw [ih h2]
    simp

/-- What a step in time is without it. -/
theorem step_io {s s' : Timed} {e : Event} {acts : List (Nat × Action)} (h : s.step (.io e) = some (s', acts)) :
    s.io.step e = (s'.io, acts.map (·.2)) ∧ (∀ a ∈ acts, a.1 = s.timer.now) ∧ s'.timer.now = s.timer.now ∧
    s'.timer.period = s.timer.period ∧
    (sends (acts.map (·.2)) = true → s'.timer.due = s.timer.now + s.timer.period) ∧
    (sends (acts.map (·.2)) = false → (∀ ok, e ≠ .tick ok) → s'.timer.due = s.timer.due) ∧
    (∀ ok, e = .tick ok → s.io.status = .running ∧ s.io.outstanding.isSome ∧ s.timer.due ≤ s.timer.now) := by
  have key : ∀ t : Timer, t.now = s.timer.now → t.period = s.timer.period → ((∀ ok, e ≠ .tick ok) → t = s.timer) →
      s.act t e = (s', acts) →
      s.io.step e = (s'.io, acts.map (·.2)) ∧ (∀ a ∈ acts, a.1 = s.timer.now) ∧ s'.timer.now = s.timer.now ∧
      s'.timer.period = s.timer.period ∧
      (sends (acts.map (·.2)) = true → s'.timer.due = s.timer.now + s.timer.period) ∧
      (sends (acts.map (·.2)) = false → (∀ ok, e ≠ .tick ok) → s'.timer.due = s.timer.due) := by
    intro t h1 h2 h3 h
    simp only [act, Prod.mk.injEq] at h
    obtain ⟨rfl, rfl⟩ := h
    have hm : List.map (·.2) (List.map (fun a => (s.timer.now, a)) (s.io.step e).2) = (s.io.step e).2 := by
      rw [List.map_map]; exact List.map_id _
    rw [hm]
    refine ⟨rfl, ?_, ?_, ?_, ?_, ?_⟩
    · intro a ha
      obtain ⟨b, -, rfl⟩ := List.mem_map.mp ha
      rfl
    · dsimp only
      split
      · exact h1
      · exact h1
    · dsimp only
      split
      · exact h2
      · exact h2
    · intro hs
      dsimp only
      rw [if_pos hs]
      show t.now + t.period = _
      rw [h1, h2]
    · intro hs he
      dsimp only
      rw [if_neg (by simp [hs])]
      rw [h3 he]
  by_cases ht : ∃ ok, e = .tick ok
  · obtain ⟨ok, rfl⟩ := ht
    unfold step at h
    dsimp only at h
    split at h
    · next hc =>
      obtain ⟨k1, k2, k3, k4, k5, k6⟩ := key s.timer.ticked rfl rfl (fun hn => absurd rfl (hn ok)) (Option.some.inj h)
      exact ⟨k1, k2, k3, k4, k5, k6, fun ok' _ => hc⟩
    · cases h
  · have he : ∀ ok, e ≠ .tick ok := fun ok h => ht ⟨ok, h⟩
    have h' : some (s.act s.timer e) = some (s', acts) := by
      rw [← h]
      cases e <;> first | rfl | exact absurd rfl (he _)
    obtain ⟨k1, k2, k3, k4, k5, k6⟩ := key s.timer rfl rfl (fun _ => rfl) (Option.some.inj h')
    exact ⟨k1, k2, k3, k4, k5, k6, fun ok h => absurd h (he ok)⟩

/-- A history in time is a history of the loop. -/
theorem run_untimed {s s' : Timed} {es : List TimedEvent} {acts : List (Nat × Action)} (h : s.run es = some (s', acts)) :
    s.io.run (untimed es) = (s'.io, acts.map (·.2)) := by
  induction es generalizing s acts with
  | nil => cases h; rfl
  | cons e es ih =>
    obtain ⟨s₁, a₁, a₂, h1, h2, rfl⟩ := run_cons h
    replace ih := ih h2
    cases e with
    | elapse d => cases h1; simpa [untimed] using ih
    | io e =>
      obtain ⟨k1, -⟩ := step_io h1
      show IoState.run s.io (e :: untimed es) = _
      simp only [IoState.run, k1, ih, List.map_append]

/-- Induction over histories in time, at their end. -/
theorem hist_induction {s₀ : Timed} {P : List TimedEvent → Timed → List (Nat × Action) → Prop} (h0 : P [] s₀ [])
    (hs : ∀ evs e s acts s' new, s₀.run evs = some (s, acts) → P evs s acts → s.step e = some (s', new) →
      P (evs ++ [e]) s' (acts ++ new)) {evs : List TimedEvent} {s : Timed} {acts : List (Nat × Action)}
    (h : s₀.run evs = some (s, acts)) : P evs s acts := by
  suffices k : ∀ n evs s acts, evs.length = n → s₀.run evs = some (s, acts) → P evs s acts from k _ evs s acts rfl h
  intro n
  induction n with
  | zero =>
    intro evs s acts hn h
    rw [List.length_eq_zero_iff.mp hn] at h ⊢
    cases h
    exact h0
  | succ n ih =>
    intro evs s acts hn h
    rcases List.eq_nil_or_concat evs with rfl | ⟨xs, e, rfl⟩
    · simp at hn
    · rw [List.concat_eq_append] at h ⊢
      obtain ⟨s₁, a₁, a₂, h1, h2, rfl⟩ := run_append h
      obtain ⟨s₂, b₁, b₂, h3, h4, rfl⟩ := run_cons h2
      cases h4
      rw [List.append_nil]
      exact hs xs e s₁ a₁ s b₁ h1 (ih xs s₁ a₁ (by simpa using hn) h1) h3

theorem timesSent_append (c : Chan) (xs ys : List (Nat × Action)) :
    timesSent c (xs ++ ys) = timesSent c xs ++ timesSent c ys := by simp [timesSent]

theorem timesSent_length (c : Chan) (xs : List (Nat × Action)) :
    (timesSent c xs).length = (sentFor c (xs.map (·.2))).length := by
  induction xs with
  | nil => rfl
  | cons x xs ih =>
    obtain ⟨t, a⟩ := x
    cases a with
    | sendRequest c' pkt =>
      simp only [timesSent, sentFor, List.map_cons, List.filterMap_cons] at ih ⊢
      by_cases hc : c' = c
      · simp [hc, ih]
      · simp [hc, ih]
    | _ => simpa [timesSent, sentFor] using ih

theorem timesSent_nil {c : Chan} {xs : List (Nat × Action)} (h : sentFor c (xs.map (·.2)) = []) : timesSent c xs = [] := by
  rw [← List.length_eq_zero_iff, timesSent_length, h]; rfl

theorem timesSent_none {c : Chan} {xs : List (Nat × Action)} (h : ∀ a ∈ xs.map (·.2), concerns a = none) :
    timesSent c xs = [] := timesSent_nil (sentFor_none c h)

theorem sends_none {acts : List Action} (h : ∀ a ∈ acts, concerns a = none) : sends acts = false := by
  unfold sends
  rw [List.any_eq_false]
  intro a ha
  have := h a ha
  cases a <;> simp_all [concerns]

theorem submitted_untimed (evs : List TimedEvent) : submitted (untimed evs) = submittedIn evs := by
  induction evs with
  | nil => rfl
  | cons e es ih =>
    cases e with
    | elapse d => exact ih
    | io e => cases e <;> first | exact ih | exact congrArg _ ih

/-- When requests were transmitted, and when the next tick is due. -/
structure SpacedInv (period : Nat) (s : Timed) (acts : List (Nat × Action)) : Prop where
  same : s.timer.period = period
  past : ∀ a ∈ acts, a.1 ≤ s.timer.now
  spaced : ∀ c, (timesSent c acts).Pairwise (fun x y => x + period ≤ y)
  due : s.io.status = .running → ∀ o, s.io.outstanding = some o → ∀ t ∈ timesSent o.chan acts, t + period ≤ s.timer.due
  soon : s.io.status = .running → s.io.outstanding.isSome → s.timer.due ≤ s.timer.now + period
  failed : ∀ before t c a later, acts = before ++ (t, .answer c (.error a)) :: later →
    ((∃ n, a = .maxRetries n) ∨ ∃ n, a = .maxFaultMessages n) → ∀ x ∈ timesSent c before, x + period ≤ t

theorem mem_times {c : Chan} {acts : List (Nat × Action)} {t : Nat} (h : t ∈ timesSent c acts) : ∃ a ∈ acts, a.1 = t := by
  simp only [timesSent, List.mem_filterMap] at h
  obtain ⟨⟨x, a⟩, ha, h⟩ := h
  refine ⟨_, ha, ?_⟩
  cases a <;> simp_all

theorem failed_append {acts new : List (Nat × Action)} {period : Nat}
    (h1 : ∀ before t c a later, acts = before ++ (t, Action.answer c (.error a)) :: later →
      ((∃ n, a = .maxRetries n) ∨ ∃ n, a = .maxFaultMessages n) → ∀ x ∈ timesSent c before, x + period ≤ t)
    (h2 : ∀ before t c a later, new = before ++ (t, Action.answer c (.error a)) :: later →
      ((∃ n, a = .maxRetries n) ∨ ∃ n, a = .maxFaultMessages n) → ∀ x ∈ timesSent c (acts ++ before), x + period ≤ t) :
    ∀ before t c a later, acts ++ new = before ++ (t, Action.answer c (.error a)) :: later →
      ((∃ n, a = .maxRetries n) ∨ ∃ n, a = .maxFaultMessages n) → ∀ x ∈ timesSent c before, x + period ≤ t := by
  intro before t c a later h ha x hx
  rw [List.append_eq_append_iff] at h
  rcases h with ⟨m, rfl, h⟩ | ⟨m, rfl, h⟩
  · exact h2 m t c a later h ha x hx
  · cases m with
    | nil =>
      rw [List.nil_append] at h
      rw [List.append_nil] at h1 h2
      exact h2 [] t c a later h.symm ha x (by simpa using hx)
    | cons y m =>
      simp only [List.cons_append, List.cons.injEq] at h
      obtain ⟨rfl, -⟩ := h
      exact h1 before t c a m rfl ha x hx

theorem failed_none {acts new : List (Nat × Action)} {period : Nat} (h : ∀ a ∈ new.map (·.2), concerns a = none) :
    ∀ before t c a later, new = before ++ (t, Action.answer c (.error a)) :: later →
      ((∃ n, a = .maxRetries n) ∨ ∃ n, a = .maxFaultMessages n) → ∀ x ∈ timesSent c (acts ++ before), x + period ≤ t := by
  rintro before t c a later rfl
  have := h (.answer c (.error a)) (by simp)
  cases this

theorem single_of_map {new : List (Nat × Action)} {a : Action} (h : new.map (·.2) = [a]) : ∃ t, new = [(t, a)] := by
  rw [List.map_eq_singleton_iff] at h
  obtain ⟨⟨t, b⟩, rfl, rfl⟩ := h
  exact ⟨t, rfl⟩

theorem spaced_inv (lim : Option Nat) (period t₀ : Nat) {evs : List TimedEvent} {s : Timed} {acts : List (Nat × Action)}
    (h : (init lim period t₀).run evs = some (s, acts)) (hd : (submittedIn evs).Nodup) : SpacedInv period s acts := by
  revert hd
  refine hist_induction (P := fun evs s acts => (submittedIn evs).Nodup → SpacedInv period s acts) ?_ ?_ h
  · intro _
    refine ⟨rfl, ?_, ?_, ?_, ?_, ?_⟩
    · intro a ha; cases ha
    · intro c; exact .nil
    · intro _ o ho; cases ho
    · intro _ ho; cases ho
    · intro before t c a later h
      simp at h
  · intro evs e s acts s' new hrun inv hstep hd
    have hd' : (submittedIn evs).Nodup := by
      have : submittedIn (evs ++ [e]) = submittedIn evs ++ submittedIn [e] := by simp [submittedIn]
      rw [this] at hd
      exact (List.nodup_append.mp hd).1
    replace inv := inv hd'
    have hu := run_untimed hrun
    have hsent := sent_inv lim (untimed evs) (by rw [submitted_untimed]; exact hd')
    have hi : (init lim period t₀).io = IoState.init lim := rfl
    rw [hi] at hu
    rw [hu] at hsent
    dsimp only at hsent
    cases e with
    | elapse d =>
      cases hstep
      rw [List.append_nil]
      refine ⟨inv.same, fun a ha => ?_, inv.spaced, inv.due, fun h1 h2 => ?_, inv.failed⟩
      · have := inv.past a ha; show a.1 ≤ s.timer.now + d; omega
      · have := inv.soon h1 h2; show s.timer.due ≤ s.timer.now + d + period; omega
    | io e =>
      obtain ⟨k1, k2, k3, k4, k5, k6, k7⟩ := step_io hstep
      have sh := step_shape s.io e
      rw [k1] at sh
      dsimp only at sh
      have past : ∀ a ∈ acts ++ new, a.1 ≤ s'.timer.now := by
        intro a ha
        rw [k3]
        rcases List.mem_append.mp ha with ha | ha
        · exact inv.past a ha
        · exact Nat.le_of_eq (k2 a ha)
      have quietly : (∀ a ∈ new.map (·.2), concerns a = none) →
          (s'.io.status = .running → (∀ ok, e ≠ .tick ok) ∧ s.io.status = .running ∧
            (∀ o', s'.io.outstanding = some o' → ∃ o, s.io.outstanding = some o ∧ o.chan = o'.chan)) →
          SpacedInv period s' (acts ++ new) := by
        intro hq hr
        have hns := sends_none hq
        refine ⟨by rw [k4, inv.same], past, fun c => ?_, fun h1 o' ho' t ht => ?_, fun h1 h2 => ?_,
          failed_append inv.failed (failed_none hq)⟩
        · rw [timesSent_append, timesSent_none hq, List.append_nil]; exact inv.spaced c
        · obtain ⟨hnt, hst, ho⟩ := hr h1
          obtain ⟨o, ho, hc⟩ := ho o' ho'
          rw [timesSent_append, timesSent_none hq, List.append_nil, ← hc] at ht
          rw [k6 hns hnt]
          exact inv.due hst o ho t ht
        · obtain ⟨hnt, hst, ho⟩ := hr h1
          rw [k6 hns hnt, k3]
          obtain ⟨o', ho'⟩ := Option.isSome_iff_exists.mp h2
          obtain ⟨o, ho, -⟩ := ho o' ho'
          exact inv.soon hst (by rw [ho]; rfl)
      generalize hio : s'.io = io' at sh quietly
      generalize hacts : new.map (·.2) = acts' at sh quietly
      cases sh with
      | submit c r =>
        refine quietly (by simp) fun h1 => ⟨(by simp), h1, fun o' ho' => ⟨o', ho', rfl⟩⟩
      | env _ _ h1 h2 h3 h4 hl ho hq hs =>
        exact quietly (by simp) fun h => ⟨h3, hs ▸ h, fun o' ho' => ⟨o', ho ▸ ho', rfl⟩⟩
      | dead _ _ h1 hs hl => exact quietly (by simp) fun h => absurd h hs
      | quiet _ _ hr h1 h2 h4 =>
        refine quietly h4 fun _ => ⟨fun ok he => ?_, hr, fun o' ho' => ?_⟩
        · have := (k7 ok he).2.1
          rw [h2 ok he] at this
          cases this
        · simp only [Option.map_eq_some_iff] at ho'
          obtain ⟨o, ho, rfl⟩ := ho'
          exact ⟨o, ho, rfl⟩
      | start c r q hr ho hq =>
          obtain ⟨t, rfl⟩ := single_of_map hacts
          have ht : t = s.timer.now := k2 _ List.mem_cons_self
          subst ht
          have hnone : timesSent c acts = [] := timesSent_nil (hsent.queued hr (c, r) (by rw [hq]; simp))
          have hdue := k5 (by simp [sends])
          refine ⟨by rw [k4, inv.same], past, fun c' => ?_, fun h1 o' ho' t ht => ?_, fun h1 h2 => ?_, ?_⟩
          · rw [timesSent_append]
            by_cases hc : c = c'
            · subst hc
              rw [hnone]
              simp [timesSent]
            · simp [timesSent, hc]
              exact inv.spaced c'
          · rw [hio] at ho'
            cases ho'
            rw [timesSent_append, hnone] at ht
            simp [timesSent] at ht
            rw [hdue, ht, inv.same]
            exact Nat.le_refl _
          · rw [hdue, k3, inv.same]; exact Nat.le_refl _
          · refine failed_append inv.failed ?_
            intro before t c a later h
            have := congrArg List.length h
            cases before with
            | nil => simp at h
            | cons => simp at h
      | startFail c r q hr ho hq =>
          obtain ⟨t, rfl⟩ := single_of_map hacts
          refine ⟨by rw [k4, inv.same], past, fun c' => ?_, fun h1 o' ho' t ht => ?_, fun h1 h2 => ?_, ?_⟩
          · rw [timesSent_append]
            simp [timesSent]
            exact inv.spaced c'
          · rw [hio] at ho'; cases ho'
          · rw [hio] at h2; cases h2
          · refine failed_append inv.failed ?_
            intro before t c a later h ha
            cases before with
            | nil => simp at h; obtain ⟨⟨-, -, rfl⟩, -⟩ := h; simp at ha
            | cons => simp at h
      | resend o hr ho hl he =>
          obtain ⟨t, rfl⟩ := single_of_map hacts
          have ht : t = s.timer.now := k2 _ List.mem_cons_self
          subst ht
          have hdue := k5 (by simp [sends])
          have hk := (k7 true rfl).2.2
          refine ⟨by rw [k4, inv.same], past, fun c' => ?_, fun h1 o' ho' t ht => ?_, fun h1 h2 => ?_, ?_⟩
          · rw [timesSent_append]
            by_cases hc : o.chan = c'
            · subst hc
              rw [List.pairwise_append]
              refine ⟨inv.spaced _, by simp [timesSent], fun x hx y hy => ?_⟩
              simp [timesSent] at hy
              subst hy
              exact Nat.le_trans (inv.due hr o ho x hx) hk
            · simp [timesSent, hc]
              exact inv.spaced c'
          · rw [hio] at ho'
            cases ho'
            rw [timesSent_append] at ht
            rw [hdue, inv.same]
            rcases List.mem_append.mp ht with ht | ht
            · have := inv.due hr o ho t ht
              omega
            · simp [timesSent] at ht
              omega
          · rw [hdue, k3, inv.same]; exact Nat.le_refl _
          · refine failed_append inv.failed ?_
            intro before t c a later h
            cases before with
            | nil => simp at h
            | cons => simp at h
      | reply o _ a hr ho hre h1 =>
          obtain ⟨t, rfl⟩ := single_of_map hacts
          have ht : t = s.timer.now := k2 _ List.mem_cons_self
          subst ht
          refine ⟨by rw [k4, inv.same], past, fun c' => ?_, fun h1 o' ho' t ht => ?_, fun h1 h2 => ?_, ?_⟩
          · rw [timesSent_append]
            simp [timesSent]
            exact inv.spaced c'
          · rw [hio] at ho'; cases ho'
          · rw [hio] at h2; cases h2
          · refine failed_append inv.failed ?_
            intro before t c b later h hb x hx
            cases before with
            | nil =>
              simp only [List.nil_append, List.cons.injEq, Prod.mk.injEq, Action.answer.injEq] at h
              obtain ⟨⟨rfl, rfl, rfl⟩, -⟩ := h
              rw [List.append_nil] at hx
              have key : ∀ ok, e = .tick ok → x + period ≤ s.timer.now := fun ok he =>
                Nat.le_trans (inv.due hr o ho x hx) (k7 ok he).2.2
              generalize hxx : (Except.error b : Answer) = y at hre
              cases hre with
              | io => cases hxx; simp at hb
              | retries ok => exact key ok rfl
              | faults ok => exact key ok rfl
              | proto => cases hxx; simp at hb
              | response _ _ _ hdr rest m r t' =>
                exfalso
                rcases hb with ⟨n, rfl⟩ | ⟨n, rfl⟩ <;>
                · unfold collectResponse at hxx
                  split at hxx
                  · cases hxx
                  · dsimp only at hxx
                    split at hxx <;> cases hxx
            | cons y before => simp at h

end Timed

end Xcvr
