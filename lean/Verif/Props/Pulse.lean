import Verif.Props.Release

/-! # C161: a module is taken out of reset only when it is in reset -/

namespace Xcvr

open Controller Prog Spec Cli

/-- Port `p` is in reset whenever a request to take its module out of reset is made. -/
def Spec.ReleasedInReset (p : Nat) : PortState → List Exchange → Prop :=
  Whenever (fun q => Releases q p) (fun c => c.reset = true) p

/-- C161: `reset` takes a module out of reset only when the module is in reset, whatever the SP fails at. -/
theorem C161_reset (m : ModuleId) (t : List Exchange) (o : Exec CtlError (Res Unit)) (h : Runs (Controller.reset m) t o)
    (hc : Conforming t) (p : Nat) (s : PortState) : ReleasedInReset p s t := by
  obtain ⟨x₁, x₂, s₁, res, rfl, h1, h2, h3, -⟩ := C38_reset m t o h hc
  refine whenever_append (t₁ := [x₁]) (whenever_one fun q hq hs => ?_) fun c he => whenever_one fun q hq hs => ?_
  · rw [requestOf_host h1, Option.some.injEq] at hq
    subst hq
    exact hs.elim
  · rw [requestOf_host h2, Option.some.injEq] at hq
    subst hq
    have h4 : Effect (.assertReset m) [] s c := steps_ok h1 (evolvesAt_one.1 he) ((h3 p).1 hs)
    exact h4.2.1

theorem on_released_reset {m : ModuleId} {low : Bool} {t : List Exchange} {o : Exec CtlError (Res Unit)}
    (h : Runs (setPowerOn m low) t o) (hc : Conforming t) {p : Nat} (s : PortState) (hack : PoweredAcked p t)
    (hres : ResetAcked p t) : ReleasedInReset p s t := by
  rcases setPowerOn_spec h hc with ⟨e, h1, -⟩ | ⟨tp, pw, t', rfl, h1, ⟨-, -, rfl, -⟩ | ⟨hno, h2⟩⟩
  · exact whenever_queries releases_not (power_queries h1)
  · rw [List.append_nil]
    exact whenever_queries releases_not (power_queries h1)
  obtain ⟨t₁, t₂, M, modes, F, xs, xl, need, rfl, hs, ha, -, hsoft, hc2⟩ := h2
  obtain ⟨str, ta, tb, td, noReset, m₁, m₂, f₁, f₂, rl, rfl, e1, e2, e3, e4, e5, e6, e7⟩ := hs.steps
  refine whenever_append (whenever_queries releases_not (power_queries h1)) fun b₁ hpw => ?_
  refine whenever_append ?_ fun b₅ hon => ?_
  · refine whenever_append (t₁ := [xs]) (whenever_one fun q hq hsw => ?_) fun b₂ hst => ?_
    · rw [requestOf_host hs.status, Option.some.injEq] at hq
      subst hq
      exact hsw.elim
    refine whenever_append (whenever_none fun x hx q hq hsw => ?_) fun b₃ hea => ?_
    · rcases e3 with ⟨-, y, -, rfl, h2, -⟩ | ⟨-, rfl, -⟩
      · rw [List.mem_singleton] at hx
        subst hx
        rw [requestOf_host h2, Option.some.injEq] at hq
        subst hq
        exact hsw
      · cases hx
    refine whenever_append (whenever_none fun x hx q hq hsw => ?_) fun b₄ heb => ?_
    · rcases e4 with ⟨-, y, -, rfl, h2, -⟩ | ⟨-, rfl, -⟩
      · rw [List.mem_singleton] at hx
        subst hx
        rw [requestOf_host h2, Option.some.injEq] at hq
        subst hq
        exact hsw
      · cases hx
    refine whenever_append (t₁ := [xl]) (whenever_one fun q hq hsw => ?_) fun c hlp => ?_
    · rw [requestOf_host e5, Option.some.injEq] at hq
      subst hq
      cases low <;> exact hsw.elim
    have hlp := evolvesAt_one.1 hlp
    rcases e7 with ⟨-, y, -, rfl, h2, -⟩ | ⟨-, rfl, -⟩
    · refine whenever_one fun q hq hsw => ?_
      rw [requestOf_host h2, Option.some.injEq] at hq
      subst hq
      rcases e4 with ⟨-, z, r, rfl, h6, h7, rfl, -⟩ | ⟨h6, -, -⟩
      · have hok := hack z (by simp) need (.inl (requestOf_host h6)) hsw
        have h8 : Effect (.enablePower need) [] b₃ b₄ := steps_ok h6 (evolvesAt_one.1 heb) hok
        have hm2 : Mem r.modules p := (reports_ok h7).2 hok
        have hok2 : (okIn xl p).isSome := hack xl (by simp) r.modules (by
          rw [requestOf_host e5]
          cases low
          · exact .inr (.inr rfl)
          · exact .inr (.inl rfl)) hm2
        have hcl : c = { b₄ with lowPin := low } := by
          have := steps_ok e5 hlp hok2
          cases low <;> exact this
        rw [hcl]
        refine h8.2.1.trans ?_
        obtain ⟨v, h9, h10⟩ := (hs.need p).1 hsw
        have hst := evolvesAt_one.1 hst
        have hb2 : b₂ = b₁ := hst.quiet _ (requestOf_host hs.status) (.inl trivial)
        obtain ⟨-, -, s2, -⟩ := hst.shows _ _ (requestOf_host hs.status) h9 v rfl
        by_cases hnr : Mem noReset p
        · rcases e3 with ⟨-, w, -, rfl, h11, -⟩ | ⟨h11, -, -⟩
          · have hok3 := hres w (by simp) noReset (requestOf_host h11) hnr
            have h12 : Effect (.assertReset noReset) [] b₂ b₃ := steps_ok h11 (evolvesAt_one.1 hea) hok3
            exact h12.2.1
          · exact absurd hnr (h11 p)
        · have hr : b₁.reset = true := by
            cases h11 : bit v 2
            · exact absurd ((e2 p).2 ⟨v, h9, h10, h11⟩) hnr
            · rw [← s2, h11]
          have hb3 : b₃ = b₂ := by
            rcases e3 with ⟨-, w, -, rfl, h11, -⟩ | ⟨-, rfl, -⟩
            · exact steps_not h11 rfl (evolvesAt_one.1 hea) hnr
            · exact hea
          rw [hb3, hb2]
          exact hr
      · exact absurd hsw (h6 p)
    · exact whenever_none fun x hx => by cases hx
  · obtain ⟨ti, tw, rfl, hti, hw, -⟩ := setSoft_spec ha hsoft hc2
    refine whenever_append (whenever_queries releases_not (readsOf_queries hti)) fun _ _ =>
      whenever_none fun x hx q hq hsw => ?_
    obtain ⟨code, g, ov, r, ⟨⟨w, v, -, h5⟩, -⟩, -⟩ := hw x hx
    rw [requestOf_host h5, Option.some.injEq] at hq
    subst hq
    exact hsw

/-- C161, what holds of setting power: a module is taken out of reset only when it is in reset, if the SP has not failed at
an earlier step for it. -/
theorem C161_power_partial (m : ModuleId) (st : PowerState) (t : List Exchange) (o : Exec CtlError (Res Unit))
    (h : Runs (setPower m st) t o) (hc : Conforming t) (p : Nat) (s : PortState) (hack : PoweredAcked p t)
    (hres : ResetAcked p t) : ReleasedInReset p s t := by
  cases st with
  | off => exact whenever_none (C160_off m t o h hc p)
  | low => exact on_released_reset (low := true) h hc s hack hres
  | high => exact on_released_reset (low := false) h hc s hack hres

/-- C161 is false of setting low power: module 0 is off and not in reset, and the SP fails to put it in reset. It is then asked
to take the module out of reset. -/
theorem C161_counterexample : ∃ t o s', Runs (setPower ⟨0b1⟩ .low) t o ∧ Conforming t ∧
    EvolvesAt 0 (unevenBoard 0) t s' ∧ ¬ ReleasedInReset 0 (unevenBoard 0) t := by
  have h1 := Bench.exec_runs (boardBench unevenBoard stuckReset) (setPower ⟨0b1⟩ .low)
  have h2 := board_evolves unevenBoard stuckReset (stuck_calls ⟨0b1⟩) []
  have h3 := board_evolves_take unevenBoard stuckReset (stuck_calls ⟨0b1⟩) [] 5
  have hc := setPower_conforming (boardBench unevenBoard stuckReset) ⟨0b1⟩ .low
  have e1 : (((setPower ⟨0b1⟩ .low).exec (boardBench unevenBoard stuckReset).sp []).1[5]?.bind requestOf ==
      some (.deassertReset ⟨0b1⟩)) = true := by decide +kernel
  have e2 : (after unevenBoard (((setPower ⟨0b1⟩ .low).exec (boardBench unevenBoard stuckReset).sp []).1.take 5) 0).reset =
      false := by decide +kernel
  generalize (setPower ⟨0b1⟩ .low).exec (boardBench unevenBoard stuckReset).sp [] = r at *
  refine ⟨r.1, r.2, _, h1, hc, evolves_at.1 h2 0, fun h => ?_⟩
  obtain ⟨x, h4, h5⟩ := Option.bind_eq_some_iff.1 (beq_iff_eq.1 e1)
  have h6 : r.1 = r.1.take 5 ++ x :: r.1.drop 6 := by
    obtain ⟨hl, h7⟩ := List.getElem?_eq_some_iff.1 h4
    rw [← h7, List.getElem_cons_drop, List.take_append_drop]
  have h7 := h _ x _ _ _ h6 (evolves_at.1 h3 0) h5 (show Mem ⟨0b1⟩ 0 by decide)
  rw [List.nil_append, e2] at h7
  cases h7

/-- Module 0 is off, and the SP does all it is asked to. -/
example : ∃ t o s', Runs (setPower ⟨0b1⟩ .low) t o ∧ Conforming t ∧ EvolvesAt 0 (unevenBoard 0) t s' ∧ PoweredAcked 0 t ∧
    ResetAcked 0 t ∧ ∃ x ∈ t, requestOf x = some (.deassertReset ⟨0b1⟩) := by
  have h1 := Bench.exec_runs (boardBench unevenBoard) (setPower ⟨0b1⟩ .low)
  have h2 := board_evolves unevenBoard (fun _ _ => ⟨0⟩) (stuck_calls ⟨0b1⟩) []
  have hc := setPower_conforming (boardBench unevenBoard) ⟨0b1⟩ .low
  have e1 : (((setPower ⟨0b1⟩ .low).exec (boardBench unevenBoard).sp []).1.all fun x =>
      match requestOf x with
      | some (.enablePower _) | some (.assertLpMode _) | some (.deassertLpMode _) | some (.assertReset _) =>
        (okIn x 0).isSome
      | _ => true) = true := by decide +kernel
  have e2 : (((setPower ⟨0b1⟩ .low).exec (boardBench unevenBoard).sp []).1.any fun x =>
      requestOf x == some (.deassertReset ⟨0b1⟩)) = true := by decide +kernel
  refine ⟨_, _, _, h1, hc, evolves_at.1 h2 0, fun x hx g hg _ => ?_, fun x hx g hg _ => ?_, ?_⟩
  · have := List.all_eq_true.1 e1 x hx
    rcases hg with hg | hg | hg <;> rw [hg] at this <;> exact this
  · have := List.all_eq_true.1 e1 x hx
    rw [hg] at this
    exact this
  obtain ⟨x, h4, h5⟩ := List.any_eq_true.1 e2
  exact ⟨x, h4, beq_iff_eq.1 h5⟩

/-- `reset` of module 1, which runs. -/
example : ∃ t o s', Runs (Controller.reset ⟨0b10⟩) t o ∧ Conforming t ∧ EvolvesAt 1 (unevenBoard 1) t s' ∧
    ∃ x ∈ t, requestOf x = some (.deassertReset ⟨0b10⟩) := by
  have hp : AllCalls Bench.IsHost (Controller.reset ⟨0b10⟩) := allCalls_reset _ (fun _ => ⟨_, _, rfl⟩) fun _ => ⟨_, _, rfl⟩
  have e : (((Controller.reset ⟨0b10⟩).exec (boardBench unevenBoard).sp []).1.any fun x =>
      requestOf x == some (.deassertReset ⟨0b10⟩)) = true := by decide +kernel
  obtain ⟨x, h4, h5⟩ := List.any_eq_true.1 e
  exact ⟨_, _, _, Bench.exec_runs (boardBench unevenBoard) _, Bench.exec_conforming _ hp [],
    evolves_at.1 (board_evolves unevenBoard (fun _ _ => ⟨0⟩) hp []) 1, x, h4, beq_iff_eq.1 h5⟩

end Xcvr
