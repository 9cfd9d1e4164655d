import Verif.Props.Supply

/-! # C160: setting power takes a module out of reset only with its supply on and its low power pin set -/

namespace Xcvr

open Controller Prog Spec Cli

/-- The request takes the module of port `p` out of reset. -/
def Spec.Releases (q : HostRequest) (p : Nat) : Prop :=
  match q with
  | .deassertReset m => Mem m p
  | _ => False

/-- Whenever a request to take the module of port `p` out of reset is made, its supply is on and its pin is at `low`. -/
def Spec.ReleasedReady (low : Bool) (p : Nat) : PortState → List Exchange → Prop :=
  Whenever (fun q => Releases q p) (fun c => c.enabled = true ∧ c.lowPin = low) p

/-- The SP did not fail to switch on the supply of port `p` or to set its low power pin. -/
def Spec.PoweredAcked (p : Nat) (t : List Exchange) : Prop :=
  ∀ x ∈ t, ∀ g, requestOf x = some (.enablePower g) ∨ requestOf x = some (.assertLpMode g) ∨
    requestOf x = some (.deassertLpMode g) → Mem g p → (okIn x p).isSome

theorem releases_not {p : Nat} (q : HostRequest) (h : IsQuery q) : ¬ Releases q p := by
  intro hs
  cases q <;> first | exact hs | exact h

/-- C160: powering off takes no module out of reset. -/
theorem C160_off (m : ModuleId) (t : List Exchange) (o : Exec CtlError (Res Unit)) (h : Runs (setPower m .off) t o)
    (hc : Conforming t) (p : Nat) : ∀ x ∈ t, ∀ q, requestOf x = some q → ¬ Releases q p := by
  obtain ⟨x₁, x₂, x₃, s₁, s₂, res, rfl, h1, h2, h3, -⟩ := C43_power_off m t o h hc
  intro x hx q hq hs
  simp only [List.mem_cons, List.not_mem_nil, or_false] at hx
  rcases hx with rfl | rfl | rfl
  · rw [requestOf_host h1, Option.some.injEq] at hq
    subst hq
    exact hs
  · rw [requestOf_host h2, Option.some.injEq] at hq
    subst hq
    exact hs
  · rw [requestOf_host h3, Option.some.injEq] at hq
    subst hq
    exact hs

theorem on_released {m : ModuleId} {low : Bool} {t : List Exchange} {o : Exec CtlError (Res Unit)}
    (h : Runs (setPowerOn m low) t o) (hc : Conforming t) {p : Nat} (s : PortState) (hack : PoweredAcked p t) :
    ReleasedReady low p s t := by
  rcases setPowerOn_spec h hc with ⟨e, h1, -⟩ | ⟨tp, pw, t', rfl, h1, ⟨-, -, rfl, -⟩ | ⟨hno, h2⟩⟩
  · exact whenever_queries releases_not (power_queries h1)
  · rw [List.append_nil]
    exact whenever_queries releases_not (power_queries h1)
  obtain ⟨t₁, t₂, M, modes, F, xs, xl, need, rfl, hs, ha, -, hsoft, hc2⟩ := h2
  obtain ⟨str, ta, tb, td, noReset, m₁, m₂, f₁, f₂, rl, rfl, e1, e2, e3, e4, e5, e6, e7⟩ := hs.steps
  refine whenever_append (whenever_queries releases_not (power_queries h1)) fun b₁ hpw => ?_
  refine whenever_append ?_ fun b₅ hon => ?_
  · refine whenever_append (t₁ := [xs]) (whenever_one fun q hq hsw => ?_) fun b₂ hst => ?_
    · rw [requestOf_host hs.status, Option.some.injEq] at hq
      subst hq
      exact hsw.elim
    refine whenever_append (whenever_none fun x hx q hq hsw => ?_) fun b₃ hea => ?_
    · rcases e3 with ⟨-, y, -, rfl, h2, -⟩ | ⟨-, rfl, -⟩
      · rw [List.mem_singleton] at hx
        subst hx
        rw [requestOf_host h2, Option.some.injEq] at hq
        subst hq
        exact hsw
      · cases hx
    refine whenever_append (whenever_none fun x hx q hq hsw => ?_) fun b₄ heb => ?_
    · rcases e4 with ⟨-, y, -, rfl, h2, -⟩ | ⟨-, rfl, -⟩
      · rw [List.mem_singleton] at hx
        subst hx
        rw [requestOf_host h2, Option.some.injEq] at hq
        subst hq
        exact hsw
      · cases hx
    refine whenever_append (t₁ := [xl]) (whenever_one fun q hq hsw => ?_) fun c hlp => ?_
    · rw [requestOf_host e5, Option.some.injEq] at hq
      subst hq
      cases low <;> exact hsw.elim
    have hlp := evolvesAt_one.1 hlp
    rcases e7 with ⟨-, y, -, rfl, h2, -⟩ | ⟨-, rfl, -⟩
    · refine whenever_one fun q hq hsw => ?_
      rw [requestOf_host h2, Option.some.injEq] at hq
      subst hq
      rcases e4 with ⟨-, z, r, rfl, h6, h7, rfl, -⟩ | ⟨h6, -, -⟩
      · have hok := hack z (by simp) need (.inl (requestOf_host h6)) hsw
        have h8 : Effect (.enablePower need) [] b₃ b₄ := steps_ok h6 (evolvesAt_one.1 heb) hok
        have hm2 : Mem r.modules p := (reports_ok h7).2 hok
        have hok2 : (okIn xl p).isSome := hack xl (by simp) r.modules (by
          rw [requestOf_host e5]
          cases low
          · exact .inr (.inr rfl)
          · exact .inr (.inl rfl)) hm2
        have hcl : c = { b₄ with lowPin := low } := by
          have := steps_ok e5 hlp hok2
          cases low <;> exact this
        rw [hcl]
        exact ⟨h8.1, rfl⟩
      · exact absurd hsw (h6 p)
    · exact whenever_none fun x hx => by cases hx
  · obtain ⟨ti, tw, rfl, hti, hw, -⟩ := setSoft_spec ha hsoft hc2
    refine whenever_append (whenever_queries releases_not (readsOf_queries hti)) fun _ _ =>
      whenever_none fun x hx q hq hsw => ?_
    obtain ⟨code, g, ov, r, ⟨⟨w, v, -, h5⟩, -⟩, -⟩ := hw x hx
    rw [requestOf_host h5, Option.some.injEq] at hq
    subst hq
    exact hsw

/-- C160, what holds: setting low or high power takes a module out of reset only when its supply is on and its low power pin
says what was asked for, if the SP has failed neither to switch on the supply nor to set the pin. -/
theorem C160_partial (m : ModuleId) (st : PowerState) (hst : st ≠ .off) (t : List Exchange) (o : Exec CtlError (Res Unit))
    (h : Runs (setPower m st) t o) (hc : Conforming t) (p : Nat) (s : PortState) (hack : PoweredAcked p t) :
    ReleasedReady (decide (st = .low)) p s t := by
  cases st with
  | off => exact absurd rfl hst
  | low => exact on_released (low := true) h hc s hack
  | high => exact on_released (low := false) h hc s hack

/-- A run of `set-power` selects modules, which only asks, and then sets their power, if it gets that far. -/
theorem main_setPower {fmt : Fmt} {sel : Option Transceivers} {ign : Bool} {st : PowerState} {t : List Exchange}
    {o : Exec CtlError Exit} (h : Runs (main fmt sel ign (.setPower st)) t o) (hc : Conforming t) :
    ∃ t₁ t₂, t = t₁ ++ t₂ ∧ (∀ x ∈ t₁, ∃ q, requestOf x = some q ∧ IsQuery q) ∧
      (t₂ = [] ∨ ∃ m o', Runs (setPower m st) t₂ o') := by
  obtain ⟨t₁, t₂, rfl, hq, (⟨h1, -⟩ | ⟨h1, -⟩) | ⟨m, -, h2, -⟩⟩ := C89_selected fmt sel ign _ t o h fun x hx =>
    onTopic_conforms (hc x hx)
  all_goals refine ⟨t₁, t₂, rfl, fun x hx => (hq x hx).imp fun _ h => ⟨h.1, h.2.1⟩, ?_⟩
  · exact .inl h1
  · exact .inl h1
  · rw [dispatch.eq_def] at h2
    rcases runs_bind.1 h2 with ⟨t₃, t₄, r, rfl, h3, h4⟩ | ⟨e, h3, -⟩ | ⟨h3, -⟩
    · obtain ⟨rfl, -⟩ := runs_ret.1 h4
      rw [List.append_nil]
      exact .inr ⟨m, _, h3⟩
    · exact .inr ⟨m, _, h3⟩
    · exact .inr ⟨m, _, h3⟩

/-- C159 for the tool, whatever is selected and however it ends. -/
theorem C159_tool_partial (fmt : Fmt) (sel : Option Transceivers) (ign : Bool) (st : PowerState) (t : List Exchange)
    (o : Exec CtlError Exit) (h : Runs (main fmt sel ign (.setPower st)) t o) (hc : Conforming t) (p : Nat)
    (s : PortState) (hack : ResetAcked p t) : SwitchedInReset p s t := by
  obtain ⟨t₁, t₂, rfl, hq, h1⟩ := main_setPower h hc
  refine whenever_append (whenever_queries switches_not hq) fun c _ => ?_
  rcases h1 with rfl | ⟨m, o', h1⟩
  · exact whenever_none fun x hx => by cases hx
  · exact C159_partial m st t₂ o' h1 (fun x hx => hc x (List.mem_append_right _ hx)) p c fun x hx =>
      hack x (List.mem_append_right _ hx)

/-- C160 for the tool, whatever is selected and however it ends. -/
theorem C160_tool_partial (fmt : Fmt) (sel : Option Transceivers) (ign : Bool) (st : PowerState) (hst : st ≠ .off)
    (t : List Exchange) (o : Exec CtlError Exit) (h : Runs (main fmt sel ign (.setPower st)) t o) (hc : Conforming t)
    (p : Nat) (s : PortState) (hack : PoweredAcked p t) : ReleasedReady (decide (st = .low)) p s t := by
  obtain ⟨t₁, t₂, rfl, hq, h1⟩ := main_setPower h hc
  refine whenever_append (whenever_queries releases_not hq) fun c _ => ?_
  rcases h1 with rfl | ⟨m, o', h1⟩
  · exact whenever_none fun x hx => by cases hx
  · exact C160_partial m st hst t₂ o' h1 (fun x hx => hc x (List.mem_append_right _ hx)) p c fun x hx =>
      hack x (List.mem_append_right _ hx)

/-- The SP fails to switch on the supply of module 0. -/
def deadSupply (_ : List Exchange) (q : HostRequest) : ModuleId :=
  match q with
  | .enablePower _ => ⟨0b1⟩
  | _ => ⟨0⟩

/-- C160 is false: the SP fails to switch on the supply of module 0, and the module is taken out of reset without it. -/
theorem C160_counterexample : ∃ t o s', Runs (setPower ⟨0b1⟩ .low) t o ∧ Conforming t ∧
    EvolvesAt 0 (unevenBoard 0) t s' ∧ ∃ u x v c, t = u ++ x :: v ∧ EvolvesAt 0 (unevenBoard 0) u c ∧
      requestOf x = some (.deassertReset ⟨0b1⟩) ∧ c.enabled = false ∧ c.lowPin = false ∧ c.reset = true := by
  have h1 := Bench.exec_runs (boardBench unevenBoard deadSupply) (setPower ⟨0b1⟩ .low)
  have h2 := board_evolves unevenBoard deadSupply (stuck_calls ⟨0b1⟩) []
  have h3 := board_evolves_take unevenBoard deadSupply (stuck_calls ⟨0b1⟩) [] 5
  have hc := setPower_conforming (boardBench unevenBoard deadSupply) ⟨0b1⟩ .low
  have e1 : (((setPower ⟨0b1⟩ .low).exec (boardBench unevenBoard deadSupply).sp []).1[5]?.bind requestOf ==
      some (.deassertReset ⟨0b1⟩)) = true := by decide +kernel
  have e2 : (after unevenBoard (((setPower ⟨0b1⟩ .low).exec (boardBench unevenBoard deadSupply).sp []).1.take 5)
      0).enabled = false := by decide +kernel
  have e3 : (after unevenBoard (((setPower ⟨0b1⟩ .low).exec (boardBench unevenBoard deadSupply).sp []).1.take 5)
      0).lowPin = false := by decide +kernel
  have e4 : (after unevenBoard (((setPower ⟨0b1⟩ .low).exec (boardBench unevenBoard deadSupply).sp []).1.take 5)
      0).reset = true := by decide +kernel
  generalize (setPower ⟨0b1⟩ .low).exec (boardBench unevenBoard deadSupply).sp [] = r at *
  obtain ⟨x, h4, h5⟩ := Option.bind_eq_some_iff.1 (beq_iff_eq.1 e1)
  have h6 : r.1 = r.1.take 5 ++ x :: r.1.drop 6 := by
    obtain ⟨hl, h7⟩ := List.getElem?_eq_some_iff.1 h4
    rw [← h7, List.getElem_cons_drop, List.take_append_drop]
  exact ⟨r.1, r.2, _, h1, hc, evolves_at.1 h2 0, _, x, _, _, h6, evolves_at.1 h3 0, h5, e2, e3, e4⟩

/-- Module 0 is off, and the SP does all it is asked to. -/
example : ∃ t o s', Runs (setPower ⟨0b1⟩ .low) t o ∧ Conforming t ∧ EvolvesAt 0 (unevenBoard 0) t s' ∧ PoweredAcked 0 t ∧
    ∃ x ∈ t, requestOf x = some (.deassertReset ⟨0b1⟩) := by
  have h1 := Bench.exec_runs (boardBench unevenBoard) (setPower ⟨0b1⟩ .low)
  have h2 := board_evolves unevenBoard (fun _ _ => ⟨0⟩) (stuck_calls ⟨0b1⟩) []
  have hc := setPower_conforming (boardBench unevenBoard) ⟨0b1⟩ .low
  have e1 : (((setPower ⟨0b1⟩ .low).exec (boardBench unevenBoard).sp []).1.all fun x =>
      match requestOf x with
      | some (.enablePower _) | some (.assertLpMode _) | some (.deassertLpMode _) => (okIn x 0).isSome
      | _ => true) = true := by decide +kernel
  have e2 : (((setPower ⟨0b1⟩ .low).exec (boardBench unevenBoard).sp []).1.any fun x =>
      requestOf x == some (.deassertReset ⟨0b1⟩)) = true := by decide +kernel
  refine ⟨_, _, _, h1, hc, evolves_at.1 h2 0, fun x hx g hg _ => ?_, ?_⟩
  · have := List.all_eq_true.1 e1 x hx
    rcases hg with hg | hg | hg <;> rw [hg] at this <;> exact this
  obtain ⟨x, h4, h5⟩ := List.any_eq_true.1 e2
  exact ⟨x, h4, beq_iff_eq.1 h5⟩

end Xcvr
