import Verif.Props.Refused

/-! # C159: the supply of a module is switched only while the module is in reset -/

namespace Xcvr

open Controller Prog Spec Cli

/-- The request switches the supply of port `p`. -/
def Spec.Switches (q : HostRequest) (p : Nat) : Prop :=
  match q with
  | .enablePower m | .disablePower m => Mem m p
  | _ => False

/-- In the exchanges `t`, starting from state `s`, port `p` is in a state `G` whenever a request `W` is made. -/
def Spec.Whenever (W : HostRequest → Prop) (G : PortState → Prop) (p : Nat) (s : PortState) (t : List Exchange) : Prop :=
  ∀ u x v c q, t = u ++ x :: v → EvolvesAt p s u c → requestOf x = some q → W q → G c

/-- Port `p` is in reset whenever a request to switch its supply is made. -/
def Spec.SwitchedInReset (p : Nat) : PortState → List Exchange → Prop :=
  Whenever (fun q => Switches q p) (fun c => c.reset = true) p

/-- The SP did not fail to put the module of port `p` in reset. -/
def Spec.ResetAcked (p : Nat) (t : List Exchange) : Prop :=
  ∀ x ∈ t, ∀ g, requestOf x = some (.assertReset g) → Mem g p → (okIn x p).isSome

theorem whenever_none {W : HostRequest → Prop} {G : PortState → Prop} {p : Nat} {s : PortState} {t : List Exchange}
    (h : ∀ x ∈ t, ∀ q, requestOf x = some q → ¬ W q) : Whenever W G p s t := by
  rintro u x v c q rfl - hq hs
  exact absurd hs (h x (List.mem_append_right _ (List.mem_cons_self ..)) q hq)

theorem whenever_append {W : HostRequest → Prop} {G : PortState → Prop} {p : Nat} {s : PortState} {t₁ t₂ : List Exchange}
    (h1 : Whenever W G p s t₁) (h2 : ∀ c, EvolvesAt p s t₁ c → Whenever W G p c t₂) : Whenever W G p s (t₁ ++ t₂) := by
  intro u x v c q ht he hq hs
  rcases List.append_eq_append_iff.1 ht with ⟨a, rfl, h3⟩ | ⟨a, rfl, h3⟩
  · obtain ⟨d, h4, h5⟩ := evolvesAt_append.1 he
    exact h2 d h4 a x v c q h3 h5 hq hs
  · cases a with
    | nil =>
      rw [List.append_nil] at h2
      exact h2 c he [] x v c q h3.symm rfl hq hs
    | cons y a =>
      rw [List.cons_append, List.cons.injEq] at h3
      obtain ⟨rfl, -⟩ := h3
      exact h1 u x a c q rfl he hq hs

theorem whenever_one {W : HostRequest → Prop} {G : PortState → Prop} {p : Nat} {s : PortState} {x : Exchange}
    (h : ∀ q, requestOf x = some q → W q → G s) : Whenever W G p s [x] := by
  intro u y v c q ht he hq hs
  cases u with
  | nil =>
    rw [List.nil_append, List.cons.injEq] at ht
    obtain ⟨rfl, -⟩ := ht
    cases he
    exact h q hq hs
  | cons z u =>
    rw [List.cons_append, List.cons.injEq] at ht
    have := congrArg List.length ht.2
    simp at this

theorem whenever_queries {W : HostRequest → Prop} (hW : ∀ q, IsQuery q → ¬ W q) {G : PortState → Prop} {p : Nat}
    {s : PortState} {t : List Exchange} (h : ∀ x ∈ t, ∃ q, requestOf x = some q ∧ IsQuery q) : Whenever W G p s t :=
  whenever_none fun x hx q hq hs => by
    obtain ⟨q', h1, h2⟩ := h x hx
    rw [hq, Option.some.injEq] at h1
    subst h1
    exact hW q h2 hs

theorem switches_not {p : Nat} (q : HostRequest) (h : IsQuery q) : ¬ Switches q p := by
  intro hs
  cases q <;> first | exact hs | exact h

/-- C159: powering off cuts the supply of a module only when the module is in reset, whatever the SP fails at. -/
theorem C159_off (m : ModuleId) (t : List Exchange) (o : Exec CtlError (Res Unit)) (h : Runs (setPower m .off) t o)
    (hc : Conforming t) (p : Nat) (s : PortState) : SwitchedInReset p s t := by
  obtain ⟨x₁, x₂, x₃, s₁, s₂, res, rfl, h1, h2, h3, -, h5, -⟩ := C43_power_off m t o h hc
  refine whenever_append (t₁ := [x₁, x₂]) (whenever_none fun x hx q hq hs => ?_) fun c he => whenever_one fun q hq hs => ?_
  · rcases List.mem_cons.1 hx with rfl | hx
    · rw [requestOf_host h1, Option.some.injEq] at hq
      subst hq
      exact hs
    · rw [List.mem_singleton] at hx
      subst hx
      rw [requestOf_host h2, Option.some.injEq] at hq
      subst hq
      exact hs
  · rw [requestOf_host h3, Option.some.injEq] at hq
    subst hq
    obtain ⟨d, -, h6⟩ := he
    have h7 : Effect (.assertReset s₁) [] d c := steps_ok h2 (evolvesAt_one.1 h6) ((h5 p).1 hs)
    exact h7.2.1

theorem on_switched {m : ModuleId} {low : Bool} {t : List Exchange} {o : Exec CtlError (Res Unit)}
    (h : Runs (setPowerOn m low) t o) (hc : Conforming t) {p : Nat} (s : PortState) (hack : ResetAcked p t) :
    SwitchedInReset p s t := by
  rcases setPowerOn_spec h hc with ⟨e, h1, -⟩ | ⟨tp, pw, t', rfl, h1, ⟨-, -, rfl, -⟩ | ⟨hno, h2⟩⟩
  · exact whenever_queries switches_not (power_queries h1)
  · rw [List.append_nil]
    exact whenever_queries switches_not (power_queries h1)
  obtain ⟨t₁, t₂, M, modes, F, xs, xl, need, rfl, hs, ha, -, hsoft, hc2⟩ := h2
  obtain ⟨str, ta, tb, td, noReset, m₁, m₂, f₁, f₂, rl, rfl, e1, e2, e3, e4, e5, e6, e7⟩ := hs.steps
  refine whenever_append (whenever_queries switches_not (power_queries h1)) fun b₁ hpw => ?_
  refine whenever_append ?_ fun b₅ hon => ?_
  · refine whenever_append (t₁ := [xs]) (whenever_one fun q hq hsw => ?_) fun b₂ hst => ?_
    · rw [requestOf_host hs.status, Option.some.injEq] at hq
      subst hq
      exact hsw.elim
    have hst := evolvesAt_one.1 hst
    have hb2 : b₂ = b₁ := hst.quiet _ (requestOf_host hs.status) (.inl trivial)
    refine whenever_append (whenever_none fun x hx q hq hsw => ?_) fun b₃ hea => ?_
    · rcases e3 with ⟨-, y, -, rfl, h2, -⟩ | ⟨-, rfl, -⟩
      · rw [List.mem_singleton] at hx
        subst hx
        rw [requestOf_host h2, Option.some.injEq] at hq
        subst hq
        exact hsw
      · cases hx
    refine whenever_append ?_ fun b₄ heb => ?_
    · rcases e4 with ⟨-, y, -, rfl, h2, -⟩ | ⟨-, rfl, -⟩
      · refine whenever_one fun q hq hsw => ?_
        rw [requestOf_host h2, Option.some.injEq] at hq
        subst hq
        obtain ⟨v, h4, h5⟩ := (hs.need p).1 hsw
        obtain ⟨-, -, s2, -⟩ := hst.shows _ _ (requestOf_host hs.status) h4 v rfl
        by_cases hnr : Mem noReset p
        · rcases e3 with ⟨-, z, -, rfl, h6, -⟩ | ⟨h6, -, -⟩
          · have hok := hack z (by simp) noReset (requestOf_host h6) hnr
            have h7 : Effect (.assertReset noReset) [] b₂ b₃ := steps_ok h6 (evolvesAt_one.1 hea) hok
            exact h7.2.1
          · exact absurd hnr (h6 p)
        · have hr : b₁.reset = true := by
            cases h6 : bit v 2
            · exact absurd ((e2 p).2 ⟨v, h4, h5, h6⟩) hnr
            · rw [← s2, h6]
          have hb3 : b₃ = b₂ := by
            rcases e3 with ⟨-, z, -, rfl, h6, -⟩ | ⟨-, rfl, -⟩
            · exact steps_not h6 rfl (evolvesAt_one.1 hea) hnr
            · exact hea
          rw [hb3, hb2, hr]
      · exact whenever_none fun x hx => by cases hx
    · refine whenever_none fun x hx q hq hsw => ?_
      rcases List.mem_cons.1 hx with rfl | hx
      · rw [requestOf_host e5, Option.some.injEq] at hq
        subst hq
        cases low <;> exact hsw
      · rcases e7 with ⟨-, y, -, rfl, h2, -⟩ | ⟨-, rfl, -⟩
        · rw [List.mem_singleton] at hx
          subst hx
          rw [requestOf_host h2, Option.some.injEq] at hq
          subst hq
          exact hsw
        · cases hx
  · obtain ⟨ti, tw, rfl, hti, hw, -⟩ := setSoft_spec ha hsoft hc2
    refine whenever_append (whenever_queries switches_not (readsOf_queries hti)) fun _ _ => whenever_none fun x hx q hq hsw => ?_
    obtain ⟨code, g, ov, r, ⟨⟨w, v, -, h5⟩, -⟩, -⟩ := hw x hx
    rw [requestOf_host h5, Option.some.injEq] at hq
    subst hq
    exact hsw

/-- C159, what holds of setting any power state: the supply of a module is switched only when the module is in reset, if the
SP has not failed to put it in reset. -/
theorem C159_partial (m : ModuleId) (st : PowerState) (t : List Exchange) (o : Exec CtlError (Res Unit))
    (h : Runs (setPower m st) t o) (hc : Conforming t) (p : Nat) (s : PortState) (hack : ResetAcked p t) :
    SwitchedInReset p s t := by
  cases st with
  | off => exact C159_off m t o h hc p s
  | low => exact on_switched (low := true) h hc s hack
  | high => exact on_switched (low := false) h hc s hack

/-- The SP fails to put module 0 in reset. -/
def stuckReset (_ : List Exchange) (q : HostRequest) : ModuleId :=
  match q with
  | .assertReset _ => ⟨0b1⟩
  | _ => ⟨0⟩

theorem board_evolves_take {α : Type} (b : BoardState) (F : List Exchange → HostRequest → ModuleId) {P : Prog α}
    (hp : AllCalls Bench.IsHost P) (h : List Exchange) (n : Nat) :
    Evolves (after b h) ((P.exec (boardBench b F).sp h).1.take n)
      (after b (h ++ (P.exec (boardBench b F).sp h).1.take n)) := by
  induction P generalizing h n with
  | ret a => simp [Prog.exec, Evolves]
  | fail e => simp [Prog.exec, Evolves]
  | panic => simp [Prog.exec, Evolves]
  | rpc c k ih =>
    obtain ⟨⟨⟨q, D, rfl⟩, -, -⟩, hk⟩ := hp
    cases n with
    | zero => simp [Evolves]
    | succ n =>
      simp only [Prog.exec]
      refine ⟨after b (h ++ [(Call.host q D, (boardBench b F).answer h q)]), board_steps b F h q D, ?_⟩
      have := ih ((boardBench b F).answer h q) (hk _) (h ++ [(Call.host q D, (boardBench b F).answer h q)]) n
      rw [List.append_assoc] at this
      exact this

theorem stuck_calls (m : ModuleId) : AllCalls Bench.IsHost (setPower m .low) :=
  calls_setPowerOn m true (fun _ _ => ⟨_, _, rfl⟩) (fun _ => ⟨_, _, rfl⟩) (fun _ => ⟨_, _, rfl⟩)
    (fun _ => ⟨_, _, rfl⟩) (fun _ => ⟨_, _, rfl⟩) (fun _ => ⟨_, _, rfl⟩) fun _ _ _ _ _ _ => ⟨_, _, rfl⟩

/-- C159 is false of setting low power: module 0 is off and not in reset. The SP fails to put it in reset, and its supply is
switched on all the same. -/
theorem C159_counterexample : ∃ t o s', Runs (setPower ⟨0b1⟩ .low) t o ∧ Conforming t ∧
    EvolvesAt 0 (unevenBoard 0) t s' ∧ ¬ SwitchedInReset 0 (unevenBoard 0) t := by
  have h1 := Bench.exec_runs (boardBench unevenBoard stuckReset) (setPower ⟨0b1⟩ .low)
  have h2 := board_evolves unevenBoard stuckReset (stuck_calls ⟨0b1⟩) []
  have h3 := board_evolves_take unevenBoard stuckReset (stuck_calls ⟨0b1⟩) [] 3
  have hc := setPower_conforming (boardBench unevenBoard stuckReset) ⟨0b1⟩ .low
  have e1 : (((setPower ⟨0b1⟩ .low).exec (boardBench unevenBoard stuckReset).sp []).1[3]?.bind requestOf ==
      some (.enablePower ⟨0b1⟩)) = true := by decide +kernel
  have e2 : (after unevenBoard (((setPower ⟨0b1⟩ .low).exec (boardBench unevenBoard stuckReset).sp []).1.take 3) 0).reset =
      false := by decide +kernel
  generalize (setPower ⟨0b1⟩ .low).exec (boardBench unevenBoard stuckReset).sp [] = r at *
  refine ⟨r.1, r.2, _, h1, hc, evolves_at.1 h2 0, fun h => ?_⟩
  obtain ⟨x, h4, h5⟩ := Option.bind_eq_some_iff.1 (beq_iff_eq.1 e1)
  have h6 : r.1 = r.1.take 3 ++ x :: r.1.drop 4 := by
    obtain ⟨hl, h7⟩ := List.getElem?_eq_some_iff.1 h4
    rw [← h7, List.getElem_cons_drop, List.take_append_drop]
  have h7 := h _ x _ _ _ h6 (evolves_at.1 h3 0) h5 (show Mem ⟨0b1⟩ 0 by decide)
  rw [List.nil_append, e2] at h7
  cases h7

/-- Module 0 is off and not in reset, and the SP puts it in reset when asked to: its supply is then switched on. -/
example : ∃ t o s', Runs (setPower ⟨0b1⟩ .low) t o ∧ Conforming t ∧ EvolvesAt 0 (unevenBoard 0) t s' ∧ ResetAcked 0 t ∧
    ∃ x ∈ t, requestOf x = some (.enablePower ⟨0b1⟩) := by
  have h1 := Bench.exec_runs (boardBench unevenBoard) (setPower ⟨0b1⟩ .low)
  have h2 := board_evolves unevenBoard (fun _ _ => ⟨0⟩) (stuck_calls ⟨0b1⟩) []
  have hc := setPower_conforming (boardBench unevenBoard) ⟨0b1⟩ .low
  have e1 : (((setPower ⟨0b1⟩ .low).exec (boardBench unevenBoard).sp []).1.all fun x =>
      match requestOf x with
      | some (.assertReset _) => (okIn x 0).isSome
      | _ => true) = true := by decide +kernel
  have e2 : (((setPower ⟨0b1⟩ .low).exec (boardBench unevenBoard).sp []).1.any fun x =>
      requestOf x == some (.enablePower ⟨0b1⟩)) = true := by decide +kernel
  refine ⟨_, _, _, h1, hc, evolves_at.1 h2 0, fun x hx g hg _ => ?_, ?_⟩
  · have := List.all_eq_true.1 e1 x hx
    rw [hg] at this
    exact this
  obtain ⟨x, h4, h5⟩ := List.any_eq_true.1 e2
  exact ⟨x, h4, beq_iff_eq.1 h5⟩

end Xcvr
