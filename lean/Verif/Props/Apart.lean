import Verif.Props.CliBoard

/-! # C156: a command leaves the rest of the modules it acts on as it was -/

namespace Xcvr

open Controller Prog Spec Cli

/-- The commands that may move the reset pin. -/
def Spec.MayReset : Cmd → Prop
  | .reset | .setPower _ | .assertReset | .deassertReset => True
  | _ => False

/-- The commands that may switch the supply. -/
def Spec.MayPower : Cmd → Prop
  | .setPower _ | .enablePower | .disablePower => True
  | _ => False

/-- The commands that may move the low power pin. -/
def Spec.MayLow : Cmd → Prop
  | .setPower _ | .assertLpMode | .deassertLpMode => True
  | _ => False

/-- The bytes of a module's memory that a command may change: all of them if it switches the supply or the reset, and those
it writes. -/
def Spec.MayBytes : Cmd → Page → Nat → Prop
  | .writeLower _ input offset, page, a =>
    isLower page = true ∧ ∃ d, input.load = .ok d ∧ offset.toNat ≤ a ∧ a < offset.toNat + d.length
  | .writeUpper cmis input pg bank offset, page, a =>
    isLower page = false ∧ page.page = some pg ∧ page.bank = (if cmis then bank else none) ∧
      page.managementInterface = (if cmis then .cmis else .sff8636) ∧
      ∃ d, input.load = .ok d ∧ offset.toNat ≤ a ∧ a < offset.toNat + d.length
  | cmd, _, _ => MayReset cmd ∨ MayPower cmd

/-- Everything that a command is not for is the same. -/
structure Spec.Spared (cmd : Cmd) (s s' : PortState) : Prop where
  led : (∀ l, cmd ≠ .setLeds l) → s'.led = s.led
  reset : ¬ MayReset cmd → s'.reset = s.reset
  enabled : ¬ MayPower cmd → s'.enabled = s.enabled
  low : ¬ MayLow cmd → s'.lowPin = s.lowPin
  memory : ∀ page a, ¬ MayBytes cmd page a → s'.memory page a = s.memory page a

/-- Whatever was to change port `p` was acknowledged for it. -/
def Spec.AllDone (p : Nat) (t : List Exchange) : Prop :=
  ∀ x ∈ t, ∀ q, requestOf x = some q → ¬ IsQuery q → Names q p → ∃ b, okIn x p = some b

theorem store_pins (s : PortState) (w : MemoryWrite) (d : Bytes) : SamePins s (s.store w d) := by
  unfold PortState.store
  split <;> exact ⟨rfl, rfl, rfl, rfl⟩

theorem overwrite_apart {old : Nat → U8} {start : Nat} {d : Bytes} {a : Nat} (h : ¬ (start ≤ a ∧ a < start + d.length)) :
    overwrite old start d a = old a := by
  unfold overwrite
  split
  · rename_i hs
    rw [List.getD_eq_getElem?_getD, List.getElem?_eq_none (by omega), Option.getD_none]
  · rfl

theorem store_apart {s : PortState} {w : MemoryWrite} {d : Bytes} {page : Page} {a : Nat}
    (h : isLower page = isLower w.page → (isLower page = true ∨ page = w.page) →
      ¬ (w.offset.toNat ≤ a ∧ a < w.offset.toNat + d.length)) :
    (s.store w d).memory page a = s.memory page a := by
  unfold PortState.store PortState.memory
  by_cases hw : isLower w.page = true
  · rw [if_pos hw]
    by_cases hp : isLower page = true
    · simp only [hp, if_true]
      exact overwrite_apart (h (hp.trans hw.symm) (.inl hp))
    · simp [hp]
  · rw [if_neg hw]
    by_cases hp : isLower page = true
    · simp [hp]
    · simp only [hp, Bool.false_eq_true, if_false]
      split
      · rename_i he
        exact overwrite_apart (h (by rw [he]) (.inr he))
      · rfl

/-- One request that belongs to the command, acknowledged. -/
theorem spared_effect {cmd : Cmd} {q : HostRequest} {d : Option Bytes} {s s' : PortState} (h1 : Changes cmd q d)
    (h2 : Effect q (d.getD []) s s') : Spared cmd s s' := by
  refine ⟨fun hc => ?_, fun hc => ?_, fun hc => ?_, fun hc => ?_, fun page a hc => ?_⟩
  · unfold Changes at h1
    split at h1 <;> first
      | exact absurd h1 id
      | exact absurd rfl (hc _)
      | exact h2.2.2.2
      | exact (congrArg PortState.led h2).trans rfl
      | exact (congrArg PortState.led h2).trans (store_pins _ _ _).2.2.2
  · unfold Changes at h1
    split at h1 <;> first
      | exact absurd h1 id
      | exact absurd trivial hc
      | exact h2.2.1
      | exact (congrArg PortState.reset h2).trans rfl
      | exact (congrArg PortState.reset h2).trans (store_pins _ _ _).2.1
  · unfold Changes at h1
    split at h1 <;> first
      | exact absurd h1 id
      | exact absurd trivial hc
      | exact h2.1
      | exact (congrArg PortState.enabled h2).trans rfl
      | exact (congrArg PortState.enabled h2).trans (store_pins _ _ _).1
  · unfold Changes at h1
    split at h1 <;> first
      | exact absurd h1 id
      | exact absurd trivial hc
      | exact h2.2.2.1
      | exact (congrArg PortState.lowPin h2).trans rfl
      | exact (congrArg PortState.lowPin h2).trans (store_pins _ _ _).2.2.1
  · unfold Changes at h1
    split at h1 <;> first
      | exact absurd h1 id
      | exact (hc (Or.inl True.intro)).elim
      | exact (hc (Or.inr True.intro)).elim
      | exact (congrArg (fun s => PortState.memory s page a) h2).trans rfl
      | skip
    · rename_i cmis input offset m w d
      obtain ⟨h3, h4, h5, h6⟩ := h1
      rw [show s' = s.store w d from h2]
      refine store_apart fun h7 _ h8 => hc ⟨?_, d, h3, ?_⟩
      · rw [h7, h4]
        cases cmis <;> rfl
      · rw [← h5]
        exact h8
    · rename_i cmis input pg bank offset m w d
      obtain ⟨h3, h4, h5, h6, h7, h8, h9⟩ := h1
      rw [show s' = s.store w d from h2]
      refine store_apart fun h10 h11 h12 => hc ?_
      have hp : page = w.page := h11.resolve_left fun h => by rw [h10, h4] at h; cases h
      subst hp
      refine ⟨h4, h5, h6, h7, d, h3, ?_⟩
      rw [← h8]
      exact h12

theorem spared_refl (cmd : Cmd) (s : PortState) : Spared cmd s s :=
  ⟨fun _ => rfl, fun _ => rfl, fun _ => rfl, fun _ => rfl, fun _ _ _ => rfl⟩

theorem spared_trans {cmd : Cmd} {s c s' : PortState} (h : Spared cmd s c) (h' : Spared cmd c s') : Spared cmd s s' :=
  ⟨fun g => (h'.led g).trans (h.led g), fun g => (h'.reset g).trans (h.reset g),
    fun g => (h'.enabled g).trans (h.enabled g), fun g => (h'.low g).trans (h.low g),
    fun page a g => (h'.memory page a g).trans (h.memory page a g)⟩

/-- C156: whatever the command does, however it ends, and whatever the SP answers, the LED, the pins and the bytes that it is
not for are as they were, on every port for which its requests were acknowledged. -/
theorem C156_spared (fmt : Fmt) (sel : Option Transceivers) (ign : Bool) (cmd : Cmd) (t : List Exchange)
    (o : Exec CtlError Exit) (h : Runs (main fmt sel ign cmd) t o) (p : Nat) (ha : AllDone p t) (s s' : PortState)
    (he : EvolvesAt p s t s') : Spared cmd s s' := by
  have ht := C88_changes fmt sel ign cmd t o h
  clear h
  induction t generalizing s with
  | nil =>
    rw [show s' = s from he]
    exact spared_refl cmd s
  | cons x t ih =>
    obtain ⟨c, h1, h2⟩ := he
    refine spared_trans ?_ (ih (fun y hy => ha y (List.mem_cons_of_mem _ hy)) c h2 fun y hy => ht y (List.mem_cons_of_mem _ hy))
    obtain ⟨q, hq, h3⟩ := ht x List.mem_cons_self
    by_cases hn : IsQuery q ∨ ¬ Names q p
    · rw [h1.quiet q hq hn]
      exact spared_refl cmd s
    · have hn1 : ¬ IsQuery q := fun h => hn (.inl h)
      have hn2 : Names q p := Classical.byContradiction fun h => hn (.inr h)
      obtain ⟨b, hb⟩ := ha x List.mem_cons_self q hq hn1 hn2
      exact spared_effect (h3.resolve_left fun h => hn1 h.1) (h1.effect q b hq hb)

/-- Setting low or high power leaves the LED of a port that it does not report as a failure, even one that it passes over. -/
theorem on_led {m : ModuleId} {low : Bool} {t : List Exchange} {res : Res Unit}
    (h : Runs (setPowerOn m low) t (.ok res)) (hc : Conforming t) {p : Nat} {b b' : PortState} (he : EvolvesAt p b t b')
    (hf : ¬ Mem res.failures.modules p) : b'.led = b.led := by
  rcases setPowerOn_spec h hc with ⟨e, -, h1⟩ | ⟨tp, pw, t', rfl, h1, ⟨-, -, -, h2⟩ | ⟨-, h2⟩⟩
  · cases h1
  · cases h2
  obtain ⟨t₁, t₂, M, modes, F, xs, xl, need, rfl, hs, ha, -, hr, hc2⟩ := h2
  obtain ⟨str, ta, tb, td, noReset, m₁, m₂, f₁, f₂, rl, rfl, e1, e2, e3, e4, e5, e6, e7⟩ := hs.steps
  obtain ⟨ti, tw, rfl, hti, hw, hmono, -⟩ := setSoft_last ha hr hc2
  have hpF : ¬ Mem F.modules p := fun h => hf (hmono p h)
  obtain ⟨b₁, hpw, he⟩ := evolvesAt_append.1 he
  have hb : b₁ = b := (evolvesAt_queries hpw (power_queries h1)).1
  obtain ⟨b₅, hon, he⟩ := evolvesAt_append.1 he
  obtain ⟨b₆, hei, hew⟩ := evolvesAt_append.1 he
  obtain ⟨b₂, hst, hon⟩ := hon
  obtain ⟨b₃, hea, hon⟩ := evolvesAt_append.1 hon
  obtain ⟨b₄, heb, hon⟩ := evolvesAt_append.1 hon
  obtain ⟨c, hlp, hed⟩ := hon
  have hb2 : b₂ = b₁ := hst.quiet _ (requestOf_host hs.status) (.inl trivial)
  obtain ⟨d1, d2, d3⟩ := stepRan_at (fun _ => rfl) e7 hed hpF
  have hf2 : ¬ Mem f₂.modules p := fun h => d1 (mem_merge.2 (.inl h))
  have hfl : ¬ Mem rl.failures.modules p := fun h => d1 (mem_merge.2 (.inr h))
  obtain ⟨c1, c2, c3⟩ := stepRan_at (fun _ => rfl) e4 heb hf2
  obtain ⟨-, a2, a3⟩ := stepRan_at (fun _ => rfl) e3 hea c1
  have l3 : b₃.led = b₂.led := by
    by_cases hn : Mem noReset p
    · exact (a2 hn).1.2.2.2
    · rw [a3 hn]
  have l4 : b₄.led = b₃.led := by
    by_cases hn : Mem need p
    · exact (c2 hn).1.2.2.2
    · rw [c3 hn]
  have lc : c.led = b₄.led := by
    by_cases hm2 : Mem m₂ p
    · have hok := (reports_ok e6).1 (reports_success e6 hm2 hfl)
      have := steps_ok e5 hlp hok
      cases low <;> exact (congrArg PortState.led this).trans rfl
    · have : c = b₄ := by
        cases low
        · exact steps_not e5 rfl hlp hm2
        · exact steps_not e5 rfl hlp hm2
      rw [this]
  have l5 : b₅.led = c.led := by
    by_cases hn : Mem need p
    · exact (d2 hn).1.2.2.2
    · rw [d3 hn]
  have hb6 : b₆ = b₅ := (evolvesAt_queries hei (readsOf_queries hti)).1
  obtain ⟨⟨-, -, -, k4⟩, -⟩ := soft_kept hw hew hf
  rw [k4, hb6, l5, lc, l4, l3, hb2, hb]

/-- C156 by what the tool prints: after a run that ends normally, this holds of every port that the failure lines do not
name. -/
theorem C156_unlisted (fmt : Fmt) (sel : Option Transceivers) (cmd : Cmd) (t : List Exchange) (out : Lines)
    (fails : List (U8 × TransceiverError)) (h : Runs (main fmt sel false cmd) t (.ok (.done out fails)))
    (hc : Conforming t) (p : Nat) (hf : ¬ Lined fails p) (s s' : PortState) (he : EvolvesAt p s t s') :
    Spared cmd s s' := by
  by_cases hi : Inspecting cmd
  · rw [(evolvesAt_queries he fun x hx => by
      obtain ⟨q, h4, h5, -⟩ := C88_inspecting fmt sel false cmd hi t _ h x hx
      exact ⟨q, h4, h5⟩).1]
    exact spared_refl cmd s
  obtain ⟨t₁, t₂, rfl, hq, (⟨-, _, h1⟩ | ⟨-, h1⟩) | ⟨m, h1, h2, h3⟩⟩ := C89_selected fmt sel false cmd t _ h fun x hx =>
    onTopic_conforms (hc x hx)
  · cases h1
  · cases h1
  obtain ⟨c, he1, he2⟩ := evolvesAt_append.1 he
  have hcs : c = s := (evolvesAt_queries he1 fun x hx => by
    obtain ⟨q, h4, h5, -⟩ := hq x hx
    exact ⟨q, h4, h5⟩).1
  rw [hcs] at he2
  have hc2 : Conforming t₂ := fun x hx => hc x (List.mem_append_right _ hx)
  have hset : ∀ st, s'.led = s.led → Spared (.setPower st) s s' := fun st hl =>
    ⟨fun _ => hl, fun g => absurd trivial g, fun g => absurd trivial g, fun g => absurd trivial g,
      fun _ _ g => absurd (Or.inl True.intro) g⟩
  by_cases hp : Mem m p
  · have hs : Acts cmd → Settled cmd s s' := fun hcmd => settled_dispatch h2 hc2 (.inl hcmd) he2 hp hf
    cases cmd with
    | setPower st =>
      rw [dispatch.eq_def] at h2
      obtain ⟨r, h4, h5⟩ := acting_ok h2
      cases h5
      have hrun := h4
      refine hset st ?_
      cases st with
      | off =>
        obtain ⟨x₁, x₂, x₃, s₁, s₂, res', rfl, -, -, -, -, -, h6, h7⟩ := C43_power_off m t₂ _ h4 hc2
        cases h6
        have hpm := ((h7.split p).1.1 hp).resolve_right (not_lined h7.wf.2.1 hf)
        exact (C104_pins m .off _ _ hrun hc2 p s s' he2 hpm fun h8 => (h7.split p).2 ⟨hpm, h8⟩).2.2.2
      | low => exact on_led (low := true) h4 hc2 he2 (not_lined (on_aligned (low := true) h4 hc2) hf)
      | high => exact on_led (low := false) h4 hc2 he2 (not_lined (on_aligned (low := false) h4 hc2) hf)
    | reset =>
      obtain ⟨k1, k2, k3, k4⟩ := hs trivial
      exact ⟨fun _ => k4, fun g => absurd trivial g, fun _ => k1, fun _ => k3, fun _ _ g => absurd (Or.inl True.intro) g⟩
    | enablePower | disablePower | assertReset | deassertReset | assertLpMode | deassertLpMode | clearPowerFault
    | clearDisableLatch =>
      obtain ⟨q, d, h4, h5⟩ := hs trivial
      exact spared_effect h4 h5
    | setLeds l =>
      obtain ⟨q, d, h4, h5⟩ := hs trivial
      exact spared_effect h4 h5
    | writeLower cmis input offset =>
      obtain ⟨q, d, h4, h5⟩ := hs trivial
      exact spared_effect h4 h5
    | writeUpper cmis input page bank offset =>
      obtain ⟨q, d, h4, h5⟩ := hs trivial
      exact spared_effect h4 h5
    | _ => exact absurd trivial hi
  · have hss : s' = s := evolvesAt_addressed (fun x hx => ⟨h3 x hx, by
      obtain ⟨q, h4, -⟩ := C88_changes fmt sel false cmd _ _ h x (List.mem_append_right _ hx)
      exact ⟨q, h4⟩⟩) hp he2
    rw [hss]
    exact spared_refl cmd s

/-- C156 over the network: the same, for the port as it is at the end of an execution of the whole system, if the messages
that change the port are received in order and acknowledged alike, and no other task is to change it. (The reset at the end of `Props/CliBoard.lean` is such an execution.) -/
theorem C156_net (lim : Option Nat) (progs : List (Prog Exit)) (evs : List SysEvent) (sys : Sys Exit)
    (h : (Sys.init lim progs).run evs = some sys) (hsp : SpDoes Proper evs) (hn : numbered evs ≤ 2 ^ 64) (i : Nat)
    (fmt : Fmt) (sel : Option Transceivers) (cmd : Cmd) (hi : progs[i]? = some (main fmt sel false cmd))
    (hst : ∀ w wo all pa out sep oh, cmd ≠ .status w wo all pa out sep oh) (p : Nat) (hother : ∀ j q, j ≠ i → progs[j]? = some q → Spares q p) (tk : Xcvr.Task Exit)
    (ht : sys.tasks[i]? = some tk) (out : Lines) (fails : List (U8 × TransceiverError))
    (ha : tk.prog = .ret (.done out fails)) (hf : ¬ Lined fails p) (s s' : PortState)
    (he : LogEvolvesAt p s sys.spLog s') (hord : InOrderAt p sys.spLog) (hal : AlikeAt p sys.spLog) : Spared cmd s s' := by
  obtain ⟨h1, h2, h3⟩ := order_at lim progs evs sys h hsp hn i _ hi (main_hosts fmt sel false cmd hst) p hother tk ht _
    ha s s' he hord hal
  exact C156_unlisted fmt sel cmd _ out fails h1 h2 p hf s s' h3

/-- A write of a file with one byte to address 100 of modules 0 and 1, of which the failure lines name none, and for which
everything is acknowledged. Their other bytes are not ones that it may change. -/
def apartWrite : Cmd := .writeLower false ⟨none, some (chars!"0x2a".flatMap utf8Encode), 0⟩ 100

example : ∃ t, Runs (main plainFmt (some (.index ⟨0b11⟩)) false apartWrite) t (.ok (.done [] [])) ∧ Conforming t ∧
    (∀ p ∈ [0, 1], ¬ Lined [] p ∧ AllDone p t ∧ EvolvesAt p (unevenBoard p) t (after unevenBoard t p) ∧
      (unevenBoard p).lower 100 = 0 ∧ (after unevenBoard t p).lower 100 = 0x2a) ∧
    ¬ MayBytes apartWrite (.sff8636 .lower) 101 := by
  obtain ⟨h1, h2⟩ := main_bench (boardBench unevenBoard) plainFmt (some (.index ⟨0b11⟩)) false apartWrite
  have h3 := board_evolves unevenBoard (fun _ _ => ⟨0⟩) (main_hosts plainFmt (some (.index ⟨0b11⟩)) false apartWrite
    (fun _ _ _ _ _ _ _ h => by cases h)) []
  have e : ((main plainFmt (some (.index ⟨0b11⟩)) false apartWrite).exec (boardBench unevenBoard).sp []).2 =
      .ok (.done [] []) := by decide +kernel
  have hd : ∀ p ∈ [0, 1], (((main plainFmt (some (.index ⟨0b11⟩)) false apartWrite).exec
      (boardBench unevenBoard).sp []).1.all fun x => (okIn x p).isSome) = true := by decide +kernel
  rw [e] at h1
  refine ⟨_, h1, h2, fun p hp => ⟨?_, fun x hx q _ _ _ => ?_, evolves_at.1 h3 p, ?_⟩, ?_⟩
  · rintro ⟨_, _, h, _⟩
    cases h
  · exact Option.isSome_iff_exists.1 (List.all_eq_true.1 (hd p hp) x hx)
  · revert p
    decide +kernel
  · rintro ⟨-, d, h4, -, h6⟩
    have h7 : Input.load ⟨none, some (chars!"0x2a".flatMap utf8Encode), 0⟩ = .ok [0x2a] := by decide +kernel
    rw [h7] at h4
    cases h4
    exact absurd h6 (by decide)

end Xcvr
