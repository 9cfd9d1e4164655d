import Verif.Lemmas.CliBoard

/-! # C142: what a command of the tool sets is what is there -/

namespace Xcvr

open Spec Prog Cli Controller

/-- The commands and circumstances for which a module that is not listed as a failure is as commanded: all commands that
act other than setting low or high power; and these for one module, or for modules that are of one kind and alike in their
need of power. -/
def Spec.Steady (cmd : Cmd) (m : ModuleId) (t : List Exchange) : Prop :=
  Acts cmd ∨ ((∃ st, cmd = .setPower st) ∧ ((∀ p q, Mem m p → Mem m q → p = q) ∨ (SameKinds t ∧ EvenPower t)))

theorem settled_dispatch {fmt : Fmt} {m : ModuleId} {cmd : Cmd} {t : List Exchange} {out : Lines}
    {fails : List (U8 × TransceiverError)} (h : Runs (dispatch fmt false m cmd) t (.ok (.done out fails)))
    (hc : Conforming t) (hs : Steady cmd m t) {p : Nat} {s s' : PortState} (he : EvolvesAt p s t s') (hp : Mem m p)
    (hf : ¬ Lined fails p) : Settled cmd s s' := by
  rw [dispatch.eq_def] at h
  have hset : ∀ st, cmd = .setPower st → Runs (acting false (setPower m st)) t (.ok (.done out fails)) →
      s'.power = st := by
    rintro st rfl h
    obtain ⟨r, h1, h2⟩ := acting_ok h
    cases h2
    refine set_even h1 hc he ?_ hp hf
    rcases hs with ha | ⟨-, hst⟩
    · cases st with
      | off => exact .inl rfl
      | low => exact absurd ha id
      | high => exact absurd ha id
    · exact .inr hst
  cases cmd with
  | reset =>
    obtain ⟨r, h1, h2⟩ := acting_ok h
    cases h2
    have hrun := h1
    obtain ⟨x₁, x₂, s₁, res', rfl, -, -, -, h4, h5⟩ := C38_reset m t _ h1 hc
    cases h4
    have hpm := ((h5.split p).1.1 hp).resolve_right (not_lined h5.wf.2.1 hf)
    exact C105_reset_at m _ _ hrun hc p s s' he hpm
  | setPower st => exact hset st rfl h
  | enablePower => exact settled_one (cmd := .enablePower) (q := .enablePower m) trivial h hc trivial rfl he hp hf
  | disablePower => exact settled_one (cmd := .disablePower) (q := .disablePower m) trivial h hc trivial rfl he hp hf
  | assertReset => exact settled_one (cmd := .assertReset) (q := .assertReset m) trivial h hc trivial rfl he hp hf
  | deassertReset => exact settled_one (cmd := .deassertReset) (q := .deassertReset m) trivial h hc trivial rfl he hp hf
  | assertLpMode => exact settled_one (cmd := .assertLpMode) (q := .assertLpMode m) trivial h hc trivial rfl he hp hf
  | deassertLpMode => exact settled_one (cmd := .deassertLpMode) (q := .deassertLpMode m) trivial h hc trivial rfl he hp hf
  | clearPowerFault => exact settled_one (cmd := .clearPowerFault) (q := .clearPowerFault m) trivial h hc trivial rfl he hp hf
  | clearDisableLatch => exact settled_one (cmd := .clearDisableLatch) (q := .clearDisableLatch m) trivial h hc trivial rfl he hp hf
  | setLeds l => exact settled_one (cmd := .setLeds l) (q := .setLedState m l) rfl h hc trivial rfl he hp hf
  | writeLower cmis input offset =>
    refine settled_write (cmd := .writeLower cmis input offset) (page := .ok (lowerPage cmis)) (fun p d w g hp hd hw => ?_)
      h hc he hp hf
    cases hp
    obtain ⟨-, h1, h2, h3⟩ := (C71_accepted _ _ _ _).1 hw
    exact ⟨hd, h1, h2, h3⟩
  | writeUpper cmis input page bank offset =>
    refine settled_write (cmd := .writeUpper cmis input page bank offset) (fun p d w g hp hd hw => ?_) h hc he hp hf
    obtain ⟨-, h1, h2, h3⟩ := (C71_accepted _ _ _ _).1 hw
    obtain ⟨h4, h5, h6, h7⟩ := C71_page _ _ _ _ hp
    refine ⟨hd, ?_⟩
    rw [h1]
    exact ⟨h6, h4, h5, h7, h2, h3⟩
  | _ => rcases hs with ha | ⟨⟨_, ha⟩, -⟩ <;> cases ha

/-- **C142**, what holds, on the board: after a run of the tool that ends normally, a port that was not selected is as
before; and a selected one that the failure lines do not name is as commanded. -/
theorem C142_board_partial (fmt : Fmt) (sel : Option Transceivers) (cmd : Cmd) (t : List Exchange) (out : Lines)
    (fails : List (U8 × TransceiverError)) (h : Runs (main fmt sel false cmd) t (.ok (.done out fails)))
    (hc : Conforming t) :
    ∃ t₁ t₂ m, t = t₁ ++ t₂ ∧ Runs (addressTransceivers (sel.getD .all)) t₁ (.ok m) ∧
      ∀ (p : Nat) (s s' : PortState), EvolvesAt p s t s' → (¬ Mem m p → s' = s) ∧
        (Steady cmd m t₂ → Mem m p → ¬ Lined fails p → Settled cmd s s') := by
  obtain ⟨t₁, t₂, rfl, hq, (⟨-, _, h1⟩ | ⟨-, h1⟩) | ⟨m, h1, h2, h3⟩⟩ := C89_selected fmt sel false cmd t _ h fun x hx =>
    onTopic_conforms (hc x hx)
  · cases h1
  · cases h1
  refine ⟨t₁, t₂, m, rfl, h1, fun p s s' he => ?_⟩
  obtain ⟨c, he1, he2⟩ := evolvesAt_append.1 he
  obtain rfl : c = s := (evolvesAt_queries he1 fun x hx => by
    obtain ⟨q, h4, h5, -⟩ := hq x hx
    exact ⟨q, h4, h5⟩).1
  refine ⟨fun hp => evolvesAt_addressed (fun x hx => ⟨h3 x hx, ?_⟩) hp he2, fun hs hp hf =>
    settled_dispatch h2 (fun x hx => hc x (List.mem_append_right _ hx)) hs he2 hp hf⟩
  obtain ⟨q, h4, -⟩ := C88_changes fmt sel false cmd _ _ h x (List.mem_append_right _ hx)
  exact ⟨q, h4⟩

theorem allCalls_only {α : Type} {C D : Call → Prop} {p : Prog α} (h : AllCalls C p) (hd : Only D p) : AllCalls D p := by
  induction p with
  | rpc c k ih => exact ⟨⟨hd.1, h.1.2⟩, fun r => ih r (h.2 r) (hd.2 r)⟩
  | ret a => trivial
  | fail e => trivial
  | panic => trivial

theorem main_hosts (fmt : Fmt) (sel : Option Transceivers) (ign : Bool) (cmd : Cmd)
    (hcmd : ∀ w wo all pa out sep oh, cmd ≠ .status w wo all pa out sep oh) :
    AllCalls Bench.IsHost (main fmt sel ign cmd) :=
  allCalls_bind (allCalls_only (all_select _) (only_mono (fun _ ⟨q, h, _⟩ => ⟨q, none, h⟩) (only_select _))) fun m =>
    allCalls_only (all_dispatch fmt ign m cmd hcmd) (only_mono isHost_of_callOf (only_dispatch fmt ign m cmd))

/-- **C142**, what holds, over the network: the same, for the port as it is at the end of an execution of the whole
system, if the messages that change the port are received in order and acknowledged alike, and no other task is to change
it. -/
theorem C142_net_partial (lim : Option Nat) (progs : List (Prog Exit)) (evs : List SysEvent) (sys : Sys Exit)
    (h : (Sys.init lim progs).run evs = some sys) (hsp : SpDoes Proper evs) (hn : numbered evs ≤ 2 ^ 64) (i : Nat)
    (fmt : Fmt) (sel : Option Transceivers) (cmd : Cmd) (hi : progs[i]? = some (main fmt sel false cmd))
    (hcmd : ∀ w wo all pa out sep oh, cmd ≠ .status w wo all pa out sep oh) (p : Nat)
    (hother : ∀ j q, j ≠ i → progs[j]? = some q → Spares q p) (tk : Xcvr.Task Exit) (ht : sys.tasks[i]? = some tk)
    (out : Lines) (fails : List (U8 × TransceiverError)) (ha : tk.prog = .ret (.done out fails)) (s s' : PortState)
    (he : LogEvolvesAt p s sys.spLog s') (hord : InOrderAt p sys.spLog) (hal : AlikeAt p sys.spLog) :
    ∃ t₁ t₂ m, tk.past = t₁ ++ t₂ ∧ Runs (addressTransceivers (sel.getD .all)) t₁ (.ok m) ∧ (¬ Mem m p → s' = s) ∧
      (Steady cmd m t₂ → Mem m p → ¬ Lined fails p → Settled cmd s s') := by
  obtain ⟨h1, h2, h3⟩ := order_at lim progs evs sys h hsp hn i _ hi (main_hosts fmt sel false cmd hcmd) p hother tk ht _
    ha s s' he hord hal
  obtain ⟨t₁, t₂, m, h4, h5, h6⟩ := C142_board_partial fmt sel cmd _ out fails h1 h2
  exact ⟨t₁, t₂, m, h4, h5, h6 p s s' h3⟩

/-! ### The property is false for low and high power -/

/-- Module 0 is off. Module 1 is powered, and its control byte asks for high power whatever the pin says. -/
def unevenBoard : BoardState := fun p =>
  ⟨p == 1, false, false, .off, fun a => if a = 0 then 0x11 else if a = 93 ∧ p = 1 then 0x01 else 0, fun _ _ => 0⟩

/-- Setting both to low power lists no failure. Module 1 stays in high power. -/
theorem C142_counterexample :
    ((main plainFmt (some (.index ⟨0b11⟩)) false (.setPower .low)).exec (boardBench unevenBoard).sp []).2 =
      .ok (.done [] []) ∧
    (after unevenBoard
      ((main plainFmt (some (.index ⟨0b11⟩)) false (.setPower .low)).exec (boardBench unevenBoard).sp []).1 1).power =
      .high := by
  decide +kernel

theorem C142_false : ¬ ∀ (fmt : Fmt) (m : ModuleId) (cmd : Cmd) (t : List Exchange) (out : Lines)
    (fails : List (U8 × TransceiverError)), Acts cmd ∨ (∃ st, cmd = .setPower st) →
    Runs (main fmt (some (.index m)) false cmd) t (.ok (.done out fails)) → Conforming t →
    ∀ (p : Nat) (s s' : PortState), EvolvesAt p s t s' → Mem m p → ¬ Lined fails p → Settled cmd s s' := by
  intro hall
  obtain ⟨h1, h2⟩ := main_bench (boardBench unevenBoard) plainFmt (some (.index ⟨0b11⟩)) false (.setPower .low)
  have h3 := board_evolves unevenBoard (fun _ _ => ⟨0⟩) (main_hosts plainFmt (some (.index ⟨0b11⟩)) false (.setPower .low)
    (fun _ _ _ _ _ _ _ h => by cases h)) []
  rw [C142_counterexample.1] at h1
  have := hall _ _ _ _ _ _ (.inr ⟨_, rfl⟩) h1 h2 1 _ _ (evolves_at.1 h3 1) (by decide)
    (fun ⟨_, _, h, _⟩ => by cases h)
  replace this : (after unevenBoard
      ((main plainFmt (some (.index ⟨0b11⟩)) false (.setPower .low)).exec (boardBench unevenBoard).sp []).1 1).power =
      .low := this
  rw [C142_counterexample.2] at this
  cases this

/-! ### Examples -/

/-- `C142_board_partial`: one module under software override is told to go to low power, and does; it is the only one
selected. -/
example : ∃ t t₁ t₂ m, Runs (main plainFmt (some (.index ⟨0b10⟩)) false (.setPower .low)) t (.ok (.done [] [])) ∧
    Conforming t ∧ EvolvesAt 1 (unevenBoard 1) t (after unevenBoard t 1) ∧ t = t₁ ++ t₂ ∧
    Runs (addressTransceivers (.index ⟨0b10⟩)) t₁ (.ok m) ∧ Steady (.setPower .low) m t₂ ∧ Mem m 1 ∧
    (unevenBoard 1).power = .high ∧ (after unevenBoard t 1).power = .low := by
  obtain ⟨h1, h2⟩ := main_bench (boardBench unevenBoard) plainFmt (some (.index ⟨0b10⟩)) false (.setPower .low)
  have h3 := board_evolves unevenBoard (fun _ _ => ⟨0⟩) (main_hosts plainFmt (some (.index ⟨0b10⟩)) false (.setPower .low)
    (fun _ _ _ _ _ _ _ h => by cases h)) []
  have e : ((main plainFmt (some (.index ⟨0b10⟩)) false (.setPower .low)).exec (boardBench unevenBoard).sp []).2 =
      .ok (.done [] []) := by decide +kernel
  rw [e] at h1
  refine ⟨_, [], _, ⟨0b10⟩, h1, h2, evolves_at.1 h3 1, rfl, runs_ret.2 ⟨rfl, rfl⟩, ?_, by decide, by decide +kernel,
    by decide +kernel⟩
  refine .inr ⟨⟨_, rfl⟩, .inl fun p q hp hq => ?_⟩
  have one : ∀ p, Mem ⟨0b10⟩ p → p = 1 := by
    intro p hp
    have hlt : p < 64 := BitVec.lt_of_getLsbD hp
    have : ∀ p : Fin 64, Mem ⟨0b10⟩ p.1 → p.1 = 1 := by decide +kernel
    exact this ⟨p, hlt⟩ hp
  rw [one p hp, one q hq]

/-- Two modules of one kind without power: both are set to low power. -/
example : ((main plainFmt (some (.index ⟨0b1001⟩)) false (.setPower .low)).exec (boardBench unevenBoard).sp []).2 =
      .ok (.done [] []) ∧
    (∀ p ∈ [0, 3], (unevenBoard p).power = .off ∧ (after unevenBoard
      ((main plainFmt (some (.index ⟨0b1001⟩)) false (.setPower .low)).exec (boardBench unevenBoard).sp []).1 p).power =
      .low) := by
  decide +kernel

/-- `C142_net_partial`: a reset of port 0 by the tool. -/
example : ∃ sys tk, (Sys.init (some 3) [main plainFmt (some (.index ⟨0b1⟩)) false .reset]).run (resetDemo.take 13) =
      some sys ∧ SpDoes Proper (resetDemo.take 13) ∧ sys.tasks[0]? = some tk ∧ tk.prog = .ret (.done [] []) ∧
    LogEvolvesAt 0 (resetBoard true 0) sys.spLog (resetBoard false 0) ∧ InOrderAt 0 sys.spLog ∧ AlikeAt 0 sys.spLog := by
  have h : ((Sys.init (some 3) [main plainFmt (some (.index ⟨0b1⟩)) false .reset]).run (resetDemo.take 13)).map
      (fun s => (s.tasks.map Task.outcome, s.spLog)) =
    some ([some (.done [] [])],
      [(callBytes 0 (Call.host (.assertReset ⟨0b1⟩)), [responsePkt 0 (.ack ⟨0b1⟩ ⟨0⟩) []]),
        (callBytes 1 (Call.host (.deassertReset ⟨0b1⟩)), [responsePkt 1 (.ack ⟨0b1⟩ ⟨0⟩) []])]) := by decide +kernel
  obtain ⟨s, h1, h2, h3⟩ := demo_state h
  obtain ⟨tk, h4, h5⟩ := outcome_task h2 (i := 0) rfl
  have honce : ChangesOnce s.spLog := by
    intro pkt _ _ _ _
    rw [h3]
    exact List.nodup_iff_count.1 (by decide +kernel) pkt
  obtain ⟨h6, h7⟩ := C132_once_partial s.spLog honce
  refine ⟨s, tk, h1, fun r out hr => resetDemo_proper r out (List.mem_of_mem_take hr), h4, h5, logEvolves_at ?_ 0,
    inOrder_at h6 0, alike_at h7 0⟩
  rw [h3]
  exact ⟨_, (reset_step 0 true (by decide +kernel)).1, _, (reset_step 1 true (by decide +kernel)).2, rfl⟩

end Xcvr
