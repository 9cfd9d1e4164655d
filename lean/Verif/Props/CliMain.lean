import Verif.Lemmas.CliMain

/-! # C88, C89: what a run of the tool may do -/

namespace Xcvr

open Spec Prog Cli Controller

/-! ## C88: a command changes only what it is for -/

/-- A query, or a request to change something that belongs to the command. -/
def CallOf (cmd : Cmd) (c : Call) : Prop := CallQuery c ∨ ∃ q d, c = Call.host q d ∧ Changes cmd q d

theorem only_dispatch (fmt : Fmt) (ign : Bool) (m : ModuleId) (cmd : Cmd) :
    Only (CallOf cmd) (dispatch fmt ign m cmd) := by
  have hr : ∀ {cmd} g rd, CallOf cmd (.host (.read g rd)) := fun g rd => .inl (callQuery_read g rd)
  have hq : ∀ {cmd} q, IsQuery q → CallOf cmd (.host q) := fun q h => .inl ⟨q, rfl, h⟩
  have hc : ∀ {cmd} q, Changes cmd q none → CallOf cmd (.host q) := fun q h => .inr ⟨q, none, rfl, h⟩
  have hn : ∀ {cmd} q, Changes cmd q none → Only (CallOf cmd) (acting ign (noPayloadRequest q)) :=
    fun q h => only_acting (only_of_all (allCalls_noPayloadRequest (hc q h)))
  cases cmd with
  | status w wo all parseable output sep omitHeader =>
    rw [dispatch]
    split
    · exact only_showing (only_statusCmd (hq _ trivial) (hq _ trivial))
    · trivial
  | reset =>
    exact only_acting (only_of_all (allCalls_bind (allCalls_noPayloadRequest (hc _ trivial)) fun _ =>
      allCalls_bind (allCalls_noPayloadRequest (hc _ trivial)) fun _ => trivial))
  | setPower s =>
    refine only_acting (only_of_all ?_)
    cases s with
    | off =>
      exact allCalls_bind (allCalls_noPayloadRequest (hc _ trivial)) fun _ =>
        allCalls_bind (allCalls_noPayloadRequest (hc _ trivial)) fun _ =>
          allCalls_bind (allCalls_noPayloadRequest (hc _ trivial)) fun _ => trivial
    | low =>
      exact calls_setPowerOn m true hr (fun _ => hq _ trivial) (fun _ => hc _ trivial) (fun _ => hc _ trivial)
        (fun _ => hc _ trivial) (fun _ => hc _ trivial) fun g id ov w b h =>
          .inr ⟨_, _, rfl, powerWord_register h⟩
    | high =>
      exact calls_setPowerOn m false hr (fun _ => hq _ trivial) (fun _ => hc _ trivial) (fun _ => hc _ trivial)
        (fun _ => hc _ trivial) (fun _ => hc _ trivial) fun g id ov w b h =>
          .inr ⟨_, _, rfl, powerWord_register h⟩
  | power a => exact only_showing (only_of_all (allCalls_power m hr (hq _ trivial)))
  | enablePower => exact hn _ trivial
  | disablePower => exact hn _ trivial
  | assertReset => exact hn _ trivial
  | deassertReset => exact hn _ trivial
  | assertLpMode => exact hn _ trivial
  | deassertLpMode => exact hn _ trivial
  | identify a => exact only_showing (only_of_all (allCalls_identifier fun g _ => hr g _))
  | vendorInfo a => exact only_showing (only_of_all (allCalls_parse _ m hr))
  | readLower cmis binary offset len a => exact only_readCmd hr ign m binary (.ok (lowerPage cmis)) offset len a
  | readUpper cmis binary page bank offset len a => exact only_readCmd hr _ _ _ _ _ _ _
  | writeLower cmis input offset =>
    refine only_writeCmd hr ign m (.ok (lowerPage cmis)) input offset fun p d w g hp hd hw => .inr ⟨_, _, rfl, hd, ?_⟩
    cases hp
    obtain ⟨-, h1, h2, h3⟩ := (C71_accepted _ _ _ _).1 hw
    exact ⟨h1, h2, h3⟩
  | writeUpper cmis input page bank offset =>
    refine only_writeCmd hr _ _ _ _ _ fun p d w g hp hd hw => .inr ⟨_, _, rfl, hd, ?_⟩
    obtain ⟨-, h1, h2, h3⟩ := (C71_accepted _ _ _ _).1 hw
    obtain ⟨h4, h5, h6, h7⟩ := C71_page _ _ _ _ hp
    rw [h1]
    exact ⟨h6, h4, h5, h7, h2, h3⟩
  | memoryModel a => exact only_showing (only_of_all (allCalls_parse _ m hr))
  | macs summary =>
    exact only_bind (only_of_all (allCalls_macAddrs (hq _ trivial))) fun _ => only_bind (only_print _) fun _ => trivial
  | clearPowerFault => exact hn _ trivial
  | clearDisableLatch => exact hn _ trivial
  | leds a => exact only_showing (only_of_all (allCalls_leds (hq _ trivial)))
  | setLeds s => exact hn _ rfl
  | monitors a => exact only_showing (only_of_all (allCalls_parse _ m hr))
  | datapath => exact only_showing (only_of_all (allCalls_parse _ m hr))

/-- Whatever the command, the selection, the flags and the SP's answers, every request of a run is a query without data or
one of the requests that belong to the command. -/
theorem C88_changes (fmt : Fmt) (sel : Option Transceivers) (ign : Bool) (cmd : Cmd) (t : List Exchange)
    (o : Exec CtlError Exit) (h : Runs (main fmt sel ign cmd) t o) :
    ∀ x ∈ t, ∃ q, requestOf x = some q ∧ ((IsQuery q ∧ x.1.data = none) ∨ Changes cmd q x.1.data) := by
  have ho : Only (CallOf cmd) (main fmt sel ign cmd) :=
    only_bind (only_mono (fun _ h => .inl h) (only_select _)) fun m => only_dispatch fmt ign m cmd
  intro x hx
  obtain ⟨c, r⟩ := x
  rcases only_runs ho h _ hx with ⟨q, h1, h2⟩ | ⟨q, d, h1, h2⟩
  · dsimp only at h1
    subst h1
    exact ⟨q, rfl, .inl ⟨h2, rfl⟩⟩
  · dsimp only at h1
    subst h1
    exact ⟨q, rfl, .inr h2⟩

/-- The commands that only look send nothing but queries. -/
theorem C88_inspecting (fmt : Fmt) (sel : Option Transceivers) (ign : Bool) (cmd : Cmd) (hc : Inspecting cmd)
    (t : List Exchange) (o : Exec CtlError Exit) (h : Runs (main fmt sel ign cmd) t o) :
    ∀ x ∈ t, ∃ q, requestOf x = some q ∧ IsQuery q ∧ x.1.data = none := by
  intro x hx
  obtain ⟨q, h1, h2 | h2⟩ := C88_changes fmt sel ign cmd t o h x hx
  · exact ⟨q, h1, h2⟩
  · refine absurd h2 ?_
    cases cmd <;> first | exact absurd hc id | (cases q <;> exact id)

/-- A command refused for its arguments has sent nothing but the queries that select modules. -/
theorem C88_refused (fmt : Fmt) (sel : Option Transceivers) (ign : Bool) (cmd : Cmd) (t : List Exchange) (e : SetupError)
    (h : Runs (main fmt sel ign cmd) t (.ok (.refused e))) :
    (∃ m, Runs (addressTransceivers (sel.getD .all)) t (.ok m)) ∧
    ∀ x ∈ t, ∃ q, requestOf x = some q ∧ IsQuery q ∧ x.1.data = none := by
  rcases runs_bind.1 h with ⟨t₁, t₂, m, rfl, h1, h2⟩ | ⟨e, -, h2⟩ | ⟨-, h2⟩
  · have := dispatch_refused h2
    subst this
    rw [List.append_nil] at *
    refine ⟨⟨m, h1⟩, fun x hx => ?_⟩
    obtain ⟨c, r⟩ := x
    obtain ⟨q, h3, h4⟩ := only_runs (only_select _) h1 _ hx
    dsimp only at h3
    subst h3
    exact ⟨q, rfl, h4, rfl⟩
  · cases h2
  · cases h2

/-- What the examples leave to `Fmt`. -/
def plainFmt : Fmt := ⟨fun g => '#' :: (g.map List.flatten).flatten⟩

theorem Bench.exec_conforming_only {α : Type} (b : Bench) {p : Prog α} (hp : Only Bench.IsHost p) (h : List Exchange) :
    Conforming (p.exec b.sp h).1 := by
  induction p generalizing h with
  | ret a => intro x hx; simp [Prog.exec] at hx
  | fail e => intro x hx; simp [Prog.exec] at hx
  | panic => intro x hx; simp [Prog.exec] at hx
  | rpc c k ih =>
    obtain ⟨⟨q, D, rfl⟩, hk⟩ := hp
    simp only [Prog.exec]
    rw [conforming_cons]
    exact ⟨answer_conforms b h q D, ih _ (hk _) _⟩

theorem isHost_of_callOf {cmd : Cmd} (c : Call) : CallOf cmd c → Bench.IsHost c
  | .inl ⟨q, h, _⟩ => ⟨q, none, h⟩
  | .inr ⟨q, d, h, _⟩ => ⟨q, d, h⟩

/-- Runs of the tool against the made-up SP. -/
theorem main_bench (b : Bench) (fmt : Fmt) (sel : Option Transceivers) (ign : Bool) (cmd : Cmd) :
    Runs (main fmt sel ign cmd) ((main fmt sel ign cmd).exec b.sp []).1 ((main fmt sel ign cmd).exec b.sp []).2 ∧
    Conforming ((main fmt sel ign cmd).exec b.sp []).1 :=
  ⟨b.exec_runs _, b.exec_conforming_only (only_bind (only_mono (fun c ⟨q, h, _⟩ => ⟨q, none, h⟩) (only_select _)) fun m =>
    only_mono isHost_of_callOf (only_dispatch fmt ign m cmd)) []⟩

theorem dispatch_bench (b : Bench) (fmt : Fmt) (m : ModuleId) (ign : Bool) (cmd : Cmd) :
    Runs (dispatch fmt ign m cmd) ((dispatch fmt ign m cmd).exec b.sp []).1 ((dispatch fmt ign m cmd).exec b.sp []).2 ∧
    Conforming ((dispatch fmt ign m cmd).exec b.sp []).1 :=
  ⟨b.exec_runs _, b.exec_conforming_only (only_mono isHost_of_callOf (only_dispatch fmt ign m cmd)) []⟩

/-- Ports 0 to 3 are present; port 1 holds an SFF-8636 module and port 2 a CMIS one; port 2 fails the assertion of resets,
and port 4 does not answer. -/
def toolBench : Bench where
  failing _ q := match q with
    | .assertReset _ => ⟨0b10100⟩
    | _ => ⟨0b10000⟩
  status _ i := if i = 0 then 0x01 else if i = 2 then 0x2b else if i.toNat < 4 then 0x23 else 0
  memory _ i rd k := if rd.offset = 0 then (if i = 1 then 0x11 else if i = 2 then 0x18 else 0)
    else BitVec.ofNat 8 (rd.offset.toNat + k)

/-- The requests of a reset of the modules present: one to select, two that belong to the command. -/
example : ((main plainFmt (some .present) false .reset).exec toolBench.sp []).1.map requestOf =
    [some (.status ⟨0xffffffff⟩), some (.assertReset ⟨0b1111⟩), some (.deassertReset ⟨0b1011⟩)] := by
  decide +kernel

/-- A write to the upper half of memory. Module 3 is of no known kind and module 1 not CMIS. -/
example : ((main plainFmt (some (.index ⟨0b100⟩)) false
      (.writeUpper true ⟨some .binary, some [7, 8], 2⟩ 0x10 (some 0) 0x90)).exec toolBench.sp []).1.map
      (fun x => (requestOf x, x.1.data)) =
    [(some (.read ⟨0b100⟩ ⟨.sff8636 .lower, 0, 1⟩), none),
      (some (.write ⟨0b100⟩ ⟨.cmis (.upper ⟨some 0, 0x10⟩), 0x90, 2⟩), some [7, 8])] := by
  decide +kernel

/-- A command refused: no bytes to write. -/
example : ((main plainFmt none false (.writeLower true ⟨none, some [], 0⟩ 26)).exec toolBench.sp []).2 =
    .ok (.refused (.input .empty)) := by
  decide +kernel

/-! ## C89: a command is for the modules selected -/

/-- A run first selects modules, by queries alone; if that fails the run ends; otherwise every request from then on is about
modules selected, as long as the SP's responses name only modules they were asked about. -/
theorem C89_selected (fmt : Fmt) (sel : Option Transceivers) (ign : Bool) (cmd : Cmd) (t : List Exchange)
    (o : Exec CtlError Exit) (h : Runs (main fmt sel ign cmd) t o) (ht : ∀ x ∈ t, OnTopic x) :
    ∃ t₁ t₂, t = t₁ ++ t₂ ∧ (∀ x ∈ t₁, ∃ q, requestOf x = some q ∧ IsQuery q ∧ x.1.data = none) ∧
      ((t₂ = [] ∧ (∃ e, o = .err e) ∨ t₂ = [] ∧ o = .panic) ∨
        ∃ m, Runs (addressTransceivers (sel.getD .all)) t₁ (.ok m) ∧ Runs (dispatch fmt ign m cmd) t₂ o ∧
          ∀ x ∈ t₂, Addresses m x) := by
  have hq : ∀ {t₁ : List Exchange} {o : Exec CtlError ModuleId}, Runs (addressTransceivers (sel.getD .all)) t₁ o →
      ∀ x ∈ t₁, ∃ q, requestOf x = some q ∧ IsQuery q ∧ x.1.data = none := by
    intro t₁ o h x hx
    obtain ⟨c, r⟩ := x
    obtain ⟨q, h3, h4⟩ := only_runs (only_select _) h _ hx
    dsimp only at h3
    subst h3
    exact ⟨q, rfl, h4, rfl⟩
  rcases runs_bind.1 h with ⟨t₁, t₂, m, rfl, h1, h2⟩ | ⟨e, h1, rfl⟩ | ⟨h1, rfl⟩
  · exact ⟨t₁, t₂, rfl, hq h1, .inr ⟨m, h1, h2,
      (scoped_runs (scoped_dispatch fmt ign cmd) h2 fun x hx => ht x (List.mem_append_right _ hx)).1⟩⟩
  · exact ⟨t, [], (List.append_nil t).symm, hq h1, .inl (.inl ⟨rfl, e, rfl⟩)⟩
  · exact ⟨t, [], (List.append_nil t).symm, hq h1, .inl (.inr ⟨rfl, rfl⟩)⟩

/-- If ports are listed on the command line, no request of the whole run is about any other. -/
theorem C89_listed (fmt : Fmt) (m : ModuleId) (ign : Bool) (cmd : Cmd) (t : List Exchange) (o : Exec CtlError Exit)
    (h : Runs (main fmt (some (.index m)) ign cmd) t o) (ht : ∀ x ∈ t, OnTopic x) : ∀ x ∈ t, Addresses m x :=
  (scoped_runs (p := main fmt (some (.index m)) ign cmd) (scoped_dispatch fmt ign cmd) h ht).1

/-- A proper SP names only modules it was asked about. -/
theorem onTopic_of_conforms {x : Exchange} (h : Conforms x) : OnTopic x := by
  obtain ⟨q, R, d, h1, h2, h3⟩ := h
  intro q' R' d' g s f h4 h5 h6 h7
  rw [h1] at h4
  rw [h2] at h5
  cases h4
  cases h5
  have := h3.split g s f h6 h7
  exact ⟨fun p hp => (this p).1.2 (.inl hp), fun p hp => (this p).1.2 (.inr hp)⟩

/-- The hypotheses hold of a reset of the modules present. -/
example : ∀ x ∈ ((main plainFmt (some .present) false .reset).exec toolBench.sp []).1, OnTopic x := fun x hx =>
  onTopic_of_conforms ((main_bench toolBench plainFmt (some .present) false .reset).2 x hx)

/-- The requests of a table of power modes of two modules. -/
example : ((main plainFmt (some (.index ⟨0b110⟩)) false (.power ⟨false, [], none, false⟩)).exec toolBench.sp []).1.map
      requestOf =
    [some (.status ⟨0b110⟩), some (.read ⟨0b110⟩ ⟨.sff8636 .lower, 0, 1⟩), some (.read ⟨0b10⟩ ⟨.sff8636 .lower, 93, 1⟩),
      some (.read ⟨0b100⟩ ⟨.cmis .lower, 26, 1⟩)] := by
  decide +kernel

end Xcvr
