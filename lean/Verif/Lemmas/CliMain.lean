import Verif.Spec.CliMain
import Verif.Lemmas.Scope
import Verif.Props.Scope
import Verif.Props.CliCmd
import Verif.Props.CliWrite

/-! # Lemmas about runs of the tool -/

namespace Xcvr

open Spec Prog Cli Controller

namespace Prog

variable {α β : Type}

/-- Every call the program can make satisfies `C`. -/
def Only (C : Call → Prop) : Prog α → Prop
  | ret _ => True
  | fail _ => True
  | panic => True
  | rpc c k => C c ∧ ∀ r, Only C (k r)

theorem only_of_all {C : Call → Prop} {p : Prog α} (h : AllCalls C p) : Only C p := by
  induction p with
  | rpc c k ih => exact ⟨h.1.1, fun r => ih r (h.2 r)⟩
  | _ => trivial

theorem only_mono {C D : Call → Prop} (hCD : ∀ c, C c → D c) {p : Prog α} (hp : Only C p) : Only D p := by
  induction p with
  | rpc c k ih => exact ⟨hCD _ hp.1, fun r => ih r (hp.2 r)⟩
  | _ => trivial

theorem only_runs {C : Call → Prop} {p : Prog α} (hp : Only C p) {t : List Exchange} {o : Exec CtlError α}
    (h : Runs p t o) : ∀ x ∈ t, C x.1 := by
  induction p generalizing t with
  | ret a => rw [runs_ret] at h; simp [h.1]
  | fail e => rw [runs_fail] at h; simp [h.1]
  | panic => rw [runs_panic] at h; simp [h.1]
  | rpc c k ih =>
    rw [runs_rpc] at h
    obtain ⟨r, t', rfl, h⟩ := h
    intro x hx
    rcases List.mem_cons.1 hx with rfl | hx
    · exact hp.1
    · exact ih r (hp.2 r) h x hx

theorem only_bind {C : Call → Prop} {p : Prog α} {f : α → Prog β} (hp : Only C p) (hf : ∀ a, Only C (f a)) :
    Only C (p >>= f) := by
  induction p with
  | ret a => exact hf a
  | rpc c k ih => exact ⟨hp.1, fun r => ih r (hp.2 r)⟩
  | _ => trivial

theorem only_orElse {C : Call → Prop} {p : Prog α} {f : CtlError → Prog α} (hp : Only C p) (hf : ∀ e, Only C (f e)) :
    Only C (p.orElse f) := by
  induction p with
  | fail e => exact hf e
  | rpc c k ih => exact ⟨hp.1, fun r => ih r (hp.2 r)⟩
  | _ => trivial

theorem scoped_orElse {m : ModuleId} {Q : α → Prop} {p : Prog α} {f : CtlError → Prog α} (hp : Scoped m Q p)
    (hf : ∀ e, Scoped m Q (f e)) : Scoped m Q (p.orElse f) := by
  induction p with
  | fail e => exact hf e
  | ret a => exact hp
  | panic => trivial
  | rpc c k ih => exact ⟨hp.1, fun r hr => ih r (hp.2 r hr)⟩

end Prog

theorem only_print {C : Call → Prop} (x : Exec Unit Lines) : Only C (Cli.print x) := by
  cases x <;> trivial

theorem only_showing {P : Type} {C : Call → Prop} {ign : Bool} {op : Prog (Res P)} {text : Res P → Exec Unit Lines}
    (h : Only C op) : Only C (showing ign op text) :=
  only_bind h fun _ => only_bind (only_print _) fun _ => trivial

theorem only_acting {C : Call → Prop} {ign : Bool} {op : Prog (Res Unit)} (h : Only C op) : Only C (acting ign op) :=
  only_bind h fun _ => trivial

theorem only_readChunks {C : Call → Prop} (hr : ∀ g rd, C (.host (.read g rd))) (m : ModuleId) (rds : List MemoryRead)
    (acc : Res Bytes) : Only C (readChunks m acc rds) := by
  induction rds generalizing acc with
  | nil => trivial
  | cons rd rds ih =>
    rw [readChunks]
    refine only_bind (only_of_all (allCalls_read m rd hr)) fun r => ?_
    cases acc.append r with
    | none => trivial
    | some acc' => exact ih acc'

theorem only_readCmd {C : Call → Prop} (hr : ∀ g rd, C (.host (.read g rd))) (ign : Bool) (m : ModuleId) (binary : Bool)
    (page : Except MgmtError Page) (offset len : U8) (a : TableArgs DataField) :
    Only C (readCmd ign m binary page offset len a) := by
  unfold readCmd
  split
  · trivial
  · split
    · trivial
    · split
      · trivial
      · trivial
      · exact only_showing (only_bind (only_of_all (allCalls_ofExec _)) fun _ => only_readChunks hr _ _ _)

theorem only_statusCmd {C : Call → Prop} {m : ModuleId} (h1 : C (.host (.extendedStatus m))) (h2 : C (.host (.status m))) :
    Only C (statusCmd m) :=
  only_orElse (only_of_all (allCalls_extendedStatus h1)) fun _ =>
    only_bind (only_of_all (allCalls_status h2)) fun _ => trivial

/-- Selecting modules only asks. -/
theorem only_select (s : Transceivers) : Only CallQuery (addressTransceivers s) := by
  cases s with
  | all => trivial
  | index m => trivial
  | present => exact only_bind (only_of_all (allCalls_status ⟨_, rfl, trivial⟩)) fun _ => trivial
  | powerState st => exact only_bind (only_of_all (allCalls_power _ callQuery_read ⟨_, rfl, trivial⟩)) fun _ => trivial
  | kind k => exact only_bind (only_of_all (allCalls_identifier fun g _ => callQuery_read g _)) fun _ => trivial

theorem only_writeCmd {C : Call → Prop} (hr : ∀ g rd, C (.host (.read g rd))) (ign : Bool) (m : ModuleId)
    (page : Except MgmtError Page) (input : Input) (offset : U8)
    (hw : ∀ p d w g, page = .ok p → input.load = .ok d → buildWrite p offset d = .ok w →
      C (.host (.write g w) (some d))) : Only C (writeCmd ign m page input offset) := by
  unfold writeCmd
  split
  · trivial
  · trivial
  · rename_i d hd
    split
    · trivial
    · split
      · trivial
      · rename_i p
        split
        · trivial
        · rename_i w hb
          refine only_acting (only_of_all ?_)
          exact allCalls_bind (allCalls_identifier fun g _ => hr g _) fun _ =>
            allCalls_bind (allCalls_ofExec _) fun _ =>
              allCalls_bind (allCalls_writeImpl fun _ => hw _ _ _ _ rfl hd hb) fun _ => trivial

theorem calls_softKinds {C : Call → Prop} {low : Bool}
    (hw : ∀ g id ov w b, powerWord id ov low = .ok (w, b) → C (.host (.write g w) (some [b]))) (s : SoftState)
    (ks : List (Identifier × ModuleId)) : AllCalls C (softKinds low s ks) := by
  have h1 : ∀ ident (s : SoftState) p, AllCalls C (softWrite ident low s p) := by
    intro ident s p
    refine allCalls_exec_bind fun x hx => ?_
    obtain ⟨w, b⟩ := x
    exact allCalls_bind (allCalls_writeImpl fun _ => hw _ _ _ _ _ hx) fun _ => trivial
  induction ks generalizing s with
  | nil => trivial
  | cons k ks ih => exact allCalls_bind (allCalls_bind (h1 _ _ _) fun _ => h1 _ _ _) fun _ => ih _

/-- Setting low or high power. -/
theorem calls_setPowerOn {C : Call → Prop} (m : ModuleId) (low : Bool) (hr : ∀ g rd, C (.host (.read g rd)))
    (hst : ∀ g, C (.host (.status g))) (ha : ∀ g, C (.host (.assertReset g))) (he : ∀ g, C (.host (.enablePower g)))
    (hl : ∀ g, C (.host (if low then .assertLpMode g else .deassertLpMode g))) (hd : ∀ g, C (.host (.deassertReset g)))
    (hw : ∀ g id ov w b, powerWord id ov low = .ok (w, b) → C (.host (.write g w) (some [b]))) :
    AllCalls C (setPowerOn m low) := by
  have hs : ∀ r, AllCalls C (setSoftwarePowerState r low) := fun r =>
    allCalls_bind (allCalls_identifier fun g _ => hr g _) fun _ => allCalls_bind (allCalls_ofExec _) fun _ =>
      allCalls_bind (calls_softKinds hw _ _) fun _ => trivial
  unfold setPowerOn
  refine allCalls_bind (allCalls_power m hr (hst _)) fun pw => ?_
  split
  · trivial
  · refine allCalls_bind (allCalls_status (hst _)) fun st => ?_
    dsimp only
    refine allCalls_bind (allCalls_stepIfAny (fun m => allCalls_noPayloadRequest (ha _)) _ _ _) fun _ => ?_
    refine allCalls_bind (allCalls_stepIfAny (fun m => allCalls_noPayloadRequest (he _)) _ _ _) fun _ => ?_
    cases low with
    | true =>
      refine allCalls_bind (allCalls_noPayloadRequest (hl _)) fun _ => ?_
      exact allCalls_bind (allCalls_stepIfAny (fun m => allCalls_noPayloadRequest (hd _)) _ _ _) fun _ => hs _
    | false =>
      refine allCalls_bind (allCalls_noPayloadRequest (hl _)) fun _ => ?_
      exact allCalls_bind (allCalls_stepIfAny (fun m => allCalls_noPayloadRequest (hd _)) _ _ _) fun _ => hs _

theorem powerWord_register {id : Identifier} {ov low : Bool} {w : MemoryWrite} {b : U8}
    (h : powerWord id ov low = .ok (w, b)) : PowerRegister low w [b] := by
  unfold powerWord at h
  split at h
  · have : MemAccess.newWrite SffPage.lower 93 1 = .ok ⟨.sff8636 .lower, 93, 1⟩ := by decide
    rw [this] at h
    cases h
    exact ⟨rfl, rfl, .inl ⟨rfl, _, rfl, by cases ov <;> cases low <;> decide⟩⟩
  · split at h
    · have : MemAccess.newWrite SffPage.lower 26 1 = .ok ⟨.sff8636 .lower, 26, 1⟩ := by decide
      rw [this] at h
      cases h
      exact ⟨rfl, rfl, .inr ⟨rfl, _, rfl, by cases ov <;> cases low <;> decide⟩⟩
    · cases h

/-! ## Which modules -/

theorem scoped_readChunks {m : ModuleId} (rds : List MemoryRead) {acc : Res Bytes} :
    Scoped m (fun _ => True) (readChunks m acc rds) := by
  induction rds generalizing acc with
  | nil => trivial
  | cons rd rds ih =>
    rw [readChunks]
    refine scoped_bind scoped_read fun r _ => ?_
    cases acc.append r with
    | none => trivial
    | some acc' => exact ih

theorem scoped_print {m : ModuleId} (x : Exec Unit Lines) : Scoped m (fun _ => True) (Cli.print x) := by
  cases x <;> trivial

theorem scoped_showing {P : Type} {m : ModuleId} {Q : Res P → Prop} {ign : Bool} {op : Prog (Res P)}
    {text : Res P → Exec Unit Lines} (h : Scoped m Q op) : Scoped m (fun _ => True) (showing ign op text) :=
  scoped_bind h fun _ _ => scoped_bind (scoped_print _) fun _ _ => trivial

theorem scoped_acting {m : ModuleId} {Q : Res Unit → Prop} {ign : Bool} {op : Prog (Res Unit)} (h : Scoped m Q op) :
    Scoped m (fun _ => True) (acting ign op) :=
  scoped_bind h fun _ _ => trivial

theorem scoped_readCmd {m : ModuleId} (ign : Bool) (binary : Bool) (page : Except MgmtError Page) (offset len : U8)
    (a : TableArgs DataField) : Scoped m (fun _ => True) (readCmd ign m binary page offset len a) := by
  unfold readCmd
  split
  · trivial
  · split
    · trivial
    · split
      · trivial
      · trivial
      · exact scoped_showing (scoped_bind scoped_ofExec fun _ _ => scoped_readChunks _)

theorem scoped_writeCmd {m : ModuleId} (ign : Bool) (page : Except MgmtError Page) (input : Input) (offset : U8) :
    Scoped m (fun _ => True) (writeCmd ign m page input offset) := by
  unfold writeCmd
  split
  · trivial
  · trivial
  · split
    · trivial
    · split
      · trivial
      · split
        · trivial
        · exact scoped_acting scoped_write

theorem scoped_statusCmd {m : ModuleId} : Scoped m (ResultAmong m) (statusCmd m) :=
  scoped_orElse (scoped_extendedStatus (among_refl m)) fun _ =>
    scoped_bind (scoped_status (among_refl m)) fun _ h => h

theorem scoped_dispatch {m : ModuleId} (fmt : Fmt) (ign : Bool) (cmd : Cmd) :
    Scoped m (fun _ => True) (dispatch fmt ign m cmd) := by
  have hn : ∀ {q : HostRequest}, requestModules q = some m → Scoped m (fun _ => True) (acting ign (noPayloadRequest q)) :=
    fun hq => scoped_acting (scoped_noPayload hq (among_refl m))
  have hr := among_refl m
  cases cmd with
  | status w wo all parseable output sep omitHeader =>
    rw [dispatch]
    split
    · exact scoped_showing scoped_statusCmd
    · trivial
  | reset => exact scoped_acting scoped_reset
  | setPower s => exact scoped_acting scoped_setPower
  | power a => exact scoped_showing (scoped_power hr)
  | enablePower => exact hn rfl
  | disablePower => exact hn rfl
  | assertReset => exact hn rfl
  | deassertReset => exact hn rfl
  | assertLpMode => exact hn rfl
  | deassertLpMode => exact hn rfl
  | identify a => exact scoped_showing (scoped_identifier hr)
  | vendorInfo a => exact scoped_showing (scoped_parse _ hr)
  | readLower cmis binary offset len a => exact scoped_readCmd ign binary (.ok (lowerPage cmis)) offset len a
  | writeLower cmis input offset => exact scoped_writeCmd ign (.ok (lowerPage cmis)) input offset
  | readUpper cmis binary page bank offset len a => exact scoped_readCmd _ _ _ _ _ _
  | writeUpper cmis input page bank offset => exact scoped_writeCmd _ _ _ _
  | memoryModel a => exact scoped_showing (scoped_parse _ hr)
  | macs summary => exact scoped_bind scoped_macAddrs fun _ _ => scoped_bind (scoped_print _) fun _ _ => trivial
  | clearPowerFault => exact hn rfl
  | clearDisableLatch => exact hn rfl
  | leds a => exact scoped_showing (scoped_leds hr)
  | setLeds s => exact hn rfl
  | monitors a => exact scoped_showing (scoped_parse _ hr)
  | datapath => exact scoped_showing (scoped_parse _ hr)

/-! ## Refused commands -/

theorem print_done {x : Exec Unit Lines} {ls : Lines} {t : List Exchange} (h : Runs (Cli.print x) t (.ok ls)) :
    t = [] ∧ x = .ok ls := by
  cases x with
  | ok a => obtain ⟨h1, h2⟩ := runs_ret.1 h; cases h2; exact ⟨h1, rfl⟩
  | err e => cases (runs_panic.1 h).2
  | panic => cases (runs_panic.1 h).2

/-- A command that prints a table ends with the table of what the method returned. -/
theorem showing_ok {P : Type} {ign : Bool} {op : Prog (Res P)} {text : Res P → Exec Unit Lines} {t : List Exchange}
    {e : Exit} (h : Runs (showing ign op text) t (.ok e)) :
    ∃ r ls, Runs op t (.ok r) ∧ text r = .ok ls ∧ e = .done ls (listed ign r.failures) := by
  rcases runs_bind.1 h with ⟨t₁, t₂, r, rfl, h1, h2⟩ | ⟨e, -, h2⟩ | ⟨-, h2⟩
  · rcases runs_bind.1 h2 with ⟨t₃, t₄, ls, rfl, h3, h4⟩ | ⟨e, -, h4⟩ | ⟨-, h4⟩
    · obtain ⟨rfl, h5⟩ := print_done h3
      obtain ⟨rfl, h6⟩ := runs_ret.1 h4
      cases h6
      exact ⟨r, ls, by simpa using h1, h5, rfl⟩
    · cases h4
    · cases h4
  · cases h2
  · cases h2

theorem acting_ok {ign : Bool} {op : Prog (Res Unit)} {t : List Exchange} {e : Exit}
    (h : Runs (acting ign op) t (.ok e)) : ∃ r, Runs op t (.ok r) ∧ e = .done [] (listed ign r.failures) := by
  rcases runs_bind.1 h with ⟨t₁, t₂, r, rfl, h1, h2⟩ | ⟨e, -, h2⟩ | ⟨-, h2⟩
  · obtain ⟨rfl, h3⟩ := runs_ret.1 h2
    cases h3
    exact ⟨r, by simpa using h1, rfl⟩
  · cases h2
  · cases h2

theorem showing_refused {P : Type} {ign : Bool} {op : Prog (Res P)} {text : Res P → Exec Unit Lines} {t : List Exchange}
    {e : SetupError} (h : Runs (showing ign op text) t (.ok (.refused e))) : False := by
  obtain ⟨r, ls, -, -, h⟩ := showing_ok h
  cases h

theorem acting_refused {ign : Bool} {op : Prog (Res Unit)} {t : List Exchange} {e : SetupError}
    (h : Runs (acting ign op) t (.ok (.refused e))) : False := by
  obtain ⟨r, -, h⟩ := acting_ok h
  cases h

theorem readCmd_refused {ign : Bool} {m : ModuleId} {binary : Bool} {page : Except MgmtError Page} {offset len : U8}
    {a : TableArgs DataField} {t : List Exchange} {e : SetupError}
    (h : Runs (readCmd ign m binary page offset len a) t (.ok (.refused e))) : t = [] := by
  unfold readCmd at h
  split at h
  · exact (runs_ret.1 h).1
  · split at h
    · exact (runs_ret.1 h).1
    · split at h
      · exact (runs_ret.1 h).1
      · exact (runs_panic.1 h).1
      · exact (showing_refused h).elim

theorem writeCmd_refused {ign : Bool} {m : ModuleId} {page : Except MgmtError Page} {input : Input} {offset : U8}
    {t : List Exchange} {e : SetupError} (h : Runs (writeCmd ign m page input offset) t (.ok (.refused e))) : t = [] := by
  unfold writeCmd at h
  split at h
  · exact (runs_ret.1 h).1
  · exact (runs_panic.1 h).1
  · split at h
    · exact (runs_ret.1 h).1
    · split at h
      · exact (runs_ret.1 h).1
      · split at h
        · exact (runs_ret.1 h).1
        · exact (acting_refused h).elim

theorem dispatch_refused {fmt : Fmt} {ign : Bool} {m : ModuleId} {cmd : Cmd} {t : List Exchange} {e : SetupError}
    (h : Runs (dispatch fmt ign m cmd) t (.ok (.refused e))) : t = [] := by
  cases cmd with
  | status w wo all parseable output sep omitHeader =>
    rw [dispatch] at h
    split at h
    · exact (showing_refused h).elim
    · exact (runs_panic.1 h).1
  | readLower cmis binary offset len a => exact readCmd_refused (page := .ok (lowerPage cmis)) h
  | readUpper cmis binary page bank offset len a => exact readCmd_refused h
  | writeLower cmis input offset => exact writeCmd_refused (page := .ok (lowerPage cmis)) h
  | writeUpper cmis input page bank offset => exact writeCmd_refused h
  | macs summary =>
    rcases runs_bind.1 h with ⟨t₁, t₂, r, rfl, h1, h2⟩ | ⟨e, -, h2⟩ | ⟨-, h2⟩
    · rcases runs_bind.1 h2 with ⟨t₃, t₄, ls, rfl, h3, h4⟩ | ⟨e, -, h4⟩ | ⟨-, h4⟩
      · cases (runs_ret.1 h4).2
      · cases h4
      · cases h4
    · cases h2
    · cases h2
  | power a => exact (showing_refused h).elim
  | identify a => exact (showing_refused h).elim
  | vendorInfo a => exact (showing_refused h).elim
  | memoryModel a => exact (showing_refused h).elim
  | leds a => exact (showing_refused h).elim
  | monitors a => exact (showing_refused h).elim
  | datapath => exact (showing_refused h).elim
  | _ => exact (acting_refused h).elim

end Xcvr
