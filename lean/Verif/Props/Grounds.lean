import Verif.Lemmas.Grounds
import Verif.Props.CliExit

/-! # Why operations fail as a whole -/

namespace Xcvr

open Spec Prog Controller Cli

/-! ## C112 -/

theorem sat_drop {α : Type} {Q : List Exchange → α → Prop} {E : List Exchange → CtlError → Prop} {p : Prog α}
    {t : List Exchange} (h : Sat Q E t p) : Sat (fun _ _ => True) E t (p >>= fun _ => pure ()) :=
  sat_bind h fun _ _ _ _ => trivial

theorem admits_grounds (op : Op) : Admits (Grounds op) := fun _ _ h => h.elim .inl fun h => .inr (.inl h)

theorem sat_op (op : Op) : Sat (fun _ _ => True) (Grounds op) [] op.prog := by
  have hA := admits_grounds op
  have hG : ∀ t e, OpGrounds op t e → Grounds op t e := fun _ _ h => .inr (.inr h)
  cases op with
  | identifier m => exact sat_drop (sat_identifier hA)
  | vendorInfo m => exact sat_drop (sat_parse hA hG refuses_vendor)
  | memoryModel m => exact sat_drop (sat_parse hA hG refuses_memoryModel)
  | monitors m => exact sat_drop (sat_parse hA hG refuses_monitors)
  | datapath m => exact sat_drop (sat_parse hA hG refuses_datapath)
  | power m => exact sat_drop (sat_power hA hG)
  | reset m => exact sat_drop (sat_reset hA)
  | setPower m s =>
    cases s with
    | off => exact sat_drop (sat_setPowerOff hA)
    | low => exact sat_drop (sat_setPowerOn (low := true) hA hG fun h => by cases h)
    | high => exact sat_drop (sat_setPowerOn (low := false) hA (fun t e h => hG t e (.inl h)) fun _ t e h => hG t e (.inr h))
  | status m => exact sat_drop (sat_status hA)
  | extendedStatus m => exact sat_drop (sat_extendedStatus hA)
  | write m w data =>
    exact sat_drop (sat_write hA (fun t e h => hG t e (.inl h)) fun t h => hG t _ (.inr ⟨h, rfl⟩))
  | read m rd => exact sat_drop (sat_read hA hG)
  | macAddrs => exact sat_drop (sat_macAddrs hA)
  | leds m => exact sat_drop (sat_leds hA)
  | enablePower m | disablePower m | assertReset m | deassertReset m | assertLpMode m | deassertLpMode m | clearPowerFault m
  | clearDisableLatch m | setLeds m s => exact sat_drop (sat_noPayload hA trivial)

/-- **C112.** Whatever the SP answers, a method returns an error only if its last request was not answered, and then that
very error; or if the last answer was improper; or if a module it asked is of a kind the operation does not work with; or if
a module was to go from off to high power; or if the data to write have the wrong length. -/
theorem C112_grounds (op : Op) (t : List Exchange) (e : CtlError) (h : Runs op.prog t (.err e)) : Grounds op t e :=
  sat_runs (sat_op op) h

/-- A bench that does not answer call number `n`. -/
def silentAt (n : Nat) (b : Bench) (h : List Exchange) (c : Call) : Reply :=
  if h.length = n then .answer (.error (.maxRetries 3)) else b.sp h c

/-- Module 1 is SFF-8636, module 2 is CMIS, module 3 is of no supported kind; module 4 fails. -/
example :
    ((Op.vendorInfo ⟨0b1110⟩).prog.exec toolBench.sp []).2 =
      .err (.transceiver (.decode (.unsupportedIdentifier (Bf.ofByte 0)))) ∧
    ((Op.read ⟨0b110⟩ ⟨.sff8636 .lower, 3, 2⟩).prog.exec toolBench.sp []).2 =
      .err (.transceiver (.invalidInterfaceForModule 2 (Bf.ofByte 0x18) .sff8636)) ∧
    ((Op.write ⟨0b100⟩ ⟨.cmis .lower, 3, 2⟩ [1]).prog.exec toolBench.sp []).2 = .err (.invalidWriteData 2 1) ∧
    ((Op.setPower ⟨0b1⟩ .high).prog.exec toolBench.sp []).2 = .err .invalidPowerStateTransition ∧
    ((Op.vendorInfo ⟨0b110⟩).prog.exec (silentAt 2 toolBench) []).2 = .err (.maxRetries 3) := by
  decide +kernel

example : ∃ t, Runs (Op.vendorInfo ⟨0b1110⟩).prog t (.err (.transceiver (.decode (.unsupportedIdentifier (Bf.ofByte 0))))) :=
  ⟨((Op.vendorInfo ⟨0b1110⟩).prog.exec toolBench.sp []).1, by
    have h := Bench.exec_runs toolBench (Op.vendorInfo ⟨0b1110⟩).prog
    rwa [show ((Op.vendorInfo ⟨0b1110⟩).prog.exec toolBench.sp []).2 =
      .err (.transceiver (.decode (.unsupportedIdentifier (Bf.ofByte 0)))) by decide +kernel] at h⟩

theorem sat_print {E : List Exchange → CtlError → Prop} {t : List Exchange} (x : Exec Unit Lines) :
    Sat (fun _ _ => True) E t (Cli.print x) := by
  unfold Cli.print
  split <;> trivial

theorem sat_showing {P : Type} {E : List Exchange → CtlError → Prop} {t : List Exchange} {i : Bool} {p : Prog (Res P)}
    {text : Res P → Exec Unit Lines} {Q : List Exchange → Res P → Prop} (h : Sat Q E t p) :
    Sat (fun _ _ => True) E t (showing i p text) :=
  sat_bind h fun _ _ _ _ => sat_bind (sat_print _) fun _ _ _ _ => trivial

theorem sat_acting {E : List Exchange → CtlError → Prop} {t : List Exchange} {i : Bool} {p : Prog (Res Unit)}
    {Q : List Exchange → Res Unit → Prop} (h : Sat Q E t p) : Sat (fun _ _ => True) E t (acting i p) :=
  sat_bind h fun _ _ _ _ => trivial

theorem sat_statusCmd {E : List Exchange → CtlError → Prop} (hE : Admits E) {t : List Exchange} {m : ModuleId} :
    Sat (fun _ _ => True) E t (statusCmd m) :=
  sat_orElse (E' := fun t e => NoAnswer t e ∨ BadAnswer t e) (sat_mono (sat_extendedStatus fun _ _ h => h) fun _ _ _ => trivial)
    fun _ _ => sat_bind (sat_status hE) fun _ _ _ _ => trivial

theorem sat_readChunks {E : List Exchange → CtlError → Prop} (hE : Admits E) {iface : ManagementInterface}
    (hO : ∀ t e, OtherInterface iface t e → E t e) {m : ModuleId} {rds : List MemoryRead}
    (hr : ∀ rd ∈ rds, rd.page.managementInterface = iface) {t : List Exchange} {res : Res Bytes} :
    Sat (fun _ _ => True) E t (readChunks m res rds) := by
  induction rds generalizing t res with
  | nil => trivial
  | cons rd rds ih =>
    refine sat_bind (sat_read hE (by rw [hr rd List.mem_cons_self]; exact hO)) fun _ r _ _ => ?_
    split
    · trivial
    · exact ih fun x hx => hr x (List.mem_cons_of_mem _ hx)

theorem sat_readCmd {E : List Exchange → CtlError → Prop} (hE : Admits E) {iface : ManagementInterface}
    (hO : ∀ t e, OtherInterface iface t e → E t e) {m : ModuleId} {i b : Bool} {page : Except MgmtError Page}
    (hp : ∀ pg, page = .ok pg → pg.managementInterface = iface) {off len : U8} {a : TableArgs DataField}
    {t : List Exchange} : Sat (fun _ _ => True) E t (readCmd i m b page off len a) := by
  unfold readCmd
  split
  · trivial
  · split
    · trivial
    · rename_i pg
      split
      · trivial
      · trivial
      · rename_i rds hr
        refine sat_showing (sat_exec_bind (fun _ h => (unwrap_noErr h).elim) fun _ _ => sat_readChunks hE hO fun rd hrd => ?_)
        rw [(buildReads_spec hr).2 rd hrd]
        exact hp pg rfl

theorem sat_writeCmd {E : List Exchange → CtlError → Prop} (hE : Admits E) {iface : ManagementInterface}
    (hO : ∀ t e, OtherInterface iface t e → E t e) {m : ModuleId} {i : Bool} {page : Except MgmtError Page}
    (hp : ∀ pg, page = .ok pg → pg.managementInterface = iface) {input : Input} {off : U8}
    {t : List Exchange} : Sat (fun _ _ => True) E t (writeCmd i m page input off) := by
  unfold writeCmd
  split
  · trivial
  · trivial
  · rename_i data _
    split
    · trivial
    · split
      · trivial
      · rename_i pg
        split
        · trivial
        · rename_i w hw
          obtain ⟨-, h1, -, h2⟩ := (C71_accepted pg off data w).1 hw
          exact sat_acting (sat_write hE (by rw [h1, hp pg rfl]; exact hO) fun _ h => absurd h2 h)

theorem lower_interface (cmis : Bool) (pg : Page) (h : (Except.ok (lowerPage cmis) : Except MgmtError Page) = .ok pg) :
    pg.managementInterface = if cmis then .cmis else .sff8636 := by
  cases h
  cases cmis <;> rfl

theorem upper_interface (cmis : Bool) (n : U8) (bank : Option U8) (pg : Page) (h : upperPage cmis n bank = .ok pg) :
    pg.managementInterface = if cmis then .cmis else .sff8636 := by
  unfold upperPage at h
  split at h
  · split at h
    · rename_i b
      cases hc : cmisNewBanked n b <;> rw [hc] at h <;> cases h
      rw [if_pos ‹_›]
      rfl
    · cases hc : cmisNewUnbanked n <;> rw [hc] at h <;> cases h
      rw [if_pos ‹_›]
      rfl
  · cases hc : sffUpperPageNew n <;> rw [hc] at h <;> cases h
    rw [if_neg ‹_›]
    rfl

theorem sat_address {E : List Exchange → CtlError → Prop} (hE : Admits E) (sel : Transceivers)
    (hS : ∀ t e, SelectionGrounds sel t e → E t e) {t : List Exchange} :
    Sat (fun _ _ => True) E t (addressTransceivers sel) := by
  cases sel with
  | all => trivial
  | index m => trivial
  | present => exact sat_bind (sat_status hE) fun _ _ _ _ => trivial
  | powerState s => exact sat_bind (sat_power hE hS) fun _ _ _ _ => trivial
  | kind k => exact sat_bind (sat_identifier hE) fun _ _ _ _ => trivial

theorem sat_dispatch {E : List Exchange → CtlError → Prop} (hE : Admits E) (fmt : Fmt) (i : Bool) (m : ModuleId) (cmd : Cmd)
    (hC : ∀ t e, CommandGrounds cmd t e → E t e) {t : List Exchange} :
    Sat (fun _ _ => True) E t (dispatch fmt i m cmd) := by
  rw [dispatch.eq_def]
  cases cmd with
  | status w wo all parseable output sep oh =>
    dsimp only
    split
    · exact sat_showing (sat_statusCmd hE)
    · trivial
  | reset => exact sat_acting (sat_reset hE)
  | setPower s =>
    cases s with
    | off => exact sat_acting (sat_setPowerOff hE)
    | low => exact sat_acting (sat_setPowerOn (low := true) hE hC fun h => by cases h)
    | high => exact sat_acting (sat_setPowerOn (low := false) hE (fun t e h => hC t e (.inl h)) fun _ t e h => hC t e (.inr h))
  | power a => exact sat_showing (sat_power hE hC)
  | identify a => exact sat_showing (sat_identifier hE)
  | vendorInfo a => exact sat_showing (sat_parse hE hC refuses_vendor)
  | memoryModel a => exact sat_showing (sat_parse hE hC refuses_memoryModel)
  | monitors a => exact sat_showing (sat_parse hE hC refuses_monitors)
  | datapath => exact sat_showing (sat_parse hE hC refuses_datapath)
  | readLower cmis b o l a => exact sat_readCmd hE hC (lower_interface cmis)
  | readUpper cmis b p bank o l a => exact sat_readCmd hE hC (upper_interface cmis p bank)
  | writeLower cmis input o => exact sat_writeCmd hE hC (lower_interface cmis)
  | writeUpper cmis input p bank o => exact sat_writeCmd hE hC (upper_interface cmis p bank)
  | leds a => exact sat_showing (sat_leds hE)
  | macs s => exact sat_bind (sat_macAddrs hE) fun _ _ _ _ => sat_bind (sat_print _) fun _ _ _ _ => trivial
  | enablePower | disablePower | assertReset | deassertReset | assertLpMode | deassertLpMode | clearPowerFault
  | clearDisableLatch | setLeds s => exact sat_acting (sat_noPayload hE trivial)

/-- **C112**, the tool: a run ends with an error of the controller only on such grounds. It never ends in one about the
length of data to write, and in one about power only if high power is to be set. -/
theorem C112_tool (fmt : Fmt) (sel : Option Transceivers) (i : Bool) (cmd : Cmd) (t : List Exchange) (e : CtlError)
    (h : Runs (main fmt sel i cmd) t (.err e)) : ToolGrounds sel cmd t e := by
  have hA : Admits (ToolGrounds sel cmd) := fun _ _ h => h.elim .inl fun h => .inr (.inl h)
  exact sat_runs (t := []) (sat_bind (sat_address hA _ fun _ _ h => .inr (.inr (.inl h))) fun _ m _ _ =>
    sat_dispatch hA fmt i m cmd fun _ _ h => .inr (.inr (.inr h))) h

example : ((main plainFmt (some (.powerState .low)) false .reset).exec toolBench.sp []).2 =
      .err (.transceiver (.decode (.unsupportedIdentifier (Bf.ofByte 0)))) ∧
    ((main plainFmt (some (.index ⟨0b110⟩)) false (.readLower true false 3 2 ⟨false, [], none, true⟩)).exec
      toolBench.sp []).2 = .err (.transceiver (.invalidInterfaceForModule 1 (Bf.ofByte 0x11) .cmis)) := by
  decide +kernel

/-! ## C113 -/

/-- **C113.** Whatever the SP does, a request that is not answered is the last one a method makes, and the method returns the
error there is instead of the answer. -/
theorem C113_stops (op : Op) (t : List Exchange) (o : Exec CtlError Unit) (h : Runs op.prog t o) : Stops t o := by
  refine strict_runs ?_ h
  have drop : ∀ {α : Type} {p : Prog α}, Strict p → Strict (p >>= fun _ => pure ()) := fun h => strict_bind h fun _ => trivial
  cases op with
  | identifier m => exact drop (strict_identifier m)
  | vendorInfo m | memoryModel m | monitors m | datapath m => exact drop (strict_parse _ m)
  | power m => exact drop (strict_power m)
  | reset m => exact drop (strict_reset m)
  | setPower m s =>
    cases s with
    | off => exact drop (strict_setPowerOff m)
    | low | high => exact drop (strict_setPowerOn m _)
  | status m => exact drop (strict_status m)
  | extendedStatus m => exact drop (strict_extendedStatus m)
  | write m w data => exact drop (strict_write m w data)
  | read m rd => exact drop (strict_read m rd)
  | macAddrs => exact drop strict_macAddrs
  | leds m => exact drop (strict_leds m)
  | enablePower m | disablePower m | assertReset m | deassertReset m | assertLpMode m | deassertLpMode m | clearPowerFault m
  | clearDisableLatch m | setLeds m s => exact drop (strict_noPayload _)

example : ((Op.vendorInfo ⟨0b110⟩).prog.exec (silentAt 2 toolBench) []).1.length = 3 ∧
    ((Op.setPower ⟨0b110⟩ .low).prog.exec (silentAt 4 toolBench) []).1.length = 5 ∧
    ((Op.setPower ⟨0b110⟩ .low).prog.exec (silentAt 4 toolBench) []).2 = .err (.maxRetries 3) := by
  decide +kernel

theorem strict_print (x : Exec Unit Lines) : Strict (Cli.print x) := by
  unfold Cli.print
  split <;> trivial

theorem strict_showing {P : Type} {i : Bool} {p : Prog (Res P)} {text : Res P → Exec Unit Lines} (h : Strict p) :
    Strict (showing i p text) :=
  strict_bind h fun _ => strict_bind (strict_print _) fun _ => trivial

theorem strict_acting {i : Bool} {p : Prog (Res Unit)} (h : Strict p) : Strict (acting i p) := strict_bind h fun _ => trivial

theorem strict_readChunks (m : ModuleId) (rds : List MemoryRead) (res : Res Bytes) : Strict (readChunks m res rds) := by
  induction rds generalizing res with
  | nil => trivial
  | cons rd rds ih =>
    refine strict_bind (strict_read _ _) fun r => ?_
    split
    · trivial
    · exact ih _

theorem strict_readCmd (i : Bool) (m : ModuleId) (b : Bool) (page : Except MgmtError Page) (off len : U8)
    (a : TableArgs DataField) : Strict (readCmd i m b page off len a) := by
  unfold readCmd
  split
  · trivial
  · split
    · trivial
    · split
      · trivial
      · trivial
      · exact strict_showing (strict_bind (strict_exec _) fun _ => strict_readChunks _ _ _)

theorem strict_writeCmd (i : Bool) (m : ModuleId) (page : Except MgmtError Page) (input : Input) (off : U8) :
    Strict (writeCmd i m page input off) := by
  unfold writeCmd
  split
  · trivial
  · trivial
  · split
    · trivial
    · split
      · trivial
      · split
        · trivial
        · exact strict_acting (strict_write _ _ _)

theorem strict_address (sel : Transceivers) : Strict (addressTransceivers sel) := by
  cases sel with
  | all => trivial
  | index m => trivial
  | present => exact strict_bind (strict_status _) fun _ => trivial
  | powerState s => exact strict_bind (strict_power _) fun _ => trivial
  | kind k => exact strict_bind (strict_identifier _) fun _ => trivial

theorem strict_dispatch (fmt : Fmt) (i : Bool) (m : ModuleId) (cmd : Cmd)
    (hs : ∀ w wo a p out sep h, cmd ≠ .status w wo a p out sep h) : Strict (dispatch fmt i m cmd) := by
  rw [dispatch.eq_def]
  cases cmd with
  | status => exact (hs _ _ _ _ _ _ _ rfl).elim
  | reset => exact strict_acting (strict_reset m)
  | setPower s =>
    cases s with
    | off => exact strict_acting (strict_setPowerOff m)
    | low | high => exact strict_acting (strict_setPowerOn m _)
  | power a => exact strict_showing (strict_power m)
  | identify a => exact strict_showing (strict_identifier m)
  | vendorInfo a | memoryModel a | monitors a | datapath => exact strict_showing (strict_parse _ m)
  | readLower | readUpper => exact strict_readCmd ..
  | writeLower | writeUpper => exact strict_writeCmd ..
  | leds a => exact strict_showing (strict_leds m)
  | macs s => exact strict_bind strict_macAddrs fun _ => strict_bind (strict_print _) fun _ => trivial
  | enablePower | disablePower | assertReset | deassertReset | assertLpMode | deassertLpMode | clearPowerFault
  | clearDisableLatch | setLeds s => exact strict_acting (strict_noPayload _)

/-- No call is made. -/
def Silent {α : Type} : Prog α → Prop
  | .rpc _ _ => False
  | _ => True

theorem silent_exec {α : Type} (x : Exec CtlError α) : Silent (ofExec x) := by cases x <;> trivial

theorem silent_bind {α β : Type} {p : Prog α} {f : α → Prog β} (hp : Silent p) (hf : ∀ a, Silent (f a)) :
    Silent (p >>= f) := by
  cases p with
  | ret a => exact hf a
  | fail e => trivial
  | panic => trivial
  | rpc c k => exact hp

theorem strict_orElse {α : Type} {p : Prog α} {f : CtlError → Prog α} (hp : Silent p) (hf : ∀ e, Strict (f e)) :
    Strict (p.orElse f) := by
  cases p with
  | ret a => trivial
  | fail e => exact hf e
  | panic => trivial
  | rpc c k => exact hp.elim

/-- As `Strict`, except that an extended status that is not answered is followed by the plain status. -/
def Loose {α : Type} : Prog α → Prop
  | .rpc c k => (∀ err, k (.answer (.error err)) = .fail (.ofIo err) ∨
      ∃ m k', c = Call.host (.extendedStatus m) ∧ k (.answer (.error err)) = .rpc (Call.host (.status m)) k') ∧
      ∀ r, Loose (k r)
  | _ => True

theorem loose_of_strict {α : Type} {p : Prog α} (h : Strict p) : Loose p := by
  induction p with
  | rpc c k ih => exact ⟨fun err => .inl (h.1 err), fun r => ih r (h.2 r)⟩
  | _ => trivial

theorem loose_bind {α β : Type} {p : Prog α} {f : α → Prog β} (hp : Loose p) (hf : ∀ a, Loose (f a)) : Loose (p >>= f) := by
  induction p with
  | ret a => exact hf a
  | fail e => trivial
  | panic => trivial
  | rpc c k ih =>
    refine ⟨fun err => ?_, fun r => ih r (hp.2 r)⟩
    rcases hp.1 err with h | ⟨m, k', hc, h⟩
    · left
      show (k _).bind f = _
      rw [h]
      rfl
    · refine .inr ⟨m, fun r => (k' r).bind f, hc, ?_⟩
      show (k _).bind f = _
      rw [h]
      rfl

theorem loose_runs {α : Type} {p : Prog α} (hp : Loose p) {t : List Exchange} {o : Exec CtlError α} (h : Runs p t o)
    (t₁ t₂ : List Exchange) (c : Call) (err : IoError) (he : t = t₁ ++ (c, .answer (.error err)) :: t₂) :
    (t₂ = [] ∧ o = .err (.ofIo err)) ∨
      ∃ m r t₃, requestOf (c, r) = some (.extendedStatus m) ∧ t₂ = (Call.host (.status m), r) :: t₃ := by
  induction p generalizing t t₁ with
  | ret a => rw [runs_ret] at h; rw [h.1] at he; simp at he
  | fail e => rw [runs_fail] at h; rw [h.1] at he; simp at he
  | panic => rw [runs_panic] at h; rw [h.1] at he; simp at he
  | rpc c' k ih =>
    rw [runs_rpc] at h
    obtain ⟨r, t', rfl, h⟩ := h
    cases t₁ with
    | nil =>
      simp only [List.nil_append, List.cons.injEq, Prod.mk.injEq] at he
      obtain ⟨⟨rfl, rfl⟩, rfl⟩ := he
      rcases hp.1 err with h' | ⟨m, k', rfl, h'⟩
      · rw [h', runs_fail] at h
        exact .inl h
      · rw [h', runs_rpc] at h
        obtain ⟨r, t₃, rfl, h⟩ := h
        exact .inr ⟨m, r, t₃, rfl, rfl⟩
    | cons x t₁ =>
      simp only [List.cons_append, List.cons.injEq] at he
      exact ih r (hp.2 r) h t₁ he.2

theorem loose_statusCmd (m : ModuleId) : Loose (statusCmd m) := by
  have hf : ∀ e : CtlError, Strict ((fun _ => do
      let r ← status m
      return ⟨r.modules, r.data.map extend, r.failures⟩ : CtlError → Prog (Res U32)) e) :=
    fun _ => strict_bind (strict_status m) fun _ => trivial
  unfold statusCmd extendedStatus
  refine ⟨fun err => .inr ⟨m, _, rfl, rfl⟩, fun r => loose_of_strict ?_⟩
  cases r with
  | gone => trivial
  | answer a =>
    cases a with
    | error e => exact hf (.ofIo e)
    | ok r =>
      refine strict_orElse (p := (match r.message.body with
        | .spResponse (.extendedStatus modules failed) => do
          let data ← Prog.ofExec (Exec.unwrap r.data)
          let n ← Prog.ofExec (Exec.unwrap (SpResponse.extendedStatus modules failed).expectedDataLen)
          let (data, errorData) ← Prog.ofExec (splitAt data n)
          let status ← Prog.ofExec (extendedStatusLoop modules.count data)
          let failures ← Prog.ofExec (Controller.deserializeHwErrors failed errorData)
          return ⟨modules, status, failures⟩
        | other => .fail (.unexpectedMessage other) : Prog (Res U32))) ?_ hf
      split
      · exact silent_bind (silent_exec _) fun _ => silent_bind (silent_exec _) fun _ => silent_bind (silent_exec _) fun _ =>
          silent_bind (silent_exec _) fun _ => silent_bind (silent_exec _) fun _ => trivial
      · trivial

/-- **C113**, the tool: a request that is not answered is the last, and its error ends the run. The one exception is the
extended status asked for by the `status` command: if that is not answered, the plain status is asked for. -/
theorem C113_tool (fmt : Fmt) (sel : Option Transceivers) (i : Bool) (cmd : Cmd) (t : List Exchange)
    (o : Exec CtlError Exit) (h : Runs (main fmt sel i cmd) t o) : StopsBut cmd t o := by
  by_cases hs : ∃ w wo a p out sep h, cmd = .status w wo a p out sep h
  · intro t₁ t₂ c err he
    obtain ⟨w, wo, a, p, out, sep, oh, rfl⟩ := hs
    have hp : Loose (main fmt sel i (.status w wo a p out sep oh)) := by
      refine loose_bind (loose_of_strict (strict_address _)) fun m => ?_
      rw [dispatch.eq_def]
      dsimp only
      split
      · exact loose_bind (loose_statusCmd m) fun _ => loose_of_strict (strict_bind (strict_print _) fun _ => trivial)
      · trivial
    exact (loose_runs hp h t₁ t₂ c err he).imp_right fun h => ⟨⟨w, wo, a, p, out, sep, oh, rfl⟩, h⟩
  · intro t₁ t₂ c err he
    refine .inl (strict_runs (strict_bind (strict_address _) fun m => strict_dispatch fmt i m cmd ?_) h t₁ t₂ c err he)
    exact fun w wo a p out sep oh hc => hs ⟨w, wo, a, p, out, sep, oh, hc⟩

example : ((main plainFmt (some .present) false (.status none none false true [.port] none true)).exec
      (silentAt 1 toolBench) []).1.map requestOf =
      [some (.status ModuleId.allSidecar), some (.extendedStatus ⟨0b1111⟩), some (.status ⟨0b1111⟩)] ∧
    ((main plainFmt (some .present) false (.status none none false true [.port] none true)).exec
      (silentAt 0 toolBench) []).2 = .err (.maxRetries 3) ∧
    ((main plainFmt (some .present) false (.status none none false true [.port] none true)).exec
      (silentAt 1 toolBench) []).2 = .ok (.done [chars!"0", chars!"1", chars!"2", chars!"3"] []) := by
  decide +kernel

end Xcvr
