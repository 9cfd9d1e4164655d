import Verif.Lemmas.Bounds
import Verif.Lemmas.BoundsTight
import Verif.Lemmas.BoardBench
import Verif.Props.CliStatus
import Verif.Model.CliMain
import Verif.Props.Memory

/-! # C107: every method ends after a bounded number of requests -/

namespace Xcvr

open Spec Prog Controller

theorem atMost_memoryModel (m : ModuleId) : AtMost 9 (memoryModel m) := by
  have h := atMost_parse MemoryModel.decoder m fun id h h' => kindCost_zero (C54_refused h h' []).2.2.2.2.1
  rw [kindsCost (d := MemoryModel.decoder) MemoryModel.reads_sff MemoryModel.reads_cmis] at h
  exact atMost_mono h (by decide +kernel)

theorem atMost_monitors (m : ModuleId) : AtMost 33 (monitors m) := by
  have h := atMost_parse Monitors.decoder m fun id h h' => kindCost_zero (C54_refused h h' []).2.2.2.2.2.2.1
  rw [kindsCost (d := Monitors.decoder) Monitors.reads_sff Monitors.reads_cmis] at h
  exact atMost_mono h (by decide +kernel)

theorem atMost_datapath (m : ModuleId) : AtMost 41 (datapath m) := by
  have h := atMost_parse Datapath.decoder m fun id h h' => kindCost_zero (C54_refused h h' []).2.2.2.2.2.2.2.2.1
  rw [kindsCost (d := Datapath.decoder) Datapath.reads_sff Datapath.reads_cmis] at h
  exact atMost_mono h (by decide +kernel)

theorem atMost_power (m : ModuleId) : AtMost 6 (power m) := by
  unfold power
  refine atMost_bind (m := 1) (n := 5) (atMost_status m) fun st => ?_
  dsimp only
  refine atMost_bind (n := 0) ?_ fun _ => atMost_ret _ _
  unfold readableModes
  split
  · exact atMost_ret _ _
  · refine atMost_bind (n := 0) ?_ fun _ => atMost_ret _ _
    have h := fun m => atMost_parse PowerControl.decoder m fun id h h' => kindCost_zero (C54_refused h h' []).1
    rw [kindsCost (d := PowerControl.decoder) PowerControl.reads_sff PowerControl.reads_cmis] at h
    exact atMost_mono (h _) (by decide +kernel)

theorem atMost_setPower (m : ModuleId) (low : Bool) : AtMost 20 (setPowerOn m low) := by
  unfold setPowerOn
  refine atMost_bind (m := 6) (n := 14) (atMost_power m) fun pw => ?_
  split
  · exact atMost_fail _ _
  · refine atMost_bind (m := 1) (n := 13) (atMost_status _) fun st => ?_
    dsimp only
    refine atMost_bind (m := 1) (n := 12) (atMost_step _ (fun _ => atMost_noPayload _) _ _ _) fun _ => ?_
    refine atMost_bind (m := 1) (n := 11) (atMost_step _ (fun _ => atMost_noPayload _) _ _ _) fun _ => ?_
    split <;>
    · refine atMost_bind (m := 1) (n := 10) (atMost_noPayload _) fun _ => ?_
      refine atMost_bind (m := 1) (n := 9) (atMost_step _ (fun _ => atMost_noPayload _) _ _ _) fun _ => ?_
      exact atMost_setSoft _ _

theorem atMost_writeImpl (m : ModuleId) (w : MemoryWrite) (data : Bytes) : AtMost 1 (writeImpl m w data) := by
  unfold writeImpl
  split
  · exact atMost_fail _ _
  · refine atMost_bind (n := 0) (atMost_call _) fun r => ?_
    split
    · exact atMost_exec_bind fun _ => atMost_exec_bind fun _ => atMost_ret _ _
    · exact atMost_fail _ _

/-- A method sends no more than the requests of `requestsOf`, whatever the answers, and however it ends. -/
theorem C107_bound (op : Op) : AtMost (requestsOf op) op.prog := by
  have drop : ∀ {α : Type} {n : Nat} {p : Prog α}, AtMost n p → AtMost n (do let _ ← p) :=
    fun h => atMost_bind (n := 0) h fun _ => atMost_ret _ _
  cases op with
  | identifier m => exact drop (atMost_identifier m)
  | vendorInfo m => exact drop (atMost_vendorInfo m)
  | memoryModel m => exact drop (atMost_memoryModel m)
  | monitors m => exact drop (atMost_monitors m)
  | datapath m => exact drop (atMost_datapath m)
  | power m => exact drop (atMost_power m)
  | setPower m s =>
    cases s with
    | off =>
      refine drop ?_
      show AtMost 3 (setPowerOff m)
      unfold setPowerOff
      refine atMost_bind (m := 1) (n := 2) (atMost_noPayload _) fun _ => ?_
      refine atMost_bind (m := 1) (n := 1) (atMost_noPayload _) fun _ => ?_
      exact atMost_bind (m := 1) (n := 0) (atMost_noPayload _) fun _ => atMost_ret _ _
    | low => exact drop (atMost_setPower m true)
    | high => exact drop (atMost_setPower m false)
  | reset m =>
    refine drop ?_
    unfold Controller.reset
    refine atMost_bind (m := 1) (n := 1) (atMost_noPayload _) fun _ => ?_
    exact atMost_bind (m := 1) (n := 0) (atMost_noPayload _) fun _ => atMost_ret _ _
  | write m w data =>
    refine drop ?_
    unfold Controller.write
    refine atMost_bind (m := 1) (n := 1) (atMost_identifier m) fun _ => atMost_exec_bind fun _ => ?_
    exact atMost_bind (m := 1) (n := 0) (atMost_writeImpl _ _ _) fun _ => atMost_ret _ _
  | read m rd =>
    refine drop ?_
    unfold Controller.read
    split
    · exact atMost_mono (atMost_ofExec _) (Nat.zero_le _)
    · refine atMost_bind (atMost_identifier m) fun _ => atMost_exec_bind fun _ => ?_
      exact atMost_bind (n := 0) (atMost_readImpl _ rd) fun _ => atMost_ret _ _
  | status m => exact drop (atMost_status m)
  | enablePower m => exact drop (atMost_noPayload _)
  | disablePower m => exact drop (atMost_noPayload _)
  | assertReset m => exact drop (atMost_noPayload _)
  | deassertReset m => exact drop (atMost_noPayload _)
  | assertLpMode m => exact drop (atMost_noPayload _)
  | deassertLpMode m => exact drop (atMost_noPayload _)
  | clearPowerFault m => exact drop (atMost_noPayload _)
  | clearDisableLatch m => exact drop (atMost_noPayload _)
  | setLeds m s => exact drop (atMost_noPayload _)
  | extendedStatus m =>
    refine drop (atMost_bind (n := 0) (atMost_call _) fun r => ?_)
    split
    · exact atMost_exec_bind fun _ => atMost_exec_bind fun _ => atMost_exec_bind fun _ => atMost_exec_bind fun _ =>
        atMost_exec_bind fun _ => atMost_ret _ _
    · exact atMost_fail _ _
  | macAddrs =>
    refine drop (atMost_bind (n := 0) (atMost_call _) fun r => ?_)
    split
    · exact atMost_ret _ _
    · exact atMost_fail _ _
    · exact atMost_fail _ _
  | leds m =>
    refine drop (atMost_bind (n := 0) (atMost_call _) fun r => ?_)
    split
    · exact atMost_exec_bind fun _ => atMost_exec_bind fun _ => atMost_exec_bind fun _ => atMost_exec_bind fun _ =>
        atMost_exec_bind fun _ => atMost_ret _ _
    · exact atMost_fail _ _

/-- A board with the four kinds of module both powered (ports 0 to 3) and without power (ports 4 to 7). -/
def mixedBoard : BoardState := fun p =>
  ⟨decide (p < 4), false, false, .off,
    fun a => if a = 0 then [0x0d, 0x11, 0x18, 0x1e].getD (p % 4) 0 else if a = 85 then 1 else 0, fun _ _ => 0x11⟩

/-- The requests sent when a method is called on a board. -/
def requestsOn (b : BoardState) (op : Op) : Nat := (op.prog.exec (boardBench b).sp []).1.length

/-- A board with 64 powered modules: one of each kind with CMIS memory, one of one of the kinds with SFF-8636 memory, and
the others of the other one. -/
def fullBoard : BoardState := fun p =>
  ⟨true, false, false, .off, fun a => if a = 0 then [0x18, 0x1e, 0x0d].getD p 0x11 else 0, fun _ _ => 0x11⟩

/-- The bounds are reached: no smaller ones hold. -/
theorem C107_reached :
    ∀ op ∈ [Op.identifier ⟨0xff⟩, .memoryModel ⟨0xf⟩, .monitors ⟨0xf⟩, .datapath ⟨0xf⟩, .power ⟨0xff⟩, .setPower ⟨0xff⟩ .off,
      .setPower ⟨0xff⟩ .low, .reset ⟨0xff⟩, .write ⟨0b1⟩ ⟨.sff8636 .lower, 93, 1⟩ [0],
      .read ⟨0x3333333333333333⟩ ⟨.sff8636 .lower, 0, 1⟩, .status ⟨0xff⟩, .leds ⟨0xff⟩, .extendedStatus ⟨0xff⟩],
    requestsOn mixedBoard op = requestsOf op := by
  decide +kernel

/-- The bound for vendor information is reached, too. -/
theorem C107_reached_vendor :
    let op : Op := .vendorInfo ⟨0xffffffffffffffff⟩
    requestsOn fullBoard op = requestsOf op := by
  decide +kernel

/-! ## Commands -/

namespace Cli

theorem collect_length {ε α β : Type} {f : α → Exec ε β} {l : List α} {bs : List β} (h : collectExec f l = .ok bs) :
    bs.length = l.length := by
  induction l generalizing bs with
  | nil => cases h; rfl
  | cons a l ih =>
    unfold collectExec at h
    split at h
    · split at h
      · rename_i h2
        cases h
        rw [List.length_cons, ih h2, List.length_cons]
      · cases h
      · cases h
    · cases h
    · cases h

theorem buildMany_length {buildOne : U8 → U8 → Except MgmtError MemAccess} {size o l : U8} {cs : List MemAccess}
    (h : buildMany buildOne size o l = .ok cs) : cs.length = (l.toNat + (size.toNat - 1)) / size.toNat := by
  unfold buildMany at h
  dsimp only at h
  split at h
  · cases h
  · rw [collect_length h, stepBy, List.length_map, List.length_range, Nat.add_sub_cancel_left]

theorem inHalf_len {pg : Page} {o l : Nat} (h : InHalf pg o l) : l ≤ 128 := by
  unfold InHalf at h
  omega

theorem atMost_read (m : ModuleId) (rd : MemoryRead) : AtMost (1 + messagesFor 64 rd.len.toNat) (Controller.read m rd) := by
  unfold Controller.read
  split
  · exact atMost_mono (atMost_ofExec _) (Nat.zero_le _)
  · refine atMost_bind (atMost_identifier m) fun _ => atMost_exec_bind fun _ => ?_
    exact atMost_bind (n := 0) (atMost_readImpl _ rd) fun _ => atMost_ret _ _

theorem atMost_readChunks (m : ModuleId) (k : Nat) (rds : List MemoryRead)
    (hk : ∀ rd ∈ rds, 1 + messagesFor 64 rd.len.toNat ≤ k) (r : Res Bytes) :
    AtMost (k * rds.length) (readChunks m r rds) := by
  induction rds generalizing r with
  | nil => exact atMost_ret _ _
  | cons rd rds ih =>
    rw [List.length_cons, Nat.mul_succ, Nat.add_comm]
    refine atMost_bind (atMost_mono (atMost_read m rd) (hk rd (List.mem_cons_self ..))) fun _ => ?_
    split
    · exact atMost_panic _
    · exact ih (fun x hx => hk x (List.mem_cons_of_mem _ hx)) _

theorem messages_table : ∀ l : Fin 129, 1 ≤ l.val → messagesFor 64 l.val ≤ 8 ∧ (l.val ≤ 8 → messagesFor 64 l.val = 1) := by
  decide +kernel

theorem atMost_readMany (m : ModuleId) (page : Page) (o l : U8) (rds : List MemoryRead)
    (h : buildReads page o l = .ok rds) : AtMost 32 (readMany m rds) := by
  unfold readMany
  refine atMost_exec_bind fun _ => ?_
  cases page with
  | sff8636 p =>
    have hc := C11_sff_read p o l
    have hl : l.toNat ≤ 128 := (hc.2.2.1 ⟨rds, h⟩).elim (fun h => by omega) inHalf_len
    have hn := buildMany_length h
    refine atMost_mono (atMost_readChunks m 9 rds (fun rd hrd => ?_) _) ?_
    · have := (hc.2.1 rds h).2 rd hrd
      have := (messages_table ⟨rd.len.toNat, Nat.lt_succ_of_le (inHalf_len this.2.2.2)⟩ this.2.1).1
      dsimp only at this
      omega
    · rw [hn, show (64 : U8).toNat = 64 from rfl]
      omega
  | cmis p =>
    have hc := C11_cmis_read p o l
    have hl : l.toNat ≤ 128 := (hc.2.2.1 ⟨rds, h⟩).elim (fun h => by omega) inHalf_len
    have hn := buildMany_length h
    refine atMost_mono (atMost_readChunks m 2 rds (fun rd hrd => ?_) _) ?_
    · have := (hc.2.1 rds h).2 rd hrd
      have := (messages_table ⟨rd.len.toNat, Nat.lt_succ_of_le (inHalf_len this.2.2.2)⟩ this.2.1).2 this.2.2.1
      dsimp only at this
      omega
    · rw [hn, show (MemoryPage.maxReadSize CmisPage).toNat = 8 from rfl]
      omega

theorem atMost_print (x : Exec Unit Lines) : AtMost 0 (print x) := by
  unfold print
  split
  · exact atMost_ret _ _
  · exact atMost_panic _
  · exact atMost_panic _

theorem atMost_showing {P : Type} {n : Nat} {op : Prog (Res P)} (h : AtMost n op) (i : Bool) (text : Res P → Exec Unit Lines) :
    AtMost n (showing i op text) :=
  atMost_bind (n := 0) h fun _ => atMost_bind (m := 0) (n := 0) (atMost_print _) fun _ => atMost_ret _ _

theorem atMost_acting {n : Nat} {op : Prog (Res Unit)} (h : AtMost n op) (i : Bool) : AtMost n (acting i op) :=
  atMost_bind (n := 0) h fun _ => atMost_ret _ _

/-- The program of a method from its program without the result. -/
theorem atMost_undrop {α : Type} {n : Nat} {p : Prog α} (h : AtMost n (do let _ ← p)) : AtMost n p := by
  intro t o hr
  cases o with
  | ok a =>
    refine h t (.ok ()) ?_
    exact runs_bind.2 (.inl ⟨t, [], a, (List.append_nil t).symm, hr, runs_ret.2 ⟨rfl, rfl⟩⟩)
  | err e => exact h t (.err e) (runs_bind.2 (.inr (.inl ⟨e, hr, rfl⟩)))
  | panic => exact h t .panic (runs_bind.2 (.inr (.inr ⟨hr, rfl⟩)))

theorem atMost_orElse {α : Type} {a b : Nat} {p : Prog α} {f : CtlError → Prog α} (hp : AtMost a p) (hf : ∀ e, AtMost b (f e)) :
    AtMost (a + b) (p.orElse f) := by
  intro t o h
  rcases runs_orElse.1 h with ⟨h, -⟩ | ⟨t₁, t₂, e, rfl, h1, h2⟩
  · exact Nat.le_trans (hp t o h) (Nat.le_add_right _ _)
  · rw [List.length_append]
    exact Nat.add_le_add (hp _ _ h1) (hf e _ _ h2)

theorem atMost_select (ts : Transceivers) : AtMost 6 (addressTransceivers ts) := by
  unfold addressTransceivers
  split
  · exact atMost_ret _ _
  · exact atMost_mono (atMost_bind (n := 0) (atMost_status _) fun _ => atMost_ret _ _) (by decide)
  · exact atMost_bind (n := 0) (atMost_power _) fun _ => atMost_ret _ _
  · exact atMost_mono (atMost_bind (n := 0) (atMost_identifier _) fun _ => atMost_ret _ _) (by decide)
  · exact atMost_ret _ _

/-- The requests of a command on modules that are already known: those of the method, for most commands. -/
theorem atMost_dispatch (fmt : Fmt) (i : Bool) (m : ModuleId) (cmd : Cmd) : AtMost 41 (dispatch fmt i m cmd) := by
  have op : ∀ {α : Type} {p : Prog α} (op : Op), op.prog = (do let _ ← p) → requestsOf op ≤ 41 → AtMost 41 p := by
    intro α p op h h'
    have := C107_bound op
    rw [h] at this
    exact atMost_mono (atMost_undrop this) h'
  have le : ∀ {a : Nat}, Nat.ble a 41 = true → a ≤ 41 := fun h => Nat.le_of_ble_eq_true h
  have readCmd : ∀ b pg o l a, AtMost 41 (readCmd i m b pg o l a) := by
    intro b pg o l a
    unfold readCmd
    split
    · exact atMost_ret _ _
    · split
      · exact atMost_ret _ _
      · split
        · exact atMost_ret _ _
        · exact atMost_panic _
        · rename_i h
          exact atMost_mono (atMost_showing (atMost_readMany m _ o l _ h) _ _) (by decide)
  have writeCmd : ∀ pg inp o, AtMost 41 (writeCmd i m pg inp o) := by
    intro pg inp o
    unfold writeCmd
    split
    · exact atMost_ret _ _
    · exact atMost_panic _
    · split
      · exact atMost_ret _ _
      · split
        · exact atMost_ret _ _
        · split
          · exact atMost_ret _ _
          · exact atMost_acting (op (.write m _ _) rfl (le rfl)) _
  rw [dispatch.eq_def]
  cases cmd with
  | status w wo all parseable output sep oh =>
    dsimp only
    split
    · refine atMost_showing ?_ _ _
      refine atMost_mono (atMost_orElse (a := 1) (b := 1) (atMost_undrop (C107_bound (.extendedStatus m))) fun _ => ?_)
        (by decide)
      exact atMost_bind (n := 0) (atMost_status m) fun _ => atMost_ret _ _
    · exact atMost_panic _
  | reset => exact atMost_acting (op (.reset m) rfl (le rfl)) _
  | setPower s => exact atMost_acting (op (.setPower m s) rfl (by cases s <;> exact le rfl)) _
  | power a => exact atMost_showing (op (.power m) rfl (le rfl)) _ _
  | enablePower => exact atMost_acting (op (.enablePower m) rfl (le rfl)) _
  | disablePower => exact atMost_acting (op (.disablePower m) rfl (le rfl)) _
  | assertReset => exact atMost_acting (op (.assertReset m) rfl (le rfl)) _
  | deassertReset => exact atMost_acting (op (.deassertReset m) rfl (le rfl)) _
  | assertLpMode => exact atMost_acting (op (.assertLpMode m) rfl (le rfl)) _
  | deassertLpMode => exact atMost_acting (op (.deassertLpMode m) rfl (le rfl)) _
  | identify a => exact atMost_showing (op (.identifier m) rfl (le rfl)) _ _
  | vendorInfo a => exact atMost_showing (op (.vendorInfo m) rfl (le rfl)) _ _
  | readLower cmis binary o l a => exact readCmd _ _ _ _ _
  | writeLower cmis inp o => exact writeCmd _ _ _
  | readUpper cmis binary pg bank o l a => exact readCmd _ _ _ _ _
  | writeUpper cmis inp pg bank o => exact writeCmd _ _ _
  | memoryModel a => exact atMost_showing (op (.memoryModel m) rfl (le rfl)) _ _
  | macs summary =>
    exact atMost_bind (n := 0) (op .macAddrs rfl (le rfl)) fun _ =>
      atMost_bind (m := 0) (n := 0) (atMost_print _) fun _ => atMost_ret _ _
  | clearPowerFault => exact atMost_acting (op (.clearPowerFault m) rfl (le rfl)) _
  | clearDisableLatch => exact atMost_acting (op (.clearDisableLatch m) rfl (le rfl)) _
  | leds a => exact atMost_showing (op (.leds m) rfl (le rfl)) _ _
  | setLeds s => exact atMost_acting (op (.setLeds m s) rfl (le rfl)) _
  | monitors a => exact atMost_showing (op (.monitors m) rfl (le rfl)) _ _
  | datapath => exact atMost_showing (op (.datapath m) rfl (le rfl)) _ _

/-- No command sends more than 47 requests, whatever is asked for and whatever the SP answers. -/
theorem C107_command (fmt : Fmt) (transceivers : Option Transceivers) (ignoreErrors : Bool) (cmd : Cmd) :
    AtMost 47 (main fmt transceivers ignoreErrors cmd) :=
  atMost_bind (m := 6) (n := 41) (atMost_select _) fun m => atMost_dispatch fmt ignoreErrors m cmd

/-- The bound is reached, by `--transceivers high datapath`. -/
theorem C107_command_reached :
    ((main ⟨fun _ => []⟩ (some (.powerState .high)) false .datapath).exec (boardBench mixedBoard).sp []).1.length = 47 := by
  decide +kernel

end Cli

end Xcvr
