import Verif.Model.CliCmd
import Verif.Model.Ops
import Verif.Props.Controller
import Verif.Props.Info
import Verif.Props.Power
import Verif.Props.Memory
import Verif.Props.CliStatus

/-! # C71 and C72: write commands, and commands for no modules -/

namespace Xcvr

open Spec Prog Cli Controller

/-! ## C71 -/

/-- **C71**: data are accepted exactly if, at this offset, they are a legal single write; the write is then for just these
bytes. -/
theorem C71_accepted (page : Page) (offset : U8) (data : Bytes) (w : MemoryWrite) :
    buildWrite page offset data = .ok w ↔
      LegalWrite page offset.toNat data.length ∧ w.page = page ∧ w.offset = offset ∧ w.len.toNat = data.length := by
  have hmax : maxWrite page ≤ 8 := by cases page <;> simp [maxWrite]
  unfold buildWrite
  split
  · rename_i hl
    constructor
    · intro h; cases h
    · rintro ⟨⟨-, h, -⟩, -⟩
      omega
  · rename_i hl
    have hn : (BitVec.ofNat 8 data.length).toNat = data.length := by
      rw [BitVec.toNat_ofNat]
      omega
    have key : ∀ {P : Type} [MemoryPage P] [PageSpec P] (p : P), MemoryPage.toPage p = page →
        ((MemAccess.newWrite p offset (BitVec.ofNat 8 data.length)).mapError WriteSetupError.access = .ok w ↔
        LegalWrite page offset.toNat data.length ∧ w.page = page ∧ w.offset = offset ∧ w.len.toNat = data.length) := by
      intro P _ _ p hp
      have h1 := newWrite_ok_iff p offset (BitVec.ofNat 8 data.length) w
      rw [hn, hp] at h1
      have h2 : (MemAccess.newWrite p offset (BitVec.ofNat 8 data.length)).mapError WriteSetupError.access = .ok w ↔
          MemAccess.newWrite p offset (BitVec.ofNat 8 data.length) = .ok w := by
        cases MemAccess.newWrite p offset (BitVec.ofNat 8 data.length) <;> simp [Except.mapError]
      rw [h2, h1]
      refine and_congr_right fun _ => ?_
      obtain ⟨a, b, c⟩ := w
      simp only [MemAccess.mk.injEq]
      refine and_congr_right fun _ => and_congr_right fun _ => ?_
      constructor
      · rintro rfl; exact hn
      · intro h
        apply BitVec.eq_of_toNat_eq
        rw [hn, h]
    cases page with
    | sff8636 p => exact key p rfl
    | cmis p => exact key p rfl

/-- **C71**: whatever the SP does, the only thing the command writes is the given data at the given place, once, to modules
that identified themselves as of the right kind. -/
theorem C71_sent (m : ModuleId) (page : Page) (offset : U8) (data : Bytes) (w : MemoryWrite) (t : List Exchange)
    (o : Exec CtlError (Res Unit)) (hw : buildWrite page offset data = .ok w) (h : Runs (Controller.write m w data) t o) :
    ∃ t₁ t₂, t = t₁ ++ t₂ ∧ (∀ x ∈ t₁, ∃ g, x.1 = Call.host (.read g identifierByte)) ∧
      (t₂ = [] ∨ ∃ ids r, Runs (identifier m) t₁ (.ok ids) ∧
        t₂ = [(Call.host (.write ids.modules ⟨page, offset, BitVec.ofNat 8 data.length⟩) (some data), r)] ∧
        ∀ p, Mem ids.modules p → ∃ id, okAt ids p = some id ∧ id.managementInterface = .ok page.managementInterface) := by
  obtain ⟨h1, h2, h3, h4⟩ := (C71_accepted page offset data w).1 hw
  obtain ⟨t₁, t₂, h5, h6, h7⟩ := C35_write_any_sp m w data t o h
  refine ⟨t₁, t₂, h5, fun x hx => ?_, ?_⟩
  · obtain ⟨g, hg, -⟩ := h6 x hx
    exact ⟨g, hg⟩
  · have hww : w = ⟨page, offset, BitVec.ofNat 8 data.length⟩ := by
      obtain ⟨a, b, c⟩ := w
      dsimp only at h2 h3 h4
      subst h2 h3
      rw [← h4, BitVec.ofNat_toNat, BitVec.setWidth_eq]
    subst hww
    rcases h7 with h7 | ⟨ids, r, h7, h8, -, h9⟩
    · exact .inl h7
    · exact .inr ⟨ids, r, h7, h8, h9⟩

/-- **C71**: with an SP that answers properly the command ends, either refused because of a module of the wrong kind and
nothing written, or each module reported. -/
theorem C71_outcome (m : ModuleId) (page : Page) (offset : U8) (data : Bytes) (w : MemoryWrite) (t : List Exchange)
    (o : Exec CtlError (Res Unit)) (hw : buildWrite page offset data = .ok w) (h : Runs (Controller.write m w data) t o)
    (hc : Conforming t) :
    ∃ t₁ t₂, t = t₁ ++ t₂ ∧ ReadsOf m identifierByte t₁ ∧
      ((∃ i b, t₂ = [] ∧ o = .err (.transceiver (.invalidInterfaceForModule i (Bf.ofByte b) page.managementInterface)) ∧
        okAmong t₁ i.toNat = some [b] ∧ interfaceOfCode b ≠ some page.managementInterface) ∨
       ∃ res, o = .ok res ∧ ReportsLast (fun _ => ()) m t₁ t₂ res) := by
  obtain ⟨h1, h2, h3, h4⟩ := (C71_accepted page offset data w).1 hw
  obtain ⟨t₁, t₂, h5, h6, ⟨i, b, h7, h8, h9, h10, -⟩ | ⟨-, h7, -⟩ | ⟨-, -, s, r, res, -, -, h7, h8⟩⟩ :=
    C36_write m w data t o h hc
  · rw [h2] at h8 h10
    exact ⟨t₁, t₂, h5, h6, .inl ⟨i, b, h7, h8, h9, h10⟩⟩
  · exact absurd h4.symm h7
  · exact ⟨t₁, t₂, h5, h6, .inr ⟨res, h7, h8⟩⟩

/-- **C71**: the upper page is the one named by number and bank. -/
theorem C71_page (cmis : Bool) (page : U8) (bank : Option U8) (p : Page) (h : upperPage cmis page bank = .ok p) :
    p.page = some page ∧ p.bank = (if cmis then bank else none) ∧ isLower p = false ∧
      p.managementInterface = if cmis then .cmis else .sff8636 := by
  unfold upperPage at h
  cases cmis with
  | false =>
    simp only [Bool.false_eq_true, if_false] at h
    unfold sffUpperPageNew at h
    split at h
    · cases h; exact ⟨rfl, rfl, rfl, rfl⟩
    · cases h
  | true =>
    simp only [if_true] at h
    cases bank with
    | none =>
      dsimp only at h
      unfold cmisNewUnbanked at h
      split at h
      · cases h
      · cases h; exact ⟨rfl, rfl, rfl, rfl⟩
    | some b =>
      dsimp only at h
      unfold cmisNewBanked at h
      repeat' split at h
      all_goals cases h
      exact ⟨rfl, rfl, rfl, rfl⟩

example : buildWrite (.cmis .lower) 26 [0x10] = .ok ⟨.cmis .lower, 26, 1⟩ ∧
    buildWrite (.sff8636 .lower) 86 [1, 2, 3, 4, 5] = .error (.access (.invalidOperationSize 5 .sff8636)) ∧
    buildWrite (.cmis .lower) 127 [1, 2] = .error (.access (.invalidMemoryAccess 127 2)) ∧
    upperPage true 0x10 (some 1) = .ok (.cmis (.upper ⟨some 1, 0x10⟩)) ∧
    upperPage true 0x10 none = .error (.pageIsBanked 0x10) ∧
    upperPage false 0x03 none = .ok (.sff8636 (.upper 3)) := by decide

/-! ## C72 -/

/-- Every conforming run ends with this value. -/
def Ends {α : Type} (p : Prog α) (a : α) : Prop := ∀ t o, Runs p t o → Conforming t → o = .ok a

theorem ends_ret {α : Type} (a : α) : Ends (Prog.ret a) a := fun t o h _ => (runs_ret.1 h).2

theorem ends_bind {α β : Type} {p : Prog α} {f : α → Prog β} {a : α} {b : β} (hp : Ends p a) (hf : Ends (f a) b) :
    Ends (p >>= f) b := fun t o h hc => by
  obtain ⟨t₁, t₂, a', rfl, h1, hc1, h2, hc2⟩ := runs_bind_ok h hc fun t o h hc => ⟨a, hp t o h hc⟩
  have := hp _ _ h1 hc1
  simp only [Exec.ok.injEq] at this
  subst this
  exact hf _ _ h2 hc2

/-- No modules, no data, no failures. -/
def nothing {P : Type} : Res P := ⟨⟨0⟩, [], ⟨⟨0⟩, []⟩⟩

theorem eq_nothing {P : Type} {res : Res P} (hw : WF res) (hp : Partition ⟨0⟩ res.modules res.failures.modules) :
    res = nothing := by
  have h0 : ∀ p, ¬ Mem ⟨0⟩ p := fun p => mem_empty
  have h1 : res.modules = ⟨0⟩ := moduleId_ext_mem fun p => by
    constructor
    · intro h; exact absurd ((hp p).1.2 (.inl h)) (h0 p)
    · intro h; exact absurd h (h0 p)
  have h2 : res.failures.modules = ⟨0⟩ := moduleId_ext_mem fun p => by
    constructor
    · intro h; exact absurd ((hp p).1.2 (.inr h)) (h0 p)
    · intro h; exact absurd h (h0 p)
  obtain ⟨a, b, c, d⟩ := res
  dsimp only at h1 h2
  subst h1 h2
  have hc : card ⟨0⟩ = 0 := by decide
  have hb : b = [] := List.length_eq_zero_iff.1 (by rw [← hc]; exact hw.1)
  have hd : d = [] := List.length_eq_zero_iff.1 (by rw [← hc]; exact hw.2.1)
  rw [hb, hd]
  rfl

theorem ends_command {q : HostRequest} (hq : IsCommand q) (hm : requestModules q = some ⟨0⟩) :
    Ends (noPayloadRequest q) nothing := fun t o h hc => by
  obtain ⟨-, res, -, rfl, h1⟩ := noPayloadRequest_spec hq hm h hc
  rw [eq_nothing h1.wf h1.split]

theorem ends_status : Ends (status ⟨0⟩) nothing := fun t o h hc => by
  obtain ⟨-, res, -, rfl, h1⟩ := status_spec h hc
  rw [eq_nothing h1.wf h1.split]

theorem ends_extendedStatus : Ends (extendedStatus ⟨0⟩) nothing := fun t o h hc => by
  obtain ⟨-, res, -, rfl, h1⟩ := extendedStatus_spec h hc
  rw [eq_nothing h1.wf h1.split]

theorem ends_leds : Ends (leds ⟨0⟩) nothing := fun t o h hc => by
  obtain ⟨-, res, -, rfl, h1⟩ := leds_spec h hc
  rw [eq_nothing h1.wf h1.split]

theorem ends_identifier : Ends (identifier ⟨0⟩) nothing := fun t o h hc => by
  obtain ⟨res, rfl, -, h1⟩ := identifier_spec h hc
  rw [eq_nothing h1.wf h1.split]

theorem ends_parse {P : Type} (d : ModuleDecoder P) : Ends (parseModulesByIdentifier d ⟨0⟩) nothing :=
  ends_bind ends_identifier (ends_ret nothing)

theorem ends_eq {α : Type} {a b : α} (h : a = b) : Ends (Prog.ret a) b := h ▸ ends_ret a

theorem ends_power : Ends (power ⟨0⟩) nothing :=
  ends_bind ends_status (ends_bind (ends_ret ModuleResult.default) (ends_eq (by decide +kernel)))

theorem ends_setPowerOff : Ends (setPower ⟨0⟩ .off) nothing :=
  ends_bind (ends_command (q := .deassertLpMode ⟨0⟩) trivial rfl)
    (ends_bind (ends_command (q := .assertReset ⟨0⟩) trivial rfl)
      (ends_bind (ends_command (q := .disablePower ⟨0⟩) trivial rfl) (ends_eq (by decide +kernel))))

theorem ends_setPowerOn (low : Bool) : Ends (setPowerOn ⟨0⟩ low) nothing := by
  unfold setPowerOn
  refine ends_bind ends_power ?_
  rw [if_neg (by simp [nothing])]
  refine ends_bind ends_status ?_
  refine ends_bind (a := ((⟨0⟩ : ModuleId), (⟨⟨0⟩, []⟩ : FailedModules TransceiverError))) (ends_eq (by decide +kernel)) ?_
  refine ends_bind (a := ((⟨0⟩ : ModuleId), (⟨⟨0⟩, []⟩ : FailedModules TransceiverError))) (ends_ret _) ?_
  have hlast : ∀ low, Ends (do
      let (modules, failures) ← stepIfAny deassertReset ⟨0⟩ ⟨0⟩ ⟨⟨0⟩, []⟩
      let (_, modes) := keepModuleData ⟨0⟩ [] modules
      setSoftwarePowerState ⟨modules, modes, failures⟩ low) nothing := by
    intro low
    refine ends_bind (a := ((⟨0⟩ : ModuleId), (⟨⟨0⟩, []⟩ : FailedModules TransceiverError))) (ends_ret _) ?_
    unfold setSoftwarePowerState
    refine ends_bind ends_identifier ?_
    refine ends_bind (a := []) (ends_eq (by decide +kernel)) ?_
    exact ends_bind (ends_ret _) (ends_eq (by decide +kernel))
  cases low
  · exact ends_bind (ends_command (q := .deassertLpMode ⟨0⟩) trivial rfl) (hlast false)
  · exact ends_bind (ends_command (q := .assertLpMode ⟨0⟩) trivial rfl) (hlast true)

/-- **C72**: a command for no modules succeeds with an empty result, for an SP that answers properly. -/
theorem C72_power (s : PowerState) :
    Ends (power ⟨0⟩) nothing ∧ Ends (setPower ⟨0⟩ s) nothing ∧ Ends (reset ⟨0⟩) nothing := by
  refine ⟨ends_power, ?_, ?_⟩
  · cases s
    · exact ends_setPowerOff
    · exact ends_setPowerOn true
    · exact ends_setPowerOn false
  · exact ends_bind (ends_command (q := .assertReset ⟨0⟩) trivial rfl)
      (ends_bind (ends_command (q := .deassertReset ⟨0⟩) trivial rfl) (ends_eq (by decide +kernel)))

theorem C72_status : Ends (status ⟨0⟩) nothing ∧ Ends (extendedStatus ⟨0⟩) nothing ∧ Ends (leds ⟨0⟩) nothing ∧
    Ends (statusCmd ⟨0⟩) nothing := by
  refine ⟨ends_status, ends_extendedStatus, ends_leds, fun t o h hc => ?_⟩
  rcases runs_orElse.1 h with ⟨h, -⟩ | ⟨t₁, t₂, e, rfl, h1, -⟩
  · exact ends_extendedStatus t o h hc
  · have := ends_extendedStatus _ _ h1 fun x hx => hc x (List.mem_append_left _ hx)
    cases this

theorem C72_commands (q : HostRequest) (hq : IsCommand q) (hm : requestModules q = some ⟨0⟩) :
    Ends (noPayloadRequest q) nothing := ends_command hq hm

theorem C72_info : Ends (identifier ⟨0⟩) nothing ∧ Ends (vendorInfo ⟨0⟩) nothing ∧ Ends (memoryModel ⟨0⟩) nothing ∧
    Ends (monitors ⟨0⟩) nothing ∧ Ends (datapath ⟨0⟩) nothing :=
  ⟨ends_identifier, ends_parse _, ends_parse _, ends_parse _, ends_parse _⟩

theorem C72_memory (rd : MemoryRead) (w : MemoryWrite) (data : Bytes) (h : w.len.toNat = data.length) :
    Ends (Controller.read ⟨0⟩ rd) nothing ∧ Ends (Controller.write ⟨0⟩ w data) nothing := by
  constructor
  · exact ends_ret nothing
  · refine ends_bind ends_identifier (ends_bind (a := ()) ?_ (ends_bind (a := nothing) ?_ (ends_eq (by decide +kernel))))
    · cases hp : w.page <;> exact ends_eq (by decide +kernel)
    · intro t o h' hc
      obtain ⟨-, res, -, rfl, h1⟩ := writeImpl_spec h h' hc
      rw [eq_nothing h1.wf h1.split]

theorem ends_readChunks (reads : List MemoryRead) : Ends (readChunks ⟨0⟩ nothing reads) nothing := by
  induction reads with
  | nil => exact ends_ret _
  | cons rd rds ih =>
    refine ends_bind (a := nothing) (ends_ret nothing) ?_
    rw [show ModuleResult.append (nothing : Res Bytes) nothing = some nothing by decide +kernel]
    exact ih

/-- **C72** for a read command. -/
theorem C72_read_command (reads : List MemoryRead) : Ends (readMany ⟨0⟩ reads) nothing :=
  ends_bind (a := nothing) (ends_eq rfl) (ends_readChunks reads)

/-- Such runs exist, with several exchanges. -/
example : ((setPower ⟨0⟩ .low).exec (Bench.sp {}) []).1.map requestOf =
      [some (.status ⟨0⟩), some (.status ⟨0⟩), some (.assertLpMode ⟨0⟩)] ∧
    ((setPower ⟨0⟩ .low).exec (Bench.sp {}) []).2 = .ok nothing := by
  decide +kernel

end Xcvr
