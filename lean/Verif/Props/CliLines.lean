import Verif.Lemmas.Lines
import Verif.Props.CliMain

/-! # C90, C91: what a run of the tool says about each module -/

namespace Xcvr

open Spec Prog Cli Controller

/-! ## C90: failure lines of commands that act -/

/-- What the lines of failures, and their absence, say after a command whose last exchange is `x`. -/
structure Spec.Accounts (m : ModuleId) (t : List Exchange) (x : Exchange) (fails : List (U8 × TransceiverError)) :
    Prop where
  /-- In order of ports, none twice. -/
  sorted : (fails.map Prod.fst).Pairwise (· < ·)
  /-- Only modules selected. -/
  selected : ∀ i e, (i, e) ∈ fails → Mem m i.toNat
  /-- With the error the SP gave for them. -/
  own : ∀ i e, (i, e) ∈ fails → errAmong t i.toNat = some e
  /-- The SP acknowledged the last request for all others, and for them only. -/
  others : ∀ p, Mem m p → ((∀ e i, (i, e) ∈ fails → i.toNat ≠ p) ↔ (okIn x p).isSome)

theorem accounts_of_reports {m : ModuleId} {t₁ : List Exchange} {x : Exchange} {res : Res Unit}
    (h : ReportsLast (fun _ => ()) m t₁ [x] res) : Accounts m (t₁ ++ [x]) x (failureLines res.failures) := by
  obtain ⟨h1, h2, h3⟩ := C70_lines res.failures h.wf.2.1
  have hmem : ∀ i e, (i, e) ∈ failureLines res.failures → Mem res.failures.modules i.toNat := fun i e hi =>
    (h3 i).2 ⟨e, hi⟩
  refine ⟨?_, fun i e hi => (h.split _).1.2 (.inr (hmem i e hi)), fun i e hi => ?_, fun p hp => ?_⟩
  · rw [h1]
    exact toIndices_sorted _
  · rw [← h.err]
    exact (h2 i e).1 hi
  · have hs : Mem res.modules p ↔ (okIn x p).isSome := by
      rw [← datum_isSome h.wf.1, show datum res.modules res.data p = okAt res p from rfl, h.ok]
      simp [okAmong]
    rw [← hs]
    have hlt : p < 256 := by
      have := mem_lt hp
      omega
    have hp8 : (BitVec.ofNat 8 p).toNat = p := by simp [Nat.mod_eq_of_lt hlt]
    constructor
    · intro hn
      refine ((h.split p).1.1 hp).resolve_right fun hf => ?_
      obtain ⟨e, he⟩ := (h3 (BitVec.ofNat 8 p)).1 (by rw [hp8]; exact hf)
      exact hn e _ he hp8
    · rintro hm e i hi rfl
      exact (h.split _).2 ⟨hm, hmem i e hi⟩

theorem reportsLast_of_reports {P : Type} {f : Bytes → P} {m : ModuleId} {t : List Exchange} {res : Res P}
    (h : Reports f m t res) : ReportsLast f m [] t res := ⟨h.wf, h.split, h.ok, h.err⟩

/-- After a command that acts and that ends normally, with `--ignore-errors` not given: nothing is printed on standard
output; the failure lines name, in order, modules that were selected, each with the error the SP gave for it; and the
modules not named are those for which the SP acknowledged the last request, which is one that belongs to the command. -/
theorem C90_failures (fmt : Fmt) (m : ModuleId) (cmd : Cmd) (hcmd : Acts cmd) (t : List Exchange) (out : Lines)
    (fails : List (U8 × TransceiverError)) (h : Runs (dispatch fmt false m cmd) t (.ok (.done out fails)))
    (ht : Conforming t) :
    out = [] ∧ ∃ t₁ x q, t = t₁ ++ [x] ∧ requestOf x = some q ∧ Changes cmd q x.1.data ∧ Accounts m t x fails := by
  have key : ∀ {op : Prog (Res Unit)}, Runs (acting false op) t (.ok (.done out fails)) →
      (∀ r, Runs op t (.ok r) → ∃ t₁ x q, t = t₁ ++ [x] ∧ requestOf x = some q ∧ Changes cmd q x.1.data ∧
        ReportsLast (fun _ => ()) m t₁ [x] r) →
      out = [] ∧ ∃ t₁ x q, t = t₁ ++ [x] ∧ requestOf x = some q ∧ Changes cmd q x.1.data ∧ Accounts m t x fails := by
    intro op h hop
    obtain ⟨r, h1, h2⟩ := acting_ok h
    cases h2
    obtain ⟨t₁, x, q, rfl, h3, h4, h5⟩ := hop r h1
    exact ⟨rfl, t₁, x, q, rfl, h3, h4, accounts_of_reports h5⟩
  have simple : ∀ {q : HostRequest}, Runs (acting false (noPayloadRequest q)) t (.ok (.done out fails)) → IsCommand q →
      requestModules q = some m → Changes cmd q none →
      out = [] ∧ ∃ t₁ x q, t = t₁ ++ [x] ∧ requestOf x = some q ∧ Changes cmd q x.1.data ∧ Accounts m t x fails := by
    intro q h hq hm hch
    refine key h fun r hr => ?_
    obtain ⟨rep, res, h1, h2, h3⟩ := noPayloadRequest_spec hq hm hr ht
    cases h2
    subst h1
    exact ⟨[], _, q, rfl, rfl, hch, reportsLast_of_reports h3⟩
  have writes : ∀ {page input offset}, Runs (writeCmd false m page input offset) t (.ok (.done out fails)) →
      (∀ p d w g, page = .ok p → input.load = .ok d → buildWrite p offset d = .ok w →
        Changes cmd (.write g w) (some d)) →
      out = [] ∧ ∃ t₁ x q, t = t₁ ++ [x] ∧ requestOf x = some q ∧ Changes cmd q x.1.data ∧ Accounts m t x fails := by
    intro page input offset h hch
    unfold writeCmd at h
    split at h
    · cases (runs_ret.1 h).2
    · cases (runs_panic.1 h).2
    · rename_i d hd
      split at h
      · cases (runs_ret.1 h).2
      · split at h
        · cases (runs_ret.1 h).2
        · rename_i p
          split at h
          · cases (runs_ret.1 h).2
          · rename_i w hw
            refine key h fun r hr => ?_
            obtain ⟨t₁, t₂, rfl, -, ⟨i, b, -, h2, -⟩ | ⟨-, -, -, h2⟩ | ⟨-, -, s, rep, res, -, rfl, h2, h3⟩⟩ :=
              C36_write m w d _ _ hr ht
            · cases h2
            · cases h2
            · cases h2
              exact ⟨t₁, _, _, rfl, rfl, hch _ _ _ _ rfl hd hw, h3⟩
  cases cmd with
  | reset =>
    refine key h fun r hr => ?_
    obtain ⟨x₁, x₂, s, res, rfl, -, h2, -, h3, h4⟩ := C38_reset m t _ hr ht
    cases h3
    obtain ⟨c, rep⟩ := x₂
    dsimp only at h2
    subst h2
    exact ⟨[x₁], _, _, rfl, rfl, trivial, h4⟩
  | setPower s =>
    cases s with
    | off =>
      refine key h fun r hr => ?_
      obtain ⟨x₁, x₂, x₃, s₁, s₂, res, rfl, -, -, h2, -, -, h3, h4⟩ := C43_power_off m t _ hr ht
      cases h3
      obtain ⟨c, rep⟩ := x₃
      dsimp only at h2
      subst h2
      exact ⟨[x₁, x₂], _, _, rfl, rfl, trivial, h4⟩
    | low => exact absurd hcmd id
    | high => exact absurd hcmd id
  | enablePower => exact simple h trivial rfl trivial
  | disablePower => exact simple h trivial rfl trivial
  | assertReset => exact simple h trivial rfl trivial
  | deassertReset => exact simple h trivial rfl trivial
  | assertLpMode => exact simple h trivial rfl trivial
  | deassertLpMode => exact simple h trivial rfl trivial
  | clearPowerFault => exact simple h trivial rfl trivial
  | clearDisableLatch => exact simple h trivial rfl trivial
  | setLeds s => exact simple h trivial rfl rfl
  | writeLower cmis input offset =>
    refine writes (page := .ok (lowerPage cmis)) h fun p d w g hp hd hw => ?_
    cases hp
    obtain ⟨-, h1, h2, h3⟩ := (C71_accepted _ _ _ _).1 hw
    exact ⟨hd, h1, h2, h3⟩
  | writeUpper cmis input page bank offset =>
    refine writes h fun p d w g hp hd hw => ?_
    obtain ⟨-, h1, h2, h3⟩ := (C71_accepted _ _ _ _).1 hw
    obtain ⟨h4, h5, h6, h7⟩ := C71_page _ _ _ _ hp
    refine ⟨hd, ?_⟩
    rw [h1]
    exact ⟨h6, h4, h5, h7, h2, h3⟩
  | _ => exact absurd hcmd id

/-- A reset of ports 1 to 4: port 4 answers nothing and port 2 fails the first step. -/
theorem reset_example : ((main plainFmt (some (.index ⟨0b11110⟩)) false .reset).exec toolBench.sp []).2 =
    .ok (.done [] [(2, .hardware 2 .disabledBySp none), (4, .hardware 4 .disabledBySp none)]) := by
  decide +kernel

/-- Only the lines tell: a run in which modules fail has the exit status of one in which none does. -/
theorem C90_exit_status : ¬ ∀ (fmt : Fmt) (sel : Option Transceivers) (cmd : Cmd) (t : List Exchange)
    (o : Exec CtlError Exit), Runs (main fmt sel false cmd) t o → Conforming t → exitStatus o = 0 →
    ∀ out fails, o = .ok (.done out fails) → fails = [] := fun h =>
  absurd (h _ _ _ _ _ (main_bench toolBench plainFmt (some (.index ⟨0b11110⟩)) .false .reset).1 (main_bench ..).2
    (by rw [reset_example]; rfl) _ _ reset_example) (by simp)

/-! ## C91: every module selected is accounted for -/

/-- Every module of `m` is named once, by a line on standard output or by a line of failures, and both are in order. -/
structure Spec.Named (m : ModuleId) (out : Lines) (fails : List (U8 × TransceiverError)) : Prop where
  printed : (out.filterMap linePort).Pairwise (· < ·)
  failed : (fails.map Prod.fst).Pairwise (· < ·)
  once : ∀ p, (Mem m p ↔ p ∈ out.filterMap linePort ∨ ∃ i e, (i, e) ∈ fails ∧ i.toNat = p) ∧
    ¬ (p ∈ out.filterMap linePort ∧ ∃ i e, (i, e) ∈ fails ∧ i.toNat = p)

theorem iter_ports {P : Type} {r : Res P} (h : WF r) :
    (r.iter.map fun x => x.1.toNat) = r.modules.toIndices.map BitVec.toNat := by
  have : r.iter.map Prod.fst = r.modules.toIndices := by
    unfold ModuleResult.iter
    rw [List.map_fst_zip]
    rw [aligned_iff_toIndices.1 h.1]
    exact Nat.le_refl _
  rw [← this, List.map_map]
  rfl

theorem named_of {P : Type} {m : ModuleId} {r : Res P} (hw : WF r) (hp : Partition m r.modules r.failures.modules)
    {out : Lines} (ho : portsOf out = r.iter.map fun x => x.1.toNat) : Named m out (failureLines r.failures) := by
  obtain ⟨h1, -, h3⟩ := C70_lines r.failures hw.2.1
  rw [iter_ports hw] at ho
  have hs : ∀ p, p ∈ portsOf out ↔ Mem r.modules p := by
    intro p
    rw [ho, List.mem_map]
    constructor
    · rintro ⟨i, hi, rfl⟩
      exact mem_toIndices.1 hi
    · intro h
      have hlt : p < 256 := by
        have := mem_lt h
        omega
      have hp8 : (BitVec.ofNat 8 p).toNat = p := by simp [Nat.mod_eq_of_lt hlt]
      exact ⟨BitVec.ofNat 8 p, mem_toIndices.2 (by rw [hp8]; exact h), hp8⟩
  have hf : ∀ p, (∃ i e, (i, e) ∈ failureLines r.failures ∧ i.toNat = p) ↔ Mem r.failures.modules p := by
    intro p
    constructor
    · rintro ⟨i, e, hi, rfl⟩
      exact (h3 i).2 ⟨e, hi⟩
    · intro h
      have hlt : p < 256 := by
        have := mem_lt h
        omega
      have hp8 : (BitVec.ofNat 8 p).toNat = p := by simp [Nat.mod_eq_of_lt hlt]
      obtain ⟨e, he⟩ := (h3 (BitVec.ofNat 8 p)).1 (by rw [hp8]; exact h)
      exact ⟨_, e, he, hp8⟩
  refine ⟨?_, ?_, fun p => ?_⟩
  · show (portsOf out).Pairwise _
    rw [ho, List.pairwise_map]
    exact (toIndices_sorted _).imp fun h => h
  · rw [h1]
    exact toIndices_sorted _
  · have := hp p
    rw [show List.filterMap linePort out = portsOf out from rfl, hs, hf]
    exact this

theorem rounds_wf {m : ModuleId} {rds : List MemoryRead} {t : List Exchange} {rs : List (Res Bytes)}
    (h : Rounds m rds t rs) (hlen : ∀ rd ∈ rds, rd.len ≠ 0) (hc : Conforming t) :
    ∀ r ∈ rs, WF r ∧ Partition m r.modules r.failures.modules := by
  induction h with
  | nil => simp
  | cons h1 h2 ih =>
    rw [conforming_append] at hc
    intro r hr
    rcases List.mem_cons.1 hr with rfl | hr
    · exact read_ok (hlen _ List.mem_cons_self) h1 hc.1
    · exact ih (fun rd h => hlen rd (List.mem_cons_of_mem _ h)) hc.2 r hr

theorem readMany_ok {m : ModuleId} {rds : List MemoryRead} (hlen : ∀ rd ∈ rds, rd.len ≠ 0) {t : List Exchange}
    {r : Res Bytes} (h : Runs (readMany m rds) t (.ok r)) (hc : Conforming t) :
    WF r ∧ Partition m r.modules r.failures.modules := by
  rcases C63_outcome_partial m rds hlen h hc with ⟨_, _, _, _, _, _, e, -, -, -, -, h⟩ | ⟨rs, res, h1, -, h2, h3⟩ | ⟨_, _, _, -, -, -, h⟩
  · cases h
  · cases h2
    have hw := rounds_wf h1 hlen hc
    refine ⟨h3.wf, fun p => ⟨?_, fun h => h3.wf.2.2 p h⟩⟩
    have hs := h3.succeeded p
    have hf := h3.failed (fun r hr => (hw r hr).1) p
    constructor
    · intro hm
      by_cases hx : ∃ r ∈ rs, Failed r p
      · exact .inr (hf.2 hx)
      · exact .inl (hs.2 ⟨hm, fun r hr hf => hx ⟨r, hr, hf⟩⟩)
    · rintro (h | h)
      · exact (hs.1 h).1
      · obtain ⟨r, hr, h⟩ := hf.1 h
        exact ((hw r hr).2 p).1.2 (.inr h)
  · cases h

theorem statusCmd_ok {m : ModuleId} {t : List Exchange} {r : Res U32} (h : Runs (statusCmd m) t (.ok r))
    (hc : Conforming t ∨ ∃ x y, t = [x, y] ∧ Conforms y) : WF r ∧ Partition m r.modules r.failures.modules := by
  obtain ⟨rep, ⟨rfl, h1, -⟩ | ⟨rep', e, rfl, h1, h2⟩⟩ := runs_statusCmd h
  · rcases hc with hc | ⟨x, y, hxy, -⟩
    · obtain ⟨-, res, -, h2, h3⟩ := extendedStatus_spec h1 hc
      cases h2
      exact ⟨h3.wf, h3.split⟩
    · cases hxy
  · have hy : Conforming [(Call.host (.status m), rep')] := by
      rcases hc with hc | ⟨x, y, hxy, hy⟩
      · exact fun x hx => hc x (List.mem_cons_of_mem _ hx)
      · cases hxy
        simpa [Conforming] using hy
    rcases h2 with ⟨st, h2, h3⟩ | ⟨e, -, h3⟩ | ⟨-, h3⟩
    · cases h3
      obtain ⟨-, res, -, h4, h5⟩ := status_spec h2 hy
      cases h4
      refine ⟨⟨?_, h5.wf.2.1, h5.wf.2.2⟩, h5.split⟩
      have := h5.wf.1
      unfold Aligned at *
      simpa using this
    · cases h3
    · cases h3

theorem parse_ok {P : Type} {d : ModuleDecoder P} (hd : NonemptyReads d) {m : ModuleId} {t : List Exchange} {r : Res P}
    (h : Runs (parseModulesByIdentifier d m) t (.ok r)) (hc : Conforming t) :
    WF r ∧ Partition m r.modules r.failures.modules := by
  obtain ⟨t₁, t₂, -, -, h⟩ := C41_attributed d hd m t _ h hc
  exact ⟨h.wf, h.split⟩

theorem readCmd_named {m : ModuleId} {binary : Bool} {page : Except MgmtError Page} {offset len : U8}
    {a : TableArgs DataField} (ha : a.parseable = false) (hl : len ≠ 0) {t : List Exchange} {out : Lines}
    {fails : List (U8 × TransceiverError)}
    (h : Runs (readCmd false m binary page offset len a) t (.ok (.done out fails))) (hc : Conforming t) :
    Named m out fails := by
  unfold readCmd at h
  rw [if_neg hl] at h
  split at h
  · cases (runs_ret.1 h).2
  · split at h
    · cases (runs_ret.1 h).2
    · cases (runs_panic.1 h).2
    · rename_i reads hr
      obtain ⟨r, ls, h1, h2, h3⟩ := showing_ok h
      cases h3
      obtain ⟨h4, h5⟩ := readMany_ok (covers_len (buildReads_spec hr).1) h1 hc
      refine named_of h4 h5 ?_
      unfold TableArgs.kind dataTable at h2
      rw [ha] at h2
      refine portsOf_table h2 (by decide) fun port x l hl => ?_
      cases hl
      rw [List.append_assoc, List.append_assoc]
      exact linePort_portColumn _ _ (by simp)

theorem kind_default {F : Type} {a : TableArgs F} (h : a.parseable = false) : a.kind = .default (!a.omitHeader) := by
  unfold TableArgs.kind
  rw [h]
  rfl

/-- After a command that prints a table in the default form, or monitors or datapaths, and that ends normally, with
`--ignore-errors` not given: every module selected is named once. For datapaths, the grid the `tabled` crate draws must not
look like such a line. -/
theorem C91_named (fmt : Fmt) (hf : ∀ g, linePort (fmt.grid g) = none) (m : ModuleId) (cmd : Cmd) (hcmd : Tabular cmd)
    (t : List Exchange) (out : Lines) (fails : List (U8 × TransceiverError))
    (h : Runs (dispatch fmt false m cmd) t (.ok (.done out fails))) (ht : Conforming t) : Named m out fails := by
  have sp : ∀ {l : List Char}, ∀ c, (chars!" " ++ l).head? = some c → c = ' ' := by
    intro l c hc
    simpa using hc.symm
  cases cmd with
  | status w wo all parseable output sep omitHeader =>
    rw [dispatch] at h
    split at h
    · rename_i kind hk
      obtain ⟨r, ls, h1, h2, h3⟩ := showing_ok h
      cases h3
      obtain ⟨h4, h5⟩ := statusCmd_ok h1 (.inl ht)
      refine named_of h4 h5 (portsOf_status ?_ h2)
      rintro rfl
      have hp : parseable = false := hcmd
      subst hp
      revert hk
      cases w <;> cases wo <;> cases all <;> simp [statusKind]
    · cases (runs_panic.1 h).2
  | power a =>
    obtain ⟨r, ls, h1, h2, h3⟩ := showing_ok h
    cases h3
    obtain ⟨x, t₁, t₂, readable, -, -, -, -, -, h4, h5, -⟩ := power_spec h1 ht
    rw [kind_default hcmd] at h2
    refine named_of h4 h5 (portsOf_table h2 (by decide) fun port x l hl => ?_)
    cases hl
    rw [List.append_assoc, List.append_assoc, List.append_assoc]
    exact linePort_portColumn _ _ sp
  | identify a =>
    obtain ⟨r, ls, h1, h2, h3⟩ := showing_ok h
    cases h3
    obtain ⟨res, h4, -, h5⟩ := identifier_spec h1 ht
    cases h4
    rw [kind_default hcmd] at h2
    refine named_of h5.wf h5.split (portsOf_table h2 (by decide) fun port x l hl => ?_)
    cases hl
    rw [List.append_assoc, List.append_assoc, List.append_assoc]
    exact linePort_portColumn _ _ sp
  | vendorInfo a =>
    obtain ⟨r, ls, h1, h2, h3⟩ := showing_ok h
    cases h3
    obtain ⟨h4, h5⟩ := parse_ok C41_decoders.2.1 h1 ht
    rw [kind_default hcmd] at h2
    refine named_of h4 h5 (portsOf_table h2 (by decide) fun port x l hl => ?_)
    cases hl
    unfold vendorRow
    rw [List.append_assoc]
    exact linePort_portColumn _ _ sp
  | readLower cmis binary offset len a => exact readCmd_named (page := .ok (lowerPage cmis)) hcmd.1 hcmd.2 h ht
  | readUpper cmis binary page bank offset len a => exact readCmd_named hcmd.1 hcmd.2 h ht
  | memoryModel a =>
    obtain ⟨r, ls, h1, h2, h3⟩ := showing_ok h
    cases h3
    obtain ⟨h4, h5⟩ := parse_ok C41_decoders.2.2.1 h1 ht
    rw [kind_default hcmd] at h2
    refine named_of h4 h5 (portsOf_table h2 (by decide) fun port x l hl => ?_)
    cases hm : modelText x with
    | ok tx =>
      rw [hm] at hl
      cases hl
      rw [List.append_assoc]
      exact linePort_portColumn _ _ sp
    | err e => rw [hm] at hl; cases hl
    | panic => rw [hm] at hl; cases hl
  | leds a =>
    obtain ⟨r, ls, h1, h2, h3⟩ := showing_ok h
    cases h3
    obtain ⟨-, res, -, h4, h5⟩ := leds_spec h1 ht
    cases h4
    rw [kind_default hcmd] at h2
    refine named_of h5.wf h5.split (portsOf_table h2 (by decide) fun port x l hl => ?_)
    cases hl
    rw [List.append_assoc]
    exact linePort_portColumn _ _ sp
  | monitors a =>
    obtain ⟨r, ls, h1, h2, h3⟩ := showing_ok h
    cases h3
    obtain ⟨h4, h5⟩ := parse_ok C41_decoders.2.2.2.1 h1 ht
    rw [kind_default hcmd] at h2
    exact named_of h4 h5 (portsOf_monitors h2)
  | datapath =>
    obtain ⟨r, ls, h1, h2, h3⟩ := showing_ok h
    cases h3
    cases h2
    obtain ⟨h4, h5⟩ := parse_ok C41_decoders.2.2.2.2 h1 ht
    exact named_of h4 h5 (portsOf_datapaths hf r)
  | _ => exact absurd hcmd id

/-- The same for `status` if the SP does not know the request for the extended status. -/
theorem C91_fallback (fmt : Fmt) (m : ModuleId) (w wo : Option U32) (all : Bool) (output : List StatusField)
    (sep : Option (List Char)) (omitHeader : Bool) (x y : Exchange) (out : Lines)
    (fails : List (U8 × TransceiverError))
    (h : Runs (dispatch fmt false m (.status w wo all false output sep omitHeader)) [x, y] (.ok (.done out fails)))
    (hy : Conforms y) : Named m out fails := by
  rw [dispatch] at h
  split at h
  · rename_i kind hk
    obtain ⟨r, ls, h1, h2, h3⟩ := showing_ok h
    cases h3
    obtain ⟨h4, h5⟩ := statusCmd_ok h1 (.inr ⟨x, y, rfl, hy⟩)
    refine named_of h4 h5 (portsOf_status ?_ h2)
    rintro rfl
    revert hk
    cases w <;> cases wo <;> cases all <;> simp [statusKind]
  · cases (runs_panic.1 h).2

/-- The layout of the examples meets the hypothesis. -/
theorem plainFmt_grid (g : List Lines) : linePort (plainFmt.grid g) = none := by
  unfold linePort plainFmt
  have h1 : ('#' :: (g.map List.flatten).flatten).take 5 ≠ ['P', 'o', 'r', 't', ' '] := by
    intro h
    rw [List.take_succ_cons, List.cons.injEq] at h
    exact absurd h.1 (by decide)
  simp only [if_neg h1]
  rw [List.dropWhile_cons_of_neg (by decide), List.takeWhile_cons_of_pos (by decide)]
  exact if_pos (.inr (by rw [List.any_cons]; simp [show isDigit '#' = false by decide]))

/-- Power modes of ports 1, 2 and 4. -/
example : ((dispatch plainFmt false ⟨0b10110⟩ (.power ⟨false, [], none, false⟩)).exec toolBench.sp []).2 =
    .ok (.done [chars!"Port  Power  Software-override", chars!"   1  High   Yes", chars!"   2  Low    Yes"]
      [(4, .hardware 4 .disabledBySp none)]) := by
  decide +kernel

/-- What a reader makes of such lines. -/
example : [chars!"Port  Power  Software-override", chars!"   1  Low    Yes", chars!"Port 12", chars!"  Tx bias: 4",
    chars!"  31 Present"].filterMap linePort = [1, 12, 31] := by
  decide +kernel

end Xcvr
