import Verif.Lemmas.ErrText
import Verif.Lemmas.Honest
import Verif.Props.CliMain
import Verif.Props.Info

/-! # The failures listed on standard error: C109, C110, C111 -/

namespace Xcvr

open Spec Prog Controller

/-! ## C109 -/

/-- **C109**, the text: a list of failures, printed, can be read: which port each is listed for and what it tells. -/
theorem C109_read (fs : List (U8 × TransceiverError)) :
    readFailures (Cli.failureText fs) = some (fs.map fun f => (f.1.toNat, told f.2)) := by
  unfold Cli.failureText
  split
  · rename_i h; rw [h]; rfl
  · rename_i hne
    clear hne
    show (fs.map Cli.failureLine).mapM readFailure = _
    rw [List.mapM_map]
    induction fs with
    | nil => rfl
    | cons f fs ih =>
      rw [List.mapM_cons, Function.comp_apply, readFailure_line f, ih]
      rfl

/-- All of the kinds of errors a result may contain. -/
example : readFailures (Cli.failureText [(3, .hardware 3 .i2cByteNack none), (4, .decode .parseFailed),
    (17, .hardware 17 .unknown (some (.unknownUnknown 0x2a))), (63, .decode (.unsupportedIdentifier (Bf.ofByte 0x2a)))]) =
    some [(3, .hardware 3 .i2cByteNack none), (4, .parseFailed),
      (17, .hardware 17 .unknown (some (.unknownUnknown 0x2a))), (63, .unsupported chars!"Reserved (0x2a)")] := by
  decide +kernel

/-- What is told determines the error, unless it is a management error or an unsupported identifier. -/
theorem C109_distinct {e e' : TransceiverError} (h : told e = told e')
    (hm : told e ≠ .management) (hu : ∀ n, told e ≠ .unsupported n) (hw : ∀ n i f, told e ≠ .wrongInterface n i f) :
    e = e' := by
  cases e with
  | hardware i c u =>
    cases e' with
    | hardware j c' u' =>
      simp only [told, Told.hardware.injEq] at h
      obtain ⟨h1, rfl, rfl⟩ := h
      rw [BitVec.toNat_inj.1 h1]
    | decode d => cases d <;> cases h
    | mgmt | port | invalidInterfaceForModule => cases h
  | decode d =>
    cases d with
    | unsupportedIdentifier id => exact absurd rfl (hu _)
    | management m => exact absurd rfl hm
    | _ =>
      cases e' with
      | decode d' => cases d' <;> cases h <;> rfl
      | hardware | mgmt | port | invalidInterfaceForModule => cases h
  | mgmt m =>
    cases e' with
    | decode d' => cases d' <;> cases h
    | mgmt => cases h; rfl
    | hardware | port | invalidInterfaceForModule => cases h
  | port p =>
    cases e' with
    | decode d' => cases d' <;> cases h
    | port p' =>
      simp only [told, Told.port.injEq, BitVec.toNat_inj] at h
      cases p; cases p'; simp_all
    | hardware | mgmt | invalidInterfaceForModule => cases h
  | invalidInterfaceForModule i id f => exact absurd rfl (hw _ _ _)

/-! ## C110 -/

theorem said_hardware {t : List Exchange} {p : Nat} {e : TransceiverError} (h : SaidOf t p e) :
    ∃ c u, e = .hardware (BitVec.ofNat 8 p) c u := by
  obtain ⟨x, -, h⟩ := h
  unfold errIn at h
  split at h
  · rename_i R d _
    cases hc : errorCode R d p with
    | none => rw [hc] at h; cases h
    | some b =>
      rw [hc] at h
      cases h
      exact ⟨_, _, rfl⟩
  · cases h

/-- **C110**, all methods, whatever the SP answers: a hardware error in a result is one that the SP reported, for the
module the error names; all others come from decoding. There is an error for each failed module. -/
theorem C110_said {P : Type} {p : Prog (Res P)} (hp : Method p) {t : List Exchange} {res : Res P}
    (h : Runs p t (.ok res)) :
    (∀ e ∈ res.failures.errors, Founded t e) ∧ card res.failures.modules ≤ res.failures.errors.length := by
  have := honest_runs (honest_method (S := SaidOf t) hp) h fun x hx p e he => ⟨x, hx, he⟩
  exact ⟨this.2, this.1⟩

/-- **C111**, what holds of methods: those that do not decode list each error for the module it belongs to, also if the SP reports on modules it was
not asked about, or more than once. -/
theorem C111_own_partial {P : Type} {p : Prog (Res P)} (hp : PlainMethod p) {t : List Exchange} {res : Res P}
    (h : Runs p t (.ok res)) :
    (∀ x ∈ res.failures.iter, SaidOf t x.1.toNat x.2) ∧ Aligned res.failures.modules res.failures.errors := by
  have := honest_runs (honest_plain (S := SaidOf t) hp) h fun x hx p e he => ⟨x, hx, he⟩
  exact ⟨own_iter this, this.1⟩

namespace Cli

/-- What a run that ends normally lists. -/
def Lists (Q : U8 × TransceiverError → Prop) : Exit → Prop
  | .done _ fs => (fs.map Prod.fst).Pairwise (· < ·) ∧ ∀ f ∈ fs, Q f
  | .refused _ => True

theorem listed_ports {i : Bool} {f : FailedModules TransceiverError} :
    ((listed i f).map Prod.fst).Pairwise (· < ·) ∧ ∀ x ∈ listed i f, x ∈ f.iter := by
  unfold listed failureLines
  split
  · simp
  · split
    · exact ⟨zip_sorted _ _, fun x hx => hx⟩
    · simp

variable {S : Nat → TransceiverError → Prop}

theorem honest_print {Q : Lines → Prop} (hQ : ∀ l, Q l) (x : Exec Unit Lines) : Honest S Q (print x) := by
  unfold print
  split
  · exact hQ _
  · trivial
  · trivial

theorem honest_showing {P : Type} {i : Bool} {op : Prog (Res P)} {text : Res P → Exec Unit Lines}
    {Q : Res P → Prop} {T : U8 × TransceiverError → Prop} (hop : Honest S Q op)
    (hQ : ∀ r, Q r → ∀ x ∈ r.failures.iter, T x) : Honest S (Lists T) (showing i op text) :=
  honest_bind hop fun r hr => honest_bind (Q := fun _ => True) (honest_print (fun _ => trivial) _) fun _ _ =>
    ⟨listed_ports.1, fun x hx => hQ r hr x (listed_ports.2 x hx)⟩

theorem honest_acting {i : Bool} {op : Prog (Res Unit)} {Q : Res Unit → Prop} {T : U8 × TransceiverError → Prop}
    (hop : Honest S Q op) (hQ : ∀ r, Q r → ∀ x ∈ r.failures.iter, T x) : Honest S (Lists T) (acting i op) :=
  honest_bind hop fun r hr => ⟨listed_ports.1, fun x hx => hQ r hr x (listed_ports.2 x hx)⟩

theorem own_append {a b c : Res Bytes} (ha : OwnResult S a) (hb : OwnResult S b)
    (h : ModuleResult.append a b = some c) : OwnResult S c := by
  unfold ModuleResult.append at h
  split at h
  · cases h
  · split at h
    · cases h
    · dsimp only at h
      split at h
      · cases h
      · cases h
        exact own_merge ha hb

theorem honest_readMany (m : ModuleId) (rds : List MemoryRead) : Honest S (OwnResult S) (readMany m rds) := by
  unfold readMany
  refine honest_exec_bind fun a ha => ?_
  have : OwnResult S a := own_resultSuccess ha
  clear ha
  induction rds generalizing a with
  | nil => exact this
  | cons rd rds ih =>
    refine honest_bind (honest_read m rd) fun b hb => ?_
    split
    · trivial
    · rename_i h
      exact ih _ (own_append this hb h)

theorem honest_statusCmd (m : ModuleId) : Honest S (OwnResult S) (statusCmd m) :=
  honest_orElse (honest_extendedStatus m) fun _ => honest_bind (honest_status m) fun _ h => h

theorem honest_readCmd {i : Bool} {m : ModuleId} {b : Bool} {pg : Except MgmtError Page} {o l : U8}
    {a : TableArgs DataField} : Honest S (Lists fun x => S x.1.toNat x.2) (readCmd i m b pg o l a) := by
  unfold readCmd
  split
  · exact ⟨.nil, by simp⟩
  · split
    · trivial
    · split
      · trivial
      · trivial
      · exact honest_showing (honest_readMany m _) fun _ h => own_iter h

theorem honest_writeCmd {i : Bool} {m : ModuleId} {pg : Except MgmtError Page} {inp : Input} {o : U8} :
    Honest S (Lists fun x => S x.1.toNat x.2) (writeCmd i m pg inp o) := by
  unfold writeCmd
  split
  · trivial
  · trivial
  · split
    · trivial
    · split
      · trivial
      · split
        · trivial
        · exact honest_acting (honest_write m _ _) fun _ h => own_iter h

theorem honest_dispatch_plain (fmt : Fmt) (i : Bool) (m : ModuleId) (cmd : Cmd) (hc : PlainCommand cmd) :
    Honest S (Lists fun x => S x.1.toNat x.2) (dispatch fmt i m cmd) := by
  have act : ∀ q, Honest S (Lists fun x => S x.1.toNat x.2) (acting i (noPayloadRequest q)) := fun q =>
    honest_acting (honest_noPayload q) fun _ h => own_iter h
  rw [dispatch.eq_def]
  cases cmd with
  | vendorInfo | memoryModel | monitors | datapath | power => exact hc.elim
  | setPower s =>
    have : s = .off := hc
    subst this
    exact honest_acting (honest_setPowerOff m) fun _ h => own_iter h
  | status w wo all parseable output sep oh =>
    dsimp only
    split
    · exact honest_showing (honest_statusCmd m) fun _ h => own_iter h
    · trivial
  | reset => exact honest_acting (honest_reset m) fun _ h => own_iter h
  | identify a => exact honest_showing (honest_identifier m) fun _ h => own_iter h
  | readLower => exact honest_readCmd
  | readUpper => exact honest_readCmd
  | writeLower => exact honest_writeCmd
  | writeUpper => exact honest_writeCmd
  | leds a => exact honest_showing (honest_leds m) fun _ h => own_iter h
  | macs s =>
    exact honest_bind (Q := fun _ => True) (honest_true _) fun _ _ =>
      honest_bind (Q := fun _ => True) (honest_true _) fun _ _ => ⟨.nil, by simp⟩
  | _ => exact act _

theorem honest_dispatch (fmt : Fmt) (i : Bool) (m : ModuleId) (cmd : Cmd) :
    Honest S (Lists fun x => AnyOf S x.2) (dispatch fmt i m cmd) := by
  by_cases hc : PlainCommand cmd
  · refine honest_mono (honest_dispatch_plain fmt i m cmd hc) fun a ha => ?_
    cases a with
    | done ls fs => exact ⟨ha.1, fun f hf => .inl ⟨_, ha.2 f hf⟩⟩
    | refused e => trivial
  · have back : ∀ {P : Type} (r : Res P), BackedResult S r → ∀ x ∈ r.failures.iter, AnyOf S x.2 := fun r hr x hx =>
      hr.2 _ (List.of_mem_zip hx).2
    rw [dispatch.eq_def]
    cases cmd with
    | vendorInfo a => exact honest_showing (honest_parse _ m) back
    | memoryModel a => exact honest_showing (honest_parse _ m) back
    | monitors a => exact honest_showing (honest_parse _ m) back
    | datapath => exact honest_showing (honest_parse _ m) back
    | power a => exact honest_showing (honest_power m) back
    | setPower s => exact honest_acting (honest_method (.setPower m s)) back
    | _ => exact absurd trivial hc

/-- **C110**, a run of the tool: failures are listed in the order of ports, each at most once; a hardware error is one that
the SP reported for the module it names. -/
theorem C110_said {fmt : Fmt} {sel : Option Transceivers} {i : Bool} {cmd : Cmd} {t : List Exchange} {ls : Lines}
    {fs : List (U8 × TransceiverError)} (h : Runs (main fmt sel i cmd) t (.ok (.done ls fs))) :
    (fs.map Prod.fst).Pairwise (· < ·) ∧ ∀ f ∈ fs, Founded t f.2 :=
  honest_runs (honest_bind (Q := fun _ => True) (honest_true _) fun m _ => honest_dispatch (S := SaidOf t) fmt i m cmd) h
    fun x hx _ _ he => ⟨x, hx, he⟩

/-- **C111**, what holds of the tool: commands that decode nothing but identifiers list only errors that the SP reported for the port they are listed for. -/
theorem C111_own_partial {fmt : Fmt} {sel : Option Transceivers} {i : Bool} {cmd : Cmd} (hc : PlainCommand cmd)
    {t : List Exchange} {ls : Lines} {fs : List (U8 × TransceiverError)}
    (h : Runs (main fmt sel i cmd) t (.ok (.done ls fs))) : ∀ f ∈ fs, SaidOf t f.1.toNat f.2 :=
  (honest_runs (honest_bind (Q := fun _ => True) (honest_true _) fun m _ =>
    honest_dispatch_plain (S := SaidOf t) fmt i m cmd hc) h fun x hx _ _ he => ⟨x, hx, he⟩).2

/-- **C109**, a run of the tool: standard error can be read, and tells, in the order of ports, which modules failed and
why. -/
theorem C109_tool {fmt : Fmt} {sel : Option Transceivers} {i : Bool} {cmd : Cmd} {t : List Exchange} {ls : Lines}
    {fs : List (U8 × TransceiverError)} (h : Runs (main fmt sel i cmd) t (.ok (.done ls fs))) :
    ∃ ws, readFailures (failureText fs) = some ws ∧ Pairs (fun f w => w.1 = f.1.toNat ∧ told f.2 = w.2) fs ws ∧
      (ws.map Prod.fst).Pairwise (· < ·) := by
  refine ⟨_, C109_read fs, ?_, ?_⟩
  · generalize fs = fs
    induction fs with
    | nil => exact .nil
    | cons f fs ih => exact .cons ⟨rfl, rfl⟩ ih
  · rw [List.map_map, show (Prod.fst ∘ fun f : U8 × TransceiverError => (f.1.toNat, told f.2)) = BitVec.toNat ∘ Prod.fst
      from rfl, ← List.map_map, List.pairwise_map]
    exact (C110_said h).1.imp fun h => h

/-- Commands that decode nothing but identifiers: each line names the module it is listed for, and is about hardware. -/
theorem C111_line_partial {fmt : Fmt} {sel : Option Transceivers} {i : Bool} {cmd : Cmd} (hc : PlainCommand cmd)
    {t : List Exchange} {ls : Lines} {fs : List (U8 × TransceiverError)}
    (h : Runs (main fmt sel i cmd) t (.ok (.done ls fs))) :
    ∃ ws, readFailures (failureText fs) = some ws ∧ ∀ w ∈ ws, ∃ c u, w.2 = .hardware w.1 c u := by
  obtain ⟨ws, h1, h2, -⟩ := C109_tool h
  refine ⟨ws, h1, ?_⟩
  have h3 := C111_own_partial hc h
  clear h h1
  induction h2 with
  | nil => simp
  | cons h _ ih =>
    rename_i f w fs ws _
    intro v hv
    rcases List.mem_cons.1 hv with rfl | hv
    · obtain ⟨c, u, he⟩ := said_hardware (h3 f List.mem_cons_self)
      rw [he] at h
      simp only [told, BitVec.ofNat_toNat, BitVec.setWidth_eq] at h
      exact ⟨c, u, by rw [h.1, h.2]⟩
    · exact ih (fun g hg => h3 g (List.mem_cons_of_mem _ hg)) v hv

/-- Resetting five modules, of which two fail. -/
example : ∃ fs, ((main plainFmt (some (.index ⟨0b11111⟩)) false .reset).exec toolBench.sp []).2 = .ok (.done [] fs) ∧
    failureText fs = [chars!"Some operations failed, errors below", chars!"Port Error",
      chars!"   2 Hardware error accessing module 2: Port is disabled by the SP",
      chars!"   4 Hardware error accessing module 4: Port is disabled by the SP"] :=
  ⟨[(2, .hardware 2 .disabledBySp none), (4, .hardware 4 .disabledBySp none)], by decide +kernel, by decide +kernel⟩

/-- The vendor information of five modules: module 3 fails its read and module 4 its identification, but each is listed
with the error of the other. -/
theorem C111_counterexample : ∃ ls fs,
    ((main plainFmt (some (.index ⟨0b11111⟩)) false (.vendorInfo ⟨false, [], none, false⟩)).exec infoBench.sp []).2 =
      .ok (.done ls fs) ∧
    failureText fs = [chars!"Some operations failed, errors below", chars!"Port Error",
      chars!"   3 Hardware error accessing module 4: Port is disabled by the SP",
      chars!"   4 Hardware error accessing module 3: Port is disabled by the SP"] := by
  have h : (match ((main plainFmt (some (.index ⟨0b11111⟩)) false
      (.vendorInfo ⟨false, [], none, false⟩)).exec infoBench.sp []).2 with
      | .ok (.done _ fs) => fs
      | _ => []) = [(3, .hardware 4 .disabledBySp none), (4, .hardware 3 .disabledBySp none)] := by decide +kernel
  split at h
  · rename_i ls fs h'
    exact ⟨ls, fs, h', by rw [h]; decide +kernel⟩
  · cases h

/-- **C111** is false: a line may name another module than the one it is listed for. -/
theorem C111_false : ¬ ∀ (fmt : Fmt) (sel : Option Transceivers) (i : Bool) (cmd : Cmd) (t : List Exchange) (ls : Lines)
    (fs : List (U8 × TransceiverError)), Runs (main fmt sel i cmd) t (.ok (.done ls fs)) → Conforming t →
    ∀ ws, readFailures (failureText fs) = some ws → ∀ w ∈ ws, ∀ n c u, w.2 = .hardware n c u → n = w.1 := by
  intro h
  obtain ⟨ls, fs, h1, h2⟩ := C111_counterexample
  obtain ⟨hr, hc⟩ := main_bench infoBench plainFmt (some (.index ⟨0b11111⟩)) false (.vendorInfo ⟨false, [], none, false⟩)
  rw [h1] at hr
  have h3 : readFailures (failureText fs) =
      some [(3, .hardware 4 .disabledBySp none), (4, .hardware 3 .disabledBySp none)] := by rw [h2]; decide +kernel
  have := h _ _ _ _ _ _ _ hr hc _ h3 _ List.mem_cons_self 4 _ _ rfl
  omega

end Cli

end Xcvr
