import Verif.Lemmas.MainText
import Verif.Props.CliExit
import Verif.Props.Grounds
import Verif.Props.ErrText

/-! # The error a run of the tool ends with: C114, C115 -/

namespace Xcvr

open Spec Prog Cli

/-! ## C114 -/

/-- In which step a run failed. -/
def FailedIn (fmt : Fmt) (sel : Transceivers) (i : Bool) (cmd : Cmd) (t : List Exchange) (e : CtlError) (s : Step) : Prop :=
  (Runs (addressTransceivers sel) t (.err e) ∧ selectionStep sel = some s) ∨
  ∃ t₁ t₂ m, t = t₁ ++ t₂ ∧ Runs (addressTransceivers sel) t₁ (.ok m) ∧ Runs (dispatch fmt i m cmd) t₂ (.err e) ∧
    s = commandStep cmd

/-- **C114**, a run that fails: nothing is printed on standard output, the exit status is 1, and standard error can be
read: it tells the step that failed and why, with all particulars. -/
theorem C114_failed (std : StdTexts) {fmt : Fmt} {sel : Option Transceivers} {i : Bool} {cmd : Cmd} {t : List Exchange}
    {e : CtlError} (h : Runs (main fmt sel i cmd) t (.err e)) :
    ∃ out s, Runs (run std fmt sel i cmd) t (.ok out) ∧ out.stdout = [] ∧ out.status = 1 ∧
      FailedIn fmt (sel.getD .all) i cmd t e s ∧ readReport out.stderr = some (s, whyOf e) := by
  unfold main at h
  rcases runs_bind.1 h with ⟨t₁, t₂, m, rfl, h1, h2⟩ | ⟨e', h1, h2⟩ | ⟨-, h2⟩
  · refine ⟨⟨[], errorReport cmd.context (e.chain std), 1⟩, commandStep cmd, ?_, rfl, rfl,
      .inr ⟨t₁, t₂, m, rfl, h1, h2, rfl⟩, readReport_step std (readStep_command cmd) e⟩
    unfold run
    refine runs_bind.2 (.inl ⟨t₁, t₂, .ok m, rfl, runs_attempt_ok h1, ?_⟩)
    refine runs_bind.2 (.inl ⟨t₂, [], .error e, by simp, runs_attempt_err h2, ?_⟩)
    exact runs_ret.2 ⟨rfl, rfl⟩
  · cases h2
    obtain ⟨s, hs⟩ := selection_step h1
    refine ⟨⟨[], errorReport (selectionContext (sel.getD .all)) (e.chain std), 1⟩, s, ?_, rfl, rfl, .inl ⟨h1, hs⟩,
      readReport_step std (readStep_selection hs) e⟩
    unfold run
    refine runs_bind.2 (.inl ⟨t, [], .error e, by simp, runs_attempt_err h1, ?_⟩)
    exact runs_ret.2 ⟨rfl, rfl⟩
  · cases h2

/-- **C114**, an error of the socket: what the standard library says of it is all there, after the words that name it. -/
theorem C114_socket (std : StdTexts) {fmt : Fmt} {sel : Option Transceivers} {i : Bool} {cmd : Cmd} {t : List Exchange}
    (h : Runs (main fmt sel i cmd) t (.err .io)) :
    ∃ out message, Runs (run std fmt sel i cmd) t (.ok out) ∧
      readChain out.stderr = some (message, chars!"Network or I/O error" :: std.io) := by
  unfold main at h
  rcases runs_bind.1 h with ⟨t₁, t₂, m, rfl, h1, h2⟩ | ⟨e', h1, h2⟩ | ⟨-, h2⟩
  · refine ⟨⟨[], errorReport cmd.context (CtlError.chain std .io), 1⟩, cmd.context, ?_, readChain_report _ _⟩
    unfold run
    refine runs_bind.2 (.inl ⟨t₁, t₂, .ok m, rfl, runs_attempt_ok h1, ?_⟩)
    refine runs_bind.2 (.inl ⟨t₂, [], .error .io, by simp, runs_attempt_err h2, ?_⟩)
    exact runs_ret.2 ⟨rfl, rfl⟩
  · cases h2
    refine ⟨⟨[], errorReport (selectionContext (sel.getD .all)) (CtlError.chain std .io), 1⟩, _, ?_, readChain_report _ _⟩
    unfold run
    refine runs_bind.2 (.inl ⟨t, [], .error .io, by simp, runs_attempt_err h1, ?_⟩)
    exact runs_ret.2 ⟨rfl, rfl⟩
  · cases h2

theorem readChain_failures (fs : List (U8 × TransceiverError)) : readChain (failureText fs) = none := by
  unfold failureText
  split <;> rfl

/-- **C114**, a run that ends normally: its output is that of the command, the exit status is 0, and standard error, which
lists the modules that failed, cannot be taken for an error of the run. -/
theorem C114_done (std : StdTexts) {fmt : Fmt} {sel : Option Transceivers} {i : Bool} {cmd : Cmd} {t : List Exchange}
    {ls : Lines} {fs : List (U8 × TransceiverError)} (h : Runs (main fmt sel i cmd) t (.ok (.done ls fs))) :
    Runs (run std fmt sel i cmd) t (.ok ⟨ls, failureText fs, 0⟩) ∧ readReport (failureText fs) = none ∧
      readRefusal (failureText fs) = none ∧ readFailures (failureText fs) = some (fs.map fun f => (f.1.toNat, told f.2)) := by
  refine ⟨?_, by simp [readReport, readChain_failures], by simp [readRefusal, readChain_failures], C109_read fs⟩
  unfold main at h
  obtain ⟨t₁, t₂, m, rfl, h1, h2⟩ := runs_bind_okay h
  unfold run
  refine runs_bind.2 (.inl ⟨t₁, t₂, .ok m, rfl, runs_attempt_ok h1, ?_⟩)
  refine runs_bind.2 (.inl ⟨t₂, [], .ok (.done ls fs), by simp, runs_attempt_ok h2, ?_⟩)
  exact runs_ret.2 ⟨rfl, rfl⟩

/-- A run that aborts aborts. -/
theorem C114_abort (std : StdTexts) {fmt : Fmt} {sel : Option Transceivers} {i : Bool} {cmd : Cmd} {t : List Exchange}
    (h : Runs (main fmt sel i cmd) t .panic) : Runs (run std fmt sel i cmd) t .panic := by
  unfold main at h
  unfold run
  rcases runs_bind.1 h with ⟨t₁, t₂, m, rfl, h1, h2⟩ | ⟨e', h1, h2⟩ | ⟨h1, -⟩
  · refine runs_bind.2 (.inl ⟨t₁, t₂, .ok m, rfl, runs_attempt_ok h1, ?_⟩)
    exact runs_bind.2 (.inr (.inr ⟨runs_attempt_panic h2, rfl⟩))
  · cases h2
  · exact runs_bind.2 (.inr (.inr ⟨runs_attempt_panic h1, rfl⟩))

/-- The cause told determines the error, unless it is one of a module. -/
theorem C114_distinct {e e' : CtlError} (h : whyOf e = whyOf e') (hm : ∀ x, e ≠ .transceiver x) : e = e' := by
  cases e with
  | transceiver x => exact absurd rfl (hm x)
  | _ =>
    cases e' with
    | transceiver x =>
      cases x with
      | decode d => cases d <;> cases h
      | _ => cases h
    | _ => cases h <;> rfl

/-- Two causes that differ in what a module reports are told apart too, but for modules with an unsupported identifier. -/
theorem C114_modules {e e' : TransceiverError} (h : whyOf (.transceiver e) = whyOf (.transceiver e'))
    (hu : ∀ n, told e ≠ .unsupported n) (hw : ∀ n i f, told e ≠ .wrongInterface n i f) : e = e' := by
  have key : ∀ e : TransceiverError, (∃ m, e = .decode (.management m)) ∨
      told e ≠ .management ∧ whyOf (.transceiver e) = .module (told e) none := by
    intro e
    cases e with
    | decode d =>
      cases d with
      | management m => exact .inl ⟨m, rfl⟩
      | _ => exact .inr ⟨fun h => (by cases h), rfl⟩
    | _ => exact .inr ⟨fun h => (by cases h), rfl⟩
  rcases key e with ⟨m, rfl⟩ | ⟨h1, h2⟩
  · rcases key e' with ⟨m', rfl⟩ | ⟨h3, h4⟩
    · simp only [whyOf, Why.module.injEq, Option.some.injEq, true_and] at h
      rw [h]
    · rw [h4] at h
      simp [whyOf] at h
  · rcases key e' with ⟨m', rfl⟩ | ⟨h3, h4⟩
    · rw [h2] at h
      simp [whyOf] at h
    · rw [h2, h4] at h
      simp only [Why.module.injEq, and_true] at h
      exact C109_distinct h h1 hu hw

theorem displays_distinct : ∀ x : Fin 256, ((List.range 256).findIdx fun n =>
    (Bf.ofByte (BitVec.ofNat 8 n) : Identifier).display == (Bf.ofByte (BitVec.ofNat 8 x.val) : Identifier).display) = x.val := by
  decide +kernel

theorem debugs_distinct : ∀ x : Fin 256, ((List.range 256).findIdx fun n =>
    debugText (Bf.ofByte (BitVec.ofNat 8 n) : Identifier) ==
      debugText (Bf.ofByte (BitVec.ofNat 8 x.val) : Identifier)) = x.val := by
  decide +kernel

theorem distinct_of_findIdx {f : U8 → List Char}
    (h : ∀ x : Fin 256, ((List.range 256).findIdx fun n => f (BitVec.ofNat 8 n) == f (BitVec.ofNat 8 x.val)) = x.val)
    (x y : U8) (he : f x = f y) : x = y := by
  have h1 := h ⟨x.toNat, x.isLt⟩
  have h2 := h ⟨y.toNat, y.isLt⟩
  simp only [BitVec.ofNat_toNat, BitVec.setWidth_eq] at h1 h2
  rw [he, h2] at h1
  exact (BitVec.eq_of_toNat_eq h1).symm

/-- The names of identifiers tell their codes. -/
theorem names_distinct :
    (∀ x y : U8, (Bf.ofByte x : Identifier).display = (Bf.ofByte y : Identifier).display → x = y) ∧
    ∀ x y : U8, debugText (Bf.ofByte x : Identifier) = debugText (Bf.ofByte y : Identifier) → x = y :=
  ⟨distinct_of_findIdx (f := fun x => (Bf.ofByte x : Identifier).display) displays_distinct,
    distinct_of_findIdx (f := fun x => debugText (Bf.ofByte x : Identifier)) debugs_distinct⟩

/-- An error of a module that ends a run names an identifier that was read. -/
def NamesKind (e : CtlError) : Prop :=
  ∀ x, e = .transceiver x → (∃ b, x = .decode (.unsupportedIdentifier (Bf.ofByte b))) ∨
    ∃ p b f, x = .invalidInterfaceForModule p (Bf.ofByte b) f

theorem names_kind {sel : Option Transceivers} {cmd : Cmd} {t : List Exchange} {e : CtlError}
    (h : ToolGrounds sel cmd t e) : NamesKind e := by
  have hU : UnknownKind t e → NamesKind e := by
    rintro ⟨p, b, -, -, rfl⟩ x hx
    cases hx
    exact .inl ⟨b, rfl⟩
  have hO : ∀ f, OtherInterface f t e → NamesKind e := by
    rintro f ⟨p, b, -, -, rfl⟩ x hx
    cases hx
    exact .inr ⟨p, b, f, rfl⟩
  have hF : FromOff t e → NamesKind e := by
    rintro ⟨-, rfl⟩ x hx
    cases hx
  rcases h with ⟨c, err, -, rfl⟩ | ⟨c, r, q, -, -, ⟨-, rfl⟩ | ⟨-, _, _, -, rfl⟩ | ⟨_, -, rfl⟩⟩ | h | h
  · intro x hx
    cases err <;> cases hx
  · intro x hx; cases hx
  · intro x hx; cases hx
  · intro x hx; cases hx
  · unfold SelectionGrounds at h
    split at h
    · exact hU h
    · exact h.elim
  · unfold CommandGrounds at h
    split at h
    all_goals first | exact hU h | exact hO _ h | exact h.elim | exact h.elim hU hF

/-- **C114**, different errors have different reports: if two runs, of any commands, fail with the same words, they failed
with the same error, in steps of the same name. -/
theorem C114_same {std std' : StdTexts} {fmt fmt' : Fmt} {sel sel' : Option Transceivers} {i i' : Bool} {cmd cmd' : Cmd}
    {t t' : List Exchange} {e e' : CtlError} {out out' : Outcome}
    (h : Runs (main fmt sel i cmd) t (.err e)) (hr : Runs (run std fmt sel i cmd) t (.ok out))
    (h' : Runs (main fmt' sel' i' cmd') t' (.err e')) (hr' : Runs (run std' fmt' sel' i' cmd') t' (.ok out'))
    (he : out.stderr = out'.stderr) :
    e = e' ∧ ∃ s, FailedIn fmt (sel.getD .all) i cmd t e s ∧ FailedIn fmt' (sel'.getD .all) i' cmd' t' e' s := by
  obtain ⟨o, s, h1, -, -, h2, h3⟩ := C114_failed std h
  obtain ⟨o', s', h1', -, -, h2', h3'⟩ := C114_failed std' h'
  cases (runs_deterministic hr h1 rfl).2
  cases (runs_deterministic hr' h1' rfl).2
  rw [he, h3'] at h3
  simp only [Option.some.injEq, Prod.mk.injEq] at h3
  obtain ⟨rfl, hw⟩ := h3
  have hn := names_kind (C112_tool _ _ _ _ _ _ h)
  have hn' := names_kind (C112_tool _ _ _ _ _ _ h')
  refine ⟨?_, s', h2, h2'⟩
  by_cases hx : ∃ x, e = .transceiver x
  · obtain ⟨x, rfl⟩ := hx
    by_cases hx' : ∃ x', e' = .transceiver x'
    · obtain ⟨x', rfl⟩ := hx'
      rcases hn x rfl with ⟨b, rfl⟩ | ⟨p, b, f, rfl⟩ <;> rcases hn' x' rfl with ⟨b', rfl⟩ | ⟨p', b', f', rfl⟩
      · simp only [whyOf, told, Why.module.injEq, Told.unsupported.injEq, and_true] at hw
        rw [names_distinct.1 _ _ hw]
      · simp [whyOf, told] at hw
      · simp [whyOf, told] at hw
      · simp only [whyOf, told, Why.module.injEq, Told.wrongInterface.injEq, and_true, BitVec.toNat_inj] at hw
        obtain ⟨rfl, h5, rfl⟩ := hw
        rw [names_distinct.2 _ _ h5]
    · exact (C114_distinct hw fun x hx => hx' ⟨x, hx⟩).symm
  · exact C114_distinct hw.symm fun x h => hx ⟨x, h⟩

/-- Texts of the standard library, for the examples. -/
def plainStd : StdTexts :=
  ⟨[chars!"Network is unreachable (os error 101)"], chars!"No such file or directory (os error 2)",
    chars!"invalid digit found in string"⟩

/-- The SP does not answer the third request of `vendor-info`. -/
example : ((run plainStd plainFmt (some (.index ⟨0b111⟩)) false (.vendorInfo ⟨false, [], none, false⟩)).exec
    (silentAt 2 infoBench) []).2 = .ok ⟨[],
      [chars!"Error: Failed to fetch vendor information for transceiver modules", [], chars!"Caused by:",
        chars!"    Maximum number of retries (3) reached without a response"], 1⟩ := by decide +kernel

/-- The chain of causes is numbered. -/
example : readReport [chars!"Error: Failed to get MAC addresses", [], chars!"Caused by:", chars!"    0: Bad MAC address range",
    chars!"    1: The MAC address range is invalid, reason: ZeroStrideOrCount, base: [168, 64, 37, 1, 2, 3], count: 0, stride: 1"] =
    some (.macs, .badRange ⟨.zeroStrideOrCount, ⟨168, 64, 37, 1, 2, 3⟩, 0, 1⟩) := by decide +kernel

/-- A message of the wrong kind is told in full. -/
example : errorReport (Cmd.context .datapath) (CtlError.chain plainStd
      (.unexpectedMessage (.spResponse (.read ⟨0x1f⟩ ⟨0⟩ ⟨.cmis (.upper ⟨some 1, 16⟩), 128, 4⟩)))) =
    [chars!"Error: Failed to get datapath state", [], chars!"Caused by:",
      chars!"    Received an unexpected message type in response: " ++
      chars!"SpResponse(Read { modules: ModuleId(0x1f), failed_modules: ModuleId(0x0), " ++
      chars!"read: MemoryRead { page: Cmis(Upper(UpperPage { bank: Some(1), page: 16 })), offset: 128, len: 4 } })"] := by
  decide +kernel

/-! ## C115 -/

theorem upperPage_own {cmis : Bool} {page : U8} {bank : Option U8} {e : MgmtError} (h : upperPage cmis page bank = .error e) :
    OwnValues.OfPage page bank e := by
  unfold upperPage at h
  cases cmis with
  | true =>
    rw [if_pos rfl] at h
    cases bank with
    | none =>
      dsimp only at h
      unfold cmisNewUnbanked at h
      split at h
      · cases h; rfl
      · cases h
    | some b =>
      dsimp only at h
      unfold cmisNewBanked at h
      split at h
      · cases h; rfl
      · split at h
        · cases h; rfl
        · split at h
          · cases h; rfl
          · cases h
  | false =>
    rw [if_neg (by decide)] at h
    unfold sffUpperPageNew at h
    split at h
    · cases h
    · cases h; rfl

theorem verifyWrite_own {P : Type} [MemoryPage P] {page : P} {offset len : U8} {e : MgmtError}
    (h : MemAccess.newWrite page offset len = .error e) :
    e = .invalidMemoryAccess offset len ∨ e = .invalidOperationSize len (MemoryPage.interface P) := by
  unfold MemAccess.newWrite verifyWrite at h
  split at h
  · rename_i x hx
    cases h
    split at hx
    · cases hx; exact .inl rfl
    · split at hx
      · cases hx; exact .inr rfl
      · cases hx
  · cases h

theorem buildWrite_own {page : Page} {offset : U8} {d : Bytes} {e : MgmtError} {cmis : Bool}
    (hp : page.managementInterface = if cmis then .cmis else .sff8636)
    (h : buildWrite page offset d = .error (.access e)) : OwnValues.OfWrite cmis offset d e := by
  unfold buildWrite at h
  split at h
  · cases h
  · rename_i hl
    have hn : (BitVec.ofNat 8 d.length).toNat = d.length := by
      rw [BitVec.toNat_ofNat]; exact Nat.mod_eq_of_lt (by omega)
    cases page with
    | sff8636 p =>
      dsimp only at h
      cases hw : MemAccess.newWrite p offset (BitVec.ofNat 8 d.length) with
      | ok a => rw [hw] at h; cases h
      | error x =>
        rw [hw] at h
        cases h
        rcases verifyWrite_own hw with rfl | rfl
        · exact ⟨rfl, hn⟩
        · exact ⟨hn, hp⟩
    | cmis p =>
      dsimp only at h
      cases hw : MemAccess.newWrite p offset (BitVec.ofNat 8 d.length) with
      | ok a => rw [hw] at h; cases h
      | error x =>
        rw [hw] at h
        cases h
        rcases verifyWrite_own hw with rfl | rfl
        · exact ⟨rfl, hn⟩
        · exact ⟨hn, hp⟩

theorem collectExec_err {ε α β : Type} {f : α → Exec ε β} {l : List α} {e : ε} (h : collectExec f l = .err e) :
    ∃ a ∈ l, f a = .err e := by
  induction l with
  | nil => cases h
  | cons a l ih =>
    unfold collectExec at h
    cases hf : f a with
    | ok b =>
      rw [hf] at h
      dsimp only at h
      cases hc : collectExec f l with
      | ok bs => rw [hc] at h; cases h
      | err e' =>
        rw [hc] at h
        cases h
        obtain ⟨x, hx, h⟩ := ih hc
        exact ⟨x, List.mem_cons_of_mem _ hx, h⟩
      | panic => rw [hc] at h; cases h
    | err e' => rw [hf] at h; cases h; exact ⟨a, List.mem_cons_self, hf⟩
    | panic => rw [hf] at h; cases h

theorem mem_stepBy {start stop size x : Nat} (hs : 0 < size) (h : x ∈ stepBy start stop size) : start ≤ x ∧ x < stop := by
  unfold stepBy at h
  obtain ⟨k, hk, rfl⟩ := List.mem_map.1 h
  rw [List.mem_range] at hk
  have h1 : k + 1 ≤ (stop - start + (size - 1)) / size := hk
  rw [Nat.le_div_iff_mul_le hs, Nat.add_mul] at h1
  omega

theorem newRead_own {P : Type} [MemoryPage P] {page : P} {offset len : U8} {e : MgmtError}
    (hl : (MemoryPage.minReadSize P).toNat ≤ len.toNat) (hu : len.toNat ≤ (MemoryPage.maxReadSize P).toNat)
    (h : MemAccess.newRead page offset len = .error e) : e = .invalidMemoryAccess offset len := by
  unfold MemAccess.newRead verifyRead at h
  split at h
  · rename_i x hx
    cases h
    split at hx
    · cases hx; rfl
    · split at hx
      · rename_i hb
        simp only [Bool.or_eq_true, decide_eq_true_eq, BitVec.lt_def, GT.gt] at hb
        omega
      · cases hx
  · cases h

theorem buildMany_own {P : Type} [MemoryPage P] {page : P} {size offset len : U8} {e : LargeAccessError}
    (hs : 0 < size.toNat) (h1 : (MemoryPage.minReadSize P).toNat = 1) (hm : size.toNat ≤ (MemoryPage.maxReadSize P).toNat)
    (h : buildMany (MemAccess.newRead page) size offset len = .err e) :
    (e = .byteOutOfRange (offset.toNat + len.toNat) ∧ 256 < offset.toNat + len.toNat) ∨
    ∃ x n, e = .mgmt (.invalidMemoryAccess x n) ∧ offset ≤ x ∧ x.toNat + n.toNat ≤ offset.toNat + len.toNat := by
  unfold buildMany at h
  dsimp only at h
  split at h
  · cases h
    rename_i hgt
    exact .inl ⟨rfl, hgt⟩
  · obtain ⟨a, ha, h⟩ := collectExec_err h
    obtain ⟨ha1, ha2⟩ := mem_stepBy hs ha
    refine .inr ?_
    unfold buildChunk u8TryFromUnwrap at h
    rw [if_pos (by omega)] at h
    dsimp only at h
    rw [if_pos (by omega)] at h
    dsimp only at h
    have hoff : (BitVec.ofNat 8 a).toNat = a := by
      rw [BitVec.toNat_ofNat]; exact Nat.mod_eq_of_lt (by omega)
    have hr : (BitVec.ofNat 8 (offset.toNat + len.toNat - a)).toNat = offset.toNat + len.toNat - a := by
      rw [BitVec.toNat_ofNat]; exact Nat.mod_eq_of_lt (by omega)
    split at h
    · cases h
    · rename_i e' he
      cases h
      have hn : ∀ n : U8, n = (if size ≤ BitVec.ofNat 8 (offset.toNat + len.toNat - a) then size
          else BitVec.ofNat 8 (offset.toNat + len.toNat - a)) →
          1 ≤ n.toNat ∧ n.toNat ≤ size.toNat ∧ a + n.toNat ≤ offset.toNat + len.toNat := by
        rintro n rfl
        split <;> rename_i hle <;> rw [BitVec.le_def, hr] at hle
        · omega
        · rw [hr]; omega
      obtain ⟨hn1, hn2, hn3⟩ := hn _ rfl
      rw [newRead_own (by rw [h1]; exact hn1) (by omega) he]
      exact ⟨_, _, rfl, by rw [BitVec.le_def]; omega, by omega⟩

theorem buildReads_own {page : Page} {offset len : U8} {e : LargeAccessError} (h : buildReads page offset len = .err e) :
    (e = .byteOutOfRange (offset.toNat + len.toNat) ∧ 256 < offset.toNat + len.toNat) ∨
    ∃ x n, e = .mgmt (.invalidMemoryAccess x n) ∧ offset ≤ x ∧ x.toNat + n.toNat ≤ offset.toNat + len.toNat := by
  cases page with
  | sff8636 p => exact buildMany_own (by decide) (by decide) (by decide) h
  | cmis p => exact buildMany_own (by decide) (by decide) (by decide) h

theorem lowerPage_interface (cmis : Bool) :
    (lowerPage cmis).managementInterface = if cmis then .cmis else .sff8636 := by
  cases cmis <;> rfl

theorem upperPage_interface {cmis : Bool} {page : U8} {bank : Option U8} {p : Page} (h : upperPage cmis page bank = .ok p) :
    p.managementInterface = if cmis then .cmis else .sff8636 := by
  unfold upperPage at h
  cases cmis with
  | true =>
    rw [if_pos rfl] at h
    cases bank with
    | none =>
      dsimp only at h
      cases hx : cmisNewUnbanked page <;> rw [hx] at h <;> cases h
      rfl
    | some b =>
      dsimp only at h
      cases hx : cmisNewBanked page b <;> rw [hx] at h <;> cases h
      rfl
  | false =>
    rw [if_neg (by decide)] at h
    cases hx : sffUpperPageNew page <;> rw [hx] at h <;> cases h
    rfl

/-- The errors of a command that is refused are about its own arguments. -/
theorem refused_own {fmt : Fmt} {i : Bool} {m : ModuleId} {cmd : Cmd} {t : List Exchange} {e : SetupError}
    (h : Runs (dispatch fmt i m cmd) t (.ok (.refused e))) : ∃ o, whyRefused cmd e = some o ∧ OwnValues cmd o := by
  have hr := ((dispatch_refusal fmt i m cmd).2 t e h).2
  cases cmd with
  | readLower cmis binary offset len a =>
    obtain ⟨-, -, ⟨e', h1, rfl⟩ | ⟨p, e', h1, h2, rfl⟩⟩ := (readCmd_refusal (page := .ok (lowerPage cmis))).1 h
    · cases h1
    · rcases buildReads_own h2 with ⟨rfl, h3⟩ | ⟨x, n, rfl, h3, h4⟩
      · exact ⟨_, rfl, h3⟩
      · exact ⟨_, rfl, x, n, rfl, h3, h4⟩
  | readUpper cmis binary page bank offset len a =>
    obtain ⟨-, -, ⟨e', h1, rfl⟩ | ⟨p, e', h1, h2, rfl⟩⟩ := (readCmd_refusal (page := upperPage cmis page bank)).1 h
    · exact ⟨_, rfl, rfl, upperPage_own h1⟩
    · rcases buildReads_own h2 with ⟨rfl, h3⟩ | ⟨x, n, rfl, h3, h4⟩
      · exact ⟨_, rfl, h3⟩
      · exact ⟨_, rfl, x, n, rfl, h3, h4⟩
  | writeLower cmis input offset =>
    obtain ⟨-, h1 | ⟨d, h1, ⟨-, rfl⟩ | ⟨-, e', h2, rfl⟩ | ⟨-, p, e', h2, h3, rfl⟩⟩⟩ :=
      (writeCmd_refusal (page := .ok (lowerPage cmis))).1 h
    · cases e with
      | noInput => exact ⟨_, rfl, trivial⟩
      | input e => cases e <;> exact ⟨_, rfl, trivial⟩
      | page => exact hr.elim
      | read => exact hr.elim
      | write e =>
        obtain ⟨d, h2, -⟩ := hr
        rw [h1] at h2
        cases h2
    · exact ⟨_, rfl, trivial⟩
    · cases h2
    · cases e' with
      | tooLong => exact ⟨_, rfl, trivial⟩
      | access e =>
        cases h2
        exact ⟨_, rfl, d, h1, buildWrite_own (lowerPage_interface cmis) h3⟩
  | writeUpper cmis input page bank offset =>
    obtain ⟨-, h1 | ⟨d, h1, ⟨-, rfl⟩ | ⟨-, e', h2, rfl⟩ | ⟨-, p, e', h2, h3, rfl⟩⟩⟩ :=
      (writeCmd_refusal (page := upperPage cmis page bank)).1 h
    · cases e with
      | noInput => exact ⟨_, rfl, trivial⟩
      | input e => cases e <;> exact ⟨_, rfl, trivial⟩
      | page e =>
        obtain ⟨d, h2, -⟩ := hr
        rw [h1] at h2
        cases h2
      | read => exact hr.elim
      | write e =>
        obtain ⟨d, h2, -⟩ := hr
        rw [h1] at h2
        cases h2
    · exact ⟨_, rfl, trivial⟩
    · exact ⟨_, rfl, rfl, upperPage_own h2⟩
    · cases e' with
      | tooLong => exact ⟨_, rfl, trivial⟩
      | access e => exact ⟨_, rfl, d, h1, buildWrite_own (upperPage_interface h2) h3⟩
  | _ => cases e <;> exact hr.elim

/-- **C115**, what holds: a command that is refused prints nothing on standard output, the exit status is 1, and standard
error tells the reason with the values at fault, which are those given. Missing: a read past the end of the memory tells
that, but not which value is at fault (`C115_counterexample`), and one past the end of a page tells a piece of the read. -/
theorem C115_refused_partial {std : StdTexts} (hstd : Foreign std) {fmt : Fmt} {sel : Option Transceivers} {i : Bool}
    {cmd : Cmd} {t : List Exchange} {e : SetupError} (h : Runs (main fmt sel i cmd) t (.ok (.refused e))) :
    ∃ out o, Runs (run std fmt sel i cmd) t (.ok out) ∧ out.stdout = [] ∧ out.status = 1 ∧
      whyRefused cmd e = some o ∧ readRefusal out.stderr = some o ∧ OwnValues cmd o := by
  unfold main at h
  obtain ⟨t₁, t₂, m, rfl, h1, h2⟩ := runs_bind_okay h
  obtain ⟨o, ho, hv⟩ := refused_own h2
  refine ⟨⟨[], e.report std cmd, 1⟩, o, ?_, rfl, rfl, ho, readRefusal_report hstd ho, hv⟩
  unfold run
  refine runs_bind.2 (.inl ⟨t₁, t₂, .ok m, rfl, runs_attempt_ok h1, ?_⟩)
  refine runs_bind.2 (.inl ⟨t₂, [], .ok (.refused e), by simp, runs_attempt_ok h2, ?_⟩)
  exact runs_ret.2 ⟨rfl, rfl⟩

/-- **C115**, what the standard library says of a file that cannot be opened and of a bad number is there too. -/
theorem C115_foreign_partial (std : StdTexts) {fmt : Fmt} {sel : Option Transceivers} {i : Bool} {cmd : Cmd}
    {t : List Exchange} {e : SetupError} (h : Runs (main fmt sel i cmd) t (.ok (.refused e))) :
    ∃ out message causes, Runs (run std fmt sel i cmd) t (.ok out) ∧ readChain out.stderr = some (message, causes) ∧
      (e = .noInput → causes.getLast? = some std.openFile) ∧
      (e = .input .badNumber → causes.getLast? = some std.badNumber) := by
  unfold main at h
  obtain ⟨t₁, t₂, m, rfl, h1, h2⟩ := runs_bind_okay h
  have hrun : Runs (run std fmt sel i cmd) (t₁ ++ t₂) (.ok ⟨[], e.report std cmd, 1⟩) := by
    unfold run
    refine runs_bind.2 (.inl ⟨t₁, t₂, .ok m, rfl, runs_attempt_ok h1, ?_⟩)
    refine runs_bind.2 (.inl ⟨t₂, [], .ok (.refused e), by simp, runs_attempt_ok h2, ?_⟩)
    exact runs_ret.2 ⟨rfl, rfl⟩
  obtain ⟨message, causes, hc⟩ : ∃ message causes, e.report std cmd = errorReport message causes := by
    unfold SetupError.report
    split <;> exact ⟨_, _, rfl⟩
  refine ⟨_, message, causes, hrun, by rw [hc]; exact readChain_report _ _, ?_, ?_⟩
  · rintro rfl
    have := congrArg readChain hc
    rw [SetupError.report, readChain_report, readChain_report] at this
    cases this
    rfl
  · rintro rfl
    have := congrArg readChain hc
    rw [SetupError.report, readChain_report, readChain_report] at this
    cases this
    rfl

/-- A page that does not exist is named. -/
example : ((run plainStd plainFmt (some (.index ⟨1⟩)) false
    (.readUpper false false 0x22 none 128 8 ⟨false, [], none, false⟩)).exec toolBench.sp []).2 = .ok ⟨[],
      [chars!"Error: Invalid SFF-8636 upper page", [], chars!"Caused by:", chars!"    Invalid upper memory page: 0x22"], 1⟩ :=
  by decide +kernel

/-- Reads that end at 300 and at 400 are refused with the same words, which name no value. -/
theorem C115_counterexample :
    ((run plainStd plainFmt (some (.index ⟨1⟩)) false
      (.readUpper false false 0 none 200 100 ⟨false, [], none, false⟩)).exec toolBench.sp []).2 =
    ((run plainStd plainFmt (some (.index ⟨1⟩)) false
      (.readUpper false false 0 none 250 150 ⟨false, [], none, false⟩)).exec toolBench.sp []).2 ∧
    ((run plainStd plainFmt (some (.index ⟨1⟩)) false
      (.readUpper false false 0 none 200 100 ⟨false, [], none, false⟩)).exec toolBench.sp []).2 = .ok ⟨[],
      [chars!"Error: Failed to setup upper page memory read", [], chars!"Caused by:",
        chars!"    End of read (<the value>) is out of the range [0, 255]"], 1⟩ := by decide +kernel

/-- The hypothesis of C115 holds of the texts the standard library has. -/
example : Foreign plainStd := by unfold Foreign plainStd; decide

end Xcvr
