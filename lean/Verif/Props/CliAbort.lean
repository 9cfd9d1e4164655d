import Verif.Props.CliLines
import Verif.Props.NoPanic
import Verif.Props.CliPrint
import Verif.Props.Cli

/-! # C93: when the tool aborts -/

namespace Xcvr

open Spec Prog Cli Controller

/-- Why a command on modules `m` may abort, given its exchanges. -/
def Spec.AbortCause (m : ModuleId) (t : List Exchange) : Cmd → Prop
  /- Flags are asked for but none is named, or flags are combined that `clap` does not let combine. -/
  | .status w wo all parseable _ _ _ =>
    (w.isSome = true ∨ wo.isSome = true) ∧ w.getD 0 = 0 ∧ wo.getD 0 = 0 ∨
    parseable = true ∧ (w.isSome = true ∨ wo.isSome = true ∨ all = true) ∨
    all = true ∧ (w.isSome = true ∨ wo.isSome = true)
  /- A read of several chunks, in which a module failed. -/
  | .readLower cmis _ offset len _ => ∃ rds, buildReads (lowerPage cmis) offset len = .ok rds ∧ 2 ≤ rds.length ∧
      ∃ x ∈ t, ∃ p e, Mem m p ∧ errIn x p = some e
  | .readUpper cmis _ page bank offset len _ => ∃ pg rds, upperPage cmis page bank = .ok pg ∧
      buildReads pg offset len = .ok rds ∧ 2 ≤ rds.length ∧ ∃ x ∈ t, ∃ p e, Mem m p ∧ errIn x p = some e
  /- Input of no declared kind, of one byte or whose third byte does not start a character. -/
  | .writeLower _ input _ | .writeUpper _ input _ _ _ => input.kind = none ∧ ∃ text content,
      input.content = some content ∧ Encodes text content ∧ text ≠ [] ∧ ¬ Boundary text 2
  /- Reserved codes. -/
  | .memoryModel _ => SawReserved (.memoryModel m) t
  | .monitors _ => SawReserved (.monitors m) t
  | .datapath => SawReserved (.datapath m) t
  /- A range of addresses the constructor would have refused. -/
  | .macs summary => summary = false ∧ ∃ x ∈ t, ∃ macs d, responseOf x = some (.macAddrs (.ok macs), d) ∧
      ∀ base count stride, MacAddrs.new base count stride ≠ .ok macs
  | _ => False

/-! ## An error ends every command but `status` -/

abbrev AnyCall : Call → Prop := fun _ => True

theorem all_print {C : Call → Prop} (x : Exec Unit Lines) : AllCalls C (Cli.print x) := by cases x <;> trivial

theorem all_showing {P : Type} {ign : Bool} {op : Prog (Res P)} {text : Res P → Exec Unit Lines} (h : AllCalls AnyCall op) :
    AllCalls AnyCall (showing ign op text) :=
  allCalls_bind h fun _ => allCalls_bind (all_print _) fun _ => allCalls_pure _

theorem all_acting {ign : Bool} {op : Prog (Res Unit)} (h : AllCalls AnyCall op) : AllCalls AnyCall (acting ign op) :=
  allCalls_bind h fun _ => allCalls_pure _

theorem all_readMany (m : ModuleId) (rds : List MemoryRead) : AllCalls AnyCall (readMany m rds) :=
  allCalls_mono (fun _ _ => trivial)
    (allCalls_bind (C := Bench.IsHost) (allCalls_ofExec _) fun _ => isHost_readChunks m rds _)

theorem all_readCmd (ign : Bool) (m : ModuleId) (binary : Bool) (page : Except MgmtError Page) (offset len : U8)
    (a : TableArgs DataField) : AllCalls AnyCall (readCmd ign m binary page offset len a) := by
  unfold readCmd
  split
  · trivial
  · split
    · trivial
    · split
      · trivial
      · trivial
      · exact all_showing (all_readMany _ _)

theorem all_write (m : ModuleId) (w : MemoryWrite) (d : Bytes) : AllCalls AnyCall (Controller.write m w d) := by
  exact allCalls_bind (allCalls_identifier fun _ _ => trivial) fun _ => allCalls_bind (allCalls_ofExec _) fun _ =>
    allCalls_bind (allCalls_writeImpl fun _ => trivial) fun _ => allCalls_pure _

theorem all_writeCmd (ign : Bool) (m : ModuleId) (page : Except MgmtError Page) (input : Input) (offset : U8) :
    AllCalls AnyCall (writeCmd ign m page input offset) := by
  unfold writeCmd
  split
  · trivial
  · trivial
  · split
    · trivial
    · split
      · trivial
      · split
        · trivial
        · exact all_acting (all_write ..)

theorem all_select (s : Transceivers) : AllCalls AnyCall (addressTransceivers s) := by
  cases s with
  | all => trivial
  | present => exact allCalls_bind (allCalls_status trivial) fun _ => allCalls_pure _
  | powerState s => exact allCalls_bind (allCalls_power _ (fun _ _ => trivial) trivial) fun _ => allCalls_pure _
  | kind k => exact allCalls_bind (allCalls_identifier fun _ _ => trivial) fun _ => allCalls_pure _
  | index m => trivial

theorem all_dispatch (fmt : Fmt) (ign : Bool) (m : ModuleId) (cmd : Cmd)
    (hcmd : ∀ w wo all pa out sep oh, cmd ≠ .status w wo all pa out sep oh) :
    AllCalls AnyCall (dispatch fmt ign m cmd) := by
  have hn : ∀ q, AllCalls AnyCall (acting ign (noPayloadRequest q)) :=
    fun q => all_acting (allCalls_noPayloadRequest trivial)
  cases cmd with
  | status w wo all parseable output sep omitHeader => exact absurd rfl (hcmd w wo all parseable output sep omitHeader)
  | reset =>
    exact all_acting (allCalls_bind (allCalls_noPayloadRequest trivial) fun _ =>
      allCalls_bind (allCalls_noPayloadRequest trivial) fun _ => trivial)
  | setPower s =>
    refine all_acting ?_
    cases s with
    | off =>
      exact allCalls_bind (allCalls_noPayloadRequest trivial) fun _ =>
        allCalls_bind (allCalls_noPayloadRequest trivial) fun _ =>
          allCalls_bind (allCalls_noPayloadRequest trivial) fun _ => trivial
    | low => exact allCalls_setPowerOn m true (fun _ _ => trivial) fun _ _ _ _ => trivial
    | high => exact allCalls_setPowerOn m false (fun _ _ => trivial) fun _ _ _ _ => trivial
  | power a => exact all_showing (allCalls_power m (fun _ _ => trivial) trivial)
  | enablePower => exact hn _
  | disablePower => exact hn _
  | assertReset => exact hn _
  | deassertReset => exact hn _
  | assertLpMode => exact hn _
  | deassertLpMode => exact hn _
  | identify a => exact all_showing (allCalls_identifier fun _ _ => trivial)
  | vendorInfo a => exact all_showing (allCalls_parse _ m fun _ _ => trivial)
  | readLower cmis binary offset len a => exact all_readCmd ign m binary (.ok (lowerPage cmis)) offset len a
  | readUpper cmis binary page bank offset len a => exact all_readCmd ..
  | writeLower cmis input offset => exact all_writeCmd ign m (.ok (lowerPage cmis)) input offset
  | writeUpper cmis input page bank offset => exact all_writeCmd ..
  | memoryModel a => exact all_showing (allCalls_parse _ m fun _ _ => trivial)
  | macs summary => exact allCalls_bind (allCalls_macAddrs trivial) fun _ => allCalls_bind (all_print _) fun _ => trivial
  | clearPowerFault => exact hn _
  | clearDisableLatch => exact hn _
  | leds a => exact all_showing (allCalls_leds trivial)
  | setLeds s => exact hn _
  | monitors a => exact all_showing (allCalls_parse _ m fun _ _ => trivial)
  | datapath => exact all_showing (allCalls_parse _ m fun _ _ => trivial)

/-! ## Printing -/

theorem mapM_total {α β : Type} {f : α → Exec Unit β} {xs : List α} (h : ∀ x ∈ xs, ∃ y, f x = .ok y) :
    ∃ ys, xs.mapM f = .ok ys := by
  induction xs with
  | nil => exact ⟨[], rfl⟩
  | cons x xs ih =>
    obtain ⟨y, hy⟩ := h x List.mem_cons_self
    obtain ⟨ys, hys⟩ := ih fun z hz => h z (List.mem_cons_of_mem _ hz)
    exact ⟨y :: ys, by rw [List.mapM_cons, hy, hys]; rfl⟩

theorem tableLines_total {F P : Type} {header : Bool} {name : F → List Char} {cell : F → U8 → P → Exec Unit (List Char)}
    {fields : List F} {sep : List Char} {rows : List (U8 × P)} (hc : ∀ f, ∀ x ∈ rows, ∃ l, cell f x.1 x.2 = .ok l) :
    ∃ ls, tableLines header name cell fields sep rows = .ok ls := by
  unfold tableLines
  have : ∀ x ∈ rows, ∃ l, (fun r : U8 × P => if fields.length > 0 then do
      let cells ← fields.mapM fun f => cell f r.1 r.2
      return [join sep cells]
    else return []) x = .ok l := by
    intro x hx
    dsimp only
    split
    · obtain ⟨cs, h⟩ := mapM_total (f := fun f => cell f x.1 x.2) (xs := fields) fun f _ => hc f x hx
      exact ⟨_, by rw [h]; rfl⟩
    · exact ⟨_, rfl⟩
  obtain ⟨body, hb⟩ := mapM_total this
  exact ⟨_, by rw [hb]; rfl⟩

theorem table_total {F P : Type} {head : List Char} {row : U8 → P → Exec Unit (List Char)} {name : F → List Char}
    {cell : F → U8 → P → Exec Unit (List Char)} {kind : OutputKind F} {rows : List (U8 × P)}
    (hr : ∀ x ∈ rows, ∃ l, row x.1 x.2 = .ok l) (hc : ∀ f, ∀ x ∈ rows, ∃ l, cell f x.1 x.2 = .ok l) :
    ∃ ls, table head row name cell kind rows = .ok ls := by
  cases kind with
  | default header =>
    obtain ⟨body, hb⟩ := mapM_total hr
    exact ⟨_, by unfold table; dsimp only; rw [hb]; rfl⟩
  | parseable header fields sep => exact tableLines_total hc

theorem print_panic {ls : Lines} {t : List Exchange} (h : Runs (Cli.print (.ok ls)) t .panic) : False := by
  cases (runs_ret.1 h).2

theorem showing_panic {P : Type} {ign : Bool} {op : Prog (Res P)} {text : Res P → Exec Unit Lines} {t : List Exchange}
    (h : Runs (showing ign op text) t .panic) :
    Runs op t .panic ∨ ∃ r, Runs op t (.ok r) ∧ ∀ ls, text r ≠ .ok ls := by
  rcases runs_bind.1 h with ⟨t₁, t₂, r, rfl, h1, h2⟩ | ⟨e, -, h2⟩ | ⟨h1, -⟩
  · rcases runs_bind.1 h2 with ⟨t₃, t₄, ls, rfl, h3, h4⟩ | ⟨e, -, h4⟩ | ⟨h3, -⟩
    · cases (runs_ret.1 h4).2
    · cases h4
    · cases hx : text r with
      | ok ls => rw [hx] at h3; exact (print_panic h3).elim
      | err e =>
        rw [hx] at h3
        obtain ⟨rfl, -⟩ := runs_panic.1 h3
        rw [List.append_nil]
        exact .inr ⟨r, h1, fun ls h => by rw [hx] at h; cases h⟩
      | panic =>
        rw [hx] at h3
        obtain ⟨rfl, -⟩ := runs_panic.1 h3
        rw [List.append_nil]
        exact .inr ⟨r, h1, fun ls h => by rw [hx] at h; cases h⟩
  · cases h2
  · exact .inl h1

theorem acting_panic {ign : Bool} {op : Prog (Res Unit)} {t : List Exchange} (h : Runs (acting ign op) t .panic) :
    Runs op t .panic := runs_map_panic h

/-- A decoded value comes from some memory. -/
theorem decoded_memory {P : Type} {d : ModuleDecoder P} (hd : NonemptyReads d)
    (hs : ∀ id, SffModule id → ∃ rds, d.reads id = .ok rds ∧ rds.Pairwise Apart)
    (hm : ∀ id, CmisModule id → ∃ rds, d.reads id = .ok rds ∧ rds.Pairwise Apart)
    (hx : ∀ id, ¬ SffModule id → ¬ CmisModule id → d.reads id = .err (.unsupportedIdentifier id))
    {m : ModuleId} {t : List Exchange} {r : Res P} (h : Runs (parseModulesByIdentifier d m) t (.ok r)) (hc : Conforming t)
    {x : U8 × P} (hx' : x ∈ r.iter) : ∃ id mem, decodeFrom d id mem = .ok x.2 := by
  obtain ⟨t₁, t₂, rfl, -, h⟩ := C41_attributed d hd m t _ h hc
  obtain ⟨b, -, rds, ds, h1, h2, h3⟩ := h.ok _ _ (((C20_iter r).2.1 x.1 x.2).1 hx')
  have hc2 : Conforming t₂ := fun x hx => hc x (List.mem_append_right _ hx)
  have ha : rds.Pairwise Apart := by
    by_cases h4 : SffModule (Bf.ofByte b)
    · obtain ⟨rds', h5, h6⟩ := hs _ h4
      rw [h1] at h5; cases h5; exact h6
    · by_cases h5 : CmisModule (Bf.ofByte b)
      · obtain ⟨rds', h6, h7⟩ := hm _ h5
        rw [h1] at h6; cases h6; exact h7
      · rw [hx _ h4 h5] at h1; cases h1
  refine ⟨Bf.ofByte b, memoryOf rds ds, ?_⟩
  unfold decodeFrom
  rw [h1]
  show d.parse _ _ = _
  rw [← answer_memoryOf ha (dataOf_lengths hc2 h2), h3]

theorem statusTable_total {kind : StatusKind} (hk : ∀ w wo, kind = .limited w wo → w ≠ 0 ∨ wo ≠ 0) (oh : Bool)
    (output : List StatusField) (sep : Option (List Char)) (r : Res U32) :
    ∃ ls, statusTable kind oh output sep r = .ok ls := by
  cases kind with
  | limited w wo =>
    obtain ⟨l, h, -⟩ := limited_mem w wo r (hk w wo rfl)
    exact ⟨_, by unfold statusTable; dsimp only; rw [h]; rfl⟩
  | _ => exact ⟨_, rfl⟩

theorem buildReads_no_panic (page : Page) (offset len : U8) : buildReads page offset len ≠ .panic := by
  cases page with
  | sff8636 p => exact (C11_sff_read p offset len).1
  | cmis p => exact (C11_cmis_read p offset len).1

/-! ## C93 -/

theorem rounds_failed {m : ModuleId} {rds : List MemoryRead} {t : List Exchange} {rs : List (Res Bytes)}
    (h : Rounds m rds t rs) (hlen : ∀ rd ∈ rds, rd.len ≠ 0) (hc : Conforming t) {r : Res Bytes} (hr : r ∈ rs)
    (hf : ¬ Clean r) : ∃ x ∈ t, ∃ p e, Mem m p ∧ errIn x p = some e := by
  induction h with
  | nil => cases hr
  | @cons rd rds t t' r' rs h1 h2 ih =>
    rw [conforming_append] at hc
    rcases List.mem_cons.1 hr with rfl | hr
    · obtain ⟨p, hp⟩ := Classical.not_forall.1 hf
      replace hp := Classical.not_not.1 hp
      obtain ⟨t₁, t₂, rfl, -, ⟨s, res, -, -, -, h3, h4⟩ | ⟨i, b, -, h3, -⟩⟩ := read_spec (hlen _ List.mem_cons_self) h1 hc.1
      · cases h3
        have h5 : (errAmong (t₁ ++ t₂) p).isSome := by
          rw [← h4.err p]
          exact (datum_isSome h4.wf.2.1).2 hp
        obtain ⟨x, hx, h6⟩ := List.findSome?_isSome_iff.1 h5
        obtain ⟨e, he⟩ := Option.isSome_iff_exists.1 h6
        exact ⟨x, List.mem_append_left _ hx, p, e, (h4.split p).1.2 (.inr hp), he⟩
      · cases h3
    · obtain ⟨x, hx, h⟩ := ih (fun rd h => hlen rd (List.mem_cons_of_mem _ h)) hc.2 hr
      exact ⟨x, List.mem_append_right _ hx, h⟩

theorem rounds_length {m : ModuleId} {rds : List MemoryRead} {t : List Exchange} {rs : List (Res Bytes)}
    (h : Rounds m rds t rs) : rs.length = rds.length := by
  induction h with
  | nil => rfl
  | cons _ _ ih => rw [List.length_cons, List.length_cons, ih]

theorem readCmd_panic {ign : Bool} {m : ModuleId} {binary : Bool} {page : Except MgmtError Page} {offset len : U8}
    {a : TableArgs DataField} {t : List Exchange} (h : Runs (readCmd ign m binary page offset len a) t .panic)
    (hc : Conforming t) : ∃ pg rds, page = .ok pg ∧ buildReads pg offset len = .ok rds ∧ 2 ≤ rds.length ∧
      ∃ x ∈ t, ∃ p e, Mem m p ∧ errIn x p = some e := by
  unfold readCmd at h
  split at h
  · cases (runs_ret.1 h).2
  · split at h
    · cases (runs_ret.1 h).2
    · rename_i pg
      split at h
      · cases (runs_ret.1 h).2
      · rename_i hb
        exact absurd hb (buildReads_no_panic _ _ _)
      · rename_i rds hb
        have hlen := covers_len (buildReads_spec hb).1
        rcases showing_panic h with h1 | ⟨r, -, h2⟩
        · rcases C63_outcome_partial m rds hlen h1 hc with ⟨_, _, _, _, _, _, e, -, -, -, -, h⟩ | ⟨_, _, -, -, h, -⟩ |
            ⟨done, rest, rs, h2, h3, ⟨r, hr, hr'⟩, -⟩
          · cases h
          · cases h
          · refine ⟨pg, rds, rfl, hb, ?_, rounds_failed h3 (fun rd h => hlen rd (h2 ▸ List.mem_append_left _ h)) hc
              (List.dropLast_subset _ hr) hr'⟩
            have h4 := List.length_pos_of_mem hr
            rw [List.length_dropLast, rounds_length h3] at h4
            rw [h2, List.length_append]
            omega
        · obtain ⟨ls, h3⟩ := table_total (head := chars!"Port Data")
            (row := fun port d => .ok (portColumn port ++ chars!" [" ++ dataText binary d ++ chars!"]"))
            (name := DataField.name) (cell := DataField.cell binary) (kind := a.kind) (rows := r.iter)
            (fun _ _ => ⟨_, rfl⟩) (fun f _ _ => by cases f <;> exact ⟨_, rfl⟩)
          exact absurd h3 (h2 ls)

theorem writeCmd_panic {ign : Bool} {m : ModuleId} {page : Except MgmtError Page} {input : Input} {offset : U8}
    {t : List Exchange} (h : Runs (writeCmd ign m page input offset) t .panic) (hc : Conforming t) :
    input.kind = none ∧ ∃ text content, input.content = some content ∧ Encodes text content ∧ text ≠ [] ∧
      ¬ Boundary text 2 := by
  unfold writeCmd at h
  split at h
  · cases (runs_ret.1 h).2
  · rename_i hl
    unfold Input.load at hl
    split at hl
    · cases hl
    · rename_i content hcont
      have hp : loadWriteData input.kind content input.nread = .panic := by
        split at hl
        · cases hl
        · cases hl
        · assumption
      cases hk : input.kind with
      | some k =>
        rw [hk] at hp
        exact absurd hp (C64_declared_total _ _ _)
      | none =>
        rw [hk] at hp
        cases hu : fromUtf8 content with
        | error e =>
          unfold loadWriteData at hp
          simp only [hu] at hp
          cases hp
        | ok text =>
          have he : Encodes text content := fromUtf8_iff.1 hu
          exact ⟨rfl, text, content, hcont, he, (C64_aborts he _).1 hp⟩
  · rename_i d hd
    split at h
    · cases (runs_ret.1 h).2
    · split at h
      · cases (runs_ret.1 h).2
      · split at h
        · cases (runs_ret.1 h).2
        · obtain ⟨t₁, t₂, -, -, ⟨i, b, -, h2, -⟩ | ⟨-, -, -, h2⟩ | ⟨-, -, s, rep, res, -, -, h2, -⟩⟩ :=
            C36_write _ _ _ _ _ (acting_panic h) hc <;> cases h2

theorem select_no_panic {s : Transceivers} {t : List Exchange} (h : Runs (addressTransceivers s) t .panic)
    (hc : Conforming t) : False := by
  cases s with
  | all => cases (runs_ret.1 h).2
  | present =>
    obtain ⟨r, res, -, h, -⟩ := status_spec (runs_map_panic h) hc
    cases h
  | powerState s => exact power_no_panic (runs_map_panic h) hc
  | kind k =>
    obtain ⟨res, h, -⟩ := identifier_spec (runs_map_panic h) hc
    cases h
  | index m => cases (runs_ret.1 h).2

theorem dispatch_panic {fmt : Fmt} {ign : Bool} {m : ModuleId} {cmd : Cmd}
    {t : List Exchange} (h : Runs (dispatch fmt ign m cmd) t .panic) (ht : ProperReplies t) : AbortCause m t cmd := by
  have hc : (∀ w wo all pa out sep oh, cmd ≠ .status w wo all pa out sep oh) → Conforming t :=
    fun hs => conforming_of_panic (all_dispatch fmt ign m cmd hs) h ht
  have simple : ∀ {q : HostRequest}, Runs (acting ign (noPayloadRequest q)) t .panic → IsCommand q →
      requestModules q = some m → Conforming t → False := fun h hq hm hc =>
    command_no_panic hq hm (acting_panic h) hc
  cases cmd with
  | status w wo all parseable output sep omitHeader =>
    rw [dispatch] at h
    split at h
    · rename_i kind hk
      rcases showing_panic h with h1 | ⟨r, -, h2⟩
      · exfalso
        obtain ⟨rep, ⟨rfl, h3, -⟩ | ⟨rep', e, rfl, h3, h4⟩⟩ := runs_statusCmd h1
        · obtain ⟨_, _, -, h5, -⟩ := extendedStatus_spec h3
            (conforming_of_panic (allCalls_extendedStatus (C := AnyCall) trivial) h3 ht)
          cases h5
        · rcases h4 with ⟨st, -, h4⟩ | ⟨e, -, h4⟩ | ⟨h4, -⟩
          · cases h4
          · cases h4
          · obtain ⟨_, _, -, h5, -⟩ := status_spec h4 (conforming_of_panic (allCalls_status (C := AnyCall) trivial) h4
              fun x hx => ht x (List.mem_cons_of_mem _ hx))
            cases h5
      · by_cases hw : w.getD 0 = 0 ∧ wo.getD 0 = 0 ∧ (w.isSome = true ∨ wo.isSome = true)
        · exact .inl ⟨hw.2.2, hw.1, hw.2.1⟩
        · exfalso
          obtain ⟨ls, h3⟩ := statusTable_total (kind := kind) (by
            rintro a b rfl
            revert hk hw
            cases w <;> cases wo <;> cases all <;> cases parseable <;> simp [statusKind]
            all_goals (intros; subst_vars)
            · exact .inr ‹_›
            · exact .inl ‹_›
            · exact Decidable.not_and_iff_or_not.1 fun h => ‹_ = _ → ¬ _› h.1 h.2) omitHeader output sep r
          exact h2 ls h3
    · rename_i hk
      cases w <;> cases wo <;> cases all <;> cases parseable <;> simp [statusKind] at hk <;> simp [AbortCause]
  | reset =>
    obtain ⟨x₁, x₂, s, res, -, -, -, -, h, -⟩ := C38_reset m t _ (acting_panic h) (hc (by intros; simp))
    cases h
  | setPower s => exact (setPower_no_panic (acting_panic h) (hc (by intros; simp))).elim
  | power a =>
    rcases showing_panic h with h | ⟨r, -, h2⟩
    · exact (power_no_panic h (hc (by intros; simp))).elim
    · obtain ⟨ls, h3⟩ : ∃ ls, powerTable a.kind r = .ok ls :=
        table_total (fun _ _ => ⟨_, rfl⟩) (fun f _ _ => by cases f <;> exact ⟨_, rfl⟩)
      exact absurd h3 (h2 ls)
  | enablePower => exact (simple h trivial rfl (hc (by intros; simp))).elim
  | disablePower => exact (simple h trivial rfl (hc (by intros; simp))).elim
  | assertReset => exact (simple h trivial rfl (hc (by intros; simp))).elim
  | deassertReset => exact (simple h trivial rfl (hc (by intros; simp))).elim
  | assertLpMode => exact (simple h trivial rfl (hc (by intros; simp))).elim
  | deassertLpMode => exact (simple h trivial rfl (hc (by intros; simp))).elim
  | clearPowerFault => exact (simple h trivial rfl (hc (by intros; simp))).elim
  | clearDisableLatch => exact (simple h trivial rfl (hc (by intros; simp))).elim
  | setLeds s => exact (simple h trivial rfl (hc (by intros; simp))).elim
  | identify a =>
    rcases showing_panic h with h | ⟨r, -, h2⟩
    · obtain ⟨res, h, -⟩ := identifier_spec h (hc (by intros; simp))
      cases h
    · obtain ⟨ls, h3⟩ : ∃ ls, identifyTable a.kind r = .ok ls :=
        table_total (fun _ _ => ⟨_, rfl⟩) (fun f _ _ => by cases f <;> exact ⟨_, rfl⟩)
      exact absurd h3 (h2 ls)
  | vendorInfo a =>
    rcases showing_panic h with h | ⟨r, -, h2⟩
    · exact (vendorInfo_no_panic h (hc (by intros; simp))).elim
    · obtain ⟨ls, h3⟩ : ∃ ls, vendorTable a.kind r = .ok ls :=
        table_total (fun _ _ => ⟨_, rfl⟩) (fun f _ _ => by cases f <;> exact ⟨_, rfl⟩)
      exact absurd h3 (h2 ls)
  | leds a =>
    rcases showing_panic h with h | ⟨r, -, h2⟩
    · obtain ⟨_, _, -, h, -⟩ := leds_spec h (hc (by intros; simp))
      cases h
    · obtain ⟨ls, h3⟩ : ∃ ls, ledTable a.kind r = .ok ls :=
        table_total (fun _ _ => ⟨_, rfl⟩) (fun f _ _ => by cases f <;> exact ⟨_, rfl⟩)
      exact absurd h3 (h2 ls)
  | readLower cmis binary offset len a =>
    obtain ⟨pg, rds, h1, h2, h3⟩ := readCmd_panic (page := .ok (lowerPage cmis)) h (hc (by intros; simp))
    cases h1
    exact ⟨rds, h2, h3⟩
  | readUpper cmis binary page bank offset len a => exact readCmd_panic h (hc (by intros; simp))
  | writeLower cmis input offset => exact writeCmd_panic (page := .ok (lowerPage cmis)) h (hc (by intros; simp))
  | writeUpper cmis input page bank offset => exact writeCmd_panic h (hc (by intros; simp))
  | memoryModel a =>
    have hc := hc (by intros; simp)
    rcases showing_panic h with h | ⟨r, h1, h2⟩
    · exact memoryModel_panic h hc
    · have hm : ∀ x ∈ r.iter, ∃ l, modelText x.2 = .ok l := by
        intro x hx
        obtain ⟨id, mem, h3⟩ := decoded_memory C41_decoders.2.2.1
          (fun _ h => ⟨_, MemoryModel.reads_sff h, by decide⟩) (fun _ h => ⟨_, MemoryModel.reads_cmis h, by decide⟩)
          (fun _ h h' => (C54_refused h h' []).2.2.2.2.1) h1 hc hx
        exact ⟨_, C75_model h3⟩
      obtain ⟨ls, h3⟩ : ∃ ls, modelTable a.kind r = .ok ls := by
        refine table_total (fun x hx => ?_) fun f x hx => ?_
        · obtain ⟨l, hl⟩ := hm x hx
          exact ⟨_, by rw [hl]; rfl⟩
        · cases f with
          | port => exact ⟨_, rfl⟩
          | model => exact hm x hx
      exact absurd h3 (h2 ls)
  | monitors a =>
    have hc := hc (by intros; simp)
    rcases showing_panic h with h | ⟨r, h1, h2⟩
    · exact monitors_panic h hc
    · obtain ⟨ls, h3⟩ : ∃ ls, monitorTable a.kind r = .ok ls := by
        cases a.kind with
        | parseable header fields sep =>
          exact tableLines_total fun f x _ => by cases f <;> exact ⟨_, rfl⟩
        | default header =>
          have hb : ∀ x ∈ r.iter, ∃ l, (fun p : U8 × Monitors => monitorBlock p.1 p.2) x = .ok l := by
            intro x hx
            obtain ⟨id, mem, h3⟩ := decoded_memory C41_decoders.2.2.2.1
              (fun _ h => ⟨_, Monitors.reads_sff h, by decide⟩) (fun _ h => ⟨_, Monitors.reads_cmis h, by decide⟩)
              (fun _ h h' => (C54_refused h h' []).2.2.2.2.2.2.1) h1 hc hx
            obtain ⟨n, h4, -⟩ := C76_name h3
            exact ⟨_, by unfold monitorBlock; dsimp only; rw [h4]; rfl⟩
          obtain ⟨body, h4⟩ := mapM_total hb
          exact ⟨_, by unfold monitorTable; dsimp only; rw [h4]; rfl⟩
      exact absurd h3 (h2 ls)
  | datapath =>
    rcases showing_panic h with h | ⟨r, h1, h2⟩
    · exact datapath_panic h (hc (by intros; simp))
    · exact absurd rfl (h2 _)
  | macs summary =>
    have hc := hc (by intros; simp)
    have key : ∀ R d x, t = [x] → responseOf x = some (.macAddrs R, d) → ∀ {macs}, R = .ok macs →
        (∀ ls, macTable macs summary ≠ .ok ls) → AbortCause m t (.macs summary) := by
      rintro R d x rfl hx macs rfl hn
      cases summary with
      | true => exact absurd rfl (hn _)
      | false =>
        refine ⟨rfl, x, List.mem_cons_self, macs, d, hx, fun base count stride hnew => ?_⟩
        obtain ⟨lines, h1, -⟩ := C78_range base count stride macs hnew
        apply hn lines
        unfold macTable
        rw [if_neg (by simp), h1]
    have hone : ∀ {o}, Runs Controller.macAddrs t o → ∃ R d x, t = [x] ∧ responseOf x = some (.macAddrs R, d) ∧
        o = match R with | .ok macs => .ok macs | .error e => .err (.mac e) := by
      intro o h
      obtain ⟨r, rfl, hr⟩ := C39_mac_addrs t _ h
      obtain ⟨q, R, data, h1, h2, ha⟩ := hc _ (List.mem_cons_self ..)
      cases (show q = .macAddrs from Option.some.inj h1.symm)
      have hk := ha.kind
      cases R <;> simp only [SameKind] at hk
      exact ⟨_, _, _, rfl, h2, hr _ _ h2⟩
    have h' : Runs (Controller.macAddrs >>= fun macs => Cli.print (macTable macs summary) >>= fun ls =>
        (return .done ls [] : Prog Exit)) t .panic := h
    rcases runs_bind.1 h' with ⟨t₁, t₂, macs, rfl, h1, h2⟩ | ⟨e, -, h2⟩ | ⟨h1, -⟩
    · have h3 : t₂ = [] ∧ ∀ ls, macTable macs summary ≠ .ok ls := by
        rcases runs_bind.1 h2 with ⟨t₃, t₄, ls, rfl, h3, h4⟩ | ⟨e, -, h4⟩ | ⟨h3, -⟩
        · cases (runs_ret.1 h4).2
        · cases h4
        · cases hx : macTable macs summary with
          | ok ls => rw [hx] at h3; exact (print_panic h3).elim
          | err e => rw [hx] at h3; exact ⟨(runs_panic.1 h3).1, fun ls h => by cases h⟩
          | panic => rw [hx] at h3; exact ⟨(runs_panic.1 h3).1, fun ls h => by cases h⟩
      obtain ⟨rfl, h4⟩ := h3
      rw [List.append_nil] at *
      obtain ⟨R, d, x, h5, h6, h7⟩ := hone h1
      cases R with
      | ok macs' =>
        cases h7
        exact key _ d x h5 h6 rfl h4
      | error e => cases h7
    · cases h2
    · obtain ⟨R, d, x, -, -, h7⟩ := hone h1
      split at h7 <;> cases h7

/-- Whatever the command, its arguments and the modules selected, and wherever the I/O loop reports errors: the tool aborts
only for one of the causes listed. Missing from C93: these causes. -/
theorem C93_causes_partial (fmt : Fmt) (sel : Option Transceivers) (ign : Bool) (cmd : Cmd) (t : List Exchange)
    (h : Runs (main fmt sel ign cmd) t .panic) (ht : ProperReplies t) :
    ∃ t₁ t₂ m, t = t₁ ++ t₂ ∧ Runs (addressTransceivers (sel.getD .all)) t₁ (.ok m) ∧ AbortCause m t₂ cmd := by
  rcases runs_bind.1 h with ⟨t₁, t₂, m, rfl, h1, h2⟩ | ⟨e, -, h2⟩ | ⟨h1, -⟩
  · exact ⟨t₁, t₂, m, rfl, h1, dispatch_panic h2 fun x hx => ht x (List.mem_append_right _ hx)⟩
  · cases h2
  · exact (select_no_panic h1 (conforming_of_panic (all_select _) h1 ht)).elim

/-- A write whose data meet the cause always aborts, before anything is written. -/
theorem C93_write_aborts {fmt : Fmt} {ign cmis : Bool} {m : ModuleId} {input : Input} {offset : U8} {t : List Exchange}
    {o : Exec CtlError Exit} (hw : AbortCause m t (.writeLower cmis input offset))
    (h : Runs (dispatch fmt ign m (.writeLower cmis input offset)) t o) : t = [] ∧ o = .panic := by
  obtain ⟨hk, text, content, h1, h2, h3⟩ := hw
  have hl : input.load = .panic := by
    unfold Input.load
    rw [h1, hk]
    dsimp only
    rw [(C64_aborts h2 _).2 h3]
  have h' : Runs (writeCmd ign m (.ok (lowerPage cmis)) input offset) t o := h
  unfold writeCmd at h'
  rw [hl] at h'
  exact runs_panic.1 h'

/-- A table of the named flags, when none is named, always aborts, whatever the modules' status. -/
theorem C93_status_aborts {fmt : Fmt} {ign : Bool} {m : ModuleId} {w wo : Option U32} {output : List StatusField}
    {sep : Option (List Char)} {omitHeader : Bool} {t : List Exchange} {o : Exec CtlError Exit}
    (hs : w.isSome = true ∨ wo.isSome = true) (hw : w.getD 0 = 0) (hwo : wo.getD 0 = 0)
    (h : Runs (dispatch fmt ign m (.status w wo false false output sep omitHeader)) t o) :
    o = .panic ∨ ∃ e, o = .err e := by
  have hk : statusKind w wo false false = .ok (.limited 0 0) := by
    revert hs hw hwo
    cases w <;> cases wo <;> simp [statusKind]
    rintro rfl rfl; exact ⟨rfl, rfl⟩
  rw [dispatch, hk] at h
  dsimp only at h
  rcases runs_bind.1 h with ⟨t₁, t₂, r, rfl, h1, h2⟩ | ⟨e, -, rfl⟩ | ⟨h1, rfl⟩
  · rcases runs_bind.1 h2 with ⟨t₃, t₄, ls, rfl, h3, h4⟩ | ⟨e, -, rfl⟩ | ⟨h3, rfl⟩
    · exfalso
      have h5 : statusTable (.limited 0 0) omitHeader output sep r = .panic := by
        unfold statusTable
        dsimp only
        rw [(C69_empty_counterexample r).2]
        rfl
      rw [h5] at h3
      cases (runs_panic.1 h3).2
    · exact .inr ⟨e, rfl⟩
    · exact .inl rfl
  · exact .inr ⟨e, rfl⟩
  · exact .inl rfl

theorem properReplies_of_conforming {t : List Exchange} (hc : Conforming t) : ProperReplies t := by
  refine fun x hx => ⟨?_, fun _ _ => hc x hx⟩
  obtain ⟨q, R, data, -, h, -⟩ := hc x hx
  intro hg
  simp [responseOf, hg] at h

/-- The range of MAC addresses that the constructor would refuse, as an SP might answer. -/
def badRange : List Exchange :=
  [(Call.host .macAddrs, .answer (.ok ⟨Header.new 0 .spResponse, Message.new (.spResponse (.macAddrs (.ok
    ⟨⟨0xA8, 0x40, 0xFF, 0xFF, 0xFF, 0xFF⟩, 2, 1⟩))), none⟩))]

/-- Each cause does abort the tool: no flags named; module 2 failing the first of two chunks; text of one character;
a reserved code; a range of addresses past its end. -/
theorem C93_counterexample :
    ((main plainFmt none false (.status (some 0) none false false [] none false)).exec toolBench.sp []).2 = .panic ∧
    ((main plainFmt (some (.index ⟨0b110⟩)) false (.readLower true false 16 9 ⟨false, [], none, false⟩)).exec
      chunkBench.sp []).2 = .panic ∧
    ((main plainFmt none false (.writeLower true ⟨none, some [0x35], 1⟩ 26)).exec toolBench.sp []).2 = .panic ∧
    ((main plainFmt (some (.index ⟨1⟩)) false (.monitors ⟨false, [], none, false⟩)).exec reservedBench.sp []).2 = .panic ∧
    Runs (main plainFmt none false (.macs false)) badRange .panic := by
  refine ⟨by decide +kernel, by decide +kernel, by decide +kernel, by decide +kernel, ⟨rfl, ?_⟩⟩
  have h : macTable ⟨⟨0xA8, 0x40, 0xFF, 0xFF, 0xFF, 0xFF⟩, 2, 1⟩ false = .panic := by decide +kernel
  show Runs (Cli.print (macTable ⟨⟨0xA8, 0x40, 0xFF, 0xFF, 0xFF, 0xFF⟩, 2, 1⟩ false) >>= fun ls =>
    (return .done ls [] : Prog Exit)) [] .panic
  rw [h]
  exact runs_panic.2 ⟨rfl, rfl⟩

/-- C93 as stated is false. -/
theorem C93_false : ¬ ∀ (fmt : Fmt) (sel : Option Transceivers) (ign : Bool) (cmd : Cmd) (t : List Exchange)
    (o : Exec CtlError Exit), Runs (main fmt sel ign cmd) t o → ProperReplies t → o ≠ .panic := fun h =>
  h _ _ _ _ _ _ (main_bench toolBench plainFmt none false (.writeLower true ⟨none, some [0x35], 1⟩ 26)).1
    (properReplies_of_conforming (main_bench toolBench plainFmt none false (.writeLower true ⟨none, some [0x35], 1⟩ 26)).2)
    C93_counterexample.2.2.1

/-- A run that meets the hypotheses of `C93_causes_partial`. -/
example : ∃ t, Runs (main plainFmt (some (.index ⟨0b110⟩)) false (.readLower true false 16 9 ⟨false, [], none, false⟩)) t
    .panic ∧ ProperReplies t := by
  have h := main_bench chunkBench plainFmt (some (.index ⟨0b110⟩)) false (.readLower true false 16 9 ⟨false, [], none, false⟩)
  rw [C93_counterexample.2.1] at h
  exact ⟨_, h.1, properReplies_of_conforming h.2⟩

end Xcvr
