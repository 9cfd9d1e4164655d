import Verif.Spec.Flags
import Verif.Props.CliReports

/-! # C98 and C99: what `--omit-header` and `--ignore-errors` change -/

namespace Xcvr

open Spec Prog Cli Controller

/-- The program that revises how a run ends. -/
def revise (f : Lines → Lines) (g : List (U8 × TransceiverError) → List (U8 × TransceiverError)) : Exit → Prog Exit
  | .done out fails => return .done (f out) (g fails)
  | e => return e

theorem runs_revise {p : Prog Exit} {f : Lines → Lines} {g : List (U8 × TransceiverError) → List (U8 × TransceiverError)}
    {t : List Exchange} {o : Exec CtlError Exit} :
    Runs (p >>= revise f g) t o ↔ ∃ o', Runs p t o' ∧ o = revised f g o' := by
  constructor
  · intro h
    rcases runs_bind.1 h with ⟨t1, t2, e, rfl, h1, h2⟩ | ⟨e, h1, h2⟩ | ⟨h1, h2⟩
    · cases e with
      | done out fails =>
        obtain ⟨rfl, h3⟩ := runs_ret.1 h2
        rw [List.append_nil]
        exact ⟨_, h1, h3⟩
      | refused e =>
        obtain ⟨rfl, h3⟩ := runs_ret.1 h2
        rw [List.append_nil]
        exact ⟨_, h1, h3⟩
    · exact ⟨_, h1, h2⟩
    · exact ⟨_, h1, h2⟩
  · rintro ⟨o', h1, h2⟩
    refine runs_bind.2 ?_
    match o', h1, h2 with
    | .ok (.done out fails), h1, h2 => exact .inl ⟨t, [], _, by simp, h1, runs_ret.2 ⟨rfl, h2⟩⟩
    | .ok (.refused e), h1, h2 => exact .inl ⟨t, [], _, by simp, h1, runs_ret.2 ⟨rfl, h2⟩⟩
    | .err e, h1, h2 => exact .inr (.inl ⟨e, h1, h2⟩)
    | .panic, h1, h2 => exact .inr (.inr ⟨h1, h2⟩)

theorem showing_tail {P : Type} {ign : Bool} {op : Prog (Res P)} {text text' : Res P → Exec Unit Lines}
    (h : ∀ r, text' r = List.tail <$> text r) :
    showing ign op text' = showing ign op text >>= revise List.tail id := by
  unfold showing
  rw [bind_assoc']
  congr 1
  funext r
  rw [h r]
  cases text r <;> rfl

theorem table_tail {F P : Type} {head : List Char} {row : U8 → P → Exec Unit (List Char)} {name : F → List Char}
    {cell : F → U8 → P → Exec Unit (List Char)} {a : TableArgs F} (ha : HasHead a) (rows : List (U8 × P)) :
    table head row name cell { a with omitHeader := true }.kind rows =
      List.tail <$> table head row name cell { a with omitHeader := false }.kind rows ∧
    ∀ out, table head row name cell { a with omitHeader := false }.kind rows = .ok out →
      out.head? = some (headOf a head name) := by
  unfold TableArgs.kind headOf
  cases hp : a.parseable with
  | false =>
    simp only [table, Bool.false_eq_true, if_false]
    cases rows.mapM fun r => row r.1 r.2 with
    | ok body => exact ⟨rfl, fun out h => by cases h; rfl⟩
    | err e => exact ⟨rfl, fun out h => by cases h⟩
    | panic => exact ⟨rfl, fun out h => by cases h⟩
  | true =>
    have hl : a.output.length > 0 := List.length_pos_iff.2 (ha hp)
    simp only [table, tableLines, headerLines, if_pos hl, if_true, join_eq]
    generalize rows.mapM (m := Exec Unit) _ = x
    cases x with
    | ok body => exact ⟨rfl, fun out h => by cases h; rfl⟩
    | err e => exact ⟨rfl, fun out h => by cases h⟩
    | panic => exact ⟨rfl, fun out h => by cases h⟩

theorem showing_head {P : Type} {ign : Bool} {op : Prog (Res P)} {text : Res P → Exec Unit Lines} {head : List Char}
    (hh : ∀ r out, text r = .ok out → out.head? = some head) {t : List Exchange} {out : Lines}
    {fails : List (U8 × TransceiverError)} (h : Runs (showing ign op text) t (.ok (.done out fails))) :
    out.head? = some head := by
  unfold showing at h
  rcases runs_bind.1 h with ⟨t1, t2, r, rfl, h1, h2⟩ | ⟨e, h1, h2⟩ | ⟨h1, h2⟩
  · cases hr : text r with
    | ok ls =>
      rw [hr] at h2
      obtain ⟨-, h3⟩ := runs_ret.1 h2
      cases h3
      exact hh r _ hr
    | err e =>
      rw [hr] at h2
      cases (runs_panic.1 h2).2
    | panic =>
      rw [hr] at h2
      cases (runs_panic.1 h2).2
  · cases h2
  · cases h2

/-- What the flag and the header are to two programs. -/
structure Omits (p p' : Prog Exit) (head : List Char) : Prop where
  tail : p' = p >>= revise List.tail id
  head : ∀ {t out fails}, Runs p t (.ok (.done out fails)) → out.head? = some head

theorem omits_showing {P : Type} {ign : Bool} {op : Prog (Res P)} {text text' : Res P → Exec Unit Lines} {head : List Char}
    (h : ∀ r, text' r = List.tail <$> text r ∧ ∀ out, text r = .ok out → out.head? = some head) :
    Omits (showing ign op text) (showing ign op text') head :=
  ⟨showing_tail fun r => (h r).1, fun hr => showing_head (fun r => (h r).2) hr⟩

theorem omits_read {ign : Bool} {m : ModuleId} {binary : Bool} {page : Except MgmtError Page} {offset len : U8}
    (hl : len ≠ 0) {a : TableArgs DataField} (ha : HasHead a) :
    Omits (readCmd ign m binary page offset len { a with omitHeader := false })
      (readCmd ign m binary page offset len { a with omitHeader := true }) (headOf a chars!"Port Data" DataField.name) := by
  unfold readCmd
  rw [if_neg hl, if_neg hl]
  cases page with
  | error e => exact ⟨rfl, fun h => by cases (runs_ret.1 h).2⟩
  | ok page =>
    dsimp only
    cases buildReads page offset len with
    | err e => exact ⟨rfl, fun h => by cases (runs_ret.1 h).2⟩
    | panic => exact ⟨rfl, fun h => by cases (runs_panic.1 h).2⟩
    | ok reads => exact omits_showing fun r => table_tail ha _

theorem omits_dispatch (fmt : Fmt) (ign : Bool) (m : ModuleId) {cmd : Cmd} {head : List Char} (h : Heads cmd head) :
    Omits (dispatch fmt ign m (omitting false cmd)) (dispatch fmt ign m (omitting true cmd)) head := by
  cases h with
  | status => exact omits_showing fun r => ⟨rfl, fun out h => by cases h; rfl⟩
  | statusParseable =>
    refine omits_showing fun r => ⟨rfl, fun out h => ?_⟩
    cases h
    rw [← join_eq]
    rfl
  | power h => exact omits_showing fun r => table_tail h _
  | identify h => exact omits_showing fun r => table_tail h _
  | vendorInfo h => exact omits_showing fun r => table_tail h _
  | readLower h hl => exact omits_read (page := .ok (lowerPage _)) hl h
  | readUpper h hl => exact omits_read hl h
  | memoryModel h => exact omits_showing fun r => table_tail h _
  | leds h => exact omits_showing fun r => table_tail h _
  | @monitors a h hp =>
    refine omits_showing fun r => ?_
    have h1 := table_tail (head := []) (row := fun _ _ => .ok []) (name := MonitorField.name) (cell := MonitorField.cell)
      h r.iter
    unfold TableArgs.kind at h1 ⊢
    rw [hp] at h1 ⊢
    exact h1

/-- **C98**, the part that holds: where the output has a line as its header, `--omit-header` leaves out this line and changes
nothing else, neither the requests nor the outcome. -/
theorem C98_omit_partial (fmt : Fmt) (sel : Option Transceivers) (ign : Bool) (cmd : Cmd) (head : List Char) (hc : Heads cmd head)
    (t : List Exchange) (o : Exec CtlError Exit) :
    Runs (main fmt sel ign (omitting true cmd)) t o ↔
      ∃ o', Runs (main fmt sel ign (omitting false cmd)) t o' ∧ o = revised List.tail id o' := by
  rw [← runs_revise]
  unfold main
  rw [bind_assoc']
  simp only [(omits_dispatch fmt ign _ hc).tail]

/-- **C98**: without the flag the header is there. -/
theorem C98_header (fmt : Fmt) (sel : Option Transceivers) (ign : Bool) (cmd : Cmd) (head : List Char) (hc : Heads cmd head)
    (t : List Exchange) (out : Lines) (fails : List (U8 × TransceiverError))
    (h : Runs (main fmt sel ign (omitting false cmd)) t (.ok (.done out fails))) : out.head? = some head := by
  unfold main at h
  rcases runs_bind.1 h with ⟨t1, t2, r, rfl, h1, h2⟩ | ⟨e, h1, h2⟩ | ⟨h1, h2⟩
  · exact (omits_dispatch fmt ign _ hc).head h2
  · cases h2
  · cases h2

/-- A run for each of the two theorems: module 1 is off; module 3 does not answer. -/
example : (∃ t fails, Runs (dispatch plainFmt false ⟨0b1010⟩ (omitting false (.leds ⟨true, [.led, .port], some ['/'], true⟩))) t
    (.ok (.done [chars!"led/port", chars!"off/1"] fails)) ∧ Conforming t ∧ Faithful pathMemory t ∧ fails.map Prod.fst = [3]) ∧
    Heads (.leds ⟨true, [.led, .port], some ['/'], true⟩) chars!"led/port" :=
  ⟨run_report _ _ _ _ ⟨0b1000⟩ reportStatus (fun _ => 0) (by decide +kernel), .leds fun _ => by simp⟩

example : ∃ t fails, Runs (dispatch plainFmt false ⟨0b1010⟩ (omitting true (.leds ⟨true, [.led, .port], some ['/'], true⟩))) t
    (.ok (.done [chars!"off/1"] fails)) ∧ Conforming t ∧ Faithful pathMemory t ∧ fails.map Prod.fst = [3] :=
  run_report _ _ _ _ ⟨0b1000⟩ reportStatus (fun _ => 0) (by decide +kernel)

/-- **C98** is false: `status` with `--all`, `--with` or `--without` prints its header whether or not the flag is given. -/
theorem C98_ignored (fmt : Fmt) (sel : Option Transceivers) (ign : Bool) (w wo : Option U32) (all : Bool)
    (output : List StatusField) (sep : Option (List Char)) (ho : Bool) (h : all = true ∨ w ≠ none ∨ wo ≠ none) :
    main fmt sel ign (omitting true (.status w wo all false output sep ho)) =
      main fmt sel ign (omitting false (.status w wo all false output sep ho)) := by
  unfold main
  congr 1
  funext m
  simp only [omitting, dispatch]
  cases all with
  | true =>
    cases w <;> cases wo <;> rfl
  | false =>
    cases w with
    | some w => cases wo <;> rfl
    | none =>
      cases wo with
      | some wo => rfl
      | none => rcases h with h | h | h <;> first | cases h | exact absurd rfl h

/-- **C98** is false: with the flag, a header of eleven lines is printed. -/
theorem C98_counterexample : ∃ t fails,
    Runs (dispatch plainFmt false ⟨0b10⟩ (omitting true (.status none none true false [] none true))) t (.ok (.done
      (allHeader ++ [chars!" 1   1   1   1   0   0   0   0   0   0   "]) fails)) ∧ Conforming t ∧ Faithful pathMemory t ∧
    fails.map Prod.fst = [] :=
  run_report _ _ _ _ ⟨0⟩ reportStatus (fun _ => 0) (by decide +kernel)

/-! ## `--ignore-errors` -/

/-- The listing of failures is left out. -/
abbrev Silences (p p' : Prog Exit) : Prop := p' = p >>= revise id fun _ => []

theorem silences_showing {P : Type} {op : Prog (Res P)} {text : Res P → Exec Unit Lines} :
    Silences (showing false op text) (showing true op text) := by
  unfold Silences showing
  rw [bind_assoc']
  congr 1
  funext r
  cases text r <;> rfl

theorem silences_acting {op : Prog (Res Unit)} : Silences (acting false op) (acting true op) := by
  unfold Silences acting
  rw [bind_assoc']
  rfl

theorem silences_read {m : ModuleId} {binary : Bool} {page : Except MgmtError Page} {offset len : U8} {a : TableArgs DataField} :
    Silences (readCmd false m binary page offset len a) (readCmd true m binary page offset len a) := by
  unfold readCmd
  by_cases hl : len = 0
  · rw [if_pos hl, if_pos hl]
    rfl
  · rw [if_neg hl, if_neg hl]
    cases page with
    | error e => rfl
    | ok page =>
      dsimp only
      cases buildReads page offset len with
      | err e => rfl
      | panic => rfl
      | ok reads => exact silences_showing

theorem silences_write {m : ModuleId} {page : Except MgmtError Page} {input : Input} {offset : U8} :
    Silences (writeCmd false m page input offset) (writeCmd true m page input offset) := by
  unfold writeCmd
  cases input.load with
  | err e => rfl
  | panic => rfl
  | ok d =>
    dsimp only
    by_cases hl : 256 ≤ d.length
    · rw [if_pos hl, if_pos hl]
      rfl
    · rw [if_neg hl, if_neg hl]
      cases page with
      | error e => rfl
      | ok page =>
        dsimp only
        cases buildWrite page offset d with
        | error e => rfl
        | ok w => exact silences_acting

theorem silences_dispatch (fmt : Fmt) (m : ModuleId) (cmd : Cmd) :
    Silences (dispatch fmt false m cmd) (dispatch fmt true m cmd) := by
  cases cmd with
  | status w wo all parseable output sep o =>
    simp only [dispatch]
    cases statusKind w wo all parseable with
    | ok kind => exact silences_showing
    | err e => rfl
    | panic => rfl
  | power | identify | vendorInfo | memoryModel | leds | monitors | datapath => exact silences_showing
  | readLower cmis binary offset len a => exact silences_read (page := .ok (lowerPage cmis))
  | readUpper => exact silences_read
  | writeLower cmis input offset => exact silences_write (page := .ok (lowerPage cmis))
  | writeUpper => exact silences_write
  | macs summary =>
    unfold Silences
    rw [dispatch, dispatch, bind_assoc']
    congr 1
    funext r
    cases macTable r summary <;> rfl
  | _ => exact silences_acting

/-- **C99**: with `--ignore-errors` a run makes the same requests and prints the same lines, and lists no failures; whether it
ends normally does not change either. -/
theorem C99_silent (fmt : Fmt) (sel : Option Transceivers) (cmd : Cmd) (t : List Exchange) (o : Exec CtlError Exit) :
    Runs (main fmt sel true cmd) t o ↔
      ∃ o', Runs (main fmt sel false cmd) t o' ∧ o = revised id (fun _ => []) o' := by
  rw [← runs_revise]
  unfold main
  rw [bind_assoc']
  simp only [fun m => (silences_dispatch fmt m cmd : _ = _)]

/-- **C99**: the exit status is the same. -/
theorem C99_status (fmt : Fmt) (sel : Option Transceivers) (cmd : Cmd) (t : List Exchange) (n : Nat) :
    (∃ o, Runs (main fmt sel true cmd) t o ∧ exitStatus o = n) ↔ ∃ o, Runs (main fmt sel false cmd) t o ∧ exitStatus o = n := by
  have hs (o : Exec CtlError Exit) : exitStatus (revised id (fun _ => []) o) = exitStatus o := by
    match o with
    | .ok (.done _ _) | .ok (.refused _) | .err _ | .panic => rfl
  constructor
  · rintro ⟨o, h, rfl⟩
    obtain ⟨o', h1, rfl⟩ := (C99_silent fmt sel cmd t o).1 h
    exact ⟨o', h1, (hs o').symm⟩
  · rintro ⟨o, h, rfl⟩
    exact ⟨_, (C99_silent fmt sel cmd t _).2 ⟨o, h, rfl⟩, hs o⟩

/-- Without the flag the failure of module 4 is listed, with it it is not; module 1 is shown in both cases. -/
example : ∃ t e, Runs (main plainFmt (some (.index ⟨0b10010⟩)) false (.leds ⟨false, [], none, true⟩)) t
      (.ok (.done [chars!"   1 Off"] [(4, e)])) ∧
    Runs (main plainFmt (some (.index ⟨0b10010⟩)) true (.leds ⟨false, [], none, true⟩)) t (.ok (.done [chars!"   1 Off"] [])) :=
  ⟨_, _, toolBench.exec_runs (main plainFmt (some (.index ⟨0b10010⟩)) false (.leds ⟨false, [], none, true⟩)),
    toolBench.exec_runs (main plainFmt (some (.index ⟨0b10010⟩)) true (.leds ⟨false, [], none, true⟩))⟩

end Xcvr
