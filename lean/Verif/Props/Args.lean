import Verif.Model.Args
import Verif.Props.CliAbort

/-!
# C149, C150, C151: the declared arguments

C149: within a command an option letter or name means one option. C150: the rules that the attributes declare are enough for
`main`, which relies on them. C151: options that have no effect are refused.
-/

namespace Xcvr

open Spec Prog Cli Controller

/-! ## C149: letters and names -/

/-- Two options of a command with the same letter. -/
def Spec.ShareLetter (s : Sub) (o o' : Opt) (c : Char) : Prop :=
  o ∈ s.options ∧ o' ∈ s.options ∧ o.letter = some c ∧ o'.letter = some c

/-- Two options of a command with the same name. -/
def Spec.ShareName (s : Sub) (o o' : Opt) (n : List Char) : Prop :=
  o ∈ s.options ∧ o' ∈ s.options ∧ o.longName = some n ∧ o'.longName = some n

theorem no_shared_letter : ∀ s : Sub, s ≠ .readUpper → ∀ o ∈ s.options, ∀ o' ∈ s.options, o.letter ≠ none →
    o.letter = o'.letter → o = o' := by
  intro s hs
  cases s <;> first | exact absurd rfl hs | decide +kernel

theorem no_shared_name : ∀ s : Sub, ∀ o ∈ s.options, ∀ o' ∈ s.options, o.longName ≠ none →
    o.longName = o'.longName → o = o' := by
  intro s
  cases s <;> decide +kernel

theorem shared_readUpper : ∀ o ∈ Sub.readUpper.options, ∀ o' ∈ Sub.readUpper.options, o.letter ≠ none →
    o.letter = o'.letter → o ≠ o' →
    o.letter = some 'p' ∧ (o.name = chars!"page" ∧ o'.name = chars!"parseable" ∨
      o.name = chars!"parseable" ∧ o'.name = chars!"page") := by
  decide +kernel

/-- C149, except for the letters of `read-upper`: no two options of a command share a letter or a name. -/
theorem C149_distinct_partial (s : Sub) (o o' : Opt) :
    (∀ c, s ≠ .readUpper → ShareLetter s o o' c → o = o') ∧ (∀ n, ShareName s o o' n → o = o') :=
  ⟨fun _ hs ⟨h1, h2, h3, h4⟩ => no_shared_letter s hs o h1 o' h2 (by rw [h3]; nofun) (h3.trans h4.symm),
    fun _ ⟨h1, h2, h3, h4⟩ => no_shared_name s o h1 o' h2 (by rw [h3]; nofun) (h3.trans h4.symm)⟩

/-- C149: in `read-upper` the letter `p` stands for the page and for the parseable form, and no other letter is shared. -/
theorem C149_read_upper (o o' : Opt) (c : Char) (h : ShareLetter .readUpper o o' c) (hn : o ≠ o') :
    c = 'p' ∧ (o.name = chars!"page" ∧ o'.name = chars!"parseable" ∨
      o.name = chars!"parseable" ∧ o'.name = chars!"page") := by
  obtain ⟨h1, h2, h3, h4⟩ := h
  obtain ⟨h5, h6⟩ := shared_readUpper o h1 o' h2 (by rw [h3]; nofun) (h3.trans h4.symm) hn
  exact ⟨Option.some.inj (h3.symm.trans h5), h6⟩

/-- C149 as stated is false. -/
theorem C149_false : ¬ ∀ (s : Sub) (o o' : Opt) (c : Char), ShareLetter s o o' c → o = o' := fun h =>
  absurd (h .readUpper { name := chars!"page", short := true } { name := chars!"parseable", short := true } 'p'
    ⟨by decide +kernel, by decide +kernel, by decide +kernel, by decide +kernel⟩) (by decide +kernel)

/-- A letter of another command. -/
example : ShareLetter .writeUpper { name := chars!"page", short := true } { name := chars!"page", short := true } 'p' :=
  ⟨by decide +kernel, by decide +kernel, by decide +kernel, by decide +kernel⟩

/-! ## C150: the rules are enough -/

/-- The command that some arguments stand for: the kind of module is that of the flag. -/
def Spec.standsFor : RawCmd → Cmd
  | .status w wo all parseable output sep omitHeader => .status w wo all parseable output sep omitHeader
  | .power a => .power a
  | .identify a => .identify a
  | .vendorInfo a => .vendorInfo a
  | .memoryModel a => .memoryModel a
  | .leds a => .leds a
  | .monitors a => .monitors a
  | .readLower _ cmis binary offset len a => .readLower cmis binary offset len a
  | .writeLower _ cmis _ input offset => .writeLower cmis input offset
  | .readUpper _ cmis binary page bank offset len a => .readUpper cmis binary page bank offset len a
  | .writeUpper _ cmis _ input page bank offset => .writeUpper cmis input page bank offset
  | .macs summary => .macs summary
  | .reset => .reset
  | .setPower s => .setPower s
  | .enablePower => .enablePower
  | .disablePower => .disablePower
  | .assertReset => .assertReset
  | .deassertReset => .deassertReset
  | .assertLpMode => .assertLpMode
  | .deassertLpMode => .deassertLpMode
  | .clearPowerFault => .clearPowerFault
  | .clearDisableLatch => .clearDisableLatch
  | .setLeds s => .setLeds s
  | .datapath => .datapath

theorem rule_of {c : RawCmd} (h : c.accepted = true) {r : Rule} (hr : r ∈ c.sub.rules) : r.met c.given = true :=
  List.all_eq_true.1 h r hr

theorem readRaw_eq {ign : Bool} {m : ModuleId} {sff cmis binary : Bool} {page : Bool → Except MgmtError Page}
    {offset len : U8} {a : TableArgs DataField} (h : (sff != cmis) = true) :
    readRaw ign m sff cmis binary page offset len a = readCmd ign m binary (page cmis) offset len a := by
  cases sff <;> cases cmis <;> first | exact absurd h (by decide) | (unfold readRaw; split <;> simp [readCmd, *])

theorem loadRaw_eq {file : Bool} {i : Input} (h : (!file || i.kind.isSome) = true) : loadRaw file i = i.load := by
  cases file
  · rfl
  · unfold loadRaw Input.load
    obtain ⟨kind, content, nread⟩ := i
    cases kind with
    | none => cases h
    | some kind =>
      cases content with
      | none => rfl
      | some content =>
        dsimp only [loadWriteData]
        rw [if_pos rfl]
        cases loadKnownWriteData kind content nread <;> rfl

theorem writeRaw_eq {ign : Bool} {m : ModuleId} {sff cmis file : Bool} {page : Bool → Except MgmtError Page} {input : Input}
    {offset : U8} (h : (sff != cmis) = true) (hf : (!file || input.kind.isSome) = true) :
    writeRaw ign m sff cmis file page input offset = writeCmd ign m (page cmis) input offset := by
  unfold writeRaw writeCmd
  rw [loadRaw_eq hf]
  cases sff <;> cases cmis <;> first | exact absurd h (by decide) | rfl

/-- C150: on arguments that the rules let through, `main`, which has branches for all combinations, does what it does on
the command they stand for: the flags for the kind of module name one kind, and a file comes with a kind of input. -/
theorem C150_same (fmt : Fmt) (sel : Option Transceivers) (ign : Bool) (c : RawCmd) (h : c.accepted = true) :
    mainRaw fmt sel ign c = main fmt sel ign (standsFor c) := by
  have hd : ∀ m, dispatchRaw fmt ign m c = dispatch fmt ign m (standsFor c) := by
    intro m
    cases c with
    | readLower sff cmis binary offset len a =>
      have h1 := rule_of h (r := .exactlyOne chars!"sff" chars!"cmis") (by simp [RawCmd.sub, Sub.rules])
      have h3 : (sff != cmis) = true := by simpa [Rule.met, RawCmd.given, RawCmd.options, tableGiven] using h1
      exact readRaw_eq (page := fun c => .ok (lowerPage c)) h3
    | readUpper sff cmis binary page bank offset len a =>
      have h1 := rule_of h (r := .exactlyOne chars!"sff" chars!"cmis") (by simp [RawCmd.sub, Sub.rules])
      have h3 : (sff != cmis) = true := by simpa [Rule.met, RawCmd.given, RawCmd.options, tableGiven] using h1
      exact readRaw_eq (page := fun c => upperPage c page bank) h3
    | writeLower sff cmis file input offset =>
      have h1 := rule_of h (r := .exactlyOne chars!"sff" chars!"cmis") (by simp [RawCmd.sub, Sub.rules])
      have h2 := rule_of h (r := .needs chars!"input" chars!"input_kind") (by simp [RawCmd.sub, Sub.rules])
      have h3 : (sff != cmis) = true := by simpa [Rule.met, RawCmd.given, RawCmd.options] using h1
      have h4 : (!file || input.kind.isSome) = true := by simpa [Rule.met, RawCmd.given, RawCmd.options] using h2
      exact writeRaw_eq (page := fun c => .ok (lowerPage c)) h3 h4
    | writeUpper sff cmis file input page bank offset =>
      have h1 := rule_of h (r := .exactlyOne chars!"sff" chars!"cmis") (by simp [RawCmd.sub, Sub.rules])
      have h2 := rule_of h (r := .needs chars!"input" chars!"input_kind") (by simp [RawCmd.sub, Sub.rules])
      have h3 : (sff != cmis) = true := by simpa [Rule.met, RawCmd.given, RawCmd.options] using h1
      have h4 : (!file || input.kind.isSome) = true := by simpa [Rule.met, RawCmd.given, RawCmd.options] using h2
      exact writeRaw_eq (page := fun c => upperPage c page bank) h3 h4
    | _ => rfl
  unfold mainRaw main
  simp only [hd]

/-- The flags of `status` are compatible. -/
theorem accepted_status {w wo : Option U32} {all parseable : Bool} {output : List StatusField} {sep : Option (List Char)}
    {omitHeader : Bool} (h : (RawCmd.status w wo all parseable output sep omitHeader).accepted = true) :
    (all = true → w = none ∧ wo = none) ∧ (parseable = true → w = none ∧ wo = none ∧ all = false) := by
  simp only [RawCmd.accepted, RawCmd.sub, Sub.rules, tableRules, List.cons_append, List.nil_append, List.all_cons,
    List.all_nil, Rule.met, RawCmd.given, RawCmd.options, List.any_cons, List.any_nil] at h
  cases w <;> cases wo <;> cases all <;> cases parseable <;> simp_all

/-- What is left of the causes for which a command may abort. -/
def Spec.CauseLeft (m : ModuleId) (t : List Exchange) (c : Cmd) : Prop :=
  match c with
  | .status w wo all parseable _ _ _ =>
    (w.isSome = true ∨ wo.isSome = true) ∧ w.getD 0 = 0 ∧ wo.getD 0 = 0 ∧ all = false ∧ parseable = false
  | c => AbortCause m t c

/-- C150: on such arguments the tool does not abort for a combination of them, apart from `status` with sets of flags that
are all empty. -/
theorem C150_causes_partial (fmt : Fmt) (sel : Option Transceivers) (ign : Bool) (c : RawCmd) (hc : c.accepted = true)
    (t : List Exchange) (h : Runs (mainRaw fmt sel ign c) t .panic) (ht : ProperReplies t) :
    ∃ t₁ t₂ m, t = t₁ ++ t₂ ∧ Runs (addressTransceivers (sel.getD .all)) t₁ (.ok m) ∧ CauseLeft m t₂ (standsFor c) := by
  rw [C150_same fmt sel ign c hc] at h
  obtain ⟨t₁, t₂, m, h1, h2, h3⟩ := C93_causes_partial fmt sel ign _ t h ht
  refine ⟨t₁, t₂, m, h1, h2, ?_⟩
  cases c with
  | status w wo all parseable output sep omitHeader =>
    obtain ⟨ha, hp⟩ := accepted_status hc
    simp only [standsFor, AbortCause] at h3
    simp only [standsFor, CauseLeft]
    cases all <;> cases parseable <;> simp_all
  | _ => exact h3

/-- C150: each rule that `main` relies on is needed. With both kinds of module or none, a read of something aborts, and so
does a write of data that is there; `status` aborts with two forms at once; a file without a kind is refused. -/
theorem C150_needed (fmt : Fmt) (ign : Bool) (m : ModuleId) :
    (∀ (b binary : Bool) (offset len : U8) (a : TableArgs DataField), len ≠ 0 →
      dispatchRaw fmt ign m (.readLower b b binary offset len a) = Prog.panic) ∧
    (∀ (b binary : Bool) (page : U8) (bank : Option U8) (offset len : U8) (a : TableArgs DataField), len ≠ 0 →
      dispatchRaw fmt ign m (.readUpper b b binary page bank offset len a) = Prog.panic) ∧
    (∀ (w wo : Option U32) (all parseable : Bool) (output : List StatusField) (sep : Option (List Char))
      (omitHeader : Bool), (all = true ∧ parseable = true ∨ (w ≠ none ∨ wo ≠ none) ∧ (all = true ∨ parseable = true)) →
      dispatchRaw fmt ign m (.status w wo all parseable output sep omitHeader) = Prog.panic) ∧
    (∀ (b : Bool) (input : Input) (page : U8) (bank : Option U8) (offset : U8) (data : Bytes), input.load = .ok data →
      data.length < 256 → dispatchRaw fmt ign m (.writeLower b b false input offset) = Prog.panic ∧
        dispatchRaw fmt ign m (.writeUpper b b false input page bank offset) = Prog.panic) ∧
    (∀ (sff cmis : Bool) (input : Input) (page : U8) (bank : Option U8) (offset : U8), input.kind = none →
      dispatchRaw fmt ign m (.writeLower sff cmis true input offset) = Prog.ret (.refused .noInput) ∧
        dispatchRaw fmt ign m (.writeUpper sff cmis true input page bank offset) = Prog.ret (.refused .noInput)) := by
  refine ⟨?_, ?_, ?_, ?_, ?_⟩
  · intro b binary offset len a hl
    cases b <;> (simp [dispatchRaw, readRaw]; exact hl)
  · intro b binary page bank offset len a hl
    cases b <;> (simp [dispatchRaw, readRaw]; exact hl)
  · intro w wo all parseable output sep omitHeader h
    cases w <;> cases wo <;> cases all <;> cases parseable <;> simp_all [dispatchRaw, dispatch, statusKind]
  · intro b input page bank offset data hd hl
    have h1 : loadRaw false input = .ok data := hd
    simp only [dispatchRaw, writeRaw, h1, if_neg (Nat.not_le.2 hl)]
    cases b <;> exact ⟨trivial, trivial⟩
  · intro sff cmis input page bank offset hk
    have h1 : loadRaw true input = .err .noInput := by
      unfold loadRaw
      rw [if_pos rfl, hk]
    simp only [dispatchRaw, writeRaw, h1]
    exact ⟨rfl, rfl⟩

/-- C150 as stated is false: the rules let an empty set of flags through, and the tool aborts. -/
theorem C150_false : ¬ ∀ (fmt : Fmt) (sel : Option Transceivers) (c : RawCmd) (t : List Exchange), c.accepted = true →
    c.sub = .status → ProperReplies t → ¬ Runs (mainRaw fmt sel false c) t .panic := by
  intro h
  have hm := main_bench toolBench plainFmt none false (.status (some 0) none false false [] none false)
  refine h plainFmt none (.status (some 0) none false false [] none false) _ (by decide +kernel) rfl
    (properReplies_of_conforming hm.2) ?_
  rw [C150_same _ _ _ _ (by decide +kernel)]
  have h1 := hm.1
  rw [C93_counterexample.1] at h1
  exact h1

/-- Arguments that are let through and arguments that are not. -/
example : (RawCmd.readUpper false true false 0x10 (some 0) 128 8 ⟨true, [.port], none, false⟩).accepted = true ∧
    (RawCmd.readUpper true false false 0 (some 0) 128 8 ⟨false, [], none, false⟩).accepted = false ∧
    (RawCmd.readLower false true false 0 8 ⟨false, [.port], none, false⟩).accepted = false ∧
    (RawCmd.writeLower true false true ⟨none, some [], 0⟩ 0).accepted = false ∧
    (RawCmd.status (some 1) (some 2) false false [] none true).accepted = true ∧
    (RawCmd.status (some 1) none true false [] none false).accepted = false := by
  decide +kernel

/-! ## C151: options without effect are refused -/

/-- The same command without fields and separator, and, for a module that is not CMIS, without a bank. -/
def Spec.withoutIdle : RawCmd → RawCmd
  | .status w wo all false _ _ o => .status w wo all false [] none o
  | .power a => .power (strip a)
  | .identify a => .identify (strip a)
  | .vendorInfo a => .vendorInfo (strip a)
  | .memoryModel a => .memoryModel (strip a)
  | .leds a => .leds (strip a)
  | .monitors a => .monitors (strip a)
  | .readLower sff cmis binary offset len a => .readLower sff cmis binary offset len (strip a)
  | .readUpper sff cmis binary page bank offset len a =>
    .readUpper sff cmis binary page (if cmis then bank else none) offset len (strip a)
  | .writeUpper sff cmis file input page bank offset =>
    .writeUpper sff cmis file input page (if cmis then bank else none) offset
  | c => c
where
  strip {F : Type} (a : TableArgs F) : TableArgs F :=
    if a.parseable then a else ⟨false, [], none, a.omitHeader⟩

theorem strip_kind {F : Type} (a : TableArgs F) : (withoutIdle.strip a).kind = a.kind := by
  unfold withoutIdle.strip
  split
  · rfl
  · rename_i h
    unfold TableArgs.kind
    rw [if_neg h, if_neg Bool.false_ne_true]

theorem upperPage_sff (page : U8) (bank : Option U8) : upperPage false page bank = upperPage false page none := rfl

theorem readCmd_strip {ign : Bool} {m : ModuleId} {binary : Bool} {page : Except MgmtError Page} {offset len : U8}
    {a : TableArgs DataField} :
    readCmd ign m binary page offset len (withoutIdle.strip a) = readCmd ign m binary page offset len a := by
  unfold readCmd
  rw [strip_kind]

/-- C151: fields, a separator and a bank have no effect where the rules refuse them: without them the tool does the same. -/
theorem C151_idle (fmt : Fmt) (ign : Bool) (m : ModuleId) (c : RawCmd) :
    dispatchRaw fmt ign m (withoutIdle c) = dispatchRaw fmt ign m c := by
  cases c with
  | status w wo all parseable output sep o =>
    cases parseable
    · simp only [withoutIdle, dispatchRaw]
      rw [dispatch.eq_def, dispatch.eq_def]
      dsimp only
      cases w <;> cases wo <;> cases all <;> rfl
    · rfl
  | power a => simp only [withoutIdle, dispatchRaw, dispatch, strip_kind]
  | identify a => simp only [withoutIdle, dispatchRaw, dispatch, strip_kind]
  | vendorInfo a => simp only [withoutIdle, dispatchRaw, dispatch, strip_kind]
  | memoryModel a => simp only [withoutIdle, dispatchRaw, dispatch, strip_kind]
  | leds a => simp only [withoutIdle, dispatchRaw, dispatch, strip_kind]
  | monitors a => simp only [withoutIdle, dispatchRaw, dispatch, strip_kind]
  | readLower sff cmis binary offset len a => cases sff <;> cases cmis <;> simp only [withoutIdle, dispatchRaw, readRaw, readCmd_strip]
  | readUpper sff cmis binary page bank offset len a =>
    cases sff <;> cases cmis <;> simp [withoutIdle, dispatchRaw, readRaw, readCmd_strip, upperPage_sff page bank]
  | writeUpper sff cmis file input page bank offset =>
    cases sff <;> cases cmis <;> simp [withoutIdle, dispatchRaw, writeRaw, upperPage_sff page bank]
  | _ => rfl

/-- C151: and they are refused there. -/
theorem C151_refused_partial (c : RawCmd) (h : c.accepted = true) : withoutIdle c = c := by
  have ht : ∀ {F : Type} (a : TableArgs F), (a.output.isEmpty = false → a.parseable = true) →
      (a.outputSeparator.isSome = true → a.parseable = true) → withoutIdle.strip a = a := by
    intro F a h1 h2
    obtain ⟨p, o, s, oh⟩ := a
    cases p
    · cases o <;> cases s <;> simp_all [withoutIdle.strip]
    · rfl
  have hr : ∀ r ∈ c.sub.rules, r.met c.given = true := fun _ hr => rule_of h hr
  cases c with
  | status w wo all parseable output sep o =>
    simp [RawCmd.sub, Sub.rules, tableRules, Rule.met, RawCmd.given, RawCmd.options] at hr
    cases parseable
    · cases output <;> cases sep <;> simp_all [withoutIdle]
    · rfl
  | power a | identify a | vendorInfo a | memoryModel a | leds a | monitors a =>
    simp [RawCmd.sub, Sub.rules, tableRules, Rule.met, RawCmd.given, RawCmd.options, tableGiven] at hr
    simp only [withoutIdle]
    rw [ht a (by grind) (by grind)]
  | readLower sff cmis binary offset len a =>
    simp [RawCmd.sub, Sub.rules, tableRules, Rule.met, RawCmd.given, RawCmd.options, tableGiven] at hr
    simp only [withoutIdle]
    rw [ht a (by grind) (by grind)]
  | readUpper sff cmis binary page bank offset len a =>
    simp [RawCmd.sub, Sub.rules, tableRules, Rule.met, RawCmd.given, RawCmd.options, tableGiven] at hr
    simp only [withoutIdle]
    rw [ht a (by grind) (by grind)]
    clear ht h
    cases sff <;> cases cmis <;> cases bank <;> simp_all
  | writeUpper sff cmis file input page bank offset =>
    simp [RawCmd.sub, Sub.rules, Rule.met, RawCmd.given, RawCmd.options] at hr
    simp only [withoutIdle]
    clear ht h
    cases sff <;> cases cmis <;> cases bank <;> simp_all
  | _ => rfl

/-- C151 as stated is false: `--omit-header` is let through where it has no effect, with all flags or a filter of `status`,
and for monitors in the default form. -/
theorem C151_false :
    (∀ (fmt : Fmt) (ign : Bool) (m : ModuleId) (o : Bool),
      dispatchRaw fmt ign m (.status none none true false [] none o) =
        dispatchRaw fmt ign m (.status none none true false [] none false) ∧
      dispatchRaw fmt ign m (.status (some 1) none false false [] none o) =
        dispatchRaw fmt ign m (.status (some 1) none false false [] none false) ∧
      dispatchRaw fmt ign m (.monitors ⟨false, [], none, o⟩) =
        dispatchRaw fmt ign m (.monitors ⟨false, [], none, false⟩)) ∧
    ∀ o, (RawCmd.status none none true false [] none o).accepted = true ∧
      (RawCmd.status (some 1) none false false [] none o).accepted = true ∧
      (RawCmd.monitors ⟨false, [], none, o⟩).accepted = true :=
  ⟨fun _ _ _ _ => ⟨rfl, rfl, rfl⟩, by decide +kernel⟩

/-- A command that has idle options, and is refused. -/
example : withoutIdle (.power ⟨false, [.port], some [','], true⟩) = .power ⟨false, [], none, true⟩ ∧
    (RawCmd.power ⟨false, [.port], some [','], true⟩).accepted = false :=
  ⟨rfl, by decide +kernel⟩

/-- Arguments that say one thing: one kind of module, one form of output for `status`, and a file with what it holds. -/
def Spec.OneThing : RawCmd → Prop
  | .status w wo all parseable _ _ _ =>
    (all = true → w = none ∧ wo = none ∧ parseable = false) ∧ (parseable = true → w = none ∧ wo = none)
  | .readLower sff cmis _ _ _ _ | .readUpper sff cmis _ _ _ _ _ _ => sff = !cmis
  | .writeLower sff cmis file input _ | .writeUpper sff cmis file input _ _ _ =>
    sff = (!cmis) ∧ (file = true → input.kind ≠ none)
  | _ => True

/-- C151: and nothing else is refused. The arguments of a command are let through exactly when they say one thing and none
of its fields, separator and bank is without effect. -/
theorem C151_exact (c : RawCmd) : c.accepted = true ↔ OneThing c ∧ withoutIdle c = c := by
  have ht : ∀ {F : Type} (a : TableArgs F), withoutIdle.strip a = a ↔
      ((a.output.isEmpty = true ∨ a.parseable = true) ∧ (a.outputSeparator.isSome = false ∨ a.parseable = true)) := by
    intro F a
    obtain ⟨p, o, s, oh⟩ := a
    cases p <;> cases o <;> cases s <;> simp [withoutIdle.strip]
  cases c with
  | status w wo all parseable output sep o =>
    simp [RawCmd.accepted, RawCmd.sub, Sub.rules, tableRules, Rule.met, RawCmd.given, RawCmd.options, OneThing]
    clear ht
    cases parseable <;> cases all <;> cases w <;> cases wo <;> cases output <;> cases sep <;> simp [withoutIdle]
  | power a | identify a | vendorInfo a | memoryModel a | leds a | monitors a =>
    simp [RawCmd.accepted, RawCmd.sub, Sub.rules, tableRules, Rule.met, RawCmd.given, RawCmd.options, tableGiven, OneThing,
      withoutIdle, ht]
  | readLower sff cmis binary offset len a =>
    simp [RawCmd.accepted, RawCmd.sub, Sub.rules, tableRules, Rule.met, RawCmd.given, RawCmd.options, tableGiven, OneThing,
      withoutIdle, ht]
    clear ht
    cases sff <;> cases cmis <;> simp
  | readUpper sff cmis binary page bank offset len a =>
    simp [RawCmd.accepted, RawCmd.sub, Sub.rules, tableRules, Rule.met, RawCmd.given, RawCmd.options, tableGiven, OneThing,
      withoutIdle, ht]
    clear ht
    cases sff <;> cases cmis <;> cases bank <;> simp
  | writeLower sff cmis file input offset =>
    simp [RawCmd.accepted, RawCmd.sub, Sub.rules, Rule.met, RawCmd.given, RawCmd.options, OneThing, withoutIdle]
    clear ht
    cases sff <;> cases cmis <;> cases file <;> cases input.kind <;> simp
  | writeUpper sff cmis file input page bank offset =>
    simp [RawCmd.accepted, RawCmd.sub, Sub.rules, Rule.met, RawCmd.given, RawCmd.options, OneThing, withoutIdle]
    clear ht
    cases sff <;> cases cmis <;> cases file <;> cases input.kind <;> cases bank <;> simp
  | _ => simp [RawCmd.accepted, RawCmd.sub, Sub.rules, OneThing, withoutIdle]

/-- A separator alone, in the parseable form, is let through; a bank for SFF-8636 is not. -/
example : (RawCmd.power ⟨true, [], some [','], false⟩).accepted = true ∧
    (RawCmd.readUpper true false false 0 (some 0) 128 8 ⟨true, [], none, false⟩).accepted = false ∧
    OneThing (.readUpper true false false 0 (some 0) 128 8 ⟨true, [], none, false⟩) :=
  ⟨by decide +kernel, by decide +kernel, rfl⟩

end Xcvr
