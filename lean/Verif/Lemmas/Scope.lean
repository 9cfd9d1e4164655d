import Verif.Lemmas.Ops
import Verif.Lemmas.Parse
import Verif.Spec.Scope

/-! # The modules each method addresses -/

namespace Xcvr

open Spec Prog Controller

theorem among_refl (m : ModuleId) : Among m m := fun _ h => h

theorem Spec.Among.trans {a b c : ModuleId} (h : Among a b) (h' : Among b c) : Among a c := fun p hp => h' p (h p hp)

theorem among_empty (m : ModuleId) : Among ModuleId.empty m := fun _ h => absurd h mem_empty

theorem among_merge {a b m : ModuleId} (ha : Among a m) (hb : Among b m) : Among (a.merge b) m := fun p hp =>
  (mem_merge.1 hp).elim (ha p) (hb p)

theorem among_remove {a b m : ModuleId} (ha : Among a m) : Among (a.remove b) m := fun p hp => ha p (mem_remove.1 hp).1

theorem among_filter {T : Type} {a m : ModuleId} (d : List T) (f : U8 → T → Bool) (ha : Among a m) :
    Among (filterModuleData a d f).1 m := by
  intro p hp
  have hz : ∀ x ∈ (a.toIndices.zip d).filter (fun p => f p.1 p.2), Mem a x.1.toNat := fun x hx =>
    mem_toIndices.1 (List.of_mem_zip (List.mem_filter.1 hx).1).1
  unfold filterModuleData at hp
  rw [filterModuleData_fold, mem_fold_set _ _ (fun x hx => mem_lt (hz x hx))] at hp
  rcases hp with hp | ⟨x, hx, rfl⟩
  · exact absurd hp mem_empty
  · exact ha _ (hz x hx)

theorem among_kinds {m : ModuleId} {ids : List Identifier} {ks : List (Identifier × ModuleId)}
    (h : splitModulesByIdentifier m ids = .ok ks) : ∀ k ∈ ks, Among k.2 m := by
  have ha : Aligned m ids := by
    unfold splitModulesByIdentifier at h
    split at h
    · cases h
    · rename_i hc
      rw [count_eq_card] at hc
      exact (Decidable.not_not.1 hc).symm
  obtain ⟨ks', h1, h2⟩ := split_kinds ha
  rw [h] at h1
  cases h1
  intro k hk p hp
  have := (h2.mem k.1 k.2 hk p).1 hp
  exact Decidable.byContradiction fun hn => by rw [datum_none hn] at this; cases this

namespace Prog

variable {α β : Type}

/-- Every call the program makes is about modules of `m` and it succeeds with results satisfying `Q`, as long as the SP's
responses are on topic. -/
def Scoped (m : ModuleId) (Q : α → Prop) : Prog α → Prop
  | ret a => Q a
  | fail _ => True
  | panic => True
  | rpc c k => (∀ r, Addresses m (c, r)) ∧ ∀ r, OnTopic (c, r) → Scoped m Q (k r)

theorem scoped_runs {m : ModuleId} {Q : α → Prop} {p : Prog α} (hp : Scoped m Q p) {t : List Exchange}
    {o : Exec CtlError α} (h : Runs p t o) (ht : ∀ x ∈ t, OnTopic x) :
    (∀ x ∈ t, Addresses m x) ∧ ∀ a, o = .ok a → Q a := by
  induction p generalizing t with
  | ret a =>
    rw [runs_ret] at h
    obtain ⟨rfl, rfl⟩ := h
    exact ⟨by simp, fun b hb => by cases hb; exact hp⟩
  | fail e =>
    rw [runs_fail] at h
    obtain ⟨rfl, rfl⟩ := h
    exact ⟨by simp, fun b hb => by cases hb⟩
  | panic =>
    rw [runs_panic] at h
    obtain ⟨rfl, rfl⟩ := h
    exact ⟨by simp, fun b hb => by cases hb⟩
  | rpc c k ih =>
    rw [runs_rpc] at h
    obtain ⟨r, t', rfl, h⟩ := h
    have := ih r (hp.2 r (ht _ List.mem_cons_self)) h fun x hx => ht x (List.mem_cons_of_mem _ hx)
    refine ⟨fun x hx => ?_, this.2⟩
    rcases List.mem_cons.1 hx with rfl | hx
    · exact hp.1 r
    · exact this.1 x hx

theorem scoped_mono {m : ModuleId} {Q Q' : α → Prop} {p : Prog α} (hp : Scoped m Q p) (h : ∀ a, Q a → Q' a) :
    Scoped m Q' p := by
  induction p with
  | ret a => exact h a hp
  | fail | panic => trivial
  | rpc c k ih => exact ⟨hp.1, fun r hr => ih r (hp.2 r hr)⟩

theorem scoped_widen {m m' : ModuleId} {Q : α → Prop} {p : Prog α} (hp : Scoped m Q p) (h : Among m m') :
    Scoped m' Q p := by
  induction p with
  | ret a => exact hp
  | fail | panic => trivial
  | rpc c k ih => exact ⟨fun r q g hq hg => (hp.1 r q g hq hg).trans h, fun r hr => ih r (hp.2 r hr)⟩

theorem scoped_bind {m : ModuleId} {Q : α → Prop} {Q' : β → Prop} {p : Prog α} {f : α → Prog β} (hp : Scoped m Q p)
    (hf : ∀ a, Q a → Scoped m Q' (f a)) : Scoped m Q' (p >>= f) := by
  induction p with
  | ret a => exact hf a hp
  | fail | panic => trivial
  | rpc c k ih => exact ⟨hp.1, fun r hr => ih r (hp.2 r hr)⟩

theorem scoped_ofExec {m : ModuleId} {x : Exec CtlError α} : Scoped m (fun a => x = .ok a) (ofExec x) := by
  cases x <;> first | exact rfl | trivial

theorem scoped_exec_bind {m : ModuleId} {Q' : β → Prop} {x : Exec CtlError α} {f : α → Prog β}
    (hf : ∀ a, x = .ok a → Scoped m Q' (f a)) : Scoped m Q' (ofExec x >>= f) := scoped_bind scoped_ofExec hf

/-- A call, its response and what follows. -/
theorem scoped_call {m g : ModuleId} {q : HostRequest} {D : Option Bytes} (hq : requestModules q = some g)
    (hg : Among g m) {Q : β → Prop} {k : SpRpcResponse → Prog β}
    (hk : ∀ r, (∀ R s f, r.message.body = .spResponse R → responseModules R = some (s, f) → Among s m ∧ Among f m) →
      Scoped m Q (k r)) : Scoped m Q (call (.host q D) >>= k) := by
  refine ⟨fun r q' g' hq' hg' => ?_, fun r hr => ?_⟩
  · simp only [requestOf, Call.host, Message.new, Option.some.injEq] at hq'
    subst hq'
    rw [hq] at hg'
    cases hg'
    exact hg
  · cases r with
    | gone => trivial
    | answer a =>
      cases a with
      | error e => trivial
      | ok r =>
        refine hk r fun R s f hb hsf => ?_
        have := hr q R r.data g s f rfl (by simp only [responseOf, hb]) hq hsf
        exact ⟨this.1.trans hg, this.2.trans hg⟩

end Prog

theorem hwErrors_modules {f : ModuleId} {d : Bytes} {fm : FailedModules TransceiverError}
    (h : Controller.deserializeHwErrors f d = .ok fm) : fm.modules = f := by
  unfold Controller.deserializeHwErrors at h
  split at h
  · cases h
  · cases h; rfl

theorem scoped_noPayload {m g : ModuleId} {q : HostRequest} (hq : requestModules q = some g) (hg : Among g m) :
    Scoped m (ResultAmong m) (noPayloadRequest q) := by
  unfold noPayloadRequest
  refine scoped_call hq hg fun r hr => ?_
  split
  · rename_i s f hb
    refine scoped_exec_bind fun d _ => scoped_exec_bind fun fm hfm => ?_
    have := hr _ s f hb rfl
    exact ⟨this.1, by show Among fm.modules m; rw [hwErrors_modules hfm]; exact this.2⟩
  · trivial

theorem scoped_status {m g : ModuleId} (hg : Among g m) : Scoped m (ResultAmong m) (status g) := by
  unfold status
  refine scoped_call rfl hg fun r hr => ?_
  split
  · rename_i s f hb
    refine scoped_exec_bind fun d _ => scoped_exec_bind fun n _ => scoped_exec_bind fun x _ => ?_
    refine scoped_exec_bind fun fm hfm => ?_
    have := hr _ s f hb rfl
    exact ⟨this.1, by show Among fm.modules m; rw [hwErrors_modules hfm]; exact this.2⟩
  · trivial

theorem scoped_extendedStatus {m g : ModuleId} (hg : Among g m) : Scoped m (ResultAmong m) (extendedStatus g) := by
  unfold extendedStatus
  refine scoped_call rfl hg fun r hr => ?_
  split
  · rename_i s f hb
    refine scoped_exec_bind fun d _ => scoped_exec_bind fun n _ => scoped_exec_bind fun x _ => ?_
    refine scoped_exec_bind fun _ _ => scoped_exec_bind fun fm hfm => ?_
    have := hr _ s f hb rfl
    exact ⟨this.1, by show Among fm.modules m; rw [hwErrors_modules hfm]; exact this.2⟩
  · trivial

theorem scoped_leds {m g : ModuleId} (hg : Among g m) : Scoped m (ResultAmong m) (leds g) := by
  unfold leds
  refine scoped_call rfl hg fun r hr => ?_
  split
  · rename_i s f hb
    refine scoped_exec_bind fun d _ => scoped_exec_bind fun n _ => scoped_exec_bind fun x _ => ?_
    refine scoped_exec_bind fun _ _ => scoped_exec_bind fun fm hfm => ?_
    have := hr _ s f hb rfl
    exact ⟨this.1, by show Among fm.modules m; rw [hwErrors_modules hfm]; exact this.2⟩
  · trivial

theorem scoped_macAddrs {m : ModuleId} : Scoped m (fun _ => True) macAddrs := by
  unfold macAddrs
  refine ⟨fun r q g hq hg => ?_, fun r _ => ?_⟩
  · simp only [requestOf, Call.host, Message.new, Option.some.injEq] at hq
    subst hq
    cases hg
  · cases r with
    | gone => trivial
    | answer a =>
      cases a with
      | error e => trivial
      | ok r =>
        show Scoped m _ (match r.message.body with
          | .spResponse (.macAddrs (.ok macs)) => pure macs
          | .spResponse (.macAddrs (.error e)) => Prog.fail (.mac e)
          | other => Prog.fail (.unexpectedMessage other))
        split <;> trivial

theorem scoped_readOne {m g : ModuleId} {rd : MemoryRead} (hg : Among g m) :
    Scoped m (ResultAmong m) (readImplOneMessage g rd) := by
  by_cases hf : fitsInOneMessage g rd = true
  · rw [readImplOneMessage_eq (fits_iff.1 hf)]
    refine scoped_call rfl hg fun r hr => ?_
    split
    · rename_i s f _ hb
      refine scoped_exec_bind fun d _ => scoped_exec_bind fun n _ => scoped_exec_bind fun x _ => ?_
      refine scoped_exec_bind fun _ _ => ?_
      dsimp only
      split
      · trivial
      · refine scoped_exec_bind fun fm hfm => ?_
        have := hr _ s f hb rfl
        exact ⟨this.1, by show Among fm.modules m; rw [hwErrors_modules hfm]; exact this.2⟩
    · trivial
  · unfold readImplOneMessage
    rw [Bool.not_eq_true] at hf
    rw [hf]
    trivial

theorem unwrap_ok {ε α : Type} {o : Option α} {a : α} (h : Exec.unwrap (ε := ε) o = .ok a) : o = some a := by
  cases o with
  | none => cases h
  | some b => cases h; rfl

theorem resultAmong_merge {P : Type} {m : ModuleId} {a b c : Res P} (ha : ResultAmong m a) (hb : ResultAmong m b)
    (h : a.merge b = some c) : ResultAmong m c := by
  unfold ModuleResult.merge at h
  split at h
  · cases h
  · split at h
    · cases h
    · cases h
      exact ⟨among_merge (among_remove ha.1) (among_remove hb.1), among_merge ha.2 hb.2⟩

theorem scoped_readLoop {m : ModuleId} {rd : MemoryRead} {gs : List ModuleId} (hg : ∀ g ∈ gs, Among g m)
    {res : Res Bytes} (hr : ResultAmong m res) : Scoped m (ResultAmong m) (readLoop rd res gs) := by
  induction gs generalizing res with
  | nil => exact hr
  | cons g gs ih =>
    refine scoped_bind (scoped_readOne (hg g List.mem_cons_self)) fun a ha => scoped_exec_bind fun b hb => ?_
    exact ih (fun g' hg' => hg g' (List.mem_cons_of_mem _ hg')) (resultAmong_merge hr ha (unwrap_ok hb))

theorem scoped_readImpl {m g : ModuleId} {rd : MemoryRead} (hg : Among g m) :
    Scoped m (ResultAmong m) (readImpl g rd) := by
  unfold readImpl
  split
  · refine scoped_mono scoped_ofExec fun a ha => ?_
    have := unwrap_ok ha
    unfold ModuleResult.success at this
    split at this
    · cases this
      exact ⟨hg, among_empty m⟩
    · cases this
  · rename_i h0
    obtain ⟨gs, g1, g2, g3⟩ := splitLargeReads_spec g rd (fun h => h0 (.inr h))
    have hsf := split_facts g2
    have hC : ∀ g' ∈ gs, Among g' m := fun g' hg' p hp => hg p ((hsf.1 p).2 ⟨g', hg', hp⟩)
    rw [g1]
    simp only [ofExec_ok, ret_bind]
    cases gs with
    | nil => trivial
    | cons g gs =>
      exact scoped_bind (scoped_readOne (hC g List.mem_cons_self)) fun _ ha =>
        scoped_readLoop (fun g' hg' => hC g' (List.mem_cons_of_mem _ hg')) ha

theorem scoped_identifier {m g : ModuleId} (hg : Among g m) : Scoped m (ResultAmong m) (identifier g) := by
  unfold identifier
  rw [identifierRead_eq, ofExec_ok, ret_bind]
  exact scoped_bind (scoped_readImpl hg) fun _ ha => scoped_exec_bind fun _ _ => ha

theorem scoped_read {m : ModuleId} {rd : MemoryRead} : Scoped m (ResultAmong m) (Controller.read m rd) := by
  unfold Controller.read
  split
  · refine scoped_mono scoped_ofExec fun a ha => ?_
    have := unwrap_ok ha
    unfold ModuleResult.success at this
    split at this
    · cases this
      exact ⟨among_refl m, among_empty m⟩
    · cases this
  · exact scoped_bind (scoped_identifier (among_refl m)) fun a ha => scoped_exec_bind fun _ _ =>
      scoped_bind (scoped_readImpl ha.1) fun b hb => ⟨hb.1, among_merge ha.2 hb.2⟩

theorem scoped_writeImpl {m g : ModuleId} {w : MemoryWrite} {data : Bytes} (hg : Among g m) :
    Scoped m (ResultAmong m) (writeImpl g w data) := by
  unfold writeImpl
  split
  · trivial
  · refine scoped_call rfl hg fun r hr => ?_
    split
    · rename_i s f _ hb
      refine scoped_exec_bind fun d _ => scoped_exec_bind fun fm hfm => ?_
      have := hr _ s f hb rfl
      exact ⟨this.1, by show Among fm.modules m; rw [hwErrors_modules hfm]; exact this.2⟩
    · trivial

theorem scoped_write {m : ModuleId} {w : MemoryWrite} {data : Bytes} :
    Scoped m (ResultAmong m) (Controller.write m w data) :=
  scoped_bind (scoped_identifier (among_refl m)) fun _ ha => scoped_exec_bind fun _ _ =>
    scoped_bind (scoped_writeImpl ha.1) fun _ hb => ⟨hb.1, among_merge ha.2 hb.2⟩

theorem scoped_reset {m : ModuleId} : Scoped m (ResultAmong m) (Controller.reset m) :=
  scoped_bind (scoped_noPayload rfl (among_refl m)) fun _ ha =>
    scoped_bind (scoped_noPayload rfl ha.1) fun _ hb => ⟨hb.1, among_merge ha.2 hb.2⟩

/-! ## Decoding -/

theorem scoped_readAll {m g : ModuleId} (hg : Among g m) (rds : List MemoryRead) :
    Scoped m (fun _ => True) (readAll g rds) := by
  induction rds with
  | nil => trivial
  | cons rd rds ih => exact scoped_bind (scoped_readImpl hg) fun _ _ => scoped_bind ih fun _ _ => trivial

/-- The modules of a result under construction. -/
def ParseAmong {P : Type} (m : ModuleId) (s : ParseState P) : Prop := Among s.modules m ∧ Among s.failures.modules m

theorem parseAmong_fault {P : Type} {m : ModuleId} {s : ParseState P} {i : U8} {e : TransceiverError}
    (hs : ParseAmong m s) (hi : Mem m i.toNat) : ParseAmong m (s.fault i e) := by
  constructor
  · intro p hp
    have : Mem s.modules p := by
      simp only [ParseState.fault, ModuleId.clear] at hp
      split at hp
      · exact hp
      · simp only [Mem, BitVec.getLsbD_and, Bool.and_eq_true] at hp ⊢
        exact hp.1
    exact hs.1 p this
  · intro p hp
    simp only [ParseState.fault] at hp
    rcases (mem_set (mem_lt hi)).1 hp with hp | hp
    · exact hs.2 p hp
    · rw [hp]; exact hi

theorem parseAmong_one {P : Type} {m : ModuleId} {d : ModuleDecoder P} {id : Identifier} {rs : List (Res Bytes)}
    {s s' : ParseState P} {i : U8} (hs : ParseAmong m s) (hi : Mem m i.toNat) (h : parseOne d id rs s i = .ok s') :
    ParseAmong m s' := by
  unfold parseOne at h
  split at h
  · cases h; exact parseAmong_fault hs hi
  · split at h
    · cases h; exact hs
    · cases h; exact parseAmong_fault hs hi
    · cases h

theorem parseAmong_fold {P : Type} {m : ModuleId} {d : ModuleDecoder P} {id : Identifier} {rs : List (Res Bytes)}
    {l : List U8} (hl : ∀ i ∈ l, Mem m i.toNat) {s s' : ParseState P} (hs : ParseAmong m s)
    (h : l.foldlM (parseOne d id rs) s = .ok s') : ParseAmong m s' := by
  induction l generalizing s with
  | nil => cases h; exact hs
  | cons i l ih =>
    rw [List.foldlM_cons] at h
    cases h1 : parseOne d id rs s i with
    | err e => rw [h1] at h; cases h
    | panic => rw [h1] at h; cases h
    | ok x =>
      rw [h1] at h
      exact ih (fun j hj => hl j (List.mem_cons_of_mem _ hj)) (parseAmong_one hs (hl i List.mem_cons_self) h1) h

theorem scoped_parseKind {P : Type} {m : ModuleId} (d : ModuleDecoder P) {s : ParseState P} (hs : ParseAmong m s)
    {k : Identifier × ModuleId} (hk : Among k.2 m) : Scoped m (ParseAmong m) (parseKind d s k) := by
  unfold parseKind
  dsimp only
  split
  · refine scoped_bind (Q := fun _ => True) trivial fun _ _ => scoped_bind (scoped_readAll hk _) fun rs _ => ?_
    exact scoped_mono scoped_ofExec fun s' h => parseAmong_fold (fun i hi => hk _ (mem_toIndices.1 hi)) hs h
  · trivial
  · trivial

theorem scoped_parseKinds {P : Type} {m : ModuleId} (d : ModuleDecoder P) {s : ParseState P} (hs : ParseAmong m s)
    {ks : List (Identifier × ModuleId)} (hk : ∀ k ∈ ks, Among k.2 m) : Scoped m (ParseAmong m) (parseKinds d s ks) := by
  induction ks generalizing s with
  | nil => exact hs
  | cons k ks ih =>
    exact scoped_bind (scoped_parseKind d hs (hk k List.mem_cons_self)) fun _ h =>
      ih h fun k' hk' => hk k' (List.mem_cons_of_mem _ hk')

theorem scoped_parse {P : Type} {m g : ModuleId} (d : ModuleDecoder P) (hg : Among g m) :
    Scoped m (ResultAmong m) (parseModulesByIdentifier d g) :=
  scoped_bind (scoped_identifier hg) fun a ha => scoped_exec_bind fun ks hks =>
    scoped_bind (scoped_parseKinds (s := ⟨a.modules, a.failures, []⟩) d ha fun k hk => (among_kinds hks k hk).trans ha.1)
      fun _ h => h

/-! ## Power -/

theorem scoped_power {m g : ModuleId} (hg : Among g m) : Scoped m (ResultAmong m) (power g) := by
  unfold power
  refine scoped_bind (scoped_status hg) fun st hst => ?_
  have h1 : Among (filterModuleData st.modules st.data fun _ s => s.contains poweredFlags).1 m := among_filter _ _ hst.1
  generalize filterModuleData st.modules st.data (fun _ s => s.contains poweredFlags) = pw at h1
  obtain ⟨powered, poweredStatus⟩ := pw
  dsimp only at h1 ⊢
  have h2 : Among (filterModuleData powered poweredStatus fun _ s => s.contains Status.reset).1 m := among_filter _ _ h1
  generalize (filterModuleData powered poweredStatus fun _ s => s.contains Status.reset).1 = inReset at h2
  have h3 : Among (removeModuleData powered poweredStatus inReset).1 m := among_remove h1
  generalize removeModuleData powered poweredStatus inReset = rb at h3
  obtain ⟨readable, rs⟩ := rb
  dsimp only at h3 ⊢
  refine scoped_bind (Q := ResultAmong m) ?_ fun r hr => ?_
  · unfold readableModes
    split
    · exact ⟨among_empty m, among_empty m⟩
    · exact scoped_bind (scoped_parse _ h3) fun _ h => h
  · exact ⟨among_merge (among_merge (among_remove hst.1) h2) hr.1, among_merge hr.2 hst.2⟩

theorem scoped_softWrite {m : ModuleId} {id : Identifier} {low : Bool} {s : SoftState} {p : Bool × ModuleId}
    (hs : Among s.success m ∧ Among s.failures.modules m) (hp : Among p.2 m) :
    Scoped m (fun s => Among s.success m ∧ Among s.failures.modules m) (softWrite id low s p) := by
  unfold softWrite
  refine scoped_exec_bind fun x _ => ?_
  obtain ⟨w, b⟩ := x
  exact scoped_bind (scoped_writeImpl hp) fun _ h => ⟨among_remove hp, among_merge hs.2 h.2⟩

theorem scoped_softKinds {m : ModuleId} {low : Bool} {s : SoftState}
    (hs : Among s.success m ∧ Among s.failures.modules m) {ks : List (Identifier × ModuleId)}
    (hk : ∀ k ∈ ks, Among k.2 m) :
    Scoped m (fun s => Among s.success m ∧ Among s.failures.modules m) (softKinds low s ks) := by
  induction ks generalizing s with
  | nil => exact hs
  | cons k ks ih =>
    refine scoped_bind ?_ fun _ h => ih h fun k' hk' => hk k' (List.mem_cons_of_mem _ hk')
    unfold softKind
    have h1 : Among (filterModuleData s.success s.modes fun id mode =>
      k.2.has id && mode.softwareOverride == some true).1 m := among_filter _ _ hs.1
    have h2 : Among (filterModuleData k.2 s.modes fun id mode =>
      k.2.has id && !(mode.softwareOverride == some true)).1 m := among_filter _ _ (hk k List.mem_cons_self)
    generalize (filterModuleData s.success s.modes fun id mode =>
      k.2.has id && mode.softwareOverride == some true) = a at h1 ⊢
    generalize (filterModuleData k.2 s.modes fun id mode =>
      k.2.has id && !(mode.softwareOverride == some true)) = b at h2 ⊢
    exact scoped_bind (scoped_softWrite (p := (true, a.1)) hs h1) fun _ h => scoped_softWrite (p := (false, b.1)) h h2

theorem scoped_setSoftware {m : ModuleId} {r : Res PowerMode} {low : Bool} (hr : ResultAmong m r) :
    Scoped m (ResultAmong m) (setSoftwarePowerState r low) :=
  scoped_bind (scoped_identifier hr.1) fun _ ha => scoped_exec_bind fun _ hks =>
    scoped_bind (scoped_softKinds (m := m) ⟨among_remove hr.1, among_merge hr.2 ha.2⟩
      fun k hk => (among_kinds hks k hk).trans ha.1) fun _ h => h

theorem scoped_setPowerOff {m : ModuleId} : Scoped m (ResultAmong m) (setPowerOff m) :=
  scoped_bind (scoped_noPayload rfl (among_refl m)) fun _ ha => scoped_bind (scoped_noPayload rfl ha.1) fun _ hb =>
    scoped_bind (scoped_noPayload rfl hb.1) fun _ hc => ⟨hc.1, among_merge (among_merge ha.2 hb.2) hc.2⟩

theorem scoped_stepIfAny {m : ModuleId} {step : ModuleId → Prog (Res Unit)}
    (h : ∀ g, Among g m → Scoped m (ResultAmong m) (step g)) {a b : ModuleId} {f : FailedModules TransceiverError}
    (ha : Among a m) (hb : Among b m) (hf : Among f.modules m) :
    Scoped m (fun x => Among x.1 m ∧ Among x.2.modules m) (stepIfAny step a b f) := by
  unfold stepIfAny
  split
  · exact scoped_bind (h a ha) fun _ hr => ⟨hr.1, among_merge hf hr.2⟩
  · exact ⟨hb, hf⟩

theorem scoped_setPowerOn {m : ModuleId} {low : Bool} : Scoped m (ResultAmong m) (setPowerOn m low) := by
  unfold setPowerOn
  refine scoped_bind (scoped_power (among_refl m)) fun pw hpw => ?_
  split
  · trivial
  · refine scoped_bind (scoped_status hpw.1) fun st hst => ?_
    have h1 : Among (filterModuleData st.modules st.data fun _ s => needsPower s).1 m := among_filter _ _ hst.1
    dsimp only
    generalize (filterModuleData st.modules st.data fun _ s => needsPower s).1 = needPower at h1 ⊢
    refine scoped_bind (scoped_stepIfAny (fun g hg => scoped_noPayload rfl hg) (among_remove h1) hst.1
      (among_merge hpw.2 hst.2)) fun x hx => ?_
    refine scoped_bind (scoped_stepIfAny (fun g hg => scoped_noPayload rfl hg) h1 hx.1 hx.2) fun y hy => ?_
    cases low with
    | true =>
      refine scoped_bind (scoped_noPayload rfl hy.1) fun r hr => ?_
      refine scoped_bind (scoped_stepIfAny (fun g hg => scoped_noPayload rfl hg) h1 hr.1 (among_merge hy.2 hr.2))
        fun z hz => ?_
      exact scoped_setSoftware ⟨hz.1, hz.2⟩
    | false =>
      refine scoped_bind (scoped_noPayload rfl hy.1) fun r hr => ?_
      refine scoped_bind (scoped_stepIfAny (fun g hg => scoped_noPayload rfl hg) h1 hr.1 (among_merge hy.2 hr.2))
        fun z hz => ?_
      exact scoped_setSoftware ⟨hz.1, hz.2⟩

theorem scoped_setPower {m : ModuleId} {s : PowerState} : Scoped m (ResultAmong m) (setPower m s) := by
  cases s with
  | off => exact scoped_setPowerOff
  | low => exact scoped_setPowerOn
  | high => exact scoped_setPowerOn

theorem scoped_op (op : Op) {m : ModuleId} (hm : opModules op = some m ∨ op = .macAddrs) :
    Scoped m (fun _ => True) op.prog := by
  have hn : ∀ {q : HostRequest}, requestModules q = some m → Scoped m (fun _ => True) (do let _ ← noPayloadRequest q) :=
    fun hq => scoped_bind (scoped_noPayload hq (among_refl m)) fun _ _ => trivial
  cases op <;> rcases hm with hm | hm <;> cases hm
  case macAddrs => exact scoped_bind scoped_macAddrs fun _ _ => trivial
  case identifier => exact scoped_bind (scoped_identifier (among_refl m)) fun _ _ => trivial
  case vendorInfo => exact scoped_bind (scoped_parse _ (among_refl m)) fun _ _ => trivial
  case memoryModel => exact scoped_bind (scoped_parse _ (among_refl m)) fun _ _ => trivial
  case monitors => exact scoped_bind (scoped_parse _ (among_refl m)) fun _ _ => trivial
  case datapath => exact scoped_bind (scoped_parse _ (among_refl m)) fun _ _ => trivial
  case reset => exact scoped_bind scoped_reset fun _ _ => trivial
  case power => exact scoped_bind (scoped_power (among_refl m)) fun _ _ => trivial
  case setPower => exact scoped_bind scoped_setPower fun _ _ => trivial
  case status => exact scoped_bind (scoped_status (among_refl m)) fun _ _ => trivial
  case extendedStatus => exact scoped_bind (scoped_extendedStatus (among_refl m)) fun _ _ => trivial
  case leds => exact scoped_bind (scoped_leds (among_refl m)) fun _ _ => trivial
  case write => exact scoped_bind scoped_write fun _ _ => trivial
  case read => exact scoped_bind scoped_read fun _ _ => trivial
  all_goals exact hn rfl

end Xcvr
