import Verif.Lemmas.Read

/-! # Lemmas about the calls a program can make, whatever the replies -/

namespace Xcvr

namespace Prog

variable {α β : Type}

/-- Every call the program can make satisfies `C`, and a call that is not answered with a response ends the program. -/
def AllCalls (C : Call → Prop) : Prog α → Prop
  | ret _ => True
  | fail _ => True
  | panic => True
  | rpc c k => (C c ∧ k .gone = panic ∧ ∀ e, k (.answer (.error e)) = fail (.ofIo e)) ∧ ∀ r, AllCalls C (k r)

theorem allCalls_runs {C : Call → Prop} {p : Prog α} (hp : AllCalls C p) {t : List (Call × Reply)}
    {o : Exec CtlError α} (h : Runs p t o) : ∀ x ∈ t, C x.1 := by
  induction p generalizing t with
  | ret a => rw [runs_ret] at h; simp [h.1]
  | fail e => rw [runs_fail] at h; simp [h.1]
  | panic => rw [runs_panic] at h; simp [h.1]
  | rpc c k ih =>
    rw [runs_rpc] at h
    obtain ⟨r, t', rfl, h⟩ := h
    intro x hx
    rcases List.mem_cons.1 hx with rfl | hx
    · exact hp.1.1
    · exact ih r (hp.2 r) h x hx

/-- A successful program got a response to every call. -/
theorem allCalls_ok {C : Call → Prop} {p : Prog α} (hp : AllCalls C p) {t : List (Call × Reply)} {a : α}
    (h : Runs p t (.ok a)) : ∀ x ∈ t, ∃ resp, x.2 = .answer (.ok resp) := by
  induction p generalizing t with
  | ret a => rw [runs_ret] at h; simp [h.1]
  | fail e => rw [runs_fail] at h; simp [h.1]
  | panic => rw [runs_panic] at h; simp [h.1]
  | rpc c k ih =>
    rw [runs_rpc] at h
    obtain ⟨r, t', rfl, h⟩ := h
    intro x hx
    rcases List.mem_cons.1 hx with rfl | hx
    · cases r with
      | gone => rw [hp.1.2.1, runs_panic] at h; cases h.2
      | answer a =>
        cases a with
        | ok resp => exact ⟨resp, rfl⟩
        | error e => rw [hp.1.2.2 e, runs_fail] at h; cases h.2
    · exact ih r (hp.2 r) h x hx

theorem allCalls_mono {C D : Call → Prop} (hCD : ∀ c, C c → D c) {p : Prog α} (hp : AllCalls C p) : AllCalls D p := by
  induction p with
  | rpc c k ih => exact ⟨⟨hCD _ hp.1.1, hp.1.2⟩, fun r => ih r (hp.2 r)⟩
  | _ => trivial

theorem allCalls_bind {C : Call → Prop} {p : Prog α} {f : α → Prog β} (hp : AllCalls C p)
    (hf : ∀ a, AllCalls C (f a)) : AllCalls C (p >>= f) := by
  induction p with
  | ret a => exact hf a
  | fail e => trivial
  | panic => trivial
  | rpc c k ih =>
    refine ⟨⟨hp.1.1, ?_, fun e => ?_⟩, fun r => ih r (hp.2 r)⟩
    · show (k .gone).bind f = _
      rw [hp.1.2.1]
      rfl
    · show (k (.answer (.error e))).bind f = _
      rw [hp.1.2.2 e]
      rfl

@[simp] theorem allCalls_ofExec {C : Call → Prop} (x : Exec CtlError α) : AllCalls C (ofExec x) := by
  cases x <;> trivial

@[simp] theorem allCalls_pure {C : Call → Prop} (a : α) : AllCalls C (pure a : Prog α) := trivial
@[simp] theorem allCalls_ret {C : Call → Prop} (a : α) : AllCalls C (ret a) := trivial
@[simp] theorem allCalls_fail {C : Call → Prop} (e : CtlError) : AllCalls C (fail e : Prog α) := trivial
@[simp] theorem allCalls_panic {C : Call → Prop} : AllCalls C (panic : Prog α) := trivial

theorem allCalls_call {C : Call → Prop} {c : Call} (h : C c) : AllCalls C (call c) := by
  refine ⟨⟨h, rfl, fun _ => rfl⟩, fun r => ?_⟩
  cases r with
  | gone => trivial
  | answer a => cases a <;> trivial

theorem allCalls_ite {C : Call → Prop} {b : Prop} [Decidable b] {p q : Prog α} (hp : AllCalls C p)
    (hq : AllCalls C q) : AllCalls C (if b then p else q) := by
  split
  · exact hp
  · exact hq

/-- A program that makes no calls. -/
theorem no_calls {p : Prog α} (hp : AllCalls (fun _ => False) p) {t : List (Call × Reply)} {o : Exec CtlError α}
    (h : Runs p t o) : t = [] := by
  cases t with
  | nil => rfl
  | cons x t => exact absurd (allCalls_runs hp h x List.mem_cons_self) id

end Prog

open Spec Prog Controller

theorem runs_one_call {α : Type} {c : Call} {k : SpRpcResponse → Prog α} (hk : ∀ r, AllCalls (fun _ => False) (k r))
    {t : List Exchange} {o : Exec CtlError α} (h : Runs (Prog.call c >>= k) t o) : ∃ r, t = [(c, r)] := by
  rcases runs_bind.1 h with ⟨t₁, t₂, a, rfl, h1, h2⟩ | ⟨e, h1, -⟩ | ⟨h1, -⟩
  · have := no_calls (hk a) h2
    subst this
    unfold Prog.call at h1
    rw [runs_rpc] at h1
    obtain ⟨r, t', rfl, h1⟩ := h1
    have : t' = [] := by
      cases r with
      | gone => exact no_calls (p := Prog.panic) trivial h1
      | answer a => cases a with
        | ok a => exact no_calls (p := Prog.ret a) trivial h1
        | error e => exact no_calls (p := Prog.fail (.ofIo e)) trivial h1
    subst this
    exact ⟨r, rfl⟩
  all_goals
    unfold Prog.call at h1
    rw [runs_rpc] at h1
    obtain ⟨r, t', rfl, h1⟩ := h1
    have : t' = [] := by
      cases r with
      | gone => exact no_calls (p := Prog.panic) trivial h1
      | answer a => cases a with
        | ok a => exact no_calls (p := Prog.ret a) trivial h1
        | error e => exact no_calls (p := Prog.fail (.ofIo e)) trivial h1
    subst this
    exact ⟨r, rfl⟩

theorem noPayloadRequest_one {q : HostRequest} {t : List Exchange} {o : Exec CtlError (Res Unit)}
    (h : Runs (noPayloadRequest q) t o) : ∃ r, t = [(Call.host q, r)] := by
  unfold noPayloadRequest at h
  refine runs_one_call (fun r => ?_) h
  split
  · exact allCalls_bind (allCalls_ofExec _) fun _ => allCalls_bind (allCalls_ofExec _) fun _ => trivial
  · trivial

theorem allCalls_noPayloadRequest {C : Call → Prop} {q : HostRequest} (h : C (.host q)) :
    AllCalls C (noPayloadRequest q) := by
  unfold noPayloadRequest
  refine allCalls_bind (allCalls_call h) fun r => ?_
  split
  · exact allCalls_bind (allCalls_ofExec _) fun _ => allCalls_bind (allCalls_ofExec _) fun _ => trivial
  · trivial

theorem allCalls_status {C : Call → Prop} {m : ModuleId} (h : C (.host (.status m))) : AllCalls C (status m) := by
  unfold status
  refine allCalls_bind (allCalls_call h) fun r => ?_
  split
  · refine allCalls_bind (allCalls_ofExec _) fun _ => allCalls_bind (allCalls_ofExec _) fun _ =>
      allCalls_bind (allCalls_ofExec _) fun _ => ?_
    exact allCalls_bind (allCalls_ofExec _) fun _ => trivial
  · trivial

theorem allCalls_extendedStatus {C : Call → Prop} {m : ModuleId} (h : C (.host (.extendedStatus m))) :
    AllCalls C (extendedStatus m) := by
  unfold extendedStatus
  refine allCalls_bind (allCalls_call h) fun r => ?_
  split
  · refine allCalls_bind (allCalls_ofExec _) fun _ => allCalls_bind (allCalls_ofExec _) fun _ =>
      allCalls_bind (allCalls_ofExec _) fun _ => ?_
    exact allCalls_bind (allCalls_ofExec _) fun _ => allCalls_bind (allCalls_ofExec _) fun _ => trivial
  · trivial

theorem allCalls_leds {C : Call → Prop} {m : ModuleId} (h : C (.host (.ledState m))) : AllCalls C (leds m) := by
  unfold leds
  refine allCalls_bind (allCalls_call h) fun r => ?_
  split
  · refine allCalls_bind (allCalls_ofExec _) fun _ => allCalls_bind (allCalls_ofExec _) fun _ =>
      allCalls_bind (allCalls_ofExec _) fun _ => ?_
    exact allCalls_bind (allCalls_ofExec _) fun _ => allCalls_bind (allCalls_ofExec _) fun _ => trivial
  · trivial

theorem allCalls_macAddrs {C : Call → Prop} (h : C (.host .macAddrs)) : AllCalls C macAddrs := by
  unfold macAddrs
  refine allCalls_bind (allCalls_call h) fun r => ?_
  split <;> trivial

theorem allCalls_readImplOneMessage {C : Call → Prop} {m : ModuleId} {rd : MemoryRead} (h : C (.host (.read m rd))) :
    AllCalls C (readImplOneMessage m rd) := by
  by_cases hf : fitsInOneMessage m rd = true
  · rw [readImplOneMessage_eq (fits_iff.1 hf)]
    refine allCalls_bind (allCalls_call h) fun r => ?_
    split
    · refine allCalls_bind (allCalls_ofExec _) fun _ => allCalls_bind (allCalls_ofExec _) fun _ =>
        allCalls_bind (allCalls_ofExec _) fun _ => ?_
      refine allCalls_bind (allCalls_ofExec _) fun _ => ?_
      dsimp only
      split
      · trivial
      · exact allCalls_bind (allCalls_ofExec _) fun _ => trivial
    · trivial
  · unfold readImplOneMessage
    rw [Bool.not_eq_true] at hf
    rw [hf]
    trivial

theorem allCalls_readLoop {C : Call → Prop} {rd : MemoryRead} {gs : List ModuleId}
    (h : ∀ g ∈ gs, C (.host (.read g rd))) (res : Res Bytes) : AllCalls C (readLoop rd res gs) := by
  induction gs generalizing res with
  | nil => trivial
  | cons g gs ih =>
    exact allCalls_bind (allCalls_readImplOneMessage (h g List.mem_cons_self)) fun _ =>
      allCalls_bind (allCalls_ofExec _) fun _ => ih (fun g' hg' => h g' (List.mem_cons_of_mem _ hg')) _

theorem allCalls_readImpl {C : Call → Prop} {m : ModuleId} {rd : MemoryRead}
    (h : ∀ g, (∀ p, Mem g p → Mem m p) → card g * rd.len.toNat ≤ maxPayloadSize → C (.host (.read g rd))) :
    AllCalls C (readImpl m rd) := by
  unfold readImpl
  split
  · exact allCalls_ofExec _
  · rename_i h0
    obtain ⟨gs, g1, g2, g3⟩ := splitLargeReads_spec m rd (fun h => h0 (.inr h))
    have hsf := split_facts g2
    have hC : ∀ g ∈ gs, C (.host (.read g rd)) := fun g hg =>
      h g (fun p hp => (hsf.1 p).2 ⟨g, hg, hp⟩) (g3 g hg).2
    rw [g1]
    simp only [ofExec_ok, ret_bind]
    cases gs with
    | nil => trivial
    | cons g gs =>
      exact allCalls_bind (allCalls_readImplOneMessage (hC g List.mem_cons_self)) fun _ =>
        allCalls_readLoop (fun g' hg' => hC g' (List.mem_cons_of_mem _ hg')) _

theorem identifierRead_eq : identifierRead = .ok identifierByte := by decide

theorem allCalls_identifier {C : Call → Prop} {m : ModuleId}
    (h : ∀ g, (∀ p, Mem g p → Mem m p) → C (.host (.read g identifierByte))) : AllCalls C (identifier m) := by
  unfold identifier
  rw [identifierRead_eq, ofExec_ok, ret_bind]
  exact allCalls_bind (allCalls_readImpl fun g hg _ => h g hg) fun _ => allCalls_bind (allCalls_ofExec _) fun _ => trivial

theorem allCalls_writeImpl {C : Call → Prop} {m : ModuleId} {w : MemoryWrite} {data : Bytes}
    (h : w.len.toNat = data.length → C (.host (.write m w) (some data))) : AllCalls C (writeImpl m w data) := by
  unfold writeImpl
  split
  · trivial
  · rename_i h0
    refine allCalls_bind (allCalls_call (h (Decidable.not_not.1 h0))) fun r => ?_
    split
    · exact allCalls_bind (allCalls_ofExec _) fun _ => allCalls_bind (allCalls_ofExec _) fun _ => trivial
    · trivial

theorem allCalls_readAll {C : Call → Prop} {m : ModuleId} {rds : List MemoryRead}
    (h : ∀ rd ∈ rds, ∀ g, (∀ p, Mem g p → Mem m p) → C (.host (.read g rd))) : AllCalls C (readAll m rds) := by
  induction rds with
  | nil => trivial
  | cons rd rds ih =>
    exact allCalls_bind (allCalls_readImpl fun g hg _ => h rd List.mem_cons_self g hg) fun _ =>
      allCalls_bind (ih fun rd' hrd' => h rd' (List.mem_cons_of_mem _ hrd')) fun _ => trivial

theorem allCalls_parseKind {P : Type} {C : Call → Prop} (d : ModuleDecoder P) (s : ParseState P)
    (k : Identifier × ModuleId) (h : ∀ g rd, C (.host (.read g rd))) : AllCalls C (parseKind d s k) := by
  unfold parseKind
  dsimp only
  split
  · exact allCalls_bind trivial fun _ => allCalls_bind (allCalls_readAll fun rd _ g _ => h g rd) fun _ => allCalls_ofExec _
  · trivial
  · trivial

theorem allCalls_parseKinds {P : Type} {C : Call → Prop} (d : ModuleDecoder P) (s : ParseState P)
    (ks : List (Identifier × ModuleId)) (h : ∀ g rd, C (.host (.read g rd))) : AllCalls C (parseKinds d s ks) := by
  induction ks generalizing s with
  | nil => trivial
  | cons k ks ih => exact allCalls_bind (allCalls_parseKind d s k h) fun _ => ih _

theorem allCalls_parse {P : Type} {C : Call → Prop} (d : ModuleDecoder P) (m : ModuleId)
    (h : ∀ g rd, C (.host (.read g rd))) : AllCalls C (parseModulesByIdentifier d m) :=
  allCalls_bind (allCalls_identifier fun g _ => h g _) fun _ => allCalls_bind (allCalls_ofExec _) fun _ =>
    allCalls_bind (allCalls_parseKinds d _ _ h) fun _ => trivial

end Xcvr
