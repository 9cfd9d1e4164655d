import Verif.Spec.ErrText
import Verif.Lemmas.Scope

/-! # Where the errors in results come from, whatever the SP answers -/

namespace Xcvr

open Spec Prog Controller

/-- The errors are those `S` has for the failed ports. -/
def Own (S : Nat → TransceiverError → Prop) (f : FailedModules TransceiverError) : Prop :=
  Aligned f.modules f.errors ∧ ∀ p e, datum f.modules f.errors p = some e → S p e

/-- There is an error for each failed module, and all errors satisfy `T`. -/
def Backed (T : TransceiverError → Prop) (f : FailedModules TransceiverError) : Prop :=
  card f.modules ≤ f.errors.length ∧ ∀ e ∈ f.errors, T e

theorem own_success (S : Nat → TransceiverError → Prop) : Own S FailedModules.success := by
  refine ⟨by decide, fun p e h => ?_⟩
  have : datum (ModuleId.empty) ([] : List TransceiverError) p = none := datum_none (fun h => mem_empty h)
  exact absurd (this.symm.trans h) (by simp)

theorem own_merge {S : Nat → TransceiverError → Prop} {a b : FailedModules TransceiverError} (ha : Own S a)
    (hb : Own S b) : Own S (a.merge b) := by
  refine ⟨aligned_merge ha.1 hb.1, fun p e h => ?_⟩
  have : datum (a.merge b).modules (a.merge b).errors p = _ := datum_mergeModuleData ha.1 hb.1 p
  rw [this, Option.or_eq_some_iff] at h
  rcases h with h | ⟨-, h⟩
  · exact hb.2 p e h
  · exact ha.2 p e h

theorem own_iter {S : Nat → TransceiverError → Prop} {f : FailedModules TransceiverError} (h : Own S f) :
    ∀ x ∈ f.iter, S x.1.toNat x.2 := fun x hx => h.2 _ _ (mem_zip_iff_datum.1 (by exact hx))

theorem exists_port {m : ModuleId} {T : Type} {d : List T} (h : Aligned m d) {x : T} (hx : x ∈ d) :
    ∃ i : U8, (i, x) ∈ m.toIndices.zip d := by
  obtain ⟨n, hn, rfl⟩ := List.getElem_of_mem hx
  have hl : n < m.toIndices.length := by
    rw [length_toIndices, count_eq_card]
    have : d.length = card m := h
    omega
  refine ⟨m.toIndices[n], ?_⟩
  exact List.mem_iff_getElem.2 ⟨n, by rw [List.length_zip]; exact Nat.lt_min.2 ⟨hl, hn⟩, by simp⟩

theorem own_backed {S : Nat → TransceiverError → Prop} {T : TransceiverError → Prop} (hST : ∀ p e, S p e → T e)
    {f : FailedModules TransceiverError} (h : Own S f) : Backed T f := by
  refine ⟨Nat.le_of_eq h.1.symm, fun e he => ?_⟩
  obtain ⟨i, hi⟩ := exists_port h.1 he
  exact hST _ _ (own_iter h (i, e) hi)

theorem zip_take {α β : Type} (l : List α) (d : List β) : l.zip d = l.zip (d.take l.length) := by
  induction l generalizing d with
  | nil => rfl
  | cons a l ih =>
    cases d with
    | nil => rfl
    | cons b d => simp [← ih]

theorem zip_take_left {α β : Type} (d : List β) (l : List α) : d.zip l = (d.take l.length).zip l := by
  induction l generalizing d with
  | nil => simp
  | cons a l ih =>
    cases d with
    | nil => rfl
    | cons b d => simp [← ih]

theorem merge_take {a b : FailedModules TransceiverError} :
    a.merge b = FailedModules.merge ⟨a.modules, a.errors.take (card a.modules)⟩
      ⟨b.modules, b.errors.take (card b.modules)⟩ := by
  unfold FailedModules.merge mergeModuleData
  rw [zip_take a.modules.toIndices, zip_take b.modules.toIndices, length_toIndices, length_toIndices, count_eq_card,
    count_eq_card]

theorem backed_merge {T : TransceiverError → Prop} {a b : FailedModules TransceiverError} (ha : Backed T a)
    (hb : Backed T b) : Backed T (a.merge b) := by
  have key : ∀ {f : FailedModules TransceiverError}, Backed T f →
      Own (fun _ => T) ⟨f.modules, f.errors.take (card f.modules)⟩ := by
    intro f hf
    refine ⟨?_, fun p e h => ?_⟩
    · show _ = _
      rw [List.length_take]
      exact Nat.min_eq_left hf.1
    · unfold datum at h
      split at h
      · exact hf.2 e (List.mem_of_mem_take (List.mem_of_getElem? h))
      · cases h
  rw [merge_take]
  exact own_backed (S := fun _ => T) (fun _ _ h => h) (own_merge (key ha) (key hb))

namespace Prog

variable {α β : Type}

/-- The program succeeds with results satisfying `Q`, as long as the errors the SP reports for a port are those `S` has. -/
def Honest (S : Nat → TransceiverError → Prop) (Q : α → Prop) : Prog α → Prop
  | ret a => Q a
  | fail _ => True
  | panic => True
  | rpc c k => ∀ r, (∀ p e, errIn (c, r) p = some e → S p e) → Honest S Q (k r)

variable {S : Nat → TransceiverError → Prop}

theorem honest_runs {Q : α → Prop} {p : Prog α} (hp : Honest S Q p) {t : List Exchange} {a : α} (h : Runs p t (.ok a))
    (ht : ∀ x ∈ t, ∀ p e, errIn x p = some e → S p e) : Q a := by
  induction p generalizing t with
  | ret b =>
    rw [runs_ret] at h
    cases h.2
    exact hp
  | fail e =>
    rw [runs_fail] at h
    cases h.2
  | panic =>
    rw [runs_panic] at h
    cases h.2
  | rpc c k ih =>
    rw [runs_rpc] at h
    obtain ⟨r, t', rfl, h⟩ := h
    exact ih r (hp r (ht _ List.mem_cons_self)) h fun x hx => ht x (List.mem_cons_of_mem _ hx)

theorem honest_mono {Q Q' : α → Prop} {p : Prog α} (hp : Honest S Q p) (h : ∀ a, Q a → Q' a) : Honest S Q' p := by
  induction p with
  | ret a => exact h a hp
  | fail | panic => trivial
  | rpc c k ih => exact fun r hr => ih r (hp r hr)

theorem honest_true (p : Prog α) : Honest S (fun _ => True) p := by
  induction p with
  | ret a => trivial
  | fail | panic => trivial
  | rpc c k ih => exact fun r _ => ih r

theorem honest_bind {Q : α → Prop} {Q' : β → Prop} {p : Prog α} {f : α → Prog β} (hp : Honest S Q p)
    (hf : ∀ a, Q a → Honest S Q' (f a)) : Honest S Q' (p >>= f) := by
  induction p with
  | ret a => exact hf a hp
  | fail | panic => trivial
  | rpc c k ih => exact fun r hr => ih r (hp r hr)

theorem honest_orElse {Q : α → Prop} {p : Prog α} {f : CtlError → Prog α} (hp : Honest S Q p)
    (hf : ∀ e, Honest S Q (f e)) : Honest S Q (p.orElse f) := by
  induction p with
  | ret a => exact hp
  | fail e => exact hf e
  | panic => trivial
  | rpc c k ih => exact fun r hr => ih r (hp r hr)

theorem honest_ofExec {x : Exec CtlError α} : Honest S (fun a => x = .ok a) (ofExec x) := by
  cases x <;> first | exact rfl | trivial

theorem honest_exec_bind {Q' : β → Prop} {x : Exec CtlError α} {f : α → Prog β}
    (hf : ∀ a, x = .ok a → Honest S Q' (f a)) : Honest S Q' (ofExec x >>= f) := honest_bind honest_ofExec hf

/-- A call, its response and what follows. -/
theorem honest_call {c : Call} {Q : β → Prop} {k : SpRpcResponse → Prog β}
    (hk : ∀ r, (∀ p e, errIn (c, .answer (.ok r)) p = some e → S p e) → Honest S Q (k r)) :
    Honest S Q (call c >>= k) := by
  intro r hr
  cases r with
  | gone => trivial
  | answer a =>
    cases a with
    | error e => trivial
    | ok r => exact hk r hr

end Prog

variable {S : Nat → TransceiverError → Prop}

/-- The errors decoded from the bytes after a response. -/
theorem own_hwErrors {f : ModuleId} {d : Bytes} {fm : FailedModules TransceiverError}
    (h : Controller.deserializeHwErrors f d = .ok fm) (hS : ∀ p b, datum f d p = some b → S p (hardwareError p b)) :
    Own S fm := by
  by_cases hd : card f ≤ d.length
  · have ha : Aligned f (d.take (card f)) := by
      show _ = _
      rw [List.length_take]
      exact Nat.min_eq_left hd
    obtain ⟨errs, h1, h2, h3⟩ := deserialize_spec ha
    have : Controller.deserializeHwErrors f d = Controller.deserializeHwErrors f (d.take (card f)) := by
      unfold Controller.deserializeHwErrors Xcvr.deserializeHwErrors
      rw [count_eq_card]
      cases hc : card f with
      | zero => rfl
      | succ n =>
        have hm : maxSize HwError = 1 := by decide +kernel
        have hl : ¬ d.length < (n + 1) * 1 := by omega
        have hl' : ¬ (d.take (n + 1)).length < (n + 1) * 1 := by
          rw [List.length_take]; omega
        simp only [DeserializedErrors.new, hm, if_neg hl, if_neg hl']
        congr 2
        rw [zip_take_left (d.map _), length_toIndices, count_eq_card, hc, List.map_take]
    rw [this, h1] at h
    cases h
    refine ⟨h2, fun p e he => ?_⟩
    rw [h3] at he
    cases hb : datum f (d.take (card f)) p with
    | none => rw [hb] at he; cases he
    | some b =>
      rw [hb] at he
      cases he
      refine hS p b ?_
      unfold datum at hb ⊢
      split at hb
      · rename_i hm
        rw [if_pos hm]
        rw [List.getElem?_take] at hb
        split at hb
        · exact hb
        · cases hb
      · cases hb
  · exfalso
    unfold Controller.deserializeHwErrors Xcvr.deserializeHwErrors at h
    rw [count_eq_card] at h
    cases hc : card f with
    | zero => omega
    | succ n =>
      rw [hc] at h
      have hm : maxSize HwError = 1 := by decide +kernel
      have hl : d.length < (n + 1) * 1 := by omega
      simp only [DeserializedErrors.new, hm, if_pos hl] at h
      cases h

theorem own_response {c : Call} {r : SpRpcResponse} {R : SpResponse} {s f : ModuleId} {d : Bytes}
    {fm : FailedModules TransceiverError} (hr : ∀ p e, errIn (c, .answer (.ok r)) p = some e → S p e)
    (hb : r.message.body = .spResponse R) (hR : responseModules R = some (s, f)) (hd : r.data = some d)
    (h : Controller.deserializeHwErrors f (d.drop (card s * recordSize R)) = .ok fm) : Own S fm := by
  refine own_hwErrors h fun p b hb' => hr p _ ?_
  rw [errIn_eq hb hd]
  simp only [errorCode, hR, hb', Option.map_some]

theorem splitAt_rest {d a b : Bytes} {n : Nat} (h : splitAt d n = .ok (a, b)) : b = d.drop n := by
  unfold splitAt at h
  split at h
  · cases h; rfl
  · cases h

/-- The failures of a result. -/
def OwnResult {P : Type} (S : Nat → TransceiverError → Prop) (r : Res P) : Prop := Own S r.failures

theorem honest_noPayload (q : HostRequest) : Honest S (OwnResult S) (noPayloadRequest q) := by
  unfold noPayloadRequest
  refine honest_call fun r hr => ?_
  split
  · rename_i s f hb
    refine honest_exec_bind fun d hd => honest_exec_bind fun fm hfm => ?_
    refine own_response hr hb rfl (unwrap_ok hd) (s := s) ?_
    rw [show card s * recordSize (.ack s f) = 0 from rfl]
    exact hfm
  · trivial

theorem honest_status (m : ModuleId) : Honest S (OwnResult S) (status m) := by
  unfold status
  refine honest_call fun r hr => ?_
  split
  · rename_i s f hb
    refine honest_exec_bind fun d hd => honest_exec_bind fun n hn => honest_exec_bind fun x hx => ?_
    refine honest_exec_bind fun fm hfm => ?_
    refine own_response hr hb rfl (unwrap_ok hd) (s := s) ?_
    have h2 := splitAt_rest (a := x.1) (b := x.2) hx
    have h3 := unwrap_ok hn
    cases h3
    rw [h2] at hfm
    rw [← count_eq_card]
    exact hfm
  · trivial

theorem honest_extendedStatus (m : ModuleId) : Honest S (OwnResult S) (extendedStatus m) := by
  unfold extendedStatus
  refine honest_call fun r hr => ?_
  split
  · rename_i s f hb
    refine honest_exec_bind fun d hd => honest_exec_bind fun n hn => honest_exec_bind fun x hx => ?_
    refine honest_exec_bind fun _ _ => honest_exec_bind fun fm hfm => ?_
    refine own_response hr hb rfl (unwrap_ok hd) (s := s) ?_
    have h2 := splitAt_rest (a := x.1) (b := x.2) hx
    have h3 := unwrap_ok hn
    cases h3
    rw [h2] at hfm
    rw [← count_eq_card]
    exact hfm
  · trivial

theorem honest_leds (m : ModuleId) : Honest S (OwnResult S) (leds m) := by
  unfold leds
  refine honest_call fun r hr => ?_
  split
  · rename_i s f hb
    refine honest_exec_bind fun d hd => honest_exec_bind fun n hn => honest_exec_bind fun x hx => ?_
    refine honest_exec_bind fun _ _ => honest_exec_bind fun fm hfm => ?_
    refine own_response hr hb rfl (unwrap_ok hd) (s := s) ?_
    have h2 := splitAt_rest (a := x.1) (b := x.2) hx
    have h3 := unwrap_ok hn
    cases h3
    rw [h2] at hfm
    rw [← count_eq_card]
    exact hfm
  · trivial

theorem honest_readOne (m : ModuleId) (rd : MemoryRead) : Honest S (OwnResult S) (readImplOneMessage m rd) := by
  by_cases hf : fitsInOneMessage m rd = true
  · rw [readImplOneMessage_eq (fits_iff.1 hf)]
    refine honest_call fun r hr => ?_
    split
    · rename_i s f rd' hb
      refine honest_exec_bind fun d hd => honest_exec_bind fun n hn => honest_exec_bind fun x hx => ?_
      refine honest_exec_bind fun _ _ => ?_
      dsimp only
      split
      · trivial
      · refine honest_exec_bind fun fm hfm => ?_
        refine own_response hr hb rfl (unwrap_ok hd) (s := s) ?_
        have h2 := splitAt_rest (a := x.1) (b := x.2) hx
        have h3 := unwrap_ok hn
        cases h3
        rw [h2] at hfm
        rw [← count_eq_card]
        exact hfm
    · trivial
  · unfold readImplOneMessage
    rw [Bool.not_eq_true] at hf
    rw [hf]
    trivial

theorem own_resultMerge {P : Type} {a b c : Res P} (ha : OwnResult S a) (hb : OwnResult S b) (h : a.merge b = some c) :
    OwnResult S c := by
  unfold ModuleResult.merge at h
  split at h
  · cases h
  · split at h
    · cases h
    · cases h
      exact own_merge ha hb

theorem own_resultSuccess {P : Type} {m : ModuleId} {d : List P} {c : Res P}
    (h : Exec.unwrap (ε := CtlError) (ModuleResult.success m d) = .ok c) : OwnResult S c := by
  have := unwrap_ok h
  unfold ModuleResult.success at this
  split at this
  · cases this
    exact own_success S
  · cases this

theorem honest_readLoop {rd : MemoryRead} {gs : List ModuleId} {res : Res Bytes} (hr : OwnResult S res) :
    Honest S (OwnResult S) (readLoop rd res gs) := by
  induction gs generalizing res with
  | nil => exact hr
  | cons g gs ih =>
    exact honest_bind (honest_readOne g rd) fun a ha => honest_exec_bind fun b hb =>
      ih (own_resultMerge hr ha (unwrap_ok hb))

theorem honest_readImpl (m : ModuleId) (rd : MemoryRead) : Honest S (OwnResult S) (readImpl m rd) := by
  unfold readImpl
  split
  · exact honest_mono honest_ofExec fun a ha => own_resultSuccess ha
  · refine honest_exec_bind fun gs _ => ?_
    cases gs with
    | nil => trivial
    | cons g gs => exact honest_bind (honest_readOne g rd) fun _ ha => honest_readLoop ha

theorem honest_identifier (m : ModuleId) : Honest S (OwnResult S) (identifier m) := by
  unfold identifier
  rw [identifierRead_eq, ofExec_ok, ret_bind]
  exact honest_bind (honest_readImpl m _) fun _ ha => honest_exec_bind fun _ _ => ha

theorem honest_read (m : ModuleId) (rd : MemoryRead) : Honest S (OwnResult S) (Controller.read m rd) := by
  unfold Controller.read
  split
  · exact honest_mono honest_ofExec fun a ha => own_resultSuccess ha
  · exact honest_bind (honest_identifier m) fun a ha => honest_exec_bind fun _ _ =>
      honest_bind (honest_readImpl _ rd) fun b hb => own_merge ha hb

theorem honest_writeImpl (m : ModuleId) (w : MemoryWrite) (data : Bytes) :
    Honest S (OwnResult S) (writeImpl m w data) := by
  unfold writeImpl
  split
  · trivial
  · refine honest_call fun r hr => ?_
    split
    · rename_i s f w' hb
      refine honest_exec_bind fun d hd => honest_exec_bind fun fm hfm => ?_
      refine own_response hr hb rfl (unwrap_ok hd) (s := s) ?_
      rw [show card s * recordSize (.write s f w') = 0 from rfl]
      exact hfm
    · trivial

theorem honest_write (m : ModuleId) (w : MemoryWrite) (data : Bytes) :
    Honest S (OwnResult S) (Controller.write m w data) :=
  honest_bind (honest_identifier m) fun _ ha => honest_exec_bind fun _ _ =>
    honest_bind (honest_writeImpl _ w data) fun _ hb => own_merge ha hb

theorem honest_reset (m : ModuleId) : Honest S (OwnResult S) (Controller.reset m) :=
  honest_bind (honest_noPayload _) fun _ ha => honest_bind (honest_noPayload _) fun _ hb => own_merge ha hb

theorem honest_setPowerOff (m : ModuleId) : Honest S (OwnResult S) (setPowerOff m) :=
  honest_bind (honest_noPayload _) fun _ ha => honest_bind (honest_noPayload _) fun _ hb =>
    honest_bind (honest_noPayload _) fun _ hc => own_merge (own_merge ha hb) hc

theorem honest_plain {P : Type} {p : Prog (Res P)} (h : PlainMethod p) : Honest S (OwnResult S) p := by
  cases h with
  | identifier m => exact honest_identifier m
  | reset m => exact honest_reset m
  | setPowerOff m => exact honest_setPowerOff m
  | status m => exact honest_status m
  | extendedStatus m => exact honest_extendedStatus m
  | write m w d => exact honest_write m w d
  | read m rd => exact honest_read m rd
  | leds m => exact honest_leds m
  | _ => exact honest_noPayload _

/-! ## Decoding -/

/-- Errors reported for some port, and errors of decoding. -/
def AnyOf (S : Nat → TransceiverError → Prop) (e : TransceiverError) : Prop := (∃ p, S p e) ∨ ∃ d, e = .decode d

def BackedResult {P : Type} (S : Nat → TransceiverError → Prop) (r : Res P) : Prop := Backed (AnyOf S) r.failures

theorem own_anyOf {f : FailedModules TransceiverError} (h : Own S f) : Backed (AnyOf S) f :=
  own_backed (fun p _ h => .inl ⟨p, h⟩) h

theorem honest_readAll (m : ModuleId) (rds : List MemoryRead) :
    Honest S (fun rs => ∀ r ∈ rs, OwnResult S r) (readAll m rds) := by
  induction rds with
  | nil => exact fun r hr => by cases hr
  | cons rd rds ih =>
    refine honest_bind (honest_readImpl m rd) fun a ha => honest_bind ih fun rs hrs r hr => ?_
    rcases List.mem_cons.1 hr with rfl | hr
    · exact ha
    · exact hrs r hr

theorem card_set (m : ModuleId) (i : U8) : card (m.set i).1 ≤ card m + 1 := by
  by_cases hi : i.toNat < 64
  · have key : ∀ n, rank (m.set i).1 n ≤ rank m n + if i.toNat < n then 1 else 0 := by
      intro n
      induction n with
      | zero => exact Nat.zero_le _
      | succ n ih =>
        have hr : ∀ m : ModuleId, rank m (n + 1) = rank m n + if Mem m n then 1 else 0 := by
          intro m
          simp only [rank, List.range_succ, List.countP_append, List.countP_cons, List.countP_nil, decide_eq_true_eq,
            Nat.zero_add]
        rw [hr, hr]
        have := mem_set (m := m) (p := n) hi
        grind
    have := key 64
    rwa [if_pos hi] at this
  · have : i ≥ ModuleId.maxIndex := by rw [ge_maxIndex]; omega
    simp only [ModuleId.set, this, if_true]
    omega

theorem backed_fault {P : Type} {s : ParseState P} {i : U8} {e : TransceiverError} (hs : Backed (AnyOf S) s.failures)
    (he : AnyOf S e) : Backed (AnyOf S) (s.fault i e).failures := by
  constructor
  · have := card_set s.failures.modules i
    have := hs.1
    simp only [ParseState.fault, List.length_append, List.length_singleton]
    omega
  · intro x hx
    simp only [ParseState.fault, List.mem_append, List.mem_singleton] at hx
    rcases hx with hx | rfl
    · exact hs.2 x hx
    · exact he

theorem backed_one {P : Type} {d : ModuleDecoder P} {id : Identifier} {rs : List (Res Bytes)} {s s' : ParseState P} {i : U8}
    (hrs : ∀ r ∈ rs, OwnResult S r) (hs : Backed (AnyOf S) s.failures) (h : parseOne d id rs s i = .ok s') :
    Backed (AnyOf S) s'.failures := by
  unfold parseOne at h
  split at h
  · rename_i e he
    cases h
    obtain ⟨r, hr, hre⟩ := List.exists_of_findSome?_eq_some he
    refine backed_fault hs (.inl ?_)
    unfold ModuleResult.nthErr FailedModules.nth at hre
    rw [Option.map_eq_some_iff] at hre
    obtain ⟨x, hx, rfl⟩ := hre
    exact ⟨_, own_iter (hrs r hr) x (List.mem_of_find?_eq_some hx)⟩
  · split at h
    · cases h; exact hs
    · cases h; exact backed_fault hs (.inr ⟨_, rfl⟩)
    · cases h

theorem backed_fold {P : Type} {d : ModuleDecoder P} {id : Identifier} {rs : List (Res Bytes)}
    (hrs : ∀ r ∈ rs, OwnResult S r) {l : List U8} {s s' : ParseState P} (hs : Backed (AnyOf S) s.failures)
    (h : l.foldlM (parseOne d id rs) s = .ok s') : Backed (AnyOf S) s'.failures := by
  induction l generalizing s with
  | nil => cases h; exact hs
  | cons i l ih =>
    rw [List.foldlM_cons] at h
    cases h1 : parseOne d id rs s i with
    | err e => rw [h1] at h; cases h
    | panic => rw [h1] at h; cases h
    | ok x =>
      rw [h1] at h
      exact ih (backed_one hrs hs h1) h

theorem honest_parseKinds {P : Type} (d : ModuleDecoder P) {s : ParseState P} (hs : Backed (AnyOf S) s.failures)
    (ks : List (Identifier × ModuleId)) : Honest S (fun s => Backed (AnyOf S) s.failures) (parseKinds d s ks) := by
  induction ks generalizing s with
  | nil => exact hs
  | cons k ks ih =>
    refine honest_bind (Q := fun s => Backed (AnyOf S) s.failures) ?_ fun _ h => ih h
    unfold parseKind
    dsimp only
    split
    · refine honest_bind (Q := fun _ => True) trivial fun rds _ => honest_bind (honest_readAll _ _) fun rs hrs => ?_
      exact honest_mono honest_ofExec fun s' h => backed_fold hrs hs h
    · trivial
    · trivial

theorem honest_parse {P : Type} (d : ModuleDecoder P) (m : ModuleId) :
    Honest S (BackedResult S) (parseModulesByIdentifier d m) :=
  honest_bind (honest_identifier m) fun a ha => honest_exec_bind fun ks _ =>
    honest_bind (honest_parseKinds (s := ⟨a.modules, a.failures, []⟩) d (own_anyOf ha) ks) fun _ h => h

theorem honest_power (m : ModuleId) : Honest S (BackedResult S) (power m) := by
  unfold power
  refine honest_bind (honest_status m) fun st hst => ?_
  dsimp only
  refine honest_bind (Q := BackedResult S) ?_ fun r hr => backed_merge hr (own_anyOf hst)
  unfold readableModes
  split
  · exact own_anyOf (own_success S)
  · exact honest_bind (honest_parse _ _) fun _ h => h

theorem honest_softWrite {id : Identifier} {low : Bool} {s : SoftState} {p : Bool × ModuleId}
    (hs : Backed (AnyOf S) s.failures) :
    Honest S (fun s => Backed (AnyOf S) s.failures) (softWrite id low s p) := by
  unfold softWrite
  refine honest_exec_bind fun x _ => ?_
  exact honest_bind (honest_writeImpl _ _ _) fun _ h => backed_merge hs (own_anyOf h)

theorem honest_softKinds {low : Bool} {s : SoftState} (hs : Backed (AnyOf S) s.failures)
    (ks : List (Identifier × ModuleId)) : Honest S (fun s => Backed (AnyOf S) s.failures) (softKinds low s ks) := by
  induction ks generalizing s with
  | nil => exact hs
  | cons k ks ih =>
    refine honest_bind (Q := fun s => Backed (AnyOf S) s.failures) ?_ fun _ h => ih h
    unfold softKind
    dsimp only
    exact honest_bind (honest_softWrite hs) fun _ h => honest_softWrite h

theorem honest_setSoftware {r : Res PowerMode} {low : Bool} (hr : BackedResult S r) :
    Honest S (BackedResult S) (setSoftwarePowerState r low) := by
  unfold setSoftwarePowerState
  refine honest_bind (honest_identifier _) fun a ha => honest_exec_bind fun ks _ => ?_
  generalize keepModuleData r.modules r.data a.modules = k
  dsimp only
  have : Backed (AnyOf S) (r.failures.merge a.failures) := backed_merge hr (own_anyOf ha)
  refine honest_bind (honest_softKinds (s := ⟨k.1, k.2, r.failures.merge a.failures⟩) this ks) fun s h => ?_
  exact h

theorem honest_stepIfAny {step : ModuleId → Prog (Res Unit)} (h : ∀ g, Honest S (OwnResult S) (step g)) {a b : ModuleId}
    {f : FailedModules TransceiverError} (hf : Backed (AnyOf S) f) :
    Honest S (fun x => Backed (AnyOf S) x.2) (stepIfAny step a b f) := by
  unfold stepIfAny
  split
  · exact honest_bind (h a) fun _ hr => backed_merge hf (own_anyOf hr)
  · exact hf

theorem honest_setPowerOn (m : ModuleId) (low : Bool) : Honest S (BackedResult S) (setPowerOn m low) := by
  unfold setPowerOn
  refine honest_bind (honest_power m) fun pw hpw => ?_
  split
  · trivial
  · refine honest_bind (honest_status _) fun st hst => ?_
    dsimp only
    refine honest_bind (honest_stepIfAny (fun g => honest_noPayload _) (backed_merge hpw (own_anyOf hst))) fun x hx => ?_
    refine honest_bind (honest_stepIfAny (fun g => honest_noPayload _) hx) fun y hy => ?_
    cases low with
    | true =>
      refine honest_bind (honest_noPayload _) fun r hr => ?_
      refine honest_bind (honest_stepIfAny (fun g => honest_noPayload _) (backed_merge hy (own_anyOf hr))) fun z hz => ?_
      exact honest_setSoftware (r := ⟨_, _, _⟩) hz
    | false =>
      refine honest_bind (honest_noPayload _) fun r hr => ?_
      refine honest_bind (honest_stepIfAny (fun g => honest_noPayload _) (backed_merge hy (own_anyOf hr))) fun z hz => ?_
      exact honest_setSoftware (r := ⟨_, _, _⟩) hz

theorem honest_method {P : Type} {p : Prog (Res P)} (h : Method p) : Honest S (BackedResult S) p := by
  cases h with
  | plain h => exact honest_mono (honest_plain h) fun _ h => own_anyOf h
  | decoding d m => exact honest_parse d m
  | power m => exact honest_power m
  | setPower m s =>
    cases s with
    | off => exact honest_mono (honest_setPowerOff m) fun _ h => own_anyOf h
    | low => exact honest_setPowerOn m true
    | high => exact honest_setPowerOn m false

end Xcvr
