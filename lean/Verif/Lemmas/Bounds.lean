import Verif.Spec.Bounds
import Verif.Props.Power
import Verif.Lemmas.Ops

/-! # Lemmas about numbers of requests -/

namespace Xcvr

open Spec Prog Controller

variable {α β : Type}

theorem atMost_ret (a : α) (n : Nat) : AtMost n (Prog.ret a) := by
  intro t o h
  rw [runs_ret] at h
  simp [h.1]

theorem atMost_fail (e : CtlError) (n : Nat) : AtMost n (Prog.fail e : Prog α) := by
  intro t o h
  rw [runs_fail] at h
  simp [h.1]

theorem atMost_panic (n : Nat) : AtMost n (Prog.panic : Prog α) := by
  intro t o h
  rw [runs_panic] at h
  simp [h.1]

theorem atMost_mono {p : Prog α} {m n : Nat} (h : AtMost m p) (hmn : m ≤ n) : AtMost n p :=
  fun t o hr => Nat.le_trans (h t o hr) hmn

theorem atMost_bind {p : Prog α} {f : α → Prog β} {m n : Nat} (hp : AtMost m p) (hf : ∀ a, AtMost n (f a)) :
    AtMost (m + n) (p >>= f) := by
  intro t o h
  rcases runs_bind.1 h with ⟨t₁, t₂, a, rfl, h1, h2⟩ | ⟨e, h1, -⟩ | ⟨h1, -⟩
  · rw [List.length_append]
    exact Nat.add_le_add (hp _ _ h1) (hf a _ _ h2)
  · exact Nat.le_trans (hp _ _ h1) (Nat.le_add_right ..)
  · exact Nat.le_trans (hp _ _ h1) (Nat.le_add_right ..)

theorem atMost_ofExec (e : Exec CtlError α) : AtMost 0 (Prog.ofExec e) := by
  cases e with
  | ok a => exact atMost_ret a 0
  | err e => exact atMost_fail e 0
  | panic => exact atMost_panic 0

/-- Work that needs no request. -/
theorem atMost_exec_bind {e : Exec CtlError α} {f : α → Prog β} {n : Nat} (hf : ∀ a, AtMost n (f a)) :
    AtMost n (Prog.ofExec e >>= f) := by
  have := atMost_bind (atMost_ofExec e) hf
  rwa [Nat.zero_add] at this

theorem atMost_call (c : Call) : AtMost 1 (Prog.call c) := by
  intro t o h
  unfold Prog.call at h
  rw [runs_rpc] at h
  obtain ⟨r, t', rfl, h⟩ := h
  cases r with
  | gone => rw [runs_panic] at h; simp [h.1]
  | answer a =>
    cases a with
    | ok r => rw [runs_ret] at h; simp [h.1]
    | error e => rw [runs_fail] at h; simp [h.1]

theorem atMost_noPayload (q : HostRequest) : AtMost 1 (noPayloadRequest q) := by
  intro t o h
  obtain ⟨r, rfl⟩ := noPayloadRequest_one h
  simp

theorem atMost_status (m : ModuleId) : AtMost 1 (Controller.status m) := by
  intro t o h
  obtain ⟨r, rfl⟩ := (C39_one_status m t).1 o h
  simp

theorem atMost_one (m : ModuleId) (rd : MemoryRead) : AtMost 1 (readImplOneMessage m rd) := by
  by_cases hf : fitsInOneMessage m rd = true
  · rw [readImplOneMessage_eq (fits_iff.1 hf)]
    refine atMost_bind (n := 0) (atMost_call _) fun r => ?_
    split
    · refine atMost_exec_bind fun _ => atMost_exec_bind fun _ => atMost_exec_bind fun _ => atMost_exec_bind fun _ => ?_
      dsimp only
      split
      · exact atMost_panic 0
      · exact atMost_exec_bind fun _ => atMost_ret _ _
    · exact atMost_fail _ _
  · unfold readImplOneMessage
    rw [Bool.not_eq_true] at hf
    rw [hf]
    exact atMost_panic 1

theorem atMost_readLoop (rd : MemoryRead) (res : Res Bytes) (gs : List ModuleId) :
    AtMost gs.length (readLoop rd res gs) := by
  induction gs generalizing res with
  | nil => exact atMost_ret _ _
  | cons g gs ih =>
    rw [List.length_cons, Nat.add_comm]
    exact atMost_bind (atMost_one g rd) fun _ => atMost_exec_bind fun _ => ih _

theorem card_le (m : ModuleId) : card m ≤ 64 := by
  rw [← count_eq_card, ← length_toIndices]
  unfold ModuleId.toIndices
  exact Nat.le_trans (List.length_filter_le ..) (by decide)

theorem messages_mono {a b len : Nat} (h : a ≤ b) : messagesFor a len ≤ messagesFor b len :=
  Nat.div_le_div_right (by omega)

theorem splitLargeReads_length {m : ModuleId} {rd : MemoryRead} {gs : List ModuleId}
    (h : splitLargeReads m rd = .ok gs) : gs.length = messagesFor (card m) rd.len.toNat := by
  unfold splitLargeReads at h
  rw [mapM_length h]
  unfold chunks messagesFor maxPayloadSize
  rw [List.length_map, List.length_range, length_toIndices, count_eq_card]

theorem atMost_readImpl (m : ModuleId) (rd : MemoryRead) : AtMost (messagesFor 64 rd.len.toNat) (readImpl m rd) := by
  unfold readImpl
  split
  · exact atMost_mono (atMost_ofExec _) (Nat.zero_le _)
  · cases hs : splitLargeReads m rd with
    | ok gs =>
      have hl := splitLargeReads_length hs
      have := messages_mono (len := rd.len.toNat) (card_le m)
      rw [ofExec_ok, ret_bind]
      cases gs with
      | nil => exact atMost_panic _
      | cons g gs =>
        rw [List.length_cons] at hl
        exact atMost_mono (atMost_bind (atMost_one g rd) fun _ => atMost_readLoop rd _ gs) (by omega)
    | err e => exact atMost_fail _ _
    | panic => exact atMost_panic _

theorem atMost_identifier (m : ModuleId) : AtMost 1 (identifier m) := by
  unfold identifier
  rw [identifierRead_eq, ofExec_ok, ret_bind]
  exact atMost_bind (n := 0) (atMost_readImpl m identifierByte) fun _ => atMost_exec_bind fun _ => atMost_ret _ _

/-! ## Reads of each kind -/

/-- The requests for a list of reads. -/
def readsCost (rds : List MemoryRead) : Nat := (rds.map fun rd => messagesFor 64 rd.len.toNat).sum

/-- The requests to decode the modules of a kind. -/
def kindCost {P : Type} (d : ModuleDecoder P) (id : Identifier) : Nat :=
  match d.reads id with
  | .ok rds => readsCost rds
  | _ => 0

theorem atMost_readAll (m : ModuleId) (rds : List MemoryRead) : AtMost (readsCost rds) (readAll m rds) := by
  induction rds with
  | nil => exact atMost_ret _ _
  | cons rd rds ih =>
    unfold readsCost
    rw [List.map_cons, List.sum_cons]
    exact atMost_bind (atMost_readImpl m rd) fun _ => atMost_bind (n := 0) ih fun _ => atMost_ret _ _

theorem atMost_parseKind {P : Type} (d : ModuleDecoder P) (s : ParseState P) (k : Identifier × ModuleId) :
    AtMost (kindCost d k.1) (parseKind d s k) := by
  unfold parseKind kindCost
  cases h : d.reads k.1 with
  | ok rds =>
    show AtMost _ (readAll k.2 rds >>= _)
    exact atMost_bind (n := 0) (atMost_readAll _ _) fun _ => atMost_ofExec _
  | err e => exact atMost_fail _ _
  | panic => exact atMost_panic _

theorem atMost_parseKinds {P : Type} (d : ModuleDecoder P) (s : ParseState P) (ks : List (Identifier × ModuleId)) :
    AtMost (ks.map fun k => kindCost d k.1).sum (parseKinds d s ks) := by
  induction ks generalizing s with
  | nil => exact atMost_ret _ _
  | cons k ks ih =>
    rw [List.map_cons, List.sum_cons]
    exact atMost_bind (atMost_parseKind d s k) fun _ => ih _

/-- The kinds of modules that can be decoded. -/
def supportedKinds : List Identifier := [Bf.ofByte 0x0d, Bf.ofByte 0x11, Bf.ofByte 0x18, Bf.ofByte 0x1e]

theorem sum_without (f : Identifier → Nat) (a : Identifier) (l : List Identifier) (hl : l.Nodup) :
    (l.map f).sum ≤ f a + ((l.filter (· ≠ a)).map f).sum := by
  induction l with
  | nil => simp
  | cons b l ih =>
    rw [List.nodup_cons] at hl
    by_cases hb : b = a
    · subst hb
      have : l.filter (· ≠ b) = l := by
        rw [List.filter_eq_self]
        intro x hx
        simp only [decide_not, Bool.not_eq_eq_eq_not, Bool.not_true, decide_eq_false_iff_not]
        rintro rfl
        exact hl.1 hx
      rw [List.filter_cons_of_neg (by simp), this]
      simp
    · rw [List.filter_cons_of_pos (by simpa using hb)]
      have := ih hl.2
      simp only [List.map_cons, List.sum_cons]
      omega

theorem sum_le_of_zero (f : Identifier → Nat) (S l : List Identifier) (hl : l.Nodup)
    (h0 : ∀ x ∈ l, x ∉ S → f x = 0) : (l.map f).sum ≤ (S.map f).sum := by
  induction S generalizing l with
  | nil =>
    have : ∀ l : List Identifier, (∀ x ∈ l, f x = 0) → (l.map f).sum = 0 := by
      intro l
      induction l with
      | nil => simp
      | cons a l ih =>
        intro h
        rw [List.map_cons, List.sum_cons, h a (List.mem_cons_self ..), ih fun x hx => h x (List.mem_cons_of_mem _ hx)]
    rw [this l fun x hx => h0 x hx (by simp)]
    exact Nat.zero_le _
  | cons a S ih =>
    have h1 := sum_without f a l hl
    have h2 := ih (l.filter (· ≠ a)) (hl.filter _) fun x hx hS => by
      rw [List.mem_filter] at hx
      refine h0 x hx.1 ?_
      intro hm
      rcases List.mem_cons.1 hm with rfl | hm
      · simp at hx
      · exact hS hm
    rw [List.map_cons, List.sum_cons]
    omega

theorem kinds_nodup {m : ModuleId} {ids : List Identifier} {kinds : List (Identifier × ModuleId)} (h : Kinds m ids kinds) :
    (kinds.map Prod.fst).Nodup := by
  rw [List.Nodup, List.pairwise_map]
  refine h.sorted.imp fun {a b} hab he => ?_
  rw [he, identifierLt_strict.irrefl] at hab
  cases hab

theorem supported_iff {id : Identifier} : id ∉ supportedKinds → ¬ SffModule id ∧ ¬ CmisModule id := by
  intro h
  simp only [supportedKinds, List.mem_cons, List.not_mem_nil, or_false, not_or] at h
  exact ⟨fun hs => hs.elim h.1 h.2.1, fun hs => hs.elim h.2.2.1 h.2.2.2⟩

theorem atMost_parse {P : Type} (d : ModuleDecoder P) (m : ModuleId)
    (hd : ∀ id, ¬ SffModule id → ¬ CmisModule id → kindCost d id = 0) :
    AtMost (1 + (supportedKinds.map (kindCost d)).sum) (parseModulesByIdentifier d m) := by
  unfold parseModulesByIdentifier
  refine atMost_bind (atMost_identifier m) fun ident => ?_
  by_cases ha : Aligned ident.modules ident.data
  · obtain ⟨kinds, h1, hk⟩ := split_kinds ha
    rw [h1, ofExec_ok, ret_bind]
    refine atMost_bind (n := 0) (atMost_mono (atMost_parseKinds d _ kinds) ?_) fun _ => atMost_ret _ _
    have := sum_le_of_zero (kindCost d) supportedKinds (kinds.map Prod.fst) (kinds_nodup hk) fun x _ hS =>
      hd x (supported_iff hS).1 (supported_iff hS).2
    rwa [List.map_map] at this
  · have : splitModulesByIdentifier ident.modules ident.data = .panic := by
      unfold splitModulesByIdentifier
      rw [if_pos]
      rw [count_eq_card]
      exact fun h => ha h.symm
    rw [this]
    exact atMost_panic _

/-! ## Power -/

theorem softKinds_unsupported {low : Bool} {s : SoftState} {k : Identifier × ModuleId} (h : ¬ SffModule k.1)
    (h' : ¬ CmisModule k.1) : AtMost 0 (softKind low s k) := by
  unfold softKind
  dsimp only
  refine atMost_bind (m := 0) (n := 0) ?_ fun _ => ?_ <;>
  · unfold softWrite
    have : ∀ ov, powerWord k.1 ov low = .err (.transceiver (.decode (.unsupportedIdentifier k.1))) :=
      fun ov => C49_refused h h' ov low
    rw [this]
    exact atMost_fail _ _

theorem atMost_softWrite (id : Identifier) (low : Bool) (s : SoftState) (p : Bool × ModuleId) :
    AtMost 1 (softWrite id low s p) := by
  unfold softWrite
  refine atMost_exec_bind fun w => atMost_bind (n := 0) ?_ fun _ => atMost_ret _ _
  unfold writeImpl
  split
  · exact atMost_fail _ _
  · refine atMost_bind (n := 0) (atMost_call _) fun r => ?_
    split
    · exact atMost_exec_bind fun _ => atMost_exec_bind fun _ => atMost_ret _ _
    · exact atMost_fail _ _

/-- Two writes for a supported kind. -/
def softCost (id : Identifier) : Nat := if id ∈ supportedKinds then 2 else 0

theorem atMost_softKinds (low : Bool) (s : SoftState) (ks : List (Identifier × ModuleId)) :
    AtMost (ks.map fun k => softCost k.1).sum (softKinds low s ks) := by
  induction ks generalizing s with
  | nil => exact atMost_ret _ _
  | cons k ks ih =>
    rw [List.map_cons, List.sum_cons]
    refine atMost_bind ?_ fun _ => ih _
    unfold softCost
    split
    · unfold softKind
      exact atMost_bind (m := 1) (n := 1) (atMost_softWrite _ _ _ _) fun _ => atMost_softWrite _ _ _ _
    · rename_i h
      exact softKinds_unsupported (supported_iff h).1 (supported_iff h).2

theorem atMost_setSoft (r : Res PowerMode) (low : Bool) : AtMost 9 (setSoftwarePowerState r low) := by
  unfold setSoftwarePowerState
  refine atMost_bind (m := 1) (n := 8) (atMost_identifier _) fun ident => ?_
  by_cases ha : Aligned ident.modules ident.data
  · obtain ⟨kinds, h1, hk⟩ := split_kinds ha
    rw [h1, ofExec_ok, ret_bind]
    dsimp only
    refine atMost_bind (n := 0) (atMost_mono (atMost_softKinds low _ kinds) ?_) fun _ => atMost_ret _ _
    have := sum_le_of_zero softCost supportedKinds (kinds.map Prod.fst) (kinds_nodup hk) fun x _ hS => if_neg hS
    rw [List.map_map] at this
    exact Nat.le_trans this (by decide +kernel)
  · have : splitModulesByIdentifier ident.modules ident.data = .panic := by
      unfold splitModulesByIdentifier
      rw [if_pos]
      rw [count_eq_card]
      exact fun h => ha h.symm
    rw [this]
    exact atMost_panic _

theorem kindCost_sff {P : Type} {d : ModuleDecoder P} {rds : List MemoryRead} (h : ∀ {id}, SffModule id → d.reads id = .ok rds) :
    kindCost d (Bf.ofByte 0x0d) = readsCost rds ∧ kindCost d (Bf.ofByte 0x11) = readsCost rds := by
  unfold kindCost
  rw [h (.inl rfl), h (.inr rfl)]
  exact ⟨rfl, rfl⟩

theorem kindCost_cmis {P : Type} {d : ModuleDecoder P} {rds : List MemoryRead}
    (h : ∀ {id}, CmisModule id → d.reads id = .ok rds) :
    kindCost d (Bf.ofByte 0x18) = readsCost rds ∧ kindCost d (Bf.ofByte 0x1e) = readsCost rds := by
  unfold kindCost
  rw [h (.inl rfl), h (.inr rfl)]
  exact ⟨rfl, rfl⟩

theorem kindsCost {P : Type} {d : ModuleDecoder P} {a b : List MemoryRead} (ha : ∀ {id}, SffModule id → d.reads id = .ok a)
    (hb : ∀ {id}, CmisModule id → d.reads id = .ok b) :
    (supportedKinds.map (kindCost d)).sum = 2 * readsCost a + 2 * readsCost b := by
  have h1 := kindCost_sff ha
  have h2 := kindCost_cmis hb
  simp only [supportedKinds, List.map_cons, List.map_nil, List.sum_cons, List.sum_nil, h1.1, h1.2, h2.1, h2.2]
  omega

theorem kindCost_zero {P : Type} {d : ModuleDecoder P} {id : Identifier} {e : DecodeError} (h : d.reads id = .err e) :
    kindCost d id = 0 := by
  unfold kindCost
  rw [h]

theorem atMost_step (step : ModuleId → Prog (Res Unit)) (h : ∀ m, AtMost 1 (step m)) (a b : ModuleId)
    (f : FailedModules TransceiverError) : AtMost 1 (stepIfAny step a b f) := by
  unfold stepIfAny
  split
  · exact atMost_bind (n := 0) (h _) fun _ => atMost_ret _ _
  · exact atMost_ret _ _

end Xcvr
