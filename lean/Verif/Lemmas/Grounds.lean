import Verif.Spec.Grounds
import Verif.Lemmas.Honest
import Verif.Lemmas.PowerSteps

/-! # Why operations fail, whatever the SP answers -/

namespace Xcvr

open Spec Prog Controller

namespace Prog

variable {α β : Type}

/-- After the history `t` the program ends with results satisfying `Q` or errors satisfying `E`, both about the whole
history. -/
def Sat (Q : List Exchange → α → Prop) (E : List Exchange → CtlError → Prop) : List Exchange → Prog α → Prop
  | t, ret a => Q t a
  | t, fail e => E t e
  | _, panic => True
  | t, rpc c k => ∀ r, Sat Q E (t ++ [(c, r)]) (k r)

variable {Q : List Exchange → α → Prop} {E : List Exchange → CtlError → Prop} {t : List Exchange}

theorem sat_runs {p : Prog α} (hp : Sat Q E t p) {t' : List Exchange} {e : CtlError} (h : Runs p t' (.err e)) :
    E (t ++ t') e := by
  induction p generalizing t t' with
  | ret b =>
    rw [runs_ret] at h
    cases h.2
  | fail e =>
    rw [runs_fail] at h
    cases h.2
    rw [h.1, List.append_nil]
    exact hp
  | panic =>
    rw [runs_panic] at h
    cases h.2
  | rpc c k ih =>
    rw [runs_rpc] at h
    obtain ⟨r, t', rfl, h⟩ := h
    have := ih r (hp r) h
    rwa [List.append_assoc] at this

theorem sat_mono {Q' : List Exchange → α → Prop} {p : Prog α} (hp : Sat Q E t p) (h : ∀ t a, Q t a → Q' t a) :
    Sat Q' E t p := by
  induction p generalizing t with
  | ret a => exact h t a hp
  | fail e => exact hp
  | panic => trivial
  | rpc c k ih => exact fun r => ih r (hp r)

theorem sat_weaken {E' : List Exchange → CtlError → Prop} {p : Prog α} (hp : Sat Q E t p) (h : ∀ t e, E t e → E' t e) :
    Sat Q E' t p := by
  induction p generalizing t with
  | ret a => exact hp
  | fail e => exact h t e hp
  | panic => trivial
  | rpc c k ih => exact fun r => ih r (hp r)

/-- The history only grows. -/
theorem sat_grows {p : Prog α} (hp : Sat Q E t p) : Sat (fun t' a => Q t' a ∧ ∀ x ∈ t, x ∈ t') E t p := by
  suffices ∀ t₀ : List Exchange, (∀ x ∈ t₀, x ∈ t) → Sat (fun t' a => Q t' a ∧ ∀ x ∈ t₀, x ∈ t') E t p from
    this t fun _ h => h
  induction p generalizing t with
  | ret a => exact fun t₀ h => ⟨hp, h⟩
  | fail e => exact fun _ _ => hp
  | panic => exact fun _ _ => trivial
  | rpc c k ih => exact fun t₀ h r => ih r (hp r) t₀ fun x hx => List.mem_append_left _ (h x hx)

theorem sat_bind {Q' : List Exchange → β → Prop} {p : Prog α} {f : α → Prog β} (hp : Sat Q E t p)
    (hf : ∀ t' a, Q t' a → (∀ x ∈ t, x ∈ t') → Sat Q' E t' (f a)) : Sat Q' E t (p >>= f) := by
  have := sat_grows hp
  generalize hQ : (fun t' a => Q t' a ∧ ∀ x ∈ t, x ∈ t') = Q₀ at this
  have hf' : ∀ t' a, Q₀ t' a → Sat Q' E t' (f a) := fun t' a h => by
    rw [← hQ] at h
    exact hf t' a h.1 h.2
  clear hp hQ hf
  induction p generalizing t with
  | ret a => exact hf' t a this
  | fail e => exact this
  | panic => trivial
  | rpc c k ih => exact fun r => ih r (this r)

theorem sat_orElse {E' : List Exchange → CtlError → Prop} {p : Prog α} {f : CtlError → Prog α} (hp : Sat Q E' t p)
    (hf : ∀ t e, Sat Q E t (f e)) : Sat Q E t (p.orElse f) := by
  induction p generalizing t with
  | ret a => exact hp
  | fail e => exact hf t e
  | panic => trivial
  | rpc c k ih => exact fun r => ih r (hp r)

theorem sat_exec_bind {Q' : List Exchange → β → Prop} {x : Exec CtlError α} {f : α → Prog β}
    (he : ∀ e, x = .err e → E t e) (hf : ∀ a, x = .ok a → Sat Q' E t (f a)) : Sat Q' E t (ofExec x >>= f) := by
  cases x with
  | ok a => exact hf a rfl
  | err e => exact he e rfl
  | panic => trivial

theorem sat_exec {x : Exec CtlError α} (he : ∀ e, x = .err e → E t e) (hf : ∀ a, x = .ok a → Q t a) :
    Sat Q E t (ofExec x) := by
  cases x with
  | ok a => exact hf a rfl
  | err e => exact he e rfl
  | panic => trivial

end Prog

/-- Errors that admit what any call may end in. -/
def Admits (E : List Exchange → CtlError → Prop) : Prop := ∀ t e, NoAnswer t e ∨ BadAnswer t e → E t e

variable {E : List Exchange → CtlError → Prop}

theorem last_append (t : List Exchange) (x : Exchange) : Last (t ++ [x]) x := ⟨t, rfl⟩

theorem sat_call {β : Type} (hE : Admits E) {t : List Exchange} {c : Call} {Q : List Exchange → β → Prop}
    {k : SpRpcResponse → Prog β} (hk : ∀ r, Sat Q E (t ++ [(c, .answer (.ok r))]) (k r)) : Sat Q E t (call c >>= k) := by
  intro r
  cases r with
  | gone => trivial
  | answer a =>
    cases a with
    | error e => exact hE _ _ (.inl ⟨c, e, last_append _ _, rfl⟩)
    | ok r => exact hk r

theorem unwrap_noErr {α : Type} {o : Option α} {e : CtlError} (h : Exec.unwrap o = .err e) : False := by
  cases o <;> simp [Exec.unwrap] at h

theorem splitAt_noErr {d : Bytes} {n : Nat} {e : CtlError} (h : splitAt d n = .err e) : False := by
  unfold splitAt at h
  split at h <;> cases h

theorem chunksExact_noErr {d : Bytes} {n : Nat} {e : CtlError} (h : chunksExact n d = .err e) : False := by
  unfold chunksExact at h
  split at h <;> cases h

theorem mapM_noErr {α β : Type} {f : α → Exec CtlError β} (hf : ∀ a e, f a ≠ .err e) (l : List α) {e : CtlError}
    (h : l.mapM f = .err e) : False := by
  induction l with
  | nil => cases h
  | cons a l ih =>
    rw [List.mapM_cons] at h
    cases ha : f a with
    | err e' => exact hf a e' ha
    | panic => rw [ha] at h; cases h
    | ok b =>
      rw [ha] at h
      cases hl : l.mapM f with
      | err e' => exact ih (hl ▸ (by
          rw [hl] at h
          exact h))
      | panic => rw [hl] at h; cases h
      | ok bs => rw [hl] at h; cases h

/-- Too few bytes for the errors. -/
theorem bad_hwErrors (hE : Admits E) {t : List Exchange} {q : HostRequest} {D : Option Bytes} {r : SpRpcResponse}
    {R : SpResponse} {s f : ModuleId} {d : Bytes} (hb : r.message.body = .spResponse R)
    (hR : responseModules R = some (s, f)) (hd : r.data = some d) {d' : Bytes} (hd' : d' = d.drop (card s * recordSize R))
    {e : CtlError} (h : Controller.deserializeHwErrors f d' = .err e) :
    E (t ++ [(Call.host q D, .answer (.ok r))]) e := by
  refine hE _ _ (.inr ⟨_, r, q, last_append _ _, rfl, .inr (.inl ?_)⟩)
  unfold Controller.deserializeHwErrors Xcvr.deserializeHwErrors at h
  have hm : maxSize HwError = 1 := by decide +kernel
  have hc : card f ≤ 64 := by
    unfold card rank
    exact Nat.le_trans List.countP_le_length (by simp)
  rw [count_eq_card] at h
  cases hn : card f with
  | zero => rw [hn] at h; cases h
  | succ n =>
    rw [hn] at h
    simp only [DeserializedErrors.new, hm, Nat.mul_one] at h
    split at h
    · rename_i hs
      split at hs
      · rename_i hl
        cases hs
        cases h
        refine ⟨⟨R, s, f, d, hb, hR, hd, by rw [← hd', hn]; exact hl⟩, _, _, ?_, rfl⟩
        rw [BitVec.lt_def, BitVec.toNat_ofNat, BitVec.toNat_ofNat]
        omega
      · cases hs
    · cases h

theorem bad_kind (hE : Admits E) {t : List Exchange} {q : HostRequest} {D : Option Bytes} {r : SpRpcResponse}
    (h : ¬ OfKind q r.message.body) :
    E (t ++ [(Call.host q D, .answer (.ok r))]) (.unexpectedMessage r.message.body) :=
  hE _ _ (.inr ⟨_, r, q, last_append _ _, rfl, .inl ⟨h, rfl⟩⟩)

theorem sat_noPayload (hE : Admits E) {t : List Exchange} {q : HostRequest} (hq : IsCommand q) :
    Sat (fun _ _ => True) E t (noPayloadRequest q) := by
  unfold noPayloadRequest
  refine sat_call hE fun r => ?_
  split
  · rename_i s f hb
    refine sat_exec_bind (fun _ h => (unwrap_noErr h).elim) fun d hd =>
      sat_exec_bind (fun e h => ?_) fun fm hfm => trivial
    exact bad_hwErrors hE hb rfl (unwrap_ok hd) (by rw [show card s * recordSize (.ack s f) = 0 from rfl]; rfl) h
  · rename_i hb
    refine bad_kind hE fun hk => ?_
    cases hbd : r.message.body with
    | spResponse R =>
      rw [hbd] at hk hb
      cases R with
      | ack s f => exact hb s f rfl
      | _ => cases q <;> first | exact hk | exact hq
    | _ => rw [hbd] at hk; cases q <;> exact hk

/-- The bytes of a response: the part before the errors. -/
theorem splitAt_parts {d a b : Bytes} {n : Nat} (h : splitAt d n = .ok (a, b)) :
    a = d.take n ∧ b = d.drop n ∧ n ≤ d.length := by
  unfold splitAt at h
  split at h
  · rename_i hl
    cases h
    exact ⟨rfl, rfl, hl⟩
  · cases h

theorem take_one {d : Bytes} {n i : Nat} {v : U8} (h : (d.take n)[i]? = some v) : (d.drop i).take 1 = [v] := by
  rw [List.getElem?_take] at h
  split at h
  · obtain ⟨hi, rfl⟩ := List.getElem?_eq_some_iff.1 h
    rw [List.drop_eq_getElem_cons hi]
    rfl
  · cases h

/-- Every status in the result was reported. -/
def Statuses (t : List Exchange) (r : Res Status) : Prop :=
  Aligned r.modules r.data ∧ ∀ p s, datum r.modules r.data p = some s →
    ∃ x ∈ t, ∃ m, requestOf x = some (.status m) ∧ okIn x p = some [s]

theorem sat_status (hE : Admits E) {t : List Exchange} {m : ModuleId} : Sat Statuses E t (status m) := by
  unfold status
  refine sat_call hE fun r => ?_
  split
  · rename_i s f hb
    refine sat_exec_bind (fun _ h => (unwrap_noErr h).elim) fun d hd =>
      sat_exec_bind (fun _ h => (unwrap_noErr h).elim) fun n hn =>
      sat_exec_bind (fun _ h => (splitAt_noErr h).elim) fun x hx => ?_
    obtain ⟨h1, h2, h3⟩ := splitAt_parts (a := x.1) (b := x.2) hx
    have hn := unwrap_ok hn
    cases hn
    rw [count_eq_card] at h1 h2 h3
    refine sat_exec_bind (fun e h => bad_hwErrors hE hb rfl (unwrap_ok hd) h2 h) fun fm hfm => ?_
    refine ⟨?_, fun p v hp => ⟨_, List.mem_append_right _ List.mem_cons_self, m, rfl, ?_⟩⟩
    · show x.1.length = card s
      rw [h1, List.length_take, Nat.min_eq_left h3, Nat.mul_one]
    · rw [okIn_eq hb (unwrap_ok hd)]
      dsimp only [datum] at hp
      simp only [record, responseModules, recordSize, Nat.mul_one]
      split at hp
      · rename_i hm
        rw [if_pos hm, take_one (h1 ▸ hp)]
      · cases hp
  · rename_i hb
    refine bad_kind hE fun hk => ?_
    cases hbd : r.message.body with
    | spResponse R =>
      rw [hbd] at hk hb
      cases R with
      | status s f => exact hb s f rfl
      | _ => exact hk
    | _ => rw [hbd] at hk; exact hk

/-- What is left of an answer of the wrong kind. -/
theorem body_cases {q : HostRequest} {b : MessageBody} (h : OfKind q b) : ∃ R, b = .spResponse R := by
  cases b with
  | spResponse R => exact ⟨R, rfl⟩
  | _ => cases q <;> exact h.elim

theorem extendedStatusLoop_noErr {n : Nat} {d : Bytes} {e : CtlError} (h : extendedStatusLoop n d = .err e) : False := by
  induction n generalizing d e with
  | zero => cases h
  | succ n ih =>
    unfold extendedStatusLoop at h
    cases h1 : extendedStatusOf d with
    | err e' =>
      unfold extendedStatusOf at h1
      split at h1
      · split at h1 <;> cases h1
      · cases h1
    | panic => rw [h1] at h; cases h
    | ok x =>
      rw [h1] at h
      have h : (extendedStatusLoop n x.2 >>= fun more => pure (x.1 :: more)) = Exec.err e := h
      cases h2 : extendedStatusLoop n x.2 with
      | err e' => exact ih h2
      | panic => rw [h2] at h; cases h
      | ok y => rw [h2] at h; cases h

theorem sat_extendedStatus (hE : Admits E) {t : List Exchange} {m : ModuleId} :
    Sat (fun _ _ => True) E t (extendedStatus m) := by
  unfold extendedStatus
  refine sat_call hE fun r => ?_
  split
  · rename_i s f hb
    refine sat_exec_bind (fun _ h => (unwrap_noErr h).elim) fun d hd =>
      sat_exec_bind (fun _ h => (unwrap_noErr h).elim) fun n hn =>
      sat_exec_bind (fun _ h => (splitAt_noErr h).elim) fun x hx =>
      sat_exec_bind (fun _ h => (extendedStatusLoop_noErr h).elim) fun _ _ => ?_
    obtain ⟨h1, h2, h3⟩ := splitAt_parts (a := x.1) (b := x.2) hx
    have hn := unwrap_ok hn
    cases hn
    rw [count_eq_card] at h2
    exact sat_exec_bind (fun e h => bad_hwErrors hE hb rfl (unwrap_ok hd) h2 h) fun fm hfm => trivial
  · rename_i hb
    refine bad_kind hE fun hk => ?_
    obtain ⟨R, hR⟩ := body_cases hk
    rw [hR] at hk hb
    cases R with
    | extendedStatus s f => exact hb s f rfl
    | _ => exact hk

theorem sat_leds (hE : Admits E) {t : List Exchange} {m : ModuleId} : Sat (fun _ _ => True) E t (leds m) := by
  unfold leds
  refine sat_call hE fun r => ?_
  split
  · rename_i s f hb
    refine sat_exec_bind (fun _ h => (unwrap_noErr h).elim) fun d hd =>
      sat_exec_bind (fun _ h => (unwrap_noErr h).elim) fun n hn =>
      sat_exec_bind (fun _ h => (splitAt_noErr h).elim) fun x hx =>
      sat_exec_bind (fun _ h => (mapM_noErr (fun a e h => ?_) _ h).elim) fun _ _ => ?_
    · unfold ledOf at h
      split at h <;> cases h
    · obtain ⟨h1, h2, h3⟩ := splitAt_parts (a := x.1) (b := x.2) hx
      have hn := unwrap_ok hn
      cases hn
      rw [count_eq_card] at h2
      exact sat_exec_bind (fun e h => bad_hwErrors hE hb rfl (unwrap_ok hd) h2 h) fun fm hfm => trivial
  · rename_i hb
    refine bad_kind hE fun hk => ?_
    obtain ⟨R, hR⟩ := body_cases hk
    rw [hR] at hk hb
    cases R with
    | ledState s f => exact hb s f rfl
    | _ => exact hk

theorem sat_macAddrs (hE : Admits E) {t : List Exchange} : Sat (fun _ _ => True) E t macAddrs := by
  unfold macAddrs
  refine sat_call hE fun r => ?_
  split
  · trivial
  · rename_i e hb
    exact hE _ _ (.inr ⟨_, r, _, last_append _ _, rfl, .inr (.inr ⟨e, hb, rfl⟩)⟩)
  · rename_i h1 h2
    refine bad_kind hE fun hk => ?_
    obtain ⟨R, hR⟩ := body_cases hk
    rw [hR] at hk h1 h2
    cases R with
    | macAddrs x =>
      cases x with
      | ok a => exact h1 a rfl
      | error e => exact h2 e rfl
    | _ => exact hk

/-! ## Reading -/

/-- Every datum in the result was the answer to a request for the identifier. -/
def Recs (t : List Exchange) (r : Res Bytes) : Prop :=
  Aligned r.modules r.data ∧ ∀ p v, datum r.modules r.data p = some v →
    v.length ≤ 1 ∧ ∃ x ∈ t, ∃ m, requestOf x = some (.read m identifierByte) ∧ okIn x p = some v

theorem recs_grow {t t' : List Exchange} {r : Res Bytes} (h : Recs t r) (ht : ∀ x ∈ t, x ∈ t') : Recs t' r :=
  ⟨h.1, fun p v hp => ⟨(h.2 p v hp).1, by
    obtain ⟨x, hx, h'⟩ := (h.2 p v hp).2
    exact ⟨x, ht x hx, h'⟩⟩⟩

theorem sat_readOne (hE : Admits E) {t : List Exchange} {m : ModuleId} {rd : MemoryRead} :
    Sat (fun t r => rd = identifierByte → Recs t r) E t (readImplOneMessage m rd) := by
  by_cases hf : fitsInOneMessage m rd = true
  · rw [readImplOneMessage_eq (fits_iff.1 hf)]
    refine sat_call hE fun r => ?_
    split
    · rename_i s f rd' hb
      refine sat_exec_bind (fun _ h => (unwrap_noErr h).elim) fun d hd =>
        sat_exec_bind (fun _ h => (unwrap_noErr h).elim) fun n hn =>
        sat_exec_bind (fun _ h => (splitAt_noErr h).elim) fun x hx =>
        sat_exec_bind (fun _ h => (chunksExact_noErr h).elim) fun cs hcs => ?_
      obtain ⟨h1, h2, h3⟩ := splitAt_parts (a := x.1) (b := x.2) hx
      have hn := unwrap_ok hn
      cases hn
      rw [count_eq_card] at h1 h2 h3
      dsimp only
      split
      · trivial
      · rename_i hl
        have hl := Decidable.not_not.1 hl
        rw [count_eq_card] at hl
        refine sat_exec_bind (fun e h => bad_hwErrors hE hb rfl (unwrap_ok hd) h2 h) fun fm hfm => ?_
        rintro rfl
        refine ⟨hl, fun p v hp => ?_⟩
        have hcs' : (List.range (x.1.length / 1)).map (fun i => (x.1.drop (i * 1)).take 1) = cs := by
          unfold chunksExact at hcs
          exact Exec.ok.inj hcs
        have hx1 : x.1.length = card s * rd'.len.toNat := by rw [h1, List.length_take, Nat.min_eq_left h3]
        have hlen : cs.length = x.1.length := by rw [← hcs', List.length_map, List.length_range, Nat.div_one]
        dsimp only [datum] at hp
        split at hp
        · rename_i hm
          have hpos : 0 < card s := Nat.zero_lt_of_lt (rank_lt_card hm)
          have hone : rd'.len.toNat = 1 := by
            rw [hlen, hx1] at hl
            exact Nat.eq_of_mul_eq_mul_left hpos (hl.trans (Nat.mul_one _).symm)
          have hrank : rank s p < x.1.length := by
            obtain ⟨h, -⟩ := List.getElem?_eq_some_iff.1 hp
            omega
          have hv : v = [x.1[rank s p]] := by
            have : cs[rank s p]? = some ((x.1.drop (rank s p * 1)).take 1) := by
              rw [← hcs', List.getElem?_map, List.getElem?_range (by omega)]
              rfl
            rw [this, Nat.mul_one, List.drop_eq_getElem_cons hrank] at hp
            exact (Option.some.inj hp).symm
          refine ⟨by rw [hv]; exact Nat.le_refl 1, _, List.mem_append_right _ List.mem_cons_self, m, rfl, ?_⟩
          rw [okIn_eq hb (unwrap_ok hd)]
          simp only [record, responseModules, recordSize]
          rw [if_pos hm, hone, Nat.mul_one, hv, take_one (n := card s * rd'.len.toNat)]
          rw [← h1]
          exact List.getElem?_eq_getElem hrank
        · cases hp
    · rename_i hb
      refine bad_kind hE fun hk => ?_
      obtain ⟨R, hR⟩ := body_cases hk
      rw [hR] at hk hb
      cases R with
      | read s f rd' => exact hb s f rd' rfl
      | _ => exact hk
  · unfold readImplOneMessage
    rw [Bool.not_eq_true] at hf
    rw [hf]
    trivial

theorem recs_merge {t : List Exchange} {a b c : Res Bytes} (ha : Recs t a) (hb : Recs t b) (h : a.merge b = some c) :
    Recs t c := by
  refine ⟨aligned_resMerge ha.1 hb.1 h, fun p v hp => ?_⟩
  unfold ModuleResult.merge at h
  split at h
  · cases h
  · split at h
    · cases h
    · cases h
      have := datum_mergeModuleData (removeModuleData_pairs (r := b.failures.modules) ha.1).1
        (removeModuleData_pairs (r := a.failures.modules) hb.1).1 p
      have hp' : datum ((a.modules.remove b.failures.modules).merge (b.modules.remove a.failures.modules))
        (mergeModuleData (a.modules.remove b.failures.modules) (removeModuleData a.modules a.data b.failures.modules).2
          (b.modules.remove a.failures.modules) (removeModuleData b.modules b.data a.failures.modules).2).2 p = some v := hp
      rw [this, Option.or_eq_some_iff, datum_removeModuleData ha.1, datum_removeModuleData hb.1] at hp'
      rcases hp' with hp' | ⟨-, hp'⟩ <;> split at hp'
      · cases hp'
      · exact hb.2 p v hp'
      · cases hp'
      · exact ha.2 p v hp'

theorem recs_success {t : List Exchange} {m : ModuleId} {c : Res Bytes}
    (h : Exec.unwrap (ε := CtlError) (ModuleResult.success m []) = .ok c) : Recs t c := by
  have := unwrap_ok h
  unfold ModuleResult.success at this
  split at this
  · rename_i hl
    cases this
    refine ⟨?_, fun p v hp => ?_⟩
    · show _ = _
      rw [← count_eq_card]
      exact (beq_iff_eq.1 hl).symm
    · unfold datum at hp
      split at hp <;> cases hp
  · cases this

theorem sat_readLoop (hE : Admits E) {t : List Exchange} {rd : MemoryRead} {gs : List ModuleId} {res : Res Bytes}
    (hr : rd = identifierByte → Recs t res) :
    Sat (fun t r => rd = identifierByte → Recs t r) E t (readLoop rd res gs) := by
  induction gs generalizing res t with
  | nil => exact hr
  | cons g gs ih =>
    exact sat_bind (sat_readOne hE) fun t' a ha ht => sat_exec_bind (fun _ h => (unwrap_noErr h).elim) fun b hb =>
      ih fun h => recs_merge (recs_grow (hr h) ht) (ha h) (unwrap_ok hb)

theorem splitLargeReads_noErr {m : ModuleId} {rd : MemoryRead} {e : CtlError} (h : splitLargeReads m rd = .err e) :
    False := by
  refine mapM_noErr (fun a e h => ?_) _ h
  cases hx : ModuleId.fromIndexIter a <;> rw [hx] at h <;> cases h

theorem sat_readImpl (hE : Admits E) {t : List Exchange} {m : ModuleId} {rd : MemoryRead} :
    Sat (fun t r => rd = identifierByte → Recs t r) E t (readImpl m rd) := by
  unfold readImpl
  split
  · exact sat_exec (fun _ h => (unwrap_noErr h).elim) fun a ha _ => recs_success ha
  · refine sat_exec_bind (fun _ h => (splitLargeReads_noErr h).elim) fun gs _ => ?_
    cases gs with
    | nil => trivial
    | cons g gs => exact sat_bind (sat_readOne hE) fun _ _ ha _ => sat_readLoop hE ha

/-- Every identifier in the result was the answer to a request for it. -/
def Ids (t : List Exchange) (r : Res Identifier) : Prop :=
  Aligned r.modules r.data ∧ ∀ p id, datum r.modules r.data p = some id → ∃ b, Identifies t p b ∧ id = Bf.ofByte b

theorem mapM_getElem {ε α β : Type} {f : α → Exec ε β} {l : List α} {ys : List β} (h : l.mapM f = .ok ys) {i : Nat} {y : β}
    (hy : ys[i]? = some y) : ∃ x, l[i]? = some x ∧ f x = .ok y := by
  induction l generalizing ys i with
  | nil => cases h; cases hy
  | cons a l ih =>
    rw [List.mapM_cons] at h
    cases ha : f a with
    | err e => rw [ha] at h; cases h
    | panic => rw [ha] at h; cases h
    | ok b =>
      cases hl : l.mapM f with
      | err e => rw [ha, hl] at h; cases h
      | panic => rw [ha, hl] at h; cases h
      | ok bs =>
        rw [ha, hl] at h
        have : b :: bs = ys := Exec.ok.inj h
        subst this
        cases i with
        | zero => cases hy; exact ⟨a, rfl, ha⟩
        | succ i => exact ih hl hy

theorem sat_identifier (hE : Admits E) {t : List Exchange} {m : ModuleId} : Sat Ids E t (identifier m) := by
  unfold identifier
  rw [identifierRead_eq, ofExec_ok, ret_bind]
  refine sat_bind (sat_readImpl hE) fun t' a ha _ => sat_exec_bind (fun _ h => (mapM_noErr (fun a e h => ?_) _ h).elim)
    fun ids hids => ?_
  · unfold identifierOf at h
    split at h <;> cases h
  · have ha := ha rfl
    refine ⟨?_, fun p id hp => ?_⟩
    · show _ = _
      rw [mapM_length hids]
      exact ha.1
    · have hp : datum a.modules ids p = some id := hp
      unfold datum at hp
      split at hp
      · rename_i hm
        obtain ⟨v, hv, hid⟩ := mapM_getElem hids hp
        obtain ⟨hl, x, hx, m', hq, hok⟩ := ha.2 p v (by unfold datum; rw [if_pos hm]; exact hv)
        match v, hl, hid with
        | [b], _, hid =>
          cases hid
          exact ⟨b, ⟨x, hx, m', hq, hok⟩, rfl⟩
      · cases hp

theorem identifies_grow {t t' : List Exchange} {p : Nat} {b : U8} (h : Identifies t p b) (ht : ∀ x ∈ t, x ∈ t') :
    Identifies t' p b := by
  obtain ⟨x, hx, h⟩ := h
  exact ⟨x, ht x hx, h⟩

/-- What the check of kinds finds. -/
theorem verify_err {page : Page} {t : List Exchange} {r : Res Identifier} (hr : Ids t r) {e : CtlError}
    (h : verifyIdsForPage page r.modules r.data = .err e) : OtherInterface page.managementInterface t e := by
  have key : ∀ w : Identifier → Bool,
      (∀ b, w (Bf.ofByte b) = true → interfaceOfCode b ≠ some page.managementInterface) →
      ((match (r.modules.toIndices.zip r.data).find? fun p => w p.2 with
        | none => .ok ()
        | some (ix, ident) => .err (.transceiver (.invalidInterfaceForModule ix ident page.managementInterface))) :
        Exec CtlError Unit) = .err e → OtherInterface page.managementInterface t e := by
    intro w hw h
    cases hf : (r.modules.toIndices.zip r.data).find? fun p => w p.2 with
    | none => rw [hf] at h; cases h
    | some x =>
      rw [hf] at h
      cases h
      have hx : (x.1, x.2) ∈ r.modules.toIndices.zip r.data := List.mem_of_find?_eq_some hf
      obtain ⟨b, hb, hid⟩ := hr.2 _ _ (mem_zip_iff_datum.1 hx)
      have := List.find?_some hf
      rw [hid] at this
      refine ⟨x.1, b, hb, hw b this, ?_⟩
      rw [← hid]
  unfold verifyIdsForPage at h
  cases page with
  | sff8636 pg =>
    refine key (fun ident => !(ident = Identifier.qsfp28 || ident = Identifier.qsfpPlusSff8636)) (fun b hb hi => ?_) h
    rw [(verify_code b).1, hi] at hb
    cases hb
  | cmis pg =>
    refine key (fun ident => !(ident = Identifier.qsfpDD || ident = Identifier.qsfpPlusCmis)) (fun b hb hi => ?_) h
    rw [(verify_code b).2, hi] at hb
    cases hb

theorem sat_read (hE : Admits E) {t : List Exchange} {m : ModuleId} {rd : MemoryRead}
    (hO : ∀ t e, OtherInterface rd.page.managementInterface t e → E t e) : Sat (fun _ _ => True) E t (Controller.read m rd) := by
  unfold Controller.read
  split
  · exact sat_exec (fun _ h => (unwrap_noErr h).elim) fun a ha => trivial
  · exact sat_bind (sat_identifier hE) fun t' a ha _ => sat_exec_bind (fun e h => hO _ _ (verify_err ha h)) fun _ _ =>
      sat_bind (sat_readImpl hE) fun _ b hb _ => trivial

theorem sat_writeImpl (hE : Admits E) {t : List Exchange} {m : ModuleId} {w : MemoryWrite} {data : Bytes}
    (hW : w.len.toNat ≠ data.length → E t (.invalidWriteData w.len.toNat data.length)) :
    Sat (fun _ _ => True) E t (writeImpl m w data) := by
  unfold writeImpl
  split
  · rename_i h
    exact hW h
  · refine sat_call hE fun r => ?_
    split
    · rename_i s f w' hb
      refine sat_exec_bind (fun _ h => (unwrap_noErr h).elim) fun d hd =>
        sat_exec_bind (fun e h => ?_) fun fm hfm => trivial
      exact bad_hwErrors hE hb rfl (unwrap_ok hd) (by rw [show card s * recordSize (.write s f w') = 0 from rfl]; rfl) h
    · rename_i hb
      refine bad_kind hE fun hk => ?_
      obtain ⟨R, hR⟩ := body_cases hk
      rw [hR] at hk hb
      cases R with
      | write s f w' => exact hb s f w' rfl
      | _ => exact hk

theorem sat_write (hE : Admits E) {t : List Exchange} {m : ModuleId} {w : MemoryWrite} {data : Bytes}
    (hO : ∀ t e, OtherInterface w.page.managementInterface t e → E t e)
    (hW : ∀ t, w.len.toNat ≠ data.length → E t (.invalidWriteData w.len.toNat data.length)) :
    Sat (fun _ _ => True) E t (Controller.write m w data) := by
  unfold Controller.write
  exact sat_bind (sat_identifier hE) fun t' a ha _ => sat_exec_bind (fun e h => hO _ _ (verify_err ha h)) fun _ _ =>
    sat_bind (sat_writeImpl hE (hW _)) fun _ b hb _ => trivial

theorem sat_reset (hE : Admits E) {t : List Exchange} {m : ModuleId} : Sat (fun _ _ => True) E t (Controller.reset m) :=
  sat_bind (sat_noPayload hE trivial) fun _ _ _ _ => sat_bind (sat_noPayload hE trivial) fun _ _ _ _ => trivial

theorem sat_setPowerOff (hE : Admits E) {t : List Exchange} {m : ModuleId} : Sat (fun _ _ => True) E t (setPowerOff m) :=
  sat_bind (sat_noPayload hE trivial) fun _ _ _ _ => sat_bind (sat_noPayload hE trivial) fun _ _ _ _ =>
    sat_bind (sat_noPayload hE trivial) fun _ _ _ _ => trivial

/-! ## Decoding -/

/-- Every kind is that of some module. -/
def KindsSeen (t : List Exchange) (ks : List (Identifier × ModuleId)) : Prop :=
  ∀ k ∈ ks, ∃ p b, Identifies t p b ∧ k.1 = Bf.ofByte b

theorem kindsSeen_grow {t t' : List Exchange} {ks : List (Identifier × ModuleId)} (h : KindsSeen t ks)
    (ht : ∀ x ∈ t, x ∈ t') : KindsSeen t' ks := fun k hk => by
  obtain ⟨p, b, hb, e⟩ := h k hk
  exact ⟨p, b, identifies_grow hb ht, e⟩

theorem kinds_seen {t : List Exchange} {r : Res Identifier} (hr : Ids t r) {ks : List (Identifier × ModuleId)}
    (h : splitModulesByIdentifier r.modules r.data = .ok ks) : KindsSeen t ks := by
  obtain ⟨ks', h1, h2⟩ := split_kinds hr.1
  rw [h] at h1
  cases h1
  intro k hk
  obtain ⟨p, hp⟩ := h2.nonempty k hk
  obtain ⟨b, hb, e⟩ := hr.2 p k.1 ((h2.mem k.1 k.2 hk p).1 hp)
  exact ⟨p, b, hb, e⟩

theorem split_noErr {m : ModuleId} {ids : List Identifier} {e : CtlError} (h : splitModulesByIdentifier m ids = .err e) :
    False := by
  unfold splitModulesByIdentifier at h
  split at h <;> cases h

/-- The decoder refuses exactly the kinds that are not supported. -/
def Refuses {P : Type} (d : ModuleDecoder P) : Prop :=
  ∀ b e, d.reads (Bf.ofByte b) = .err e → interfaceOfCode b = none ∧ e = .unsupportedIdentifier (Bf.ofByte b)

theorem sat_readAll (hE : Admits E) {t : List Exchange} {m : ModuleId} (rds : List MemoryRead) :
    Sat (fun _ _ => True) E t (readAll m rds) := by
  induction rds generalizing t with
  | nil => trivial
  | cons rd rds ih => exact sat_bind (sat_readImpl hE) fun _ a ha _ => sat_bind ih fun _ rs hrs _ => trivial

theorem parseOne_noErr {P : Type} {d : ModuleDecoder P} {id : Identifier} {rs : List (Res Bytes)} {s : ParseState P}
    {i : U8} {e : CtlError} (h : parseOne d id rs s i = .err e) : False := by
  unfold parseOne at h
  split at h
  · cases h
  · split at h <;> cases h

theorem foldlM_noErr {α β : Type} {f : β → α → Exec CtlError β} (hf : ∀ b a e, f b a ≠ .err e) (l : List α) {b : β}
    {e : CtlError} (h : l.foldlM f b = .err e) : False := by
  induction l generalizing b with
  | nil => cases h
  | cons a l ih =>
    rw [List.foldlM_cons] at h
    cases hb : f b a with
    | err e' => exact hf b a e' hb
    | panic => rw [hb] at h; cases h
    | ok b' => rw [hb] at h; exact ih h

theorem sat_parseKinds (hE : Admits E) (hU : ∀ t e, UnknownKind t e → E t e) {P : Type} {d : ModuleDecoder P}
    (hd : Refuses d) {ks : List (Identifier × ModuleId)} {t : List Exchange} {s : ParseState P} (hk : KindsSeen t ks) :
    Sat (fun _ _ => True) E t (parseKinds d s ks) := by
  induction ks generalizing s t with
  | nil => trivial
  | cons k ks ih =>
    refine sat_bind (Q := fun _ _ => True) ?_ fun t' s' _ ht =>
      ih (kindsSeen_grow (fun k hk' => hk k (List.mem_cons_of_mem _ hk')) ht)
    obtain ⟨p, b, hb, he⟩ := hk k List.mem_cons_self
    unfold parseKind
    cases hr : d.reads k.1 with
    | ok rs =>
      exact sat_bind (p := readAll k.2 rs) (sat_readAll hE rs) fun _ a ha _ =>
        sat_exec (x := k.2.toIndices.foldlM (parseOne d k.1 a) s)
          (fun e h => (foldlM_noErr (fun _ _ _ h => parseOne_noErr h) _ h).elim) fun _ _ => trivial
    | panic => trivial
    | err e =>
      rw [he] at hr
      obtain ⟨h1, rfl⟩ := hd b e hr
      exact hU _ _ ⟨p, b, hb, h1, rfl⟩

theorem sat_parse (hE : Admits E) (hU : ∀ t e, UnknownKind t e → E t e) {P : Type} {d : ModuleDecoder P}
    (hd : Refuses d) {t : List Exchange} {m : ModuleId} : Sat (fun _ _ => True) E t (parseModulesByIdentifier d m) :=
  sat_bind (sat_identifier hE) fun _ a ha _ => sat_exec_bind (fun _ h => (split_noErr h).elim) fun ks hks =>
    sat_bind (sat_parseKinds hE hU hd (s := ⟨a.modules, a.failures, []⟩) (kinds_seen ha hks)) fun _ _ _ _ => trivial

theorem refuses_of {P : Type} {d : ModuleDecoder P} (h1 : ∀ id, SffModule id → LegalReads true (d.reads id))
    (h2 : ∀ id, CmisModule id → LegalReads false (d.reads id))
    (h3 : ∀ id, ¬ SffModule id → ¬ CmisModule id → d.reads id = .err (.unsupportedIdentifier id)) : Refuses d := by
  intro b e h
  by_cases hs : SffModule (Bf.ofByte b)
  · have := h1 _ hs
    rw [h] at this
    exact this.elim
  · by_cases hc : CmisModule (Bf.ofByte b)
    · have := h2 _ hc
      rw [h] at this
      exact this.elim
    · rw [h3 _ hs hc] at h
      simp only [Exec.err.injEq] at h
      have h' := (C54_refused hs hc []).1
      exact ⟨(powerControl_unsupported h').1, h.symm⟩

theorem refuses_power : Refuses PowerControl.decoder :=
  refuses_of (fun _ h => (C54_sff h).1) (fun _ h => (C54_cmis h).1) fun _ h h' => (C54_refused h h' []).1

theorem refuses_vendor : Refuses VendorInfo.decoder :=
  refuses_of (fun _ h => (C54_sff h).2.1) (fun _ h => (C54_cmis h).2.1) fun _ h h' => (C54_refused h h' []).2.2.1

theorem refuses_memoryModel : Refuses MemoryModel.decoder :=
  refuses_of (fun _ h => (C54_sff h).2.2.1) (fun _ h => (C54_cmis h).2.2.1) fun _ h h' => (C54_refused h h' []).2.2.2.2.1

theorem refuses_monitors : Refuses Monitors.decoder :=
  refuses_of (fun _ h => (C54_sff h).2.2.2.1) (fun _ h => (C54_cmis h).2.2.2.1)
    fun _ h h' => (C54_refused h h' []).2.2.2.2.2.2.1

theorem refuses_datapath : Refuses Datapath.decoder :=
  refuses_of (fun _ h => (C54_sff h).2.2.2.2) (fun _ h => (C54_cmis h).2.2.2.2)
    fun _ h h' => (C54_refused h h' []).2.2.2.2.2.2.2.2.1

/-! ## Power -/

theorem mem_mergeData {T : Type} {m₁ m₂ : ModuleId} {d₁ d₂ : List T} {x : T} (h : x ∈ (mergeModuleData m₁ d₁ m₂ d₂).2) :
    (∃ i, Mem m₁ (BitVec.toNat i) ∧ (i, x) ∈ m₁.toIndices.zip d₁) ∨ x ∈ d₂ := by
  simp only [mergeModuleData, mergeLoop_eq] at h
  obtain ⟨⟨i, y⟩, hy, rfl⟩ := List.mem_map.1 h
  rw [mem_mergePairs _ _ (zip_sorted _ _) (zip_sorted _ _)] at hy
  rcases hy with hy | ⟨hy, -⟩
  · exact .inr (List.of_mem_zip hy).2
  · exact .inl ⟨i, mem_toIndices.1 (List.of_mem_zip hy).1, hy⟩

theorem seenOff_grow {t t' : List Exchange} {p : Nat} (h : SeenOff t p) (ht : ∀ x ∈ t, x ∈ t') : SeenOff t' p := by
  obtain ⟨x, hx, h⟩ := h
  exact ⟨x, ht x hx, h⟩

theorem sat_readableModes (hE : Admits E) (hU : ∀ t e, UnknownKind t e → E t e) {t : List Exchange} {m : ModuleId}
    {ss : List Status} : Sat (fun _ r => ∀ mode ∈ r.data, mode.state ≠ .off) E t (readableModes m ss) := by
  unfold readableModes
  split
  · intro mode h
    cases h
  · refine sat_bind (sat_parse hE hU refuses_power) fun _ c _ _ => ?_
    intro mode h
    obtain ⟨x, -, rfl⟩ := List.mem_map.1 h
    unfold modeOf
    split <;> (dsimp only; split <;> simp)

theorem sat_power (hE : Admits E) (hU : ∀ t e, UnknownKind t e → E t e) {t : List Exchange} {m : ModuleId} :
    Sat (fun t r => ∀ mode ∈ r.data, mode.state = .off → ∃ p, SeenOff t p) E t (power m) := by
  unfold power
  refine sat_bind (sat_status hE) fun t₁ st hst ht₁ => ?_
  dsimp only
  refine sat_bind (sat_readableModes hE hU) fun t₂ r hr ht₂ => ?_
  intro mode hm hoff
  rcases mem_mergeData hm with ⟨i, hi, -⟩ | hm
  · refine ⟨i.toNat, seenOff_grow ?_ ht₂⟩
    have ha := filterModuleData_pairs (f := fun _ s => Status.contains s poweredFlags) hst.1
    have key : ∃ s, datum st.modules st.data i.toNat = some s ∧ NeedsPower s := by
      rcases mem_merge.1 hi with hi | hi
      · obtain ⟨h1, h2⟩ := mem_remove.1 hi
        obtain ⟨s, hs⟩ := (mem_iff_datum hst.1 _).1 h1
        refine ⟨s, hs, ?_⟩
        rw [(status_bits s).2.2.2.2]
        rintro ⟨h3, -⟩
        exact h2 ((mem_filter' _ hst.1 _).2 ⟨s, hs, h3⟩)
      · obtain ⟨s, hs, h3⟩ := (mem_filter' _ ha.1 _).1 hi
        refine ⟨s, ((datum_filter _ hst.1 _ _).1 hs).1, ?_⟩
        rw [(status_bits s).2.2.2.2]
        rintro ⟨-, h4⟩
        rw [h3] at h4
        cases h4
    obtain ⟨s, hs, hn⟩ := key
    obtain ⟨x, hx, m', hq, hok⟩ := hst.2 _ _ hs
    exact ⟨x, hx, m', s, hq, hok, hn⟩
  · exact (hr mode hm hoff).elim

theorem sat_softWrite (hE : Admits E) (hU : ∀ t e, UnknownKind t e → E t e) {t : List Exchange} {id : Identifier} {low : Bool}
    {s : SoftState} {p : Bool × ModuleId} (hk : ∃ p b, Identifies t p b ∧ id = Bf.ofByte b) :
    Sat (fun _ _ => True) E t (softWrite id low s p) := by
  obtain ⟨q, b, hb, rfl⟩ := hk
  unfold softWrite
  refine sat_exec_bind (fun e h => ?_) fun x hx => ?_
  · rcases powerWord_ends b p.1 low with ⟨w, y, h', -⟩ | ⟨h1, h2⟩
    · rw [h] at h'; cases h'
    · rw [h] at h2
      cases h2
      exact hU _ _ ⟨q, b, hb, h1, rfl⟩
  · refine sat_bind (sat_writeImpl hE fun h => ?_) fun _ _ _ _ => trivial
    rcases powerWord_ends b p.1 low with ⟨w, y, h', hl⟩ | ⟨h1, h2⟩
    · rw [hx] at h'
      cases h'
      rw [hl] at h
      exact (h rfl).elim
    · rw [hx] at h2; cases h2

theorem sat_softKinds (hE : Admits E) (hU : ∀ t e, UnknownKind t e → E t e) {low : Bool}
    {ks : List (Identifier × ModuleId)} {t : List Exchange} {s : SoftState} (hk : KindsSeen t ks) :
    Sat (fun _ _ => True) E t (softKinds low s ks) := by
  induction ks generalizing s t with
  | nil => trivial
  | cons k ks ih =>
    refine sat_bind (Q := fun _ _ => True) ?_ fun t' s' _ ht =>
      ih (kindsSeen_grow (fun k hk' => hk k (List.mem_cons_of_mem _ hk')) ht)
    obtain ⟨p, b, hb, he⟩ := hk k List.mem_cons_self
    unfold softKind
    dsimp only
    exact sat_bind (sat_softWrite hE hU ⟨p, b, hb, he⟩) fun _ _ _ ht =>
      sat_softWrite hE hU ⟨p, b, identifies_grow hb ht, he⟩

theorem sat_setSoftware (hE : Admits E) (hU : ∀ t e, UnknownKind t e → E t e) {t : List Exchange} {r : Res PowerMode}
    {low : Bool} : Sat (fun _ _ => True) E t (setSoftwarePowerState r low) := by
  unfold setSoftwarePowerState
  refine sat_bind (sat_identifier hE) fun _ a ha _ => sat_exec_bind (fun _ h => (split_noErr h).elim) fun ks hks => ?_
  generalize keepModuleData r.modules r.data a.modules = k
  dsimp only
  exact sat_bind (sat_softKinds (s := ⟨k.1, k.2, r.failures.merge a.failures⟩) hE hU (kinds_seen ha hks)) fun _ _ _ _ => trivial

theorem sat_stepIfAny {step : ModuleId → Prog (Res Unit)} {t : List Exchange}
    (h : ∀ g, Sat (fun _ _ => True) E t (step g)) {a b : ModuleId} {f : FailedModules TransceiverError} :
    Sat (fun _ _ => True) E t (stepIfAny step a b f) := by
  unfold stepIfAny
  split
  · exact sat_bind (h a) fun _ _ _ _ => trivial
  · trivial

theorem sat_setPowerOn (hE : Admits E) (hU : ∀ t e, UnknownKind t e → E t e) {t : List Exchange} {m : ModuleId}
    {low : Bool} (hF : low = false → ∀ t e, FromOff t e → E t e) : Sat (fun _ _ => True) E t (setPowerOn m low) := by
  unfold setPowerOn
  refine sat_bind (sat_power hE hU) fun t₁ pw hpw ht₁ => ?_
  split
  · rename_i h
    simp only [Bool.and_eq_true, Bool.not_eq_true', List.any_eq_true, decide_eq_true_eq] at h
    obtain ⟨hl, mode, hm, ho⟩ := h
    exact hF hl _ _ ⟨hpw mode hm ho, rfl⟩
  · refine sat_bind (sat_status hE) fun _ st hst _ => ?_
    dsimp only
    refine sat_bind (sat_stepIfAny (fun g => sat_noPayload (q := .assertReset g) hE trivial)) fun _ x hx _ => ?_
    refine sat_bind (sat_stepIfAny (fun g => sat_noPayload (q := .enablePower g) hE trivial)) fun _ y hy _ => ?_
    cases low with
    | true =>
      refine sat_bind (sat_noPayload hE trivial) fun _ r hr _ => ?_
      refine sat_bind (sat_stepIfAny (fun g => sat_noPayload (q := .deassertReset g) hE trivial)) fun _ z hz _ => ?_
      exact sat_setSoftware hE hU
    | false =>
      refine sat_bind (sat_noPayload hE trivial) fun _ r hr _ => ?_
      refine sat_bind (sat_stepIfAny (fun g => sat_noPayload (q := .deassertReset g) hE trivial)) fun _ z hz _ => ?_
      exact sat_setSoftware hE hU

/-! ## No error is passed over -/

namespace Prog

variable {α β : Type}

/-- An error instead of an answer ends the program. -/
def Strict : Prog α → Prop
  | rpc _ k => (∀ err, k (.answer (.error err)) = fail (.ofIo err)) ∧ ∀ r, Strict (k r)
  | _ => True

theorem strict_runs {p : Prog α} (hp : Strict p) {t : List Exchange} {o : Exec CtlError α} (h : Runs p t o) :
    Stops t o := by
  induction p generalizing t with
  | ret a => rw [runs_ret] at h; rw [h.1]; rintro (_ | _) <;> simp
  | fail e => rw [runs_fail] at h; rw [h.1]; rintro (_ | _) <;> simp
  | panic => rw [runs_panic] at h; rw [h.1]; rintro (_ | _) <;> simp
  | rpc c k ih =>
    rw [runs_rpc] at h
    obtain ⟨r, t', rfl, h⟩ := h
    intro t₁ t₂ c' err he
    cases t₁ with
    | nil =>
      simp only [List.nil_append, List.cons.injEq, Prod.mk.injEq] at he
      obtain ⟨⟨rfl, rfl⟩, rfl⟩ := he
      rw [hp.1, runs_fail] at h
      exact h
    | cons x t₁ =>
      simp only [List.cons_append, List.cons.injEq] at he
      exact ih r (hp.2 r) h t₁ t₂ c' err he.2

theorem strict_bind {p : Prog α} {f : α → Prog β} (hp : Strict p) (hf : ∀ a, Strict (f a)) : Strict (p >>= f) := by
  induction p with
  | ret a => exact hf a
  | fail e => trivial
  | panic => trivial
  | rpc c k ih =>
    refine ⟨fun err => ?_, fun r => ih r (hp.2 r)⟩
    show (k _).bind f = _
    rw [hp.1]
    rfl

theorem strict_exec (x : Exec CtlError α) : Strict (ofExec x) := by cases x <;> trivial

theorem strict_call {c : Call} {k : SpRpcResponse → Prog α} (hk : ∀ r, Strict (k r)) : Strict (call c >>= k) := by
  refine ⟨fun err => rfl, fun r => ?_⟩
  cases r with
  | gone => trivial
  | answer a =>
    cases a with
    | error e => trivial
    | ok r => exact hk r

end Prog

theorem strict_noPayload (q : HostRequest) : Strict (noPayloadRequest q) := by
  unfold noPayloadRequest
  refine strict_call fun r => ?_
  split
  · exact strict_bind (strict_exec _) fun _ => strict_bind (strict_exec _) fun _ => trivial
  · trivial

theorem strict_status (m : ModuleId) : Strict (status m) := by
  unfold status
  refine strict_call fun r => ?_
  split
  · iterate 5 (first | trivial | refine strict_bind (strict_exec _) fun _ => ?_)
    all_goals trivial
  · trivial

theorem strict_extendedStatus (m : ModuleId) : Strict (extendedStatus m) := by
  unfold extendedStatus
  refine strict_call fun r => ?_
  split
  · iterate 5 (first | trivial | refine strict_bind (strict_exec _) fun _ => ?_)
    all_goals trivial
  · trivial

theorem strict_leds (m : ModuleId) : Strict (leds m) := by
  unfold leds
  refine strict_call fun r => ?_
  split
  · iterate 5 (first | trivial | refine strict_bind (strict_exec _) fun _ => ?_)
    all_goals trivial
  · trivial

theorem strict_macAddrs : Strict macAddrs := by
  unfold macAddrs
  refine strict_call fun r => ?_
  split <;> trivial

theorem strict_readOne (m : ModuleId) (rd : MemoryRead) : Strict (readImplOneMessage m rd) := by
  unfold readImplOneMessage
  dsimp only
  split
  · trivial
  · refine strict_call fun r => ?_
    split
    · refine strict_bind (strict_exec _) fun _ => strict_bind (strict_exec _) fun _ => strict_bind (strict_exec _) fun _ =>
        strict_bind (strict_exec _) fun _ => ?_
      split
      · trivial
      · exact strict_bind (strict_exec _) fun _ => trivial
    · trivial

theorem strict_readLoop (rd : MemoryRead) (gs : List ModuleId) (res : Res Bytes) : Strict (readLoop rd res gs) := by
  induction gs generalizing res with
  | nil => trivial
  | cons g gs ih => exact strict_bind (strict_readOne g rd) fun _ => strict_bind (strict_exec _) fun _ => ih _

theorem strict_readImpl (m : ModuleId) (rd : MemoryRead) : Strict (readImpl m rd) := by
  unfold readImpl
  split
  · exact strict_exec _
  · refine strict_bind (strict_exec _) fun gs => ?_
    cases gs with
    | nil => trivial
    | cons g gs => exact strict_bind (strict_readOne g rd) fun _ => strict_readLoop rd gs _

theorem strict_identifier (m : ModuleId) : Strict (identifier m) :=
  strict_bind (strict_exec _) fun _ => strict_bind (strict_readImpl _ _) fun _ => strict_bind (strict_exec _) fun _ => trivial

theorem strict_read (m : ModuleId) (rd : MemoryRead) : Strict (Controller.read m rd) := by
  unfold Controller.read
  split
  · exact strict_exec _
  · exact strict_bind (strict_identifier m) fun _ => strict_bind (strict_exec _) fun _ =>
      strict_bind (strict_readImpl _ _) fun _ => trivial

theorem strict_writeImpl (m : ModuleId) (w : MemoryWrite) (data : Bytes) : Strict (writeImpl m w data) := by
  unfold writeImpl
  split
  · trivial
  · refine strict_call fun r => ?_
    split
    · exact strict_bind (strict_exec _) fun _ => strict_bind (strict_exec _) fun _ => trivial
    · trivial

theorem strict_write (m : ModuleId) (w : MemoryWrite) (data : Bytes) : Strict (Controller.write m w data) :=
  strict_bind (strict_identifier m) fun _ => strict_bind (strict_exec _) fun _ =>
    strict_bind (strict_writeImpl _ _ _) fun _ => trivial

theorem strict_reset (m : ModuleId) : Strict (Controller.reset m) :=
  strict_bind (strict_noPayload _) fun _ => strict_bind (strict_noPayload _) fun _ => trivial

theorem strict_setPowerOff (m : ModuleId) : Strict (setPowerOff m) :=
  strict_bind (strict_noPayload _) fun _ => strict_bind (strict_noPayload _) fun _ => strict_bind (strict_noPayload _) fun _ => trivial

theorem strict_readAll (m : ModuleId) (rds : List MemoryRead) : Strict (readAll m rds) := by
  induction rds with
  | nil => trivial
  | cons rd rds ih => exact strict_bind (strict_readImpl _ _) fun _ => strict_bind ih fun _ => trivial

theorem strict_parseKinds {P : Type} (d : ModuleDecoder P) (ks : List (Identifier × ModuleId)) (s : ParseState P) :
    Strict (parseKinds d s ks) := by
  induction ks generalizing s with
  | nil => trivial
  | cons k ks ih =>
    refine strict_bind ?_ fun s' => ih s'
    unfold parseKind
    cases d.reads k.1 with
    | ok rs => exact strict_bind (p := readAll k.2 rs) (strict_readAll _ _) fun _ => strict_exec (k.2.toIndices.foldlM _ s)
    | panic => trivial
    | err e => trivial

theorem strict_parse {P : Type} (d : ModuleDecoder P) (m : ModuleId) : Strict (parseModulesByIdentifier d m) :=
  strict_bind (strict_identifier m) fun _ => strict_bind (strict_exec _) fun _ =>
    strict_bind (strict_parseKinds d _ _) fun _ => trivial

theorem strict_power (m : ModuleId) : Strict (power m) := by
  unfold power
  refine strict_bind (strict_status m) fun st => ?_
  dsimp only
  refine strict_bind ?_ fun _ => trivial
  unfold readableModes
  split
  · trivial
  · exact strict_bind (strict_parse _ _) fun _ => trivial

theorem strict_softWrite (id : Identifier) (low : Bool) (s : SoftState) (p : Bool × ModuleId) :
    Strict (softWrite id low s p) := by
  unfold softWrite
  exact strict_bind (strict_exec _) fun _ => strict_bind (strict_writeImpl _ _ _) fun _ => trivial

theorem strict_softKinds (low : Bool) (ks : List (Identifier × ModuleId)) (s : SoftState) : Strict (softKinds low s ks) := by
  induction ks generalizing s with
  | nil => trivial
  | cons k ks ih =>
    refine strict_bind ?_ fun s' => ih s'
    unfold softKind
    dsimp only
    exact strict_bind (strict_softWrite _ _ _ _) fun _ => strict_softWrite _ _ _ _

theorem strict_setSoftware (r : Res PowerMode) (low : Bool) : Strict (setSoftwarePowerState r low) := by
  unfold setSoftwarePowerState
  refine strict_bind (strict_identifier _) fun a => strict_bind (strict_exec _) fun ks => ?_
  generalize keepModuleData r.modules r.data a.modules = k
  dsimp only
  exact strict_bind (strict_softKinds low ks ⟨k.1, k.2, r.failures.merge a.failures⟩) fun _ => trivial

theorem strict_stepIfAny {step : ModuleId → Prog (Res Unit)} (h : ∀ g, Strict (step g)) (a b : ModuleId)
    (f : FailedModules TransceiverError) : Strict (stepIfAny step a b f) := by
  unfold stepIfAny
  split
  · exact strict_bind (h a) fun _ => trivial
  · trivial

theorem strict_setPowerOn (m : ModuleId) (low : Bool) : Strict (setPowerOn m low) := by
  unfold setPowerOn
  refine strict_bind (strict_power m) fun pw => ?_
  split
  · trivial
  · refine strict_bind (strict_status _) fun st => ?_
    dsimp only
    refine strict_bind (strict_stepIfAny (fun g => strict_noPayload _) _ _ _) fun x => ?_
    refine strict_bind (strict_stepIfAny (fun g => strict_noPayload _) _ _ _) fun y => ?_
    cases low with
    | true =>
      refine strict_bind (strict_noPayload _) fun r => ?_
      exact strict_bind (strict_stepIfAny (fun g => strict_noPayload _) _ _ _) fun z => strict_setSoftware _ _
    | false =>
      refine strict_bind (strict_noPayload _) fun r => ?_
      exact strict_bind (strict_stepIfAny (fun g => strict_noPayload _) _ _ _) fun z => strict_setSoftware _ _

end Xcvr
