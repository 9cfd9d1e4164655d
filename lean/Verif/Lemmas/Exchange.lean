import Verif.Spec.Controller
import Verif.Lemmas.Prog
import Verif.Lemmas.ModuleId
import Verif.Lemmas.ModuleData
import Verif.Props.Wire

/-! # One exchange -/

namespace Xcvr

open Spec Prog

theorem partition_card {m s f : ModuleId} (h : Partition m s f) : card m = card s + card f := by
  unfold card rank
  induction 64 with
  | zero => rfl
  | succ n ih =>
    rw [List.range_succ, List.countP_append, List.countP_append, List.countP_append, ih]
    have := h n
    simp only [List.countP_singleton, decide_eq_true_eq]
    by_cases h1 : Mem s n <;> by_cases h2 : Mem f n <;> simp_all <;> omega

theorem datum_map {T S : Type} {m : ModuleId} {d : List T} (g : T → S) (p : Nat) :
    datum m (d.map g) p = (datum m d p).map g := by
  unfold datum
  split <;> simp

theorem datum_toIndices {m : ModuleId} (i : U8) : datum m m.toIndices i.toNat = if Mem m i.toNat then some i else none := by
  unfold datum
  split
  · rename_i h; exact toIndices_getElem_rank h
  · rfl

theorem datum_zip {T S : Type} {m : ModuleId} {a : List T} {b : List S} (p : Nat) :
    datum m (a.zip b) p = (datum m a p).bind fun x => (datum m b p).map fun y => (x, y) := by
  unfold datum
  split
  · rw [List.zip, List.getElem?_zipWith]
    cases a[rank m p]? <;> cases b[rank m p]? <;> rfl
  · rfl

theorem datum_lt {T : Type} {m : ModuleId} {d : List T} {p : Nat} {x : T} (h : datum m d p = some x) : p < 64 := by
  unfold datum at h
  split at h
  · exact mem_lt ‹_›
  · cases h

theorem ofNat_toNat_lt {p : Nat} (h : p < 64) : (BitVec.ofNat 8 p).toNat = p := by
  rw [BitVec.toNat_ofNat]; omega

/-- The controller's error decoding: one error per failed module. -/
theorem deserialize_spec {f : ModuleId} {d : Bytes} (h : Aligned f d) :
    ∃ errs, Controller.deserializeHwErrors f d = .ok ⟨f, errs⟩ ∧ Aligned f errs ∧
      ∀ p, datum f errs p = (datum f d p).map (hardwareError p) := by
  obtain ⟨es, h1, h2, h3⟩ := C16_exact f d h
  unfold Controller.deserializeHwErrors
  rw [h1]
  refine ⟨_, rfl, ?_, fun p => ?_⟩
  · unfold Aligned at *
    simp [h2, length_toIndices, count_eq_card]
  · rw [datum_map, datum_zip, h3]
    cases hb : datum f d p with
    | none => rfl
    | some b =>
      have hp := datum_lt hb
      have hm : Mem f p := by
        unfold datum at hb; split at hb
        · assumption
        · cases hb
      have := datum_toIndices (m := f) (BitVec.ofNat 8 p)
      rw [ofNat_toNat_lt hp, if_pos hm] at this
      simp [this, hardwareError]

theorem conforms_iff {c : Call} {q : HostRequest} {r : Reply} (hq : c.message.body = .hostRequest q) :
    Conforms (c, r) ↔ ∃ resp R, r = .answer (.ok resp) ∧ resp.message.body = .spResponse R ∧ Answers q R resp.data := by
  unfold Conforms requestOf responseOf
  simp only [hq, Option.some.injEq]
  constructor
  · rintro ⟨q', R, data, rfl, h, ha⟩
    split at h
    · rename_i resp
      split at h
      · rename_i hb
        cases h
        exact ⟨resp, _, rfl, hb, ha⟩
      · cases h
    · cases h
  · rintro ⟨resp, R, rfl, hb, ha⟩
    exact ⟨q, R, resp.data, rfl, by simp [hb], ha⟩

theorem okIn_eq {c : Call} {resp : SpRpcResponse} {R : SpResponse} {d : Bytes} (hb : resp.message.body = .spResponse R)
    (hd : resp.data = some d) (p : Nat) : okIn (c, .answer (.ok resp)) p = record R d p := by
  simp [okIn, responseOf, hb, hd]

theorem errIn_eq {c : Call} {resp : SpRpcResponse} {R : SpResponse} {d : Bytes} (hb : resp.message.body = .spResponse R)
    (hd : resp.data = some d) (p : Nat) :
    errIn (c, .answer (.ok resp)) p = (errorCode R d p).map (hardwareError p) := by
  simp [errIn, responseOf, hb, hd]

@[simp] theorem okAmong_singleton (x : Exchange) (p : Nat) : okAmong [x] p = okIn x p := by
  simp [okAmong]

@[simp] theorem errAmong_singleton (x : Exchange) (p : Nat) : errAmong [x] p = errIn x p := by
  simp [errAmong]

@[simp] theorem okAmong_nil (p : Nat) : okAmong [] p = none := rfl
@[simp] theorem errAmong_nil (p : Nat) : errAmong [] p = none := rfl

theorem okAmong_append (t₁ t₂ : List Exchange) (p : Nat) : okAmong (t₁ ++ t₂) p = (okAmong t₁ p).or (okAmong t₂ p) := by
  simp [okAmong, List.findSome?_append]

theorem errAmong_append (t₁ t₂ : List Exchange) (p : Nat) :
    errAmong (t₁ ++ t₂) p = (errAmong t₁ p).or (errAmong t₂ p) := by
  simp [errAmong, List.findSome?_append]

/-- What every successful exchange about modules has in common. -/
theorem reports_of {P : Type} {g : Bytes → P} {m s f : ModuleId} {c : Call} {resp : SpRpcResponse} {R : SpResponse}
    {d : Bytes} {data : List P} {errs : List TransceiverError} (hb : resp.message.body = .spResponse R)
    (hd : resp.data = some d) (hp : Partition m s f)
    (ha : Aligned s data) (hdata : ∀ p, datum s data p = (record R d p).map g)
    (he : Aligned f errs) (herrs : ∀ p, datum f errs p = (errorCode R d p).map (hardwareError p)) :
    Reports g m [(c, .answer (.ok resp))] ⟨s, data, ⟨f, errs⟩⟩ where
  wf := ⟨ha, he, fun p => (hp p).2⟩
  split := hp
  ok p := by rw [okAmong_singleton, okIn_eq hb hd]; exact hdata p
  err p := by rw [errAmong_singleton, errIn_eq hb hd]; exact herrs p

theorem conforming_cons {x : Exchange} {t : List Exchange} : Conforming (x :: t) ↔ Conforms x ∧ Conforming t := by
  simp [Conforming]

theorem conforming_append {t₁ t₂ : List Exchange} : Conforming (t₁ ++ t₂) ↔ Conforming t₁ ∧ Conforming t₂ := by
  simp only [Conforming, List.mem_append]
  exact ⟨fun h => ⟨fun x hx => h x (.inl hx), fun x hx => h x (.inr hx)⟩, fun h x hx => hx.elim (h.1 x) (h.2 x)⟩

/-- A conforming exchange of a call that asks `q`, followed by something. -/
theorem runs_query {P : Type} {q : HostRequest} {D : Option Bytes} {k : SpRpcResponse → Prog P} {t : List Exchange}
    {o : Exec CtlError P} (h : Runs (Prog.call (.host q D) >>= k) t o) (hc : Conforming t) :
    ∃ resp R t', t = (Call.host q D, .answer (.ok resp)) :: t' ∧ resp.message.body = .spResponse R ∧
      Answers q R resp.data ∧ Runs (k resp) t' o ∧ Conforming t' := by
  rcases runs_call_bind.1 h with ⟨rfl, _⟩ | ⟨r, t', rfl, h'⟩ | ⟨e, rfl, _⟩
  · have := (conforming_cons.1 hc).1
    rw [conforms_iff (q := q) rfl] at this
    obtain ⟨_, _, h, _⟩ := this; cases h
  · have := conforming_cons.1 hc
    obtain ⟨h1, h2⟩ := this
    rw [conforms_iff (q := q) rfl] at h1
    obtain ⟨resp, R, hr, hb, ha⟩ := h1
    cases hr
    exact ⟨r, R, t', rfl, hb, ha, h', h2⟩
  · have := (conforming_cons.1 hc).1
    rw [conforms_iff (q := q) rfl] at this
    obtain ⟨_, _, h, _⟩ := this; cases h

theorem aligned_drop {f : ModuleId} {d : Bytes} {n : Nat} (h : d.length = n + card f) : Aligned f (d.drop n) := by
  unfold Aligned; rw [List.length_drop]; omega

theorem splitAt_ok {d : Bytes} {n : Nat} (h : n ≤ d.length) : Controller.splitAt d n = .ok (d.take n, d.drop n) := by
  unfold Controller.splitAt; rw [if_pos h]

/-! ## Commands -/

theorem datum_replicate {T : Type} {m : ModuleId} {x : T} {n : Nat} (hn : n = card m) (p : Nat) :
    datum m (List.replicate n x) p = if Mem m p then some x else none := by
  unfold datum
  split
  · rename_i h
    rw [List.getElem?_replicate, if_pos (by have := rank_lt_card h; omega)]
  · rfl

theorem ack_aligned {m : ModuleId} : Aligned m (List.replicate m.count ()) := by
  unfold Aligned; rw [List.length_replicate, count_eq_card]

theorem noPayloadRequest_spec {q : HostRequest} {m : ModuleId} {t : List Exchange} {o : Exec CtlError (Res Unit)}
    (hq : IsCommand q) (hm : requestModules q = some m) (h : Runs (Controller.noPayloadRequest q) t o)
    (hc : Conforming t) :
    ∃ r res, t = [(Call.host q, r)] ∧ o = .ok res ∧ Reports (fun _ => ()) m t res := by
  unfold Controller.noPayloadRequest at h
  obtain ⟨resp, R, t', rfl, hb, ha, h, -⟩ := runs_query h hc
  have hk := ha.kind
  have hR : ∃ s f, R = .ack s f := by
    cases q <;> simp only [IsCommand] at hq <;> cases R <;> simp only [SameKind] at hk <;> exact ⟨_, _, rfl⟩
  obtain ⟨s, f, rfl⟩ := hR
  have hsz := ha.size
  cases hd : resp.data with
  | none => rw [hd] at hsz; simp [expectedTrailing] at hsz
  | some d =>
    rw [hd] at hsz
    simp only [Option.map_some, expectedTrailing, Option.some.injEq] at hsz
    simp only [hb, hd, Exec.unwrap, ofExec_ok, ret_bind] at h
    obtain ⟨errs, h1, h2, h3⟩ := deserialize_spec (f := f) (d := d) hsz
    rw [h1] at h
    simp only [ofExec_ok, ret_bind, pure_eq, runs_ret] at h
    obtain ⟨rfl, rfl⟩ := h
    refine ⟨_, _, rfl, rfl, reports_of hb hd (ha.split _ _ _ hm rfl) ack_aligned ?_ h2 ?_⟩
    · intro p
      rw [datum_replicate (count_eq_card _)]
      simp only [record, responseModules]
      split <;> rfl
    · intro p
      rw [h3]; simp [errorCode, responseModules, recordSize]

/-! ## Status -/

theorem datum_take {T : Type} {m : ModuleId} {d : List T} {n : Nat} (hn : card m ≤ n) (p : Nat) :
    datum m (d.take n) p = datum m d p := by
  unfold datum
  split
  · rename_i h
    rw [List.getElem?_take, if_pos (by have := rank_lt_card h; omega)]
  · rfl

theorem datum_of_getElem {T : Type} {m : ModuleId} {d : List T} (h : Aligned m d) (p : Nat) (g : Nat → T)
    (hg : ∀ i (hi : i < d.length), d[i] = g i) : datum m d p = if Mem m p then some (g (rank m p)) else none := by
  unfold datum
  split
  · rename_i hm
    have hr := rank_lt_card hm
    unfold Aligned at h
    rw [List.getElem?_eq_getElem (by omega), hg]
  · rfl

/-- Every position in the data of a set belongs to a port. -/
theorem exists_rank {s : ModuleId} {i : Nat} (hi : i < card s) : ∃ p, Mem s p ∧ rank s p = i := by
  have hlen : i < s.toIndices.length := by rw [length_toIndices, count_eq_card]; exact hi
  have hmem : s.toIndices[i] ∈ s.toIndices := List.getElem_mem hlen
  refine ⟨(s.toIndices[i]).toNat, mem_toIndices.1 hmem, ?_⟩
  have hr := toIndices_getElem_rank (mem_toIndices.1 hmem)
  have hlt := rank_lt_card (mem_toIndices.1 hmem)
  have hlt' : rank s (s.toIndices[i]).toNat < s.toIndices.length := by rw [length_toIndices, count_eq_card]; exact hlt
  rw [List.getElem?_eq_getElem hlt', Option.some.injEq] at hr
  have hs := toIndices_sorted s
  rw [List.pairwise_iff_getElem] at hs
  rcases Nat.lt_trichotomy (rank s (s.toIndices[i]).toNat) i with hlt | heq | hgt
  · have := hs _ _ hlt' hlen hlt; rw [hr] at this; exact absurd this (by simp)
  · exact heq
  · have := hs _ _ hlen hlt' hgt; rw [hr] at this; exact absurd this (by simp)

theorem status_spec {m : ModuleId} {t : List Exchange} {o : Exec CtlError (Res Controller.Status)}
    (h : Runs (Controller.status m) t o) (hc : Conforming t) :
    ∃ r res, t = [(Call.host (.status m), r)] ∧ o = .ok res ∧ Reports (fun b => b.headD 0) m t res := by
  unfold Controller.status at h
  obtain ⟨resp, R, t', rfl, hb, ha, h, -⟩ := runs_query h hc
  have hk := ha.kind
  cases R with
  | status s f =>
    have hsz := ha.size
    cases hd : resp.data with
    | none => rw [hd] at hsz; simp [expectedTrailing] at hsz
    | some d =>
      rw [hd] at hsz
      simp only [Option.map_some, expectedTrailing, Option.some.injEq] at hsz
      have hn : s.count * 1 = card s := by rw [count_eq_card, Nat.mul_one]
      simp only [hb, hd, Exec.unwrap, ofExec_ok, ret_bind, SpResponse.expectedDataLen, hn,
        splitAt_ok (show card s ≤ d.length by omega)] at h
      obtain ⟨errs, h1, h2, h3⟩ := deserialize_spec (aligned_drop hsz)
      rw [h1] at h
      simp only [ofExec_ok, ret_bind, pure_eq, runs_ret] at h
      obtain ⟨rfl, rfl⟩ := h
      refine ⟨_, _, rfl, rfl, reports_of hb hd (ha.split _ _ _ rfl rfl) ?_ ?_ h2 ?_⟩
      · unfold Aligned; rw [List.length_take]; omega
      · intro p
        rw [datum_take (Nat.le_refl _)]
        simp only [record, responseModules, recordSize, Nat.mul_one]
        unfold datum
        split
        · rename_i hm
          have hr := rank_lt_card hm
          have hlt : rank s p < d.length := by omega
          rw [List.getElem?_eq_getElem hlt, List.drop_eq_getElem_cons hlt]
          rfl
        · rfl
      · intro p
        rw [h3]; simp [errorCode, responseModules, recordSize]
  | _ => simp [SameKind] at hk

theorem leDec_four {b : Bytes} {x y z w : U8} {rest : Bytes} (h : b = x :: y :: z :: w :: rest) :
    (dec b : Option (U32 × Bytes)) = some (word [x, y, z, w], rest) := by
  subst h; rfl

theorem four_of_length {b : Bytes} (h : 4 ≤ b.length) : ∃ x y z w rest, b = x :: y :: z :: w :: rest := by
  match b, h with
  | x :: y :: z :: w :: rest, _ => exact ⟨x, y, z, w, rest, rfl⟩

theorem leVal_four (x y z w : U8) : leVal [x, y, z, w] < 2 ^ 32 := by
  simp only [leVal]
  have := x.isLt; have := y.isLt; have := z.isLt; have := w.isLt
  omega

theorem flags_of_lt {v : Nat} (h : v < 512) : BitVec.ofNat 32 v &&& ~~~ Controller.extendedStatusFlags = 0 := by
  have : ∀ i : Fin 512, BitVec.ofNat 32 i.val &&& ~~~ Controller.extendedStatusFlags = 0 := by decide +kernel
  exact this ⟨v, h⟩

theorem extendedStatusLoop_spec (n : Nat) (d : Bytes) (hl : 4 * n ≤ d.length)
    (hv : ∀ i, i < n → leVal ((d.drop (4 * i)).take 4) < 512) :
    ∃ ws, Controller.extendedStatusLoop n d = .ok ws ∧ ws.length = n ∧
      ∀ i (hi : i < ws.length), ws[i] = word ((d.drop (4 * i)).take 4) := by
  induction n generalizing d with
  | zero => exact ⟨[], rfl, rfl, fun i hi => absurd hi (by simp)⟩
  | succ n ih =>
    obtain ⟨x, y, z, w, rest, rfl⟩ := four_of_length (b := d) (by omega)
    have h0 := hv 0 (by omega)
    simp only [Nat.mul_zero, List.drop_zero, List.take_succ_cons, List.take_zero] at h0
    obtain ⟨ws, h1, h2, h3⟩ := ih rest (by simp only [List.length_cons] at hl; omega) (fun i hi => by
      have := hv (i + 1) (by omega)
      rwa [show 4 * (i + 1) = 4 + 4 * i by omega, ← List.drop_drop] at this)
    refine ⟨word [x, y, z, w] :: ws, ?_, by simp [h2], ?_⟩
    · unfold Controller.extendedStatusLoop Controller.extendedStatusOf
      rw [leDec_four rfl]
      have hf : word [x, y, z, w] &&& ~~~ Controller.extendedStatusFlags = 0 := flags_of_lt h0
      simp [h1, hf]
    · intro i hi
      cases i with
      | zero => simp
      | succ i =>
        simp only [List.getElem_cons_succ]
        rw [h3]
        rw [show 4 * (i + 1) = 4 + 4 * i by omega, ← List.drop_drop]
        rfl

theorem extendedStatus_spec {m : ModuleId} {t : List Exchange} {o : Exec CtlError (Res U32)}
    (h : Runs (Controller.extendedStatus m) t o) (hc : Conforming t) :
    ∃ r res, t = [(Call.host (.extendedStatus m), r)] ∧ o = .ok res ∧ Reports word m t res := by
  unfold Controller.extendedStatus at h
  obtain ⟨resp, R, t', rfl, hb, ha, h, -⟩ := runs_query h hc
  have hk := ha.kind
  cases R with
  | extendedStatus s f =>
    have hsz := ha.size
    cases hd : resp.data with
    | none => rw [hd] at hsz; simp [expectedTrailing] at hsz
    | some d =>
      have hval := ha.values d hd
      simp only [KnownValues, record, responseModules, recordSize] at hval
      rw [hd] at hsz
      simp only [Option.map_some, expectedTrailing, Option.some.injEq] at hsz
      have hn : card s * maxSize U32 = card s * 4 := rfl
      simp only [hb, hd, Exec.unwrap, ofExec_ok, ret_bind, SpResponse.expectedDataLen, count_eq_card, hn,
        splitAt_ok (show card s * 4 ≤ d.length by omega)] at h
      have htk : ∀ i, i < card s → ((d.take (card s * 4)).drop (4 * i)).take 4 = (d.drop (i * 4)).take 4 := by
        intro i hi
        rw [List.drop_take, List.take_take, Nat.mul_comm 4 i]
        congr 1; omega
      obtain ⟨ws, w1, w2, w3⟩ := extendedStatusLoop_spec (card s) (d.take (card s * 4))
        (by rw [List.length_take]; omega) (fun i hi => by
          rw [htk i hi]
          obtain ⟨p, hp, rfl⟩ := exists_rank hi
          exact hval p _ (by rw [if_pos hp]))
      obtain ⟨errs, h1, h2, h3⟩ := deserialize_spec (aligned_drop hsz)
      rw [w1, h1] at h
      simp only [ofExec_ok, ret_bind, pure_eq, runs_ret] at h
      obtain ⟨rfl, rfl⟩ := h
      refine ⟨_, _, rfl, rfl, reports_of hb hd (ha.split _ _ _ rfl rfl) w2 ?_ h2 ?_⟩
      · intro p
        rw [datum_of_getElem w2 p _ w3]
        simp only [record, responseModules, recordSize]
        split
        · rename_i hm
          rw [htk _ (rank_lt_card hm)]; rfl
        · rfl
      · intro p
        rw [h3]; simp [errorCode, responseModules, recordSize]
  | _ => simp [SameKind] at hk

/-! ## LEDs -/

theorem chunks_one {T : Type} (d : List T) : Controller.chunks 1 d = d.map fun x => [x] := by
  unfold Controller.chunks
  apply List.ext_getElem
  · simp
  · intro i h1 h2
    simp only [List.length_map, List.length_range] at h1 h2
    simp only [List.getElem_map, List.getElem_range, Nat.mul_one]
    rw [List.drop_eq_getElem_cons h2]
    rfl

theorem mapM_exec {ε α β : Type} {f : α → Exec ε β} {l : List α} {g : Nat → β}
    (h : ∀ i (hi : i < l.length), f l[i] = .ok (g i)) :
    ∃ ys, l.mapM f = .ok ys ∧ ys.length = l.length ∧ ∀ i (hi : i < ys.length), ys[i] = g i := by
  induction l generalizing g with
  | nil => exact ⟨[], rfl, rfl, fun i hi => absurd hi (by simp)⟩
  | cons a l ih =>
    have h0 := h 0 (by simp)
    simp only [List.getElem_cons_zero] at h0
    obtain ⟨ys, h1, h2, h3⟩ := ih (g := fun i => g (i + 1)) (fun i hi => h (i + 1) (by simpa using hi))
    refine ⟨g 0 :: ys, by simp [List.mapM_cons, h0, h1], by simp [h2], ?_⟩
    intro i hi
    cases i with
    | zero => rfl
    | succ i => simpa using h3 i (by simpa using hi)

theorem ledOf_eq (x : U8) : Controller.ledOf [x] = match ledOfCode [x] with
    | some s => .ok s
    | none => .panic := by
  have : ∀ x : U8, Controller.ledOf [x] = match ledOfCode [x] with
    | some s => .ok s
    | none => .panic := by decide +kernel
  exact this x

theorem leds_spec {m : ModuleId} {t : List Exchange} {o : Exec CtlError (Res LedState)}
    (h : Runs (Controller.leds m) t o) (hc : Conforming t) :
    ∃ r res, t = [(Call.host (.ledState m), r)] ∧ o = .ok res ∧
      Reports (fun b => (ledOfCode b).getD .off) m t res := by
  unfold Controller.leds at h
  obtain ⟨resp, R, t', rfl, hb, ha, h, -⟩ := runs_query h hc
  have hk := ha.kind
  cases R with
  | ledState s f =>
    have hsz := ha.size
    cases hd : resp.data with
    | none => rw [hd] at hsz; simp [expectedTrailing] at hsz
    | some d =>
      have hval := ha.values d hd
      simp only [KnownValues, record, responseModules, recordSize, Nat.mul_one] at hval
      rw [hd] at hsz
      simp only [Option.map_some, expectedTrailing, Option.some.injEq] at hsz
      have hn : card s * maxSize LedState = card s := Nat.mul_one _
      have hone : maxSize LedState = 1 := rfl
      simp only [hb, hd, Exec.unwrap, ofExec_ok, ret_bind, SpResponse.expectedDataLen, count_eq_card, hn, hone,
        Nat.mul_one, splitAt_ok (show card s ≤ d.length by omega), chunks_one] at h
      have hlen : ((d.take (card s)).map fun x => [x]).length = card s := by
        rw [List.length_map, List.length_take]; omega
      have hone' : ∀ i, i < card s → (d.drop i).take 1 = [d[i]!] := by
        intro i hi
        have hlt : i < d.length := by omega
        rw [List.drop_eq_getElem_cons hlt, List.getElem!_eq_getElem?_getD, List.getElem?_eq_getElem hlt]
        rfl
      obtain ⟨ys, y1, y2, y3⟩ := mapM_exec (f := Controller.ledOf) (l := (d.take (card s)).map fun x => [x])
        (g := fun i => (ledOfCode ((d.drop i).take 1)).getD .off) (fun i hi => by
          rw [hlen] at hi
          have hlt : i < d.length := by omega
          obtain ⟨p, hp, hpi⟩ := exists_rank hi
          have hv := hval p ((d.drop i).take 1) (by rw [if_pos hp, hpi])
          rw [List.getElem_map, List.getElem_take, ledOf_eq, hone' i hi,
            List.getElem!_eq_getElem?_getD, List.getElem?_eq_getElem hlt]
          rw [hone' i hi, List.getElem!_eq_getElem?_getD, List.getElem?_eq_getElem hlt] at hv
          simp only [Option.getD_some] at hv ⊢
          obtain ⟨st, hst⟩ := Option.isSome_iff_exists.1 hv
          rw [hst]; rfl)
      rw [hlen] at y2
      obtain ⟨errs, h1, h2, h3⟩ := deserialize_spec (aligned_drop hsz)
      rw [y1, h1] at h
      simp only [ofExec_ok, ret_bind, pure_eq, runs_ret] at h
      obtain ⟨rfl, rfl⟩ := h
      refine ⟨_, _, rfl, rfl, reports_of hb hd (ha.split _ _ _ rfl rfl) y2 ?_ h2 ?_⟩
      · intro p
        rw [datum_of_getElem y2 p _ y3]
        simp only [record, responseModules, recordSize, Nat.mul_one]
        split <;> rfl
      · intro p
        rw [h3]; simp [errorCode, responseModules, recordSize]
  | _ => simp [SameKind] at hk

end Xcvr
