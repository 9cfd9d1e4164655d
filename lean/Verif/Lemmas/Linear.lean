import Verif.Lemmas.SysBoard
import Verif.Spec.Linear

/-! # Lemmas: calls of several tasks, one after the other -/

namespace Xcvr

open Spec Sys

variable {α : Type}

/-! ### Which reception of a datagram a task has its answer from -/

/-- What the SP received; each with the call that has its answer from this reception, if any, and its task. -/
abbrev Marks := List ((Bytes × List Bytes) × Option (Nat × Exchange))

/-- The calls, in the order of the receptions. -/
def Marks.order (L : Marks) : List (Nat × Exchange) := L.filterMap Prod.snd

structure Marked (s : Sys α) (L : Marks) : Prop where
  log : L.map Prod.fst = s.spLog
  served : ∀ (k : Nat) y i x, L[k]? = some (y, some (i, x)) → i < s.tasks.length ∧
    ∃ id c resp pkt, x = (c, Reply.answer (.ok resp)) ∧ y.1 = callBytes id c ∧ pkt ∈ y.2 ∧ Says pkt resp
  once : ∀ (k k' : Nat) y y' m m', L[k]? = some (y, some m) → L[k']? = some (y', some m') → y.1 = y'.1 → k = k'
  past : ∀ (i : Nat) (tk : Task α), s.tasks[i]? = some tk → callsOf i L.order = tk.past.filter answeredOk
  done : ∀ (k : Nat) y m, L[k]? = some (y, some m) → ∀ (j : Nat) (tk : Task α) chan req, s.tasks[j]? = some tk →
    tk.phase = .waiting chan req → y.1 ≠ IoState.requestPacket req
  later : ∀ (i : Nat) (tk : Task α) chan req, s.tasks[i]? = some tk → tk.phase = .waiting chan req →
    ∀ (k k' : Nat) y x y' o, L[k]? = some (y, some (i, x)) → L[k']? = some (y', o) → y'.1 = IoState.requestPacket req → k < k'
  apart : ∀ (i j : Nat) (ti tj : Task α) ci ri cj rj, i ≠ j → s.tasks[i]? = some ti → s.tasks[j]? = some tj →
    ti.phase = .waiting ci ri → tj.phase = .waiting cj rj → IoState.requestPacket ri ≠ IoState.requestPacket rj

theorem marked_init (lim : Option Nat) (progs : List (Prog α)) : Marked (Sys.init lim progs) [] := by
  have ht : ∀ {i : Nat} {tk : Task α}, (Sys.init lim progs).tasks[i]? = some tk → tk.phase = .ready ∧ tk.past = [] := by
    intro i tk h
    simp only [Sys.init, List.getElem?_map, Option.map_eq_some_iff] at h
    obtain ⟨p, h, rfl⟩ := h
    exact ⟨rfl, rfl⟩
  refine ⟨rfl, ?_, ?_, fun i tk h => ?_, ?_, fun i tk chan req h hp => ?_, fun i j ti tj ci ri cj rj _ h _ hp => ?_⟩
  · intro k y i x h
    simp at h
  · intro k k' y y' m m' h
    simp at h
  · rw [(ht h).2]
    rfl
  · intro k y m h
    simp at h
  · rw [(ht h).1] at hp
    cases hp
  · rw [(ht h).1] at hp
    cases hp

/-- A change of a task that neither gives it an answer nor makes it wait. -/
theorem marked_task {s s' : Sys α} {L : Marks} (h : Marked s L) {i : Nat} {tk tk' : Task α} (hi : s.tasks[i]? = some tk)
    (hl : s'.spLog = s.spLog) (ht : s'.tasks = s.tasks.set i tk')
    (hp : tk'.past.filter answeredOk = tk.past.filter answeredOk) (hw : ∀ chan req, tk'.phase ≠ .waiting chan req) :
    Marked s' L := by
  have hlt : i < s.tasks.length := (List.getElem?_eq_some_iff.mp hi).1
  have hcase : ∀ {j : Nat} {tj : Task α}, s'.tasks[j]? = some tj → (j = i ∧ tj = tk') ∨ s.tasks[j]? = some tj := by
    intro j tj hj
    rw [ht] at hj
    by_cases hji : i = j
    · subst hji
      rw [List.getElem?_set_self hlt] at hj
      exact .inl ⟨rfl, (Option.some.inj hj).symm⟩
    · rw [List.getElem?_set_ne hji] at hj
      exact .inr hj
  refine ⟨h.log.trans hl.symm, ?_, h.once, fun j tj hj => ?_, fun k y m hk j tj chan req hj hph => ?_,
    fun j tj chan req hj hph => ?_, fun j j' tj tj' cj rj cj' rj' hne hj hj' hph hph' => ?_⟩
  · intro k y j x hk
    rw [ht, List.length_set]
    exact h.served k y j x hk
  · rcases hcase hj with ⟨rfl, rfl⟩ | hj
    · rw [hp]
      exact h.past j tk hi
    · exact h.past j tj hj
  · rcases hcase hj with ⟨rfl, rfl⟩ | hj
    · exact absurd hph (hw _ _)
    · exact h.done k y m hk j tj chan req hj hph
  · rcases hcase hj with ⟨rfl, rfl⟩ | hj
    · exact absurd hph (hw _ _)
    · exact h.later j tj chan req hj hph
  · rcases hcase hj with ⟨rfl, rfl⟩ | hj
    · exact absurd hph (hw _ _)
    rcases hcase hj' with ⟨rfl, rfl⟩ | hj'
    · exact absurd hph' (hw _ _)
    · exact h.apart j j' tj tj' cj rj cj' rj' hne hj hj' hph hph'

theorem marked_same {s s' : Sys α} {L : Marks} (h : Marked s L) (hl : s'.spLog = s.spLog) (ht : s'.tasks = s.tasks) :
    Marked s' L :=
  ⟨h.log.trans hl.symm, by rw [ht]; exact h.served, h.once, by rw [ht]; exact h.past, by rw [ht]; exact h.done,
    by rw [ht]; exact h.later, by rw [ht]; exact h.apart⟩

/-- A datagram is received. -/
theorem marked_sp {s s' : Sys α} {L : Marks} (h : Marked s L) {y : Bytes × List Bytes} (hl : s'.spLog = s.spLog ++ [y])
    (ht : s'.tasks = s.tasks) : Marked s' (L ++ [(y, none)]) := by
  have hget : ∀ {k : Nat} {z : Bytes × List Bytes} {m : Nat × Exchange}, (L ++ [(y, none)])[k]? = some (z, some m) →
      L[k]? = some (z, some m) := by
    intro k z m hk
    rw [List.getElem?_append] at hk
    split at hk
    · exact hk
    · have := List.mem_singleton.1 (List.mem_of_getElem? hk)
      cases this
  have horder : Marks.order (L ++ [(y, none)]) = L.order := by simp [Marks.order]
  refine ⟨by rw [hl, ← h.log]; simp, fun k z i x hk => ?_, fun k k' z z' m m' hk hk' => h.once k k' z z' m m' (hget hk) (hget hk'),
    by rw [horder, ht]; exact h.past, fun k z m hk => ?_, fun i tk chan req hi hp k k' z x z' o hk hk' he => ?_,
    by rw [ht]; exact h.apart⟩
  · rw [ht]
    exact h.served k z i x (hget hk)
  · rw [ht]
    exact h.done k z m (hget hk)
  · rw [ht] at hi
    rw [List.getElem?_append] at hk'
    have hlt : k < L.length := (List.getElem?_eq_some_iff.mp (hget hk)).1
    split at hk'
    · exact h.later i tk chan req hi hp k k' z x z' o (hget hk) hk' he
    · omega

/-- A task begins to wait for the answer to a new request. -/
theorem marked_submit {s s' : Sys α} {L : Marks} (h : Marked s L) {i : Nat} {tk tk' : Task α} (hi : s.tasks[i]? = some tk)
    (hl : s'.spLog = s.spLog) (ht : s'.tasks = s.tasks.set i tk') (hp : tk'.past = tk.past) {chan : Chan}
    {req : HostRpcRequest} (hw : tk'.phase = .waiting chan req)
    (hnew : IoState.requestPacket req ∉ s.spLog.map Prod.fst)
    (hdiff : ∀ (j : Nat) (tj : Task α) cj rj, s.tasks[j]? = some tj → tj.phase = .waiting cj rj →
      IoState.requestPacket rj ≠ IoState.requestPacket req) : Marked s' L := by
  have hlt : i < s.tasks.length := (List.getElem?_eq_some_iff.mp hi).1
  have hnot : ∀ {k : Nat} {y o}, L[k]? = some (y, o) → y.1 ≠ IoState.requestPacket req := by
    intro k y o hk he
    refine hnew (he ▸ ?_)
    rw [← h.log]
    exact List.mem_map_of_mem (List.mem_map_of_mem (List.mem_of_getElem? hk))
  have hcase : ∀ {j : Nat} {tj : Task α}, s'.tasks[j]? = some tj → (j = i ∧ tj = tk') ∨ s.tasks[j]? = some tj := by
    intro j tj hj
    rw [ht] at hj
    by_cases hji : i = j
    · subst hji
      rw [List.getElem?_set_self hlt] at hj
      exact .inl ⟨rfl, (Option.some.inj hj).symm⟩
    · rw [List.getElem?_set_ne hji] at hj
      exact .inr hj
  refine ⟨h.log.trans hl.symm, ?_, h.once, fun j tj hj => ?_, fun k y m hk j tj chan req hj hph => ?_,
    fun j tj chan req hj hph => ?_, fun j j' tj tj' cj rj cj' rj' hne hj hj' hph hph' => ?_⟩
  · intro k y j x hk
    rw [ht, List.length_set]
    exact h.served k y j x hk
  · rcases hcase hj with ⟨rfl, rfl⟩ | hj
    · rw [hp]
      exact h.past j tk hi
    · exact h.past j tj hj
  · rcases hcase hj with ⟨rfl, rfl⟩ | hj
    · rw [hw] at hph
      cases hph
      exact hnot hk
    · exact h.done k y m hk j tj chan req hj hph
  · rcases hcase hj with ⟨rfl, rfl⟩ | hj
    · rw [hw] at hph
      cases hph
      exact fun k k' y x y' o _ hk' he => absurd he (hnot hk')
    · exact h.later j tj chan req hj hph
  · rcases hcase hj with ⟨rfl, rfl⟩ | hj <;> rcases hcase hj' with ⟨rfl, rfl⟩ | hj'
    · exact absurd rfl hne
    · rw [hw] at hph
      cases hph
      exact (hdiff j' tj' cj' rj' hj' hph').symm
    · rw [hw] at hph'
      cases hph'
      exact hdiff j tj cj rj hj hph
    · exact h.apart j j' tj tj' cj rj cj' rj' hne hj hj' hph hph'

theorem callsOf_set {L : Marks} {k : Nat} {y : Bytes × List Bytes} {i : Nat} {x : Exchange} (hk : L[k]? = some (y, none))
    (hlast : ∀ (k' : Nat) y' x', L[k']? = some (y', some (i, x')) → k' < k) (j : Nat) :
    callsOf j (Marks.order (L.set k (y, some (i, x)))) = callsOf j L.order ++ if j = i then [x] else [] := by
  induction L generalizing k with
  | nil => simp at hk
  | cons z L ih =>
    cases k with
    | zero =>
      simp only [List.getElem?_cons_zero, Option.some.injEq] at hk
      subst hk
      have hnone : j = i → callsOf j (Marks.order L) = [] := by
        rintro rfl
        refine List.map_eq_nil_iff.2 (List.filter_eq_nil_iff.2 fun w hw hji => ?_)
        obtain ⟨z, hz, hzw⟩ := List.mem_filterMap.1 hw
        obtain ⟨k', hk', rfl⟩ := List.getElem_of_mem hz
        have := hlast (k' + 1) (L[k']).1 w.2 (by
          rw [List.getElem?_cons_succ, List.getElem?_eq_getElem hk', Option.some.injEq]
          refine Prod.ext rfl ?_
          rw [hzw]
          simp only [beq_iff_eq] at hji
          rw [← hji])
        omega
      have h1 : Marks.order (((y, none) :: L).set 0 (y, some (i, x))) = (i, x) :: Marks.order L := rfl
      have h2 : Marks.order ((y, none) :: L) = Marks.order L := rfl
      rw [h1, h2]
      by_cases hji : j = i
      · rw [if_pos hji, hnone hji]
        unfold callsOf at hnone ⊢
        rw [List.filter_cons_of_pos (by simp [hji]), List.map_cons, hnone hji]
        rfl
      · rw [if_neg hji]
        unfold callsOf
        rw [List.filter_cons_of_neg (by simpa using fun h => hji h.symm), List.append_nil]
    | succ k =>
      have hrec := ih (k := k) (by simpa using hk) fun k' y' x' h => by
        have := hlast (k' + 1) y' x' (by simpa using h)
        omega
      obtain ⟨z1, z2⟩ := z
      cases z2 with
      | none => exact hrec
      | some m =>
        have h1 : Marks.order (((z1, some m) :: L).set (k + 1) (y, some (i, x))) =
          m :: Marks.order (L.set k (y, some (i, x))) := rfl
        have h2 : Marks.order ((z1, some m) :: L) = m :: Marks.order L := rfl
        rw [h1, h2]
        unfold callsOf at hrec ⊢
        by_cases hm : m.1 = j
        · rw [List.filter_cons_of_pos (by simp [hm]), List.filter_cons_of_pos (by simp [hm]), List.map_cons, List.map_cons,
            hrec, List.cons_append]
        · rw [List.filter_cons_of_neg (by simpa using hm), List.filter_cons_of_neg (by simpa using hm), hrec]

/-- What a step does to the marks. -/
inductive Moved (s s' : Sys α) (L L' : Marks) : Prop where
  | same (tasks : s'.tasks = s.tasks) (log : s'.spLog = s.spLog) (marks : L' = L)
  | sp (y : Bytes × List Bytes) (tasks : s'.tasks = s.tasks) (log : s'.spLog = s.spLog ++ [y]) (marks : L' = L ++ [(y, none)])
  | task (i : Nat) (tk tk' : Task α) (old : s.tasks[i]? = some tk) (tasks : s'.tasks = s.tasks.set i tk')
      (log : s'.spLog = s.spLog) (marks : L' = L) (asked : ∀ c, Asked tk c → Asked tk' c) (dead : ¬ Live tk → ¬ Live tk')
      (lost : ∀ chan req, tk.phase = .waiting chan req → ¬ Live tk')
      (new : ∀ chan req, tk'.phase = .waiting chan req → IoState.requestPacket req ∉ s.spLog.map Prod.fst)
  | receive (i : Nat) (c : Call) (k : Reply → Prog α) (chan : Chan) (id : U64) (past : List Exchange) (resp : SpRpcResponse)
      (n : Nat) (out : List Bytes)
      (old : s.tasks[i]? = some ⟨.rpc c k, .waiting chan ⟨Header.new id c.kind, c.message, c.data⟩, past⟩)
      (free : L[n]? = some ((callBytes id c, out), none))
      (tasks : s'.tasks = s.tasks.set i (Sys.resume c k past (.answer (.ok resp)))) (log : s'.spLog = s.spLog)
      (marks : L' = L.set n ((callBytes id c, out), some (i, (c, .answer (.ok resp)))))

/-- A task gets its answer. -/
theorem marked_receive {s s' : Sys α} {L : Marks} (h : Marked s L) {i : Nat} {c : Call} {k : Reply → Prog α} {chan : Chan}
    {id : U64} {past : List Exchange}
    (hi : s.tasks[i]? = some ⟨.rpc c k, .waiting chan ⟨Header.new id c.kind, c.message, c.data⟩, past⟩)
    (hl : s'.spLog = s.spLog) {resp : SpRpcResponse} (ht : s'.tasks = s.tasks.set i (Sys.resume c k past (.answer (.ok resp))))
    {out : List Bytes} {pkt : Bytes} (h1 : (callBytes id c, out) ∈ s.spLog) (h2 : pkt ∈ out) (h3 : Says pkt resp) :
    ∃ L', Marked s' L' ∧ Moved s s' L L' := by
  have hlt : i < s.tasks.length := (List.getElem?_eq_some_iff.mp hi).1
  rw [← h.log] at h1
  obtain ⟨z, hz, hze⟩ := List.mem_map.1 h1
  obtain ⟨n, hn, rfl⟩ := List.getElem_of_mem hz
  have hnone : L[n]? = some ((callBytes id c, out), none) := by
    rw [List.getElem?_eq_getElem hn, Option.some.injEq]
    refine Prod.ext hze ?_
    cases hm : (L[n]).2 with
    | none => rfl
    | some m =>
      have hk : L[n]? = some ((callBytes id c, out), some m) := by
        rw [List.getElem?_eq_getElem hn, Option.some.injEq]
        exact Prod.ext hze hm
      exact absurd rfl (h.done n _ m hk i _ chan _ hi rfl)
  have hcase : ∀ {j : Nat} {tj : Task α}, s'.tasks[j]? = some tj →
      (j = i ∧ tj = Sys.resume c k past (.answer (.ok resp))) ∨ (j ≠ i ∧ s.tasks[j]? = some tj) := by
    intro j tj hj
    rw [ht] at hj
    by_cases hji : i = j
    · subst hji
      rw [List.getElem?_set_self hlt] at hj
      exact .inl ⟨rfl, (Option.some.inj hj).symm⟩
    · rw [List.getElem?_set_ne hji] at hj
      exact .inr ⟨fun h => hji h.symm, hj⟩
  have hget : ∀ {k' : Nat} {y : Bytes × List Bytes} {o : Option (Nat × Exchange)},
      (L.set n ((callBytes id c, out), some (i, (c, .answer (.ok resp)))))[k']? = some (y, o) →
      (k' = n ∧ y = (callBytes id c, out) ∧ o = some (i, (c, .answer (.ok resp)))) ∨ L[k']? = some (y, o) := by
    intro k' y o hk
    by_cases hkn : n = k'
    · subst hkn
      rw [List.getElem?_set_self hn, Option.some.injEq, Prod.mk.injEq] at hk
      exact .inl ⟨rfl, hk.1.symm, hk.2.symm⟩
    · rw [List.getElem?_set_ne hkn] at hk
      exact .inr hk
  have hlog : (L.set n ((callBytes id c, out), some (i, (c, .answer (.ok resp))))).map Prod.fst = L.map Prod.fst := by
    rw [List.map_set]
    refine List.ext_getElem? fun m => ?_
    by_cases hm : n = m
    · subst hm
      rw [List.getElem?_set_self (by simpa using hn), List.getElem?_map, hnone]
      rfl
    · rw [List.getElem?_set_ne hm]
  refine ⟨L.set n ((callBytes id c, out), some (i, (c, .answer (.ok resp)))), ⟨?_, ?_, ?_, ?_, ?_, ?_, ?_⟩,
    .receive i c k chan id past resp n out hi hnone ht hl rfl⟩
  · rw [hlog, h.log, hl]
  · intro k' y j x hk
    rw [ht, List.length_set]
    rcases hget hk with ⟨-, rfl, hx⟩ | hk
    · cases hx
      exact ⟨hlt, id, c, resp, pkt, rfl, rfl, h2, h3⟩
    · exact h.served k' y j x hk
  · intro k₁ k₂ y y' m m' hk hk' he
    have hneq : ∀ {k' : Nat} {y m}, L[k']? = some (y, some m) → y.1 ≠ callBytes id c := fun hk =>
      h.done _ _ _ hk i _ chan _ hi rfl
    rcases hget hk with ⟨h4, rfl, -⟩ | hk <;> rcases hget hk' with ⟨h5, rfl, -⟩ | hk'
    · rw [h4, h5]
    · exact absurd he.symm (hneq hk')
    · exact absurd he (hneq hk)
    · exact h.once k₁ k₂ y y' m m' hk hk' he
  · intro j tj hj
    rw [callsOf_set hnone (fun k' y' x' hk => h.later i _ chan _ hi rfl k' n y' x' _ _ hk hnone rfl)]
    rcases hcase hj with ⟨rfl, rfl⟩ | ⟨hne, hj⟩
    · rw [if_pos rfl, h.past j _ hi]
      simp only [Sys.resume, List.filter_append]
      rfl
    · rw [if_neg hne, List.append_nil]
      exact h.past j tj hj
  · intro k' y m hk j tj chan' req' hj hph
    rcases hcase hj with ⟨rfl, rfl⟩ | ⟨hne, hj⟩
    · cases hph
    rcases hget hk with ⟨-, rfl, -⟩ | hk
    · exact h.apart i j _ tj chan _ chan' req' (fun h => hne h.symm) hi hj rfl hph
    · exact h.done k' y m hk j tj chan' req' hj hph
  · intro j tj chan' req' hj hph k₁ k₂ y x y' o hk hk' he
    rcases hcase hj with ⟨rfl, rfl⟩ | ⟨hne, hj⟩
    · cases hph
    rcases hget hk with ⟨-, -, hx⟩ | hk
    · cases hx
      exact absurd rfl hne
    rcases hget hk' with ⟨rfl, rfl, -⟩ | hk'
    · exact absurd he (h.apart i j _ tj chan _ chan' req' (fun h => hne h.symm) hi hj rfl hph)
    · exact h.later j tj chan' req' hj hph k₁ k₂ y x y' o hk hk' he
  · intro j j' tj tj' cj rj cj' rj' hne hj hj' hph hph'
    rcases hcase hj with ⟨rfl, rfl⟩ | ⟨-, hj⟩
    · cases hph
    rcases hcase hj' with ⟨rfl, rfl⟩ | ⟨-, hj'⟩
    · cases hph'
    · exact h.apart j j' tj tj' cj rj cj' rj' hne hj hj' hph hph'

theorem answeredOk_gone {past : List Exchange} {c : Call} {r : Reply} (h : ∀ resp, r ≠ .answer (.ok resp)) :
    (past ++ [(c, r)]).filter answeredOk = past.filter answeredOk := by
  rw [List.filter_append]
  have : answeredOk (c, r) = false := by
    unfold answeredOk
    dsimp only
    split
    · rename_i resp
      exact absurd rfl (h resp)
    · rfl
  rw [List.filter_cons_of_neg (by rw [this]; decide)]
  simp

theorem not_live_unanswered {c : Call} {r : Reply} (hr : ∀ resp, r ≠ .answer (.ok resp)) {past : List Exchange} {q : Prog α}
    {ph : Phase} : ¬ Live (⟨q, ph, past ++ [(c, r)]⟩ : Task α) := by
  intro h
  obtain ⟨resp, h⟩ := h.1 (c, r) (by simp)
  exact hr resp h

theorem asked_resume {c : Call} {k : Reply → Prog α} {ph : Phase} {past : List Exchange} {r : Reply} (c' : Call)
    (h : Asked (⟨.rpc c k, ph, past⟩ : Task α) c') : Asked (Sys.resume c k past r) c' := by
  refine .inl ?_
  rcases h with h | ⟨k', h⟩
  · simp only [Sys.resume, List.map_append]
    exact List.mem_append_left _ h
  · cases h
    simp [Sys.resume]

theorem marked_step {lim : Option Nat} {progs : List (Prog α)} {n : Nat} {s s' : Sys α} {evs : List Event} {e : SysEvent}
    (inv : SysInv lim progs n s evs) (h : s.step e = some s') {L : Marks} (hm : Marked s L) :
    ∃ L', Marked s' L' ∧ Moved s s' L L' := by
  cases e with
  | number j =>
    simp only [Sys.step] at h
    split at h
    · rename_i c k past hj
      cases h
      exact ⟨L, marked_task hm hj rfl rfl rfl (fun _ _ h => by cases h), .task j _ _ hj rfl rfl rfl (fun _ h => h)
        (fun h h' => h ⟨h'.1, fun h => by cases h⟩) (fun _ _ h => by cases h) fun _ _ h => by cases h⟩
    · cases h
  | submit j =>
    simp only [Sys.step] at h
    split at h
    · rename_i c k req past hj
      obtain ⟨-, hn2, -⟩ := inv.numbered j _ req hj rfl
      split at h
      · cases h
        have hnew : IoState.requestPacket req ∉ s.spLog.map Prod.fst := fun hmem => by
          obtain ⟨x, hx, hxe⟩ := List.mem_map.1 hmem
          have hw := inv.log x hx
          rw [inv.wire] at hw
          obtain ⟨chan', req', h5, h6⟩ := sent_request inv.nodup hw
          exact hn2 chan' req' h5 (requestPacket_id (hxe.symm.trans h6))
        refine ⟨L, marked_submit hm hj rfl rfl rfl rfl hnew (fun i ti ci ri hi hph he => ?_), .task j _ _ hj rfl rfl rfl
          (fun _ h => h) (fun h h' => h ⟨h'.1, fun h => by cases h⟩) (fun _ _ h => by cases h) fun chan' req' hph => ?_⟩
        · exact hn2 ci ri (inv.waiting i ti ci ri hi hph).1 (requestPacket_id he.symm)
        · cases hph
          exact hnew
      · cases h
        exact ⟨L, marked_task hm hj rfl rfl (answeredOk_gone fun _ h => by cases h) (fun _ _ h => by cases h),
          .task j _ _ hj rfl rfl rfl asked_resume (fun _ => not_live_unanswered fun _ h => by cases h)
          (fun _ _ h => by cases h) fun _ _ h => by cases h⟩
    · cases h
  | receive j =>
    simp only [Sys.step] at h
    split at h
    · rename_i c k chan req past hj
      split at h
      · rename_i a ha
        cases h
        cases a with
        | error err =>
          exact ⟨L, marked_task hm hj rfl rfl (answeredOk_gone fun _ h => by cases h) (fun _ _ h => by cases h),
            .task j _ _ hj rfl rfl rfl asked_resume (fun _ => not_live_unanswered fun _ h => by cases h)
            (fun _ _ _ => not_live_unanswered fun _ h => by cases h) fun _ _ h => by cases h⟩
        | ok resp =>
          obtain ⟨req', h5, h6⟩ := inv.answers chan resp (mem_of_lookup ha)
          obtain ⟨h7, c2, k2, h8, h9⟩ := inv.waiting j _ chan req hj rfl
          cases h8
          rw [submit_unique inv.nodup h5 h7] at h6
          obtain ⟨out, pkt, h10, h11, h12, -⟩ := h6
          obtain ⟨id, rfl⟩ := h9
          exact marked_receive hm hj rfl rfl h10 h11 h12
      · split at h
        · cases h
        · cases h
          exact ⟨L, marked_task hm hj rfl rfl (answeredOk_gone fun _ h => by cases h) (fun _ _ h => by cases h),
            .task j _ _ hj rfl rfl rfl asked_resume (fun _ => not_live_unanswered fun _ h => by cases h)
            (fun _ _ _ => not_live_unanswered fun _ h => by cases h) fun _ _ h => by cases h⟩
    · cases h
  | cancel j =>
    simp only [Sys.step] at h
    split at h
    · rename_i p chan req past hj
      cases h
      obtain ⟨-, c, k, hp, -⟩ := inv.waiting j _ chan req hj rfl
      replace hp : p = .rpc c k := hp
      subst hp
      exact ⟨L, marked_task hm hj rfl rfl rfl (fun _ _ h => by cases h), .task j _ _ hj rfl rfl rfl (fun _ h => h)
        (fun _ h' => h'.2 rfl _ _ rfl) (fun _ _ _ h' => h'.2 rfl _ _ rfl) fun _ _ h => by cases h⟩
    · rename_i p ph past hph hj
      cases h
      refine ⟨L, marked_task hm hj rfl rfl rfl (fun _ _ h => by cases h), .task j _ _ hj rfl rfl rfl (fun _ h => h)
        (fun h h' => h ⟨h'.1, fun _ => h'.2 rfl⟩) (fun chan req h => ?_) fun _ _ h => by cases h⟩
      exact absurd h (hph chan req)
    · cases h
  | sp received out =>
    simp only [Sys.step] at h
    split at h
    · cases h
      exact ⟨_, marked_sp hm rfl rfl, .sp _ rfl rfl rfl⟩
    · cases h
  | deliver src bytes ok =>
    simp only [Sys.step] at h
    split at h
    · cases h
      exact ⟨L, marked_same hm rfl rfl, .same rfl rfl rfl⟩
    · cases h
  | noise src bytes ok =>
    simp only [Sys.step] at h
    split at h
    · cases h
    · cases h
      exact ⟨L, marked_same hm rfl rfl, .same rfl rfl rfl⟩
  | loop ev =>
    simp only [Sys.step] at h
    split at h <;> cases h
    exact ⟨L, marked_same hm rfl rfl, .same rfl rfl rfl⟩

/-! ### What becomes of a request -/

/-- Every request is one that a task asked; it has its answer, or is waited for, or the task did without. -/
def Fate (s : Sys α) (L : Marks) (evs : List Event) : Prop :=
  ∀ chan req, Event.submit chan req ∈ evs → ∃ (i : Nat) (tk : Task α) (c : Call), s.tasks[i]? = some tk ∧ Made c req ∧
    Asked tk c ∧ ((∃ y m, (y, some m) ∈ L ∧ y.1 = IoState.requestPacket req) ∨ tk.phase = .waiting chan req ∨ ¬ Live tk)

theorem set_mem {L : Marks} {n : Nat} {y : Bytes × List Bytes} (free : L[n]? = some (y, none)) {z : Bytes × List Bytes}
    {m m' : Nat × Exchange} (h : (z, some m) ∈ L) : (z, some m) ∈ L.set n (y, some m') := by
  obtain ⟨k, hk, he⟩ := List.getElem_of_mem h
  have hk' : L[k]? = some (z, some m) := by rw [List.getElem?_eq_getElem hk, he]
  refine List.mem_of_getElem? (i := k) ?_
  rw [List.getElem?_set_ne ?_]
  · exact hk'
  · rintro rfl
    rw [free] at hk'
    cases hk'

theorem fate_step {lim : Option Nat} {progs : List (Prog α)} {n : Nat} {s s' : Sys α} {evs evs' : List Event} {e : SysEvent}
    {L L' : Marks} (inv : SysInv lim progs n s evs) (hg : Grown s s' e evs evs') (hmove : Moved s s' L L')
    (hf : Fate s L evs) : Fate s' L' evs' := by
  intro chan req hmem
  rcases hg chan req hmem with hold | ⟨i, c, k, past, -, hi, ht⟩
  · obtain ⟨i, tk, c, hi, hmade, hask, hfate⟩ := hf chan req hold
    have hlt : i < s.tasks.length := (List.getElem?_eq_some_iff.mp hi).1
    cases hmove with
    | same tasks log marks =>
      rw [tasks, marks]
      exact ⟨i, tk, c, hi, hmade, hask, hfate⟩
    | sp y tasks log marks =>
      rw [tasks, marks]
      refine ⟨i, tk, c, hi, hmade, hask, hfate.imp ?_ id⟩
      rintro ⟨y', m, h1, h2⟩
      exact ⟨y', m, List.mem_append_left _ h1, h2⟩
    | task j t t' old tasks log marks asked dead lost new =>
      rw [tasks, marks]
      by_cases hji : j = i
      · subst hji
        rw [old] at hi
        cases hi
        refine ⟨j, t', c, List.getElem?_set_self hlt, hmade, asked c hask, hfate.imp id ?_⟩
        rintro (h | h)
        · exact .inr (lost chan req h)
        · exact .inr (dead h)
      · exact ⟨i, tk, c, by rw [List.getElem?_set_ne hji]; exact hi, hmade, hask, hfate⟩
    | receive j c' k' chan' id past resp m out old free tasks log marks =>
      rw [tasks, marks]
      by_cases hji : j = i
      · subst hji
        rw [old] at hi
        cases hi
        refine ⟨j, _, c, List.getElem?_set_self hlt, hmade, asked_resume c hask, ?_⟩
        rcases hfate with ⟨y', m', h1, h2⟩ | h | h
        · exact .inl ⟨y', m', set_mem free h1, h2⟩
        · cases h
          refine .inl ⟨_, _, List.mem_of_getElem? (i := m) (List.getElem?_set_self ?_), rfl⟩
          exact (List.getElem?_eq_some_iff.mp free).1
        · refine .inr (.inr fun h' => h ⟨fun x hx => h'.1 x ?_, fun h => by cases h⟩)
          simp only [Sys.resume]
          exact List.mem_append_left _ hx
      · refine ⟨i, tk, c, by rw [List.getElem?_set_ne hji]; exact hi, hmade, hask, hfate.imp ?_ fun h => h⟩
        rintro ⟨y', m', h1, h2⟩
        exact ⟨y', m', set_mem free h1, h2⟩
  · have hlt : i < s.tasks.length := (List.getElem?_eq_some_iff.mp hi).1
    obtain ⟨-, -, c', k', h1, h2⟩ := inv.numbered i _ req hi rfl
    cases h1
    rw [ht]
    exact ⟨i, _, c, List.getElem?_set_self hlt, h2, .inr ⟨k, rfl⟩, .inr (.inl rfl)⟩

/-! ### Calls are carried out between the call and the answer -/

/-- The marks among what had been received in state `s₁`. -/
structure CutInv (s₁ s : Sys α) (L : Marks) : Prop where
  longer : s₁.spLog <+: s.spLog
  since : ∀ (i : Nat) (tk : Task α) chan req, s.tasks[i]? = some tk → tk.phase = .waiting chan req →
    IoState.requestPacket req ∈ s₁.spLog.map Prod.fst → s₁.tasks[i]? = some tk
  cut : ∀ (i : Nat) (tk : Task α), s₁.tasks[i]? = some tk →
    callsOf i (Marks.order (L.take s₁.spLog.length)) = tk.past.filter answeredOk ∨
    ∃ c k chan req r, tk.prog = .rpc c k ∧ tk.phase = .waiting chan req ∧
      callsOf i (Marks.order (L.take s₁.spLog.length)) = tk.past.filter answeredOk ++ [(c, r)]

theorem Marked.length {s : Sys α} {L : Marks} (h : Marked s L) : L.length = s.spLog.length := by
  rw [← h.log, List.length_map]

theorem cut_here {s : Sys α} {L : Marks} (h : Marked s L) : CutInv s s L := by
  refine ⟨List.prefix_refl _, fun i tk chan req hi _ _ => hi, fun i tk hi => .inl ?_⟩
  rw [← h.length, List.take_length]
  exact h.past i tk hi

theorem callsOf_append {ι : Type} [DecidableEq ι] (i : ι) (l₁ l₂ : List (ι × Exchange)) :
    callsOf i (l₁ ++ l₂) = callsOf i l₁ ++ callsOf i l₂ := by
  simp [callsOf]

theorem order_take (L : Marks) (n : Nat) : L.order = Marks.order (L.take n) ++ Marks.order (L.drop n) := by
  unfold Marks.order
  rw [← List.filterMap_append, List.take_append_drop]

theorem cut_step {s₁ s s' : Sys α} {L L' : Marks} (hm : Marked s L) (hmove : Moved s s' L L') (h : CutInv s₁ s L) :
    CutInv s₁ s' L' := by
  cases hmove with
  | same tasks log marks =>
    rw [marks]
    exact ⟨log ▸ h.longer, by rw [tasks]; exact h.since, h.cut⟩
  | sp y tasks log marks =>
    rw [marks]
    refine ⟨log ▸ h.longer.trans (List.prefix_append ..), by rw [tasks]; exact h.since, ?_⟩
    rw [List.take_append_of_le_length (by rw [hm.length]; exact h.longer.length_le)]
    exact h.cut
  | task j t t' old tasks log marks asked dead lost new =>
    rw [marks]
    refine ⟨log ▸ h.longer, fun i tk chan req hi hph hr => ?_, h.cut⟩
    rw [tasks] at hi
    by_cases hji : j = i
    · subst hji
      rw [List.getElem?_set_self (List.getElem?_eq_some_iff.mp old).1] at hi
      cases hi
      obtain ⟨x, hx, he⟩ := List.mem_map.1 hr
      exact absurd (he ▸ List.mem_map_of_mem (h.longer.subset hx)) (new chan req hph)
    · rw [List.getElem?_set_ne hji] at hi
      exact h.since i tk chan req hi hph hr
  | receive j c k chan id past resp n out old free tasks log marks =>
    refine ⟨log ▸ h.longer, fun i tk chan' req hi hph hr => ?_, fun i tk hi => ?_⟩
    · rw [tasks] at hi
      by_cases hji : j = i
      · subst hji
        rw [List.getElem?_set_self (List.getElem?_eq_some_iff.mp old).1] at hi
        cases hi
        cases hph
      · rw [List.getElem?_set_ne hji] at hi
        exact h.since i tk chan' req hi hph hr
    · rw [marks, List.take_set]
      by_cases hn : n < s₁.spLog.length
      · have hfree : (L.take s₁.spLog.length)[n]? = some ((callBytes id c, out), none) := by
          rw [List.getElem?_take_of_lt hn]
          exact free
        have hlast : ∀ (k' : Nat) y' x', (L.take s₁.spLog.length)[k']? = some (y', some (j, x')) → k' < n := by
          intro k' y' x' hk
          rw [List.getElem?_take] at hk
          split at hk
          · exact hm.later j _ chan _ old rfl k' n y' x' _ _ hk free rfl
          · cases hk
        rw [callsOf_set hfree hlast]
        by_cases hij : i = j
        · subst hij
          rw [if_pos rfl]
          have hin : callBytes id c ∈ s₁.spLog.map Prod.fst := by
            have h1 : s.spLog[n]? = some (callBytes id c, out) := by
              rw [← hm.log, List.getElem?_map, free]
              rfl
            obtain ⟨r, hr⟩ := h.longer
            rw [← hr, List.getElem?_append_left hn] at h1
            exact List.mem_map_of_mem (List.mem_of_getElem? h1)
          have hsame := h.since i _ chan _ old rfl hin
          rw [hi] at hsame
          cases hsame
          have hfull := hm.past i _ old
          rcases h.cut i _ hi with hc | ⟨c', k', chan', req', r, -, -, hc⟩
          · exact .inr ⟨c, k, chan, _, .answer (.ok resp), rfl, rfl, by rw [hc]⟩
          · rw [order_take L s₁.spLog.length, callsOf_append, hc] at hfull
            have := congrArg List.length hfull
            simp at this
        · rw [if_neg hij, List.append_nil]
          exact h.cut i tk hi
      · rw [List.set_eq_of_length_le (by rw [List.length_take]; omega)]
        exact h.cut i tk hi

theorem CutInv.cutAt {s₁ s : Sys α} {L : Marks} (h : CutInv s₁ s L) : CutAt s₁ L.order :=
  ⟨_, _, order_take L s₁.spLog.length, h.cut⟩

/-- All of it, along a history. -/
theorem marked_run {lim : Option Nat} {progs : List (Prog α)} (evs : List SysEvent) {n : Nat} {s s' : Sys α}
    {ioEvs : List Event} (inv : SysInv lim progs n s ioEvs) (hl : ∀ x ∈ s.spLog, Echoes x.1 x.2) (hsp : SpDoes Echoes evs)
    (hn : n + numbered evs ≤ 2 ^ 64) (h : s.run evs = some s') {L : Marks} (hm : Marked s L) (hf : Fate s L ioEvs)
    {P : Sys α → Prop} (hP : ∀ s₁, P s₁ → CutInv s₁ s L) :
    ∃ L' ioEvs', Marked s' L' ∧ SysInv lim progs (n + numbered evs) s' ioEvs' ∧ Fate s' L' ioEvs' ∧
      (∀ s₁, P s₁ → CutInv s₁ s' L') ∧
      ∀ e₁ e₂ s₁, evs = e₁ ++ e₂ → s.run e₁ = some s₁ → CutInv s₁ s' L' := by
  induction evs generalizing n s ioEvs L P with
  | nil =>
    cases h
    refine ⟨L, ioEvs, hm, inv, hf, hP, fun e₁ e₂ s₁ he hr => ?_⟩
    obtain ⟨rfl, rfl⟩ := List.append_eq_nil_iff.1 he.symm
    cases hr
    exact cut_here hm
  | cons e evs ih =>
    rw [Sys.run] at h
    split at h
    · rename_i s₁ hs
      have hnum : numbered (e :: evs) = ids e + numbered evs := by
        unfold numbered ids
        rw [List.countP_cons]
        cases e <;> simp [Nat.add_comm]
      rw [hnum, ← Nat.add_assoc] at hn ⊢
      obtain ⟨io', inv', hg⟩ := sysInv_step inv hl (by omega) hs
      obtain ⟨L₁, hm₁, hmove⟩ := marked_step inv hs hm
      obtain ⟨L', io'', h1, h2, h3, h4, h5⟩ := ih inv'
        (spLog_step hs hl fun r out he => hsp r out (by rw [he]; exact List.mem_cons_self))
        (fun r out hr => hsp r out (List.mem_cons_of_mem _ hr)) hn h hm₁ (fate_step inv hg hmove hf)
        (P := fun s₀ => P s₀ ∨ s₀ = s) fun s₀ hs₀ => cut_step hm hmove
          (hs₀.elim (hP s₀) fun h => by subst h; exact cut_here hm)
      refine ⟨L', io'', h1, h2, h3, fun s₀ hs₀ => h4 s₀ (.inl hs₀), fun e₁ e₂ s₀ he hr => ?_⟩
      cases e₁ with
      | nil =>
        cases hr
        exact h4 _ (.inr rfl)
      | cons e' e₁ =>
        rw [List.cons_append, List.cons.injEq] at he
        obtain ⟨rfl, rfl⟩ := he
        rw [Sys.run, hs] at hr
        exact h5 e₁ e₂ s₀ rfl hr
    · cases h

/-! ### From receptions to calls -/

/-- Receptions of datagrams that have a key, which is the same for copies of a datagram only. -/
abbrev Keyed (K ι : Type) := List (K × (Bytes × List Bytes) × Option (ι × Exchange))

/-- The calls, in the order of the receptions. -/
def Keyed.order {K ι : Type} (L : Keyed K ι) : List (ι × Exchange) := L.filterMap (·.2.2)

theorem Keyed.order_one {K ι : Type} {a : K} {B : Keyed K ι} (hall : ∀ z ∈ B, z.1 = a)
    (once : B.Pairwise fun z z' => z.2.2.isSome → z'.2.2.isSome → z.1 ≠ z'.1) {k : K} {y : Bytes × List Bytes} {m : ι × Exchange}
    (h : (k, y, some m) ∈ B) : B.order = [m] := by
  induction B with
  | nil => cases h
  | cons z B ih =>
    obtain ⟨z0, z1, z2⟩ := z
    rw [List.pairwise_cons] at once
    cases z2 with
    | none =>
      rcases List.mem_cons.1 h with h | h
      · cases h
      · exact ih (fun z hz => hall z (List.mem_cons_of_mem _ hz)) once.2 h
    | some m' =>
      have hrest : ∀ z ∈ B, z.2.2 = none := by
        intro z hz
        cases hz2 : z.2.2 with
        | none => rfl
        | some w =>
          refine absurd ?_ (once.1 z hz rfl (by rw [hz2]; rfl))
          rw [hall z (List.mem_cons_of_mem _ hz)]
          exact hall _ List.mem_cons_self
      have hnil : Keyed.order B = [] := List.filterMap_eq_nil_iff.2 hrest
      show m' :: Keyed.order B = [m]
      rw [hnil]
      rcases List.mem_cons.1 h with h | h
      · cases h
        rfl
      · cases hrest _ h

theorem carried_block {port : Nat} {l log : List (Bytes × List Bytes)} {b d d' : PortState} {call : Call} {id : U64}
    {q : HostRequest} (hq : call.message.body = .hostRequest q) (hall : ∀ x ∈ l, x.1 = callBytes id call)
    (hc : Carried port log b d call (callBytes id call)) (he : LogEvolvesAt port d l d') (ha : AlikeAt port (log ++ l)) :
    Carried port (log ++ l) b d' call (callBytes id call) := by
  induction l generalizing log d with
  | nil =>
    cases he
    rwa [List.append_nil]
  | cons y l ih =>
    obtain ⟨e, h1, h2⟩ := he
    have hsplit : log ++ y :: l = (log ++ [y]) ++ l := by simp
    rw [hsplit] at ha ⊢
    exact ih (fun x hx => hall x (List.mem_cons_of_mem _ hx))
      (carried_more hq hc h1 (.inr (hall y List.mem_cons_self)) (alike_left ha)) h2 ha

theorem alike_right {port : Nat} {l₁ l₂ : List (Bytes × List Bytes)} (h : AlikeAt port (l₁ ++ l₂)) : AlikeAt port l₂ :=
  fun x hx y hy => h x (List.mem_append_right _ hx) y (List.mem_append_right _ hy)

theorem inOrder_right {port : Nat} {l₁ l₂ : List (Bytes × List Bytes)} (h : InOrderAt port (l₁ ++ l₂)) :
    InOrderAt port l₂ := fun a x q d h1 h2 h3 h4 h5 => h a x q d h1 h2 h3 h4 (by
  rw [List.map_append]
  exact h5.trans (List.sublist_append_right ..))

/-- Copies of the datagram that came first come before the others. -/
theorem split_copies {K ι : Type} {a : K} (L : Keyed K ι) (hord : ∀ x, x ≠ a → ¬ [a, x, a].Sublist (a :: L.map (·.1))) :
    ∃ B R : Keyed K ι, L = B ++ R ∧ (∀ z ∈ B, z.1 = a) ∧ ∀ z ∈ R, z.1 ≠ a := by
  induction L with
  | nil => exact ⟨[], [], rfl, by simp, by simp⟩
  | cons z L ih =>
    by_cases hz : z.1 = a
    · obtain ⟨B, R, h1, h2, h3⟩ := ih fun x hx hs => hord x hx (hs.trans (by
        rw [List.map_cons]
        exact List.Sublist.cons_cons _ (List.sublist_cons_self ..)))
      refine ⟨z :: B, R, by rw [h1]; rfl, ?_, h3⟩
      intro w hw
      rcases List.mem_cons.1 hw with rfl | hw
      · exact hz
      · exact h2 w hw
    · refine ⟨[], z :: L, rfl, by simp, fun w hw he => ?_⟩
      rcases List.mem_cons.1 hw with rfl | hw
      · exact hz he
      · refine hord z.1 hz ?_
        rw [List.map_cons]
        refine List.Sublist.cons_cons _ (List.Sublist.cons_cons _ (List.singleton_sublist.2 ?_))
        rw [← he]
        exact List.mem_map_of_mem hw

/-- The state the receptions lead to is the one the calls lead to, one after the other. -/
theorem collapse {K ι : Type} {port : Nat} (n : Nat) (L : Keyed K ι) (hlen : L.length ≤ n) {b b' : PortState}
    (he : LogEvolvesAt port b (L.map (·.2.1)) b') (hkey : ∀ z ∈ L, ∀ w ∈ L, z.1 = w.1 → z.2.1.1 = w.2.1.1)
    (hord : ∀ z ∈ L, ChangePacket port z.2.1.1 → ∀ x, x ≠ z.1 → ¬ [z.1, x, z.1].Sublist (L.map (·.1)))
    (hal : ∀ z ∈ L, ∀ w ∈ L, z.1 = w.1 → ChangePacket port z.2.1.1 → SaysOk z.2.1.2 port → SaysOk w.2.1.2 port)
    (hkind : ∀ z ∈ L, QuietPacket port z.2.1.1 ∨ ChangePacket port z.2.1.1)
    (served : ∀ k y i x, (k, y, some (i, x)) ∈ L → ∃ id c resp pkt q, x = (c, Reply.answer (.ok resp)) ∧ y.1 = callBytes id c ∧
      pkt ∈ y.2 ∧ Says pkt resp ∧ c.message.body = .hostRequest q)
    (once : L.Pairwise fun z z' => z.2.2.isSome → z'.2.2.isSome → z.1 ≠ z'.1)
    (cover : ∀ z ∈ L, ChangePacket port z.2.1.1 → ∃ y m, (z.1, y, some m) ∈ L) :
    EvolvesAt port b (L.order.map Prod.snd) b' := by
  induction n generalizing L b with
  | zero =>
    cases List.length_eq_zero_iff.1 (Nat.le_zero.1 hlen)
    exact he
  | succ n ih =>
    cases L with
    | nil => exact he
    | cons z L =>
      rcases hkind z List.mem_cons_self with hq | hch
      · obtain ⟨c, h1, h2⟩ := he
        obtain ⟨q, d, h3, h4⟩ := hq
        cases h1.quiet q d h3 h4
        have hrest : EvolvesAt port b ((Keyed.order L).map Prod.snd) b' := by
          refine ih L (by rw [List.length_cons] at hlen; omega) h2
            (fun w hw w' hw' => hkey w (List.mem_cons_of_mem _ hw) w' (List.mem_cons_of_mem _ hw'))
            (fun w hw hc x hx hs => hord w (List.mem_cons_of_mem _ hw) hc x hx (hs.trans (List.sublist_cons_self ..)))
            (fun w hw w' hw' => hal w (List.mem_cons_of_mem _ hw) w' (List.mem_cons_of_mem _ hw'))
            (fun w hw => hkind w (List.mem_cons_of_mem _ hw)) (fun k y i x h => served k y i x (List.mem_cons_of_mem _ h))
            (List.pairwise_cons.1 once).2 fun w hw hc => ?_
          obtain ⟨y, m, h5⟩ := cover w (List.mem_cons_of_mem _ hw) hc
          rcases List.mem_cons.1 h5 with h6 | h6
          · refine absurd hc (quiet_not_change ?_)
            rw [hkey w (List.mem_cons_of_mem _ hw) z List.mem_cons_self (by rw [← h6])]
            exact ⟨q, d, h3, h4⟩
          · exact ⟨y, m, h6⟩
        obtain ⟨k, y, o⟩ := z
        cases o with
        | none => exact hrest
        | some m =>
          obtain ⟨i, x⟩ := m
          obtain ⟨id, call, resp, pkt, q', rfl, hy, h6, h7, h8⟩ := served k y i x List.mem_cons_self
          obtain ⟨y1, y2⟩ := y
          replace hy : y1 = callBytes id call := hy
          subst hy
          exact ⟨b, logStep_call h1 h8 h6 h7, hrest⟩
      · obtain ⟨B, R, rfl, hB, hR⟩ := split_copies (a := z.1) L fun x hx hs => hord z List.mem_cons_self hch x hx hs
        obtain ⟨y, m, hym⟩ : ∃ y m, (z.1, y, some m) ∈ z :: B := by
          obtain ⟨y, m, h5⟩ := cover z List.mem_cons_self hch
          refine ⟨y, m, ?_⟩
          rcases List.mem_cons.1 h5 with h5 | h5
          · exact h5 ▸ List.mem_cons_self
          · rcases List.mem_append.1 h5 with h5 | h5
            · exact List.mem_cons_of_mem _ h5
            · exact absurd rfl (hR (z.1, y, some m) h5)
        have hall : ∀ w ∈ z :: B, w.1 = z.1 := by
          intro w hw
          rcases List.mem_cons.1 hw with rfl | hw
          · rfl
          · exact hB w hw
        have hsplit : z :: (B ++ R) = (z :: B) ++ R := rfl
        have hL : ∀ w ∈ R, w ∈ z :: (B ++ R) := fun w hw => List.mem_cons_of_mem _ (List.mem_append_right _ hw)
        have hZ : ∀ w ∈ z :: B, w ∈ z :: (B ++ R) := fun w hw => by
          rw [hsplit]
          exact List.mem_append_left _ hw
        have honce := List.pairwise_append.1 (hsplit ▸ once)
        have hone := Keyed.order_one hall honce.1 hym
        have horder : Keyed.order (z :: (B ++ R)) = m :: Keyed.order R := by
          rw [hsplit]
          unfold Keyed.order at hone ⊢
          rw [List.filterMap_append, hone]
          rfl
        have hmap2 : ((z :: (B ++ R)).map (·.2.1) : List (Bytes × List Bytes)) =
            ([z.2.1] ++ B.map (·.2.1)) ++ R.map (·.2.1) := by
          simp
        rw [hmap2] at he
        obtain ⟨e, h1, h2⟩ := logEvolvesAt_append.1 he
        obtain ⟨e₁, h3, h4⟩ := logEvolvesAt_append.1 h1
        obtain ⟨i, x⟩ := m
        obtain ⟨id, call, resp, pkt, q', rfl, hy, h6, h7, h8⟩ := served z.1 y i x (hZ _ hym)
        have hbytes : ∀ w ∈ z :: B, w.2.1.1 = callBytes id call := fun w hw =>
          (hkey w (hZ w hw) _ (hZ _ hym) (hall w hw)).trans hy
        rw [horder]
        refine ⟨e, ?_, ih R ?_ h2 (fun w hw w' hw' => hkey w (hL w hw) w' (hL w' hw'))
          (fun w hw hc x hx hs => hord w (hL w hw) hc x hx (hs.trans (by
            rw [hsplit, List.map_append]
            exact List.sublist_append_right ..)))
          (fun w hw w' hw' => hal w (hL w hw) w' (hL w' hw')) (fun w hw => hkind w (hL w hw))
          (fun k y i x h => served k y i x (hL _ h)) honce.2.1 fun w hw hc => ?_⟩
        · have halike : AlikeAt port ([z.2.1] ++ B.map (·.2.1)) := by
            have hin : ∀ x ∈ [z.2.1] ++ B.map (·.2.1), ∃ w ∈ z :: B, w.2.1 = x := by
              intro x hx
              rcases List.mem_append.1 hx with hx | hx
              · cases List.mem_singleton.1 hx
                exact ⟨z, List.mem_cons_self, rfl⟩
              · obtain ⟨w, hw, rfl⟩ := List.mem_map.1 hx
                exact ⟨w, List.mem_cons_of_mem _ hw, rfl⟩
            intro x hx x' hx' _ q d hr hnq hnm
            obtain ⟨w, hw, rfl⟩ := hin x hx
            obtain ⟨w', hw', rfl⟩ := hin x' hx'
            exact hal w (hZ w hw) w' (hZ w' hw') ((hall w hw).trans (hall w' hw').symm) ⟨q, d, hr, hnq, hnm⟩
          have hz1 := hbytes z List.mem_cons_self
          obtain ⟨k0, ⟨z1, z2⟩, o⟩ := z
          replace hz1 : z1 = callBytes id call := hz1
          subst hz1
          have hcar := carried_block (log := [(callBytes id call, z2)]) h8 (fun x hx => by
              obtain ⟨w, hw, rfl⟩ := List.mem_map.1 hx
              exact hbytes w (List.mem_cons_of_mem _ hw))
            (carried_new (log := []) h8 (by simp) (logEvolvesAt_one.1 h3)) h4 halike
          have hmem : y ∈ [(callBytes id call, z2)] ++ B.map (·.2.1) := by
            have := List.mem_map_of_mem (f := fun w : K × (Bytes × List Bytes) × Option (ι × Exchange) => w.2.1) hym
            exact this
          exact hcar.steps y hmem hy pkt h6 resp h7
        · rw [List.length_cons, List.length_append] at hlen
          omega
        · obtain ⟨y', m', h9⟩ := cover w (hL w hw) hc
          rw [hsplit] at h9
          rcases List.mem_append.1 h9 with h9 | h9
          · exact absurd (hall _ h9) (hR w hw)
          · exact ⟨y', m', h9⟩

end Xcvr
