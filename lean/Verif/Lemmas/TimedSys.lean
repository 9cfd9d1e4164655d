import Verif.Lemmas.Latency
import Verif.Lemmas.Ends
import Verif.Spec.TimedSys

/-! # Lemmas for C129-C130 -/

namespace Xcvr

open Spec IoState Timed

namespace TimedSys

variable {α : Type}

/-- The callers whose requests the loop has not answered. -/
def live (io : IoState) : List Chan := io.outstanding.toList.map (·.chan) ++ io.queue.map (·.1)

/-- When the loop has at the latest finished with all it has. -/
def load (late : Nat) (io : IoState) (t : Timer) : Nat := finish late io t + io.queue.length * round late io.limit t.period

theorem load_moves {late : Nat} {io io' : IoState} {t t' : Timer} {e : Event} {acts : List Action}
    (m : Moves io t e io' t' acts) (inv : TimerInv late io t) (hst : io'.status = .running) (hs : ∀ c r, e ≠ .submit c r) :
    load late io' t' ≤ load late io t := by
  have mt := m
  obtain ⟨sh, hn, hp, hr, hk, ht⟩ := m
  cases sh with
  | submit d r => exact absurd rfl (hs d r)
  | env _ _ h1 h2 h3 h4 hl ho hq hs =>
    simp only [load, finish, hn, hp, hk rfl h3, ho, hl, hq]
    exact Nat.le_refl _
  | dead _ _ h1 hs hl => exact absurd hst hs
  | quiet _ _ hr' h1 h2 h4 =>
    have hk := hk (sends_none h4) (quiet_not_tick mt h2)
    simp only [load, finish, hn, hp, hk]
    cases io.outstanding <;> exact Nat.le_refl _
  | start d r q hr' ho hq =>
    have hdue := hr rfl
    have := finish_start late io.limit t.period t.now
    simp only [load, finish, hp, hdue, ho, hq, List.length_cons, Nat.succ_mul]
    omega
  | startFail d r q hr' ho hq =>
    simp only [load, finish, hn, hp, ho, hq, List.length_cons, Nat.succ_mul]
    omega
  | resend o hr' ho hl he =>
    have hdue := hr rfl
    obtain ⟨h1, h2, h3⟩ := inv hr' o ho
    simp only [load, finish, hp, hdue, ho]
    have : io.limit - o.nRetries = io.limit - (o.nRetries + 1) + 1 := by omega
    rw [this, Nat.succ_mul]
    omega
  | reply o _ a hr' ho hre h1 =>
    have := now_le_finish hr' inv
    unfold load
    rw [finish_none rfl, hn, hp]
    exact Nat.add_le_add_right this _

theorem load_elapse {late d : Nat} {io : IoState} {t : Timer} (h : io.outstanding = none → d = 0) :
    load late io { t with now := t.now + d } = load late io t := by
  unfold load
  congr 1
  cases ho : io.outstanding with
  | none => rw [finish_none ho, finish_none ho, h ho]; rfl
  | some o => rw [finish_some ho, finish_some ho]

theorem load_ge {late : Nat} {io : IoState} {t : Timer} (hr : io.status = .running) (inv : TimerInv late io t) :
    t.now ≤ load late io t := Nat.le_trans (now_le_finish hr inv) (Nat.le_add_right _ _)

theorem load_le {late : Nat} {io : IoState} {t : Timer} (hr : io.status = .running) (inv : TimerInv late io t) :
    load late io t ≤ t.now + (live io).length * round late io.limit t.period := by
  unfold load live
  cases ho : io.outstanding with
  | none => rw [finish_none ho]; simp
  | some o =>
    obtain ⟨h1, h2, h3⟩ := inv hr o ho
    have hf : finish late io t ≤ t.now + round late io.limit t.period := by
      rw [finish_some ho, ← finish_start late io.limit t.period t.now]
      have : (io.limit - o.nRetries) * (t.period + late) ≤ (io.limit - 1) * (t.period + late) :=
        Nat.mul_le_mul_right _ (by omega)
      omega
    simp only [Option.toList_some, List.map_cons, List.map_nil, List.length_append, List.length_cons, List.length_nil,
      List.length_map, Nat.zero_add]
    rw [Nat.add_mul]
    omega

/-- What the loop has is what it had, less those it answered. -/
theorem live_moves {io io' : IoState} {t t' : Timer} {e : Event} {acts : List Action} (m : Moves io t e io' t' acts)
    (hst : io'.status = .running) (hs : ∀ c r, e ≠ .submit c r) : live io = answered acts ++ live io' := by
  cases m.shape with
  | submit d r => exact absurd rfl (hs d r)
  | env _ _ h1 h2 h3 h4 hl ho hq hs => simp [live, ho, hq, answered]
  | dead _ _ h1 hs hl => exact absurd hst hs
  | quiet _ _ hr' h1 h2 h4 =>
    have : answered acts = [] := by
      unfold answered
      rw [List.filterMap_eq_nil_iff]
      intro a ha
      have := h4 a ha
      cases a <;> first | rfl | cases this
    rw [this]
    unfold live
    cases io.outstanding <;> rfl
  | start d r q hr' ho hq => simp [live, ho, hq, answered]
  | startFail d r q hr' ho hq => simp [live, ho, hq, answered]
  | resend o hr' ho hl he => simp [live, ho, answered]
  | reply o _ a hr' ho hre h1 => simp [live, ho, answered]

theorem posted_keys (acts : List Action) : (Sys.posted acts).map (·.1) = answered acts := by
  unfold Sys.posted answered
  rw [List.map_filterMap]
  congr 1
  funext a
  cases a <;> rfl

theorem sends_iff (acts : List Action) : sends acts = true ↔ 0 < (Sys.sent acts).length := by
  unfold sends Sys.sent
  induction acts with
  | nil => simp
  | cons a acts ih =>
    cases a <;> simp_all

/-- No answer to a caller has been given. -/
def NoMail (mail : List (Chan × Answer)) (c : Chan) : Prop := ∀ p ∈ mail, p.1 ≠ c

theorem noMail_iff {mail : List (Chan × Answer)} {c : Chan} : NoMail mail c ↔ mail.lookup c = none := by
  rw [List.lookup_eq_none_iff]
  constructor
  · intro h p hp
    have := h p hp
    simp only [bne_iff_ne, ne_eq]
    exact fun k => this k.symm
  · intro h p hp k
    have := h p hp
    simp [k] at this

/-- The fixed numbers of a history. -/
structure Params where
  late : Nat
  t₀ : Nat
  n : Nat
  limit : Nat
  period : Nat

/-- A round. -/
def Params.round (P : Params) : Nat := Timed.round P.late P.limit P.period

/-- The time at which a task is done with `k` calls. -/
def Params.by (P : Params) (k : Nat) : Nat := P.t₀ + k * (P.n * P.round)

theorem Params.by_succ (P : Params) (k : Nat) : P.by (k + 1) = P.by k + P.n * P.round := by
  unfold Params.by
  rw [Nat.succ_mul]
  omega

theorem Params.by_le (P : Params) (k : Nat) : P.by k ≤ P.by (k + 1) := by
  rw [P.by_succ]
  exact Nat.le_add_right _ _

/-- How far a task is, and by when. -/
def Progress (P : Params) (io : IoState) (t : Timer) (mail : List (Chan × Answer)) (line : List Nat) (i : Nat) (tk : Task α) :
    Prop :=
  match tk.phase with
  | .ready => Ended tk ∨ t.now ≤ P.by tk.past.length
  | .numbered _ => t.now ≤ P.by (tk.past.length + 1) ∧ (i ∉ line → t.now ≤ P.by tk.past.length) ∧
      (io.status = .running → ∀ xs ys, line = xs ++ i :: ys →
        load P.late io t + (xs.length + 1) * P.round ≤ P.by (tk.past.length + 1))
  | .waiting c _ => t.now ≤ P.by (tk.past.length + 1) ∧
      (io.status = .running → NoMail mail c → Waiting P.late io t c (P.by (tk.past.length + 1)))
  | .cancelled => True

/-- Who owns which request. -/
structure Owners (io : IoState) (mail : List (Chan × Answer)) (next : Chan) (tasks : List (Task α)) (line : List Nat)
    (ow : Chan → Nat) : Prop where
  nodup : ((live io).map ow ++ line).Nodup
  fresh : ∀ c ∈ live io, c < next
  noMail : ∀ c ∈ live io, NoMail mail c
  owner : ∀ c ∈ live io, ∃ tk, tasks[ow c]? = some tk ∧ (tk.phase = .cancelled ∨ ∃ r, tk.phase = .waiting c r)

structure Inv (P : Params) (io : IoState) (t : Timer) (mail : List (Chan × Answer)) (next : Chan) (tasks : List (Task α))
    (line : List Nat) : Prop where
  limit : io.limit = P.limit
  period : t.period = P.period
  length : tasks.length = P.n
  timer : TimerInv P.late io t
  mailFresh : ∀ p ∈ mail, p.1 < next
  lineNodup : line.Nodup
  inLine : ∀ i ∈ line, ∃ tk r, tasks[i]? = some tk ∧ tk.phase = .numbered r
  owners : io.status = .running → ∃ ow, Owners io mail next tasks line ow
  progress : ∀ i tk, tasks[i]? = some tk → Progress P io t mail line i tk

theorem shape_limit {io io' : IoState} {e : Event} {acts : List Action} (h : Shape io e io' acts) : io'.limit = io.limit := by
  cases h with
  | env _ _ h1 h2 h3 h4 hl ho hq hs => exact hl
  | dead _ _ h1 hs hl => exact hl
  | _ => rfl

theorem shape_running {io io' : IoState} {e : Event} {acts : List Action} (h : Shape io e io' acts)
    (hr : io'.status = .running) : io.status = .running := by
  cases h with
  | env _ _ h1 h2 h3 h4 hl ho hq hs => exact hs ▸ hr
  | dead _ _ h1 hs hl => exact absurd hr hs
  | submit _ _ => exact hr
  | quiet _ _ _ _ _ _ => exact hr
  | start _ _ _ hr _ _ => exact hr
  | startFail _ _ _ hr _ _ => exact hr
  | resend _ hr _ _ _ => exact hr
  | reply _ _ _ hr _ _ _ => exact hr

theorem inv_loop {P : Params} {io io' : IoState} {t t' : Timer} {mail : List (Chan × Answer)} {next : Chan}
    {tasks : List (Task α)} {line : List Nat} {e : Event} {acts : List Action} (inv : Inv P io t mail next tasks line)
    (m : Moves io t e io' t' acts) (hs : ∀ c r, e ≠ .submit c r) (hd : io.status ≠ .running → answered acts = [])
    (ha : ∀ c ∈ answered acts, c ∈ live io) :
    Inv P io' t' (mail ++ Sys.posted acts) next tasks line where
  limit := by rw [shape_limit m.shape]; exact inv.limit
  period := by rw [m.period]; exact inv.period
  length := inv.length
  timer := timerInv_moves m inv.timer
  mailFresh := by
    intro p hp
    rcases List.mem_append.mp hp with hp | hp
    · exact inv.mailFresh p hp
    · have hk : p.1 ∈ answered acts := by rw [← posted_keys]; exact List.mem_map_of_mem hp
      by_cases hr : io.status = .running
      · obtain ⟨ow, o⟩ := inv.owners hr
        exact o.fresh _ (ha _ hk)
      · rw [hd hr] at hk; cases hk
  lineNodup := inv.lineNodup
  inLine := inv.inLine
  owners := by
    intro hr'
    have hr := shape_running m.shape hr'
    obtain ⟨ow, o⟩ := inv.owners hr
    have hl := live_moves m hr' hs
    have hsub : ∀ c ∈ live io', c ∈ live io := fun c hc => by rw [hl]; exact List.mem_append_right _ hc
    have hnd := o.nodup
    rw [hl, List.map_append, List.append_assoc] at hnd
    refine ⟨ow, ⟨(List.nodup_append.mp hnd).2.1, fun c hc => o.fresh c (hsub c hc), ?_, fun c hc => o.owner c (hsub c hc)⟩⟩
    intro c hc p hp hpc
    rcases List.mem_append.mp hp with hp | hp
    · exact o.noMail c (hsub c hc) p hp hpc
    · have hk : p.1 ∈ answered acts := by rw [← posted_keys]; exact List.mem_map_of_mem hp
      have h1 : ow p.1 ∈ (answered acts).map ow := List.mem_map_of_mem hk
      have h2 : ow p.1 ∈ (live io').map ow ++ line := List.mem_append_left _ (hpc ▸ List.mem_map_of_mem hc)
      exact (List.nodup_append.mp hnd).2.2 _ h1 _ h2 rfl
  progress := by
    intro i tk hi
    have pr := inv.progress i tk hi
    unfold Progress at pr ⊢
    split
    · rename_i h; simp only [h] at pr; rw [m.now]; exact pr
    · rename_i r h
      simp only [h] at pr
      rw [m.now]
      refine ⟨pr.1, pr.2.1, fun hr' xs ys hl => ?_⟩
      have := load_moves m inv.timer hr' hs
      exact Nat.le_trans (Nat.add_le_add_right this _) (pr.2.2 (shape_running m.shape hr') xs ys hl)
    · rename_i c r h
      simp only [h] at pr
      rw [m.now]
      refine ⟨pr.1, fun hr' hm => ?_⟩
      have hm1 : NoMail mail c := fun p hp => hm p (List.mem_append_left _ hp)
      rcases waiting_moves m inv.timer hr' (pr.2 (shape_running m.shape hr') hm1) with hc | w
      · rw [← posted_keys, List.mem_map] at hc
        obtain ⟨p, hp, rfl⟩ := hc
        exact absurd rfl (hm p (List.mem_append_right _ hp))
      · exact w
    · trivial

theorem erase_split {line xs ys : List Nat} {i j : Nat} (hij : i ≠ j) (h : line.erase i = xs ++ j :: ys) :
    ∃ xs' ys', line = xs' ++ j :: ys' ∧ xs.length ≤ xs'.length := by
  by_cases hi : i ∈ line
  · obtain ⟨as, bs, hna, h1, h2⟩ := List.exists_erase_eq hi
    rw [h2, List.append_eq_append_iff] at h
    rcases h with ⟨m, rfl, hm⟩ | ⟨m, rfl, hm⟩
    · exact ⟨as ++ i :: m, ys, by rw [h1, hm]; simp, by simp⟩
    · cases m with
      | nil =>
        rw [List.nil_append] at hm
        exact ⟨xs ++ [i], ys, by rw [h1, ← hm]; simp, by simp⟩
      | cons y m =>
        simp only [List.cons_append, List.cons.injEq] at hm
        obtain ⟨rfl, hm⟩ := hm
        exact ⟨xs, m ++ i :: bs, by rw [h1]; simp, Nat.le_refl _⟩
  · rw [List.erase_of_not_mem hi] at h
    exact ⟨xs, ys, h, Nat.le_refl _⟩

/-- A task moves on, and is not in line then. -/
theorem inv_set {P : Params} {io : IoState} {t : Timer} {mail : List (Chan × Answer)} {next : Chan}
    {tasks : List (Task α)} {line : List Nat} {i : Nat} {old new : Task α} (inv : Inv P io t mail next tasks line)
    (hi : tasks[i]? = some old)
    (ho : new.phase = .cancelled ∨ (old.phase ≠ .cancelled ∧ ∀ c r, old.phase = .waiting c r → ¬NoMail mail c ∨ io.status ≠ .running))
    (hp : Progress P io t mail (line.erase i) i new) :
    Inv P io t mail next (tasks.set i new) (line.erase i) where
  limit := inv.limit
  period := inv.period
  length := by rw [List.length_set]; exact inv.length
  timer := inv.timer
  mailFresh := inv.mailFresh
  lineNodup := inv.lineNodup.erase i
  inLine := by
    intro j hj
    have hne : i ≠ j := by
      rintro rfl
      exact ((List.Nodup.mem_erase_iff inv.lineNodup).mp hj).1 rfl
    rw [List.getElem?_set_ne hne]
    exact inv.inLine j (List.mem_of_mem_erase hj)
  owners := by
    intro hr
    obtain ⟨ow, o⟩ := inv.owners hr
    refine ⟨ow, ⟨o.nodup.sublist (List.Sublist.append (List.Sublist.refl _) List.erase_sublist), o.fresh, o.noMail, ?_⟩⟩
    intro c hc
    obtain ⟨tk, h1, h2⟩ := o.owner c hc
    by_cases hne : i = ow c
    · subst hne
      rw [h1] at hi
      cases hi
      have hlt : ow c < tasks.length := by
        rw [List.getElem?_eq_some_iff] at h1
        exact h1.1
      rcases ho with ho | ⟨ho1, ho2⟩
      · exact ⟨new, List.getElem?_set_self hlt, .inl ho⟩
      · rcases h2 with h2 | ⟨r, h2⟩
        · exact absurd h2 ho1
        · rcases ho2 c r h2 with h | h
          · exact absurd (o.noMail c hc) h
          · exact absurd hr h
    · exact ⟨tk, by rw [List.getElem?_set_ne hne]; exact h1, h2⟩
  progress := by
    intro j tk hj
    by_cases hne : i = j
    · subst hne
      have hlt : i < tasks.length := (List.getElem?_eq_some_iff.mp hi).1
      rw [List.getElem?_set_self hlt] at hj
      cases hj
      exact hp
    · rw [List.getElem?_set_ne hne] at hj
      have pr := inv.progress j tk hj
      unfold Progress at pr ⊢
      split
      · rename_i h; simp only [h] at pr; exact pr
      · rename_i r h
        simp only [h] at pr
        refine ⟨pr.1, fun h => pr.2.1 fun k => h ((List.mem_erase_of_ne (Ne.symm hne)).mpr k), fun hr xs ys hl => ?_⟩
        obtain ⟨xs', ys', h1, h2⟩ := erase_split hne hl
        refine Nat.le_trans (Nat.add_le_add_left (Nat.mul_le_mul_right _ (by omega)) _) (pr.2.2 hr xs' ys' h1)
      · rename_i c r h; simp only [h] at pr; exact pr
      · trivial

/-- Nobody is ahead but the other tasks. -/
theorem ahead {io : IoState} {mail : List (Chan × Answer)} {next : Chan} {tasks : List (Task α)} {line : List Nat}
    {ow : Chan → Nat} {i : Nat} {tk : Task α} {r : HostRpcRequest} (o : Owners io mail next tasks line ow)
    (hl : ∀ i ∈ line, ∃ tk r, tasks[i]? = some tk ∧ tk.phase = Phase.numbered r)
    (hi : tasks[i]? = some tk) (hp : tk.phase = .numbered r) (hn : i ∉ line) :
    ((live io).map ow ++ (line ++ [i])).Nodup ∧ (live io).length + line.length + 1 ≤ tasks.length := by
  have hlt : ∀ {j : Nat} {tk : Task α}, tasks[j]? = some tk → j < tasks.length := fun h =>
    (List.getElem?_eq_some_iff.mp h).1
  have hni : i ∉ (live io).map ow := by
    intro h
    rw [List.mem_map] at h
    obtain ⟨c, hc, rfl⟩ := h
    obtain ⟨tk', h1, h2⟩ := o.owner c hc
    rw [hi] at h1
    cases h1
    rw [hp] at h2
    rcases h2 with h2 | ⟨_, h2⟩ <;> cases h2
  have hnd : ((live io).map ow ++ (line ++ [i])).Nodup := by
    rw [← List.append_assoc, List.nodup_append]
    refine ⟨o.nodup, by simp, ?_⟩
    intro a ha b hb
    rw [List.mem_singleton] at hb
    subst hb
    rintro rfl
    rcases List.mem_append.mp ha with h | h
    · exact hni h
    · exact hn h
  refine ⟨hnd, ?_⟩
  have hsub : ((live io).map ow ++ (line ++ [i])) ⊆ List.range tasks.length := by
    intro j hj
    rw [List.mem_range]
    rcases List.mem_append.mp hj with h | h
    · rw [List.mem_map] at h
      obtain ⟨c, hc, rfl⟩ := h
      obtain ⟨tk', h1, -⟩ := o.owner c hc
      exact hlt h1
    · rcases List.mem_append.mp h with h | h
      · obtain ⟨tk', _, h1, -⟩ := hl j h
        exact hlt h1
      · rw [List.mem_singleton] at h
        subst h
        exact hlt hi
  have := hnd.length_le_of_subset hsub
  simpa [Nat.add_assoc] using this

theorem inv_lineUp {P : Params} {io : IoState} {t : Timer} {mail : List (Chan × Answer)} {next : Chan}
    {tasks : List (Task α)} {line : List Nat} {i : Nat} {tk : Task α} {r : HostRpcRequest}
    (inv : Inv P io t mail next tasks line) (hi : tasks[i]? = some tk) (hp : tk.phase = .numbered r) (hn : i ∉ line) :
    Inv P io t mail next tasks (line ++ [i]) where
  limit := inv.limit
  period := inv.period
  length := inv.length
  timer := inv.timer
  mailFresh := inv.mailFresh
  lineNodup := by
    rw [List.nodup_append]
    refine ⟨inv.lineNodup, by simp, ?_⟩
    intro a ha b hb
    rw [List.mem_singleton] at hb
    rintro rfl
    exact hn (hb ▸ ha)
  inLine := by
    intro j hj
    rcases List.mem_append.mp hj with h | h
    · exact inv.inLine j h
    · rw [List.mem_singleton] at h
      exact ⟨tk, r, h ▸ hi, hp⟩
  owners := by
    intro hr
    obtain ⟨ow, o⟩ := inv.owners hr
    exact ⟨ow, ⟨(ahead o inv.inLine hi hp hn).1, o.fresh, o.noMail, o.owner⟩⟩
  progress := by
    intro j tk' hj
    have pr := inv.progress j tk' hj
    unfold Progress at pr ⊢
    split
    · rename_i h; simp only [h] at pr; exact pr
    · rename_i r' h
      simp only [h] at pr
      refine ⟨pr.1, fun h => pr.2.1 fun k => h (List.mem_append_left _ k), fun hr xs ys hl => ?_⟩
      rw [List.append_eq_append_iff] at hl
      rcases hl with ⟨m, rfl, hm⟩ | ⟨m, rfl, hm⟩
      · cases m with
        | nil =>
          simp only [List.nil_append, List.cons.injEq] at hm
          obtain ⟨rfl, -⟩ := hm
          obtain ⟨ow, o⟩ := inv.owners hr
          have hle := (ahead o inv.inLine hi hp hn).2
          have h1 := pr.2.1 hn
          have h2 := load_le hr inv.timer
          rw [inv.limit, inv.period] at h2
          rw [Params.by_succ, List.append_nil]
          rw [inv.length] at hle
          have h3 : (live io).length * P.round + (line.length + 1) * P.round ≤ P.n * P.round := by
            rw [← Nat.add_mul]
            exact Nat.mul_le_mul_right _ (by omega)
          have h4 : load P.late io t ≤ t.now + (live io).length * P.round := h2
          omega
        | cons y m =>
          have := congrArg List.length hm
          simp at this
      · cases m with
        | nil =>
          simp only [List.nil_append, List.cons.injEq] at hm
          obtain ⟨rfl, -⟩ := hm
          obtain ⟨ow, o⟩ := inv.owners hr
          rw [List.append_nil] at hn inv pr o
          have hle := (ahead o inv.inLine hi hp hn).2
          have h1 := pr.2.1 hn
          have h2 := load_le hr inv.timer
          rw [inv.limit, inv.period] at h2
          rw [Params.by_succ]
          rw [inv.length] at hle
          have h3 : (live io).length * P.round + (xs.length + 1) * P.round ≤ P.n * P.round := by
            rw [← Nat.add_mul]
            exact Nat.mul_le_mul_right _ (by omega)
          have h4 : load P.late io t ≤ t.now + (live io).length * P.round := h2
          omega
        | cons y m =>
          simp only [List.cons_append, List.cons.injEq] at hm
          obtain ⟨rfl, -⟩ := hm
          exact pr.2.2 hr xs m rfl
    · rename_i c r' h; simp only [h] at pr; exact pr
    · trivial

/-- The first in line puts its request into the channel. -/
theorem inv_submit {P : Params} {io : IoState} {t : Timer} {mail : List (Chan × Answer)} {next : Chan}
    {tasks : List (Task α)} {line : List Nat} {i : Nat} {old new : Task α} {r : HostRpcRequest}
    (inv : Inv P io t mail next tasks (i :: line)) (hr : io.status = .running) (hi : tasks[i]? = some old)
    (ho : old.phase = .numbered r) (hn : new.phase = .waiting next r) (hpast : new.past = old.past) :
    Inv P { io with queue := io.queue ++ [(next, r)] } t mail (next + 1) (tasks.set i new) line := by
  have hlt : i < tasks.length := (List.getElem?_eq_some_iff.mp hi).1
  have hnd := List.nodup_cons.mp inv.lineNodup
  have hlive : live { io with queue := io.queue ++ [(next, r)] } = live io ++ [next] := by simp [live]
  have hload : load P.late { io with queue := io.queue ++ [(next, r)] } t = load P.late io t + P.round := by
    simp only [load, finish, List.length_append, List.length_cons, List.length_nil, Nat.succ_mul, Nat.zero_add,
      Params.round, inv.limit, inv.period]
    omega
  refine ⟨inv.limit, inv.period, by rw [List.length_set]; exact inv.length, inv.timer, ?_, hnd.2, ?_, ?_, ?_⟩
  · exact fun p hp => Nat.lt_succ_of_lt (inv.mailFresh p hp)
  · intro j hj
    have hne : i ≠ j := fun h => hnd.1 (h ▸ hj)
    rw [List.getElem?_set_ne hne]
    exact inv.inLine j (List.mem_cons_of_mem _ hj)
  · intro _
    obtain ⟨ow, o⟩ := inv.owners hr
    have hfresh : ∀ c ∈ live io, c ≠ next := fun c hc h => Nat.lt_irrefl next (h ▸ o.fresh c hc)
    refine ⟨fun c => if c = next then i else ow c, ?_, ?_, ?_, ?_⟩
    · rw [hlive, List.map_append, List.map_congr_left (g := ow) (fun c hc => if_neg (hfresh c hc))]
      simp only [List.map_cons, List.map_nil, if_true, List.append_assoc, List.cons_append, List.nil_append]
      exact o.nodup
    · rw [hlive]
      intro c hc
      rcases List.mem_append.mp hc with hc | hc
      · exact Nat.lt_succ_of_lt (o.fresh c hc)
      · rw [List.mem_singleton] at hc
        subst hc
        exact Nat.lt_succ_self _
    · rw [hlive]
      intro c hc
      rcases List.mem_append.mp hc with hc | hc
      · exact o.noMail c hc
      · rw [List.mem_singleton] at hc
        subst hc
        exact fun p hp h => Nat.lt_irrefl _ (h ▸ inv.mailFresh p hp)
    · rw [hlive]
      intro c hc
      rcases List.mem_append.mp hc with hc | hc
      · obtain ⟨tk, h1, h2⟩ := o.owner c hc
        have hne : i ≠ ow c := by
          rintro rfl
          have h3 := (List.nodup_append.mp o.nodup).2.2 _ (List.mem_map_of_mem hc) _ List.mem_cons_self
          exact h3 rfl
        simp only [if_neg (hfresh c hc)]
        exact ⟨tk, by rw [List.getElem?_set_ne hne]; exact h1, h2⟩
      · rw [List.mem_singleton] at hc
        subst hc
        simp only [if_true]
        exact ⟨new, List.getElem?_set_self hlt, .inr ⟨r, hn⟩⟩
  · intro j tk hj
    by_cases hne : i = j
    · subst hne
      rw [List.getElem?_set_self hlt] at hj
      cases hj
      have pr := inv.progress i old hi
      unfold Progress at pr ⊢
      simp only [ho] at pr
      simp only [hn, hpast]
      refine ⟨pr.1, fun _ _ => ?_⟩
      have := pr.2.2 hr [] line rfl
      refine .queued (io.queue.map (·.1)) [] (by simp) ?_
      rw [List.length_map]
      have e : finish P.late { io with queue := io.queue ++ [(next, r)] } t = finish P.late io t := rfl
      rw [e]
      show _ + _ * Timed.round P.late io.limit t.period ≤ _
      rw [inv.limit, inv.period]
      unfold load at this
      rw [inv.limit, inv.period] at this
      simp only [List.length_nil, Nat.zero_add, Nat.one_mul, Params.round] at this
      rw [Nat.succ_mul]
      omega
    · rw [List.getElem?_set_ne hne] at hj
      have pr := inv.progress j tk hj
      unfold Progress at pr ⊢
      split
      · rename_i h; simp only [h] at pr; exact pr
      · rename_i r' h
        simp only [h] at pr
        refine ⟨pr.1, fun h => pr.2.1 fun k => ?_, fun _ xs ys hl => ?_⟩
        · rcases List.mem_cons.mp k with k | k
          · exact hne k.symm
          · exact h k
        · have := pr.2.2 hr (i :: xs) ys (by rw [hl]; rfl)
          rw [hload]
          rw [List.length_cons, Nat.succ_mul] at this
          omega
      · rename_i c r' h
        simp only [h] at pr
        refine ⟨pr.1, fun _ hm => ?_⟩
        cases pr.2 hr hm with
        | current o h1 h2 h3 => exact .current o h1 h2 h3
        | queued xs ys h1 h2 => exact .queued xs (ys ++ [next]) (by simp [h1]) h2
      · trivial

theorem inv_elapse {P : Params} {io : IoState} {t : Timer} {mail : List (Chan × Answer)} {next : Chan}
    {tasks : List (Task α)} {line : List Nat} {d : Nat} (inv : Inv P io t mail next tasks line)
    (hr : ∀ (i : Nat) (tk : Task α), tasks[i]? = some tk → match tk.phase with
      | .ready => Ended tk
      | .numbered _ => io.status = .running ∧ i ∈ line ∧ 0 < io.queue.length
      | .waiting c _ => io.status = .running ∧ NoMail mail c
      | .cancelled => True)
    (ht : io.status = .running → (io.outstanding.isSome → t.now + d ≤ t.due + P.late) ∧
      (io.outstanding = none → io.queue ≠ [] → d = 0)) :
    Inv P io { t with now := t.now + d } mail next tasks line where
  limit := inv.limit
  period := inv.period
  length := inv.length
  timer := timerInv_elapse inv.timer fun h => (ht h).1
  mailFresh := inv.mailFresh
  lineNodup := inv.lineNodup
  inLine := inv.inLine
  owners := inv.owners
  progress := by
    intro i tk hi
    have pr := inv.progress i tk hi
    have hr := hr i tk hi
    have it := timerInv_elapse (d := d) inv.timer fun h => (ht h).1
    unfold Progress at pr ⊢
    split
    · rename_i h; simp only [h] at hr; exact .inl hr
    · rename_i r h
      simp only [h] at pr hr
      have hl := load_elapse (late := P.late) (d := d) (io := io) (t := t)
        fun h => (ht hr.1).2 h (by intro hq; rw [hq] at hr; exact absurd hr.2.2 (Nat.lt_irrefl 0))
      have hle := load_ge hr.1 it
      rw [hl] at hle
      obtain ⟨xs, ys, hxy⟩ := List.append_of_mem hr.2.1
      have h1 := pr.2.2 hr.1 xs ys hxy
      exact ⟨by omega, fun k => absurd hr.2.1 k, fun hs xs ys h => by rw [hl]; exact pr.2.2 hs xs ys h⟩
    · rename_i c r h
      simp only [h] at pr hr
      have w := waiting_elapse (pr.2 hr.1 hr.2) (ht hr.1).2
      exact ⟨waiting_now hr.1 it w, fun _ _ => w⟩
    · trivial

/-- The invariant of a state. -/
def Good (P : Params) (x : TimedSys α) : Prop :=
  Inv P x.sys.io x.timer x.sys.mail x.sys.nextChan x.sys.tasks x.line

theorem good_init (lim : Option Nat) (period t₀ late : Nat) (progs : List (Prog α)) :
    Good ⟨late, t₀, progs.length, limitOf lim, period⟩ (init lim period t₀ progs) where
  limit := by cases lim <;> rfl
  period := rfl
  length := by simp [init, Sys.init]
  timer := fun _ o ho => by cases ho
  mailFresh := fun p hp => by cases hp
  lineNodup := List.nodup_nil
  inLine := fun i hi => by cases hi
  owners := fun _ => ⟨fun _ => 0, ⟨List.nodup_nil, (fun c hc => by cases hc), (fun c hc => by cases hc),
    (fun c hc => by cases hc)⟩⟩
  progress := by
    intro i tk hi
    simp only [init, Sys.init, List.getElem?_map, Option.map_eq_some_iff] at hi
    obtain ⟨p, -, rfl⟩ := hi
    exact .inr (by simp [init, Timer.start, Params.by])

/-- What a step of the loop does in time. -/
theorem loop_moves {s : Sys α} {t t₁ : Timer} {e : Event} (hn : t₁.now = t.now) (hp : t₁.period = t.period)
    (hd : (∀ ok, e ≠ .tick ok) → t₁.due = t.due)
    (ht : ∀ ok, e = .tick ok → s.io.status = .running ∧ s.io.outstanding.isSome ∧ t.due ≤ t.now) :
    Moves s.io t e (s.runLoop e).io (if s.wire.length < (s.runLoop e).wire.length then t₁.reset else t₁) (s.io.step e).2 := by
  have hw : s.wire.length < (s.runLoop e).wire.length ↔ sends (s.io.step e).2 = true := by
    rw [sends_iff]
    simp only [Sys.runLoop, List.length_append]
    omega
  have sh := step_shape s.io e
  by_cases hs : sends (s.io.step e).2 = true
  · rw [if_pos (hw.mpr hs)]
    refine ⟨sh, hn, hp, fun _ => ?_, fun h => ?_, ht⟩
    · simp only [Timer.reset, hn, hp]
    · rw [hs] at h; cases h
  · rw [if_neg fun h => hs (hw.mp h)]
    exact ⟨sh, hn, hp, fun h => absurd h hs, fun _ => hd, ht⟩

/-- Whom the loop answers. -/
theorem answered_live (io : IoState) (e : Event) :
    (io.status ≠ .running → answered (io.step e).2 = []) ∧ ∀ c ∈ answered (io.step e).2, c ∈ live io := by
  have sh := step_shape io e
  generalize io.step e = r at sh
  obtain ⟨io', acts⟩ := r
  have none : ∀ {acts : List Action}, (∀ a ∈ acts, concerns a = none) → answered acts = [] := by
    intro acts h
    unfold answered
    rw [List.filterMap_eq_nil_iff]
    intro a ha
    have := h a ha
    cases a <;> first | rfl | cases this
  cases sh with
  | submit _ _ => exact ⟨fun _ => rfl, fun c hc => by cases hc⟩
  | env _ _ _ _ _ _ _ _ _ _ => exact ⟨fun _ => rfl, fun c hc => by cases hc⟩
  | dead _ _ _ _ _ => exact ⟨fun _ => rfl, fun c hc => by cases hc⟩
  | quiet _ _ _ _ _ h => exact ⟨fun _ => none h, fun c hc => by rw [none h] at hc; cases hc⟩
  | start _ _ _ _ _ _ => exact ⟨fun _ => rfl, fun c hc => by cases hc⟩
  | startFail d r q hr ho hq => exact ⟨fun h => absurd hr h, fun c hc => by
      simp only [answered, List.filterMap_cons, List.filterMap_nil, List.mem_singleton] at hc
      simp [live, ho, hq, hc]⟩
  | resend _ _ _ _ _ => exact ⟨fun _ => rfl, fun c hc => by cases hc⟩
  | reply o _ _ hr ho _ _ =>
    refine ⟨fun h => absurd hr h, fun c hc => ?_⟩
    simp only [answered, List.filterMap_cons, List.filterMap_nil, List.mem_singleton] at hc
    simp [live, ho, hc]

/-- The loop takes a step, and no task does. -/
theorem good_loop {P : Params} {s : Sys α} {t t₁ : Timer} {line : List Nat} {e : Event} (inv : Good P ⟨s, t, line⟩)
    (hs : ∀ c r, e ≠ .submit c r) (hn : t₁.now = t.now) (hp : t₁.period = t.period)
    (hd : (∀ ok, e ≠ .tick ok) → t₁.due = t.due)
    (ht : ∀ ok, e = .tick ok → s.io.status = .running ∧ s.io.outstanding.isSome ∧ t.due ≤ t.now) :
    Good P ⟨s.runLoop e, if s.wire.length < (s.runLoop e).wire.length then t₁.reset else t₁, line⟩ := by
  obtain ⟨h1, h2⟩ := answered_live s.io e
  exact inv_loop inv (loop_moves hn hp hd ht) hs h1 h2

theorem good_submit {P : Params} {x x' : TimedSys α} {i : Nat} (inv : Good P x) (h : x.step (.sys (.submit i)) = some x') :
    Good P x' := by
  obtain ⟨s, t, line⟩ := x
  unfold step at h
  dsimp only at h
  match hs : s.step (.submit i) with
  | none =>
    have : ∀ line', act ⟨s, t, line⟩ t line' (.submit i) = none := fun line' => by simp only [act, hs]
    simp only [this] at h
    split at h
    · split at h <;> cases h
    · split at h <;> cases h
  | some s' =>
    have hs' := hs
    unfold Sys.step at hs'
    dsimp only at hs'
    split at hs'
    · rename_i c k req past hi
      have pr := inv.progress i _ hi
      by_cases hr : s.io.status = .running
      · rw [if_pos hr] at h hs'
        cases hs'
        split at h
        · rename_i hh
          cases line with
          | nil => cases hh.1
          | cons j rest =>
            have : j = i := Option.some.inj hh.1
            subst this
            have hw : (s.runLoop (.submit s.nextChan req)).wire.length = s.wire.length := by
              show (s.wire ++ []).length = _
              rw [List.append_nil]
            simp only [act, hs, hw, Nat.lt_irrefl, if_false, Option.some.injEq, List.erase_cons_head] at h
            subst h
            have := inv_submit (new := ⟨.rpc c k, .waiting s.nextChan req, past⟩) inv hr hi rfl rfl rfl
            unfold Good
            have hm : (s.runLoop (.submit s.nextChan req)).mail = s.mail := List.append_nil _
            dsimp only
            rw [hm]
            exact this
        · cases h
      · rw [if_neg hr] at h hs'
        cases hs'
        split at h
        · simp only [act, hs, Nat.lt_irrefl, if_false, Option.some.injEq] at h
          subst h
          exact inv_set inv hi (.inr ⟨nofun, nofun⟩) (.inr (by simpa [Sys.resume] using pr.1))
        · cases h
    · cases hs'

theorem good_cancel {P : Params} {x x' : TimedSys α} {i : Nat} (inv : Good P x) (h : x.step (.sys (.cancel i)) = some x') :
    Good P x' := by
  obtain ⟨s, t, line⟩ := x
  replace h : act ⟨s, t, line⟩ t (line.erase i) (.cancel i) = some x' := h
  match hs : s.step (.cancel i) with
  | none => simp only [act, hs] at h; cases h
  | some s' =>
    have hs' := hs
    unfold Sys.step at hs'
    dsimp only at hs'
    split at hs'
    · rename_i p chan r past hi
      cases hs'
      simp only [act, hs, Option.some.injEq] at h
      subst h
      have := good_loop (e := .dropCaller chan) (t₁ := t) inv nofun rfl rfl (fun _ => rfl) nofun
      exact inv_set (new := ⟨p, .cancelled, past⟩) this hi (.inl rfl) trivial
    · rename_i p ph past hnw hi
      cases hs'
      simp only [act, hs, Nat.lt_irrefl, if_false, Option.some.injEq] at h
      subst h
      exact inv_set (new := ⟨p, .cancelled, past⟩) inv hi (.inl rfl) trivial
    · cases hs'

theorem good_event {P : Params} {x x' : TimedSys α} {e : Event} (inv : Good P x) (h : x.step (.sys (.loop e)) = some x') :
    Good P x' := by
  obtain ⟨s, t, line⟩ := x
  have loop : ∀ (ev : Event), s.step (.loop ev) = some (s.runLoop ev) → (∀ c r, ev ≠ .submit c r) →
      (∀ ok, ev ≠ .tick ok) → act ⟨s, t, line⟩ t line (.loop ev) = some x' → Good P x' := by
    intro ev hs hsub htick h
    simp only [act, hs, Option.some.injEq] at h
    subst h
    exact good_loop inv hsub rfl rfl (fun _ => rfl) fun ok h => absurd h (htick ok)
  cases e with
  | tick ok =>
    unfold step at h
    dsimp only at h
    split at h
    · rename_i hc
      simp only [act, Sys.step, Option.some.injEq] at h
      subst h
      exact good_loop (t₁ := t.ticked) inv (fun _ _ k => by cases k) rfl rfl (fun h => absurd rfl (h ok)) fun _ _ => hc
    · cases h
  | submit _ _ => cases h
  | dropCaller _ => cases h
  | packet _ _ _ => cases h
  | closeRequests => exact loop .closeRequests rfl (fun _ _ k => by cases k) (fun _ k => by cases k) h
  | dropHandler => exact loop .dropHandler rfl (fun _ _ k => by cases k) (fun _ k => by cases k) h
  | accept ok => exact loop (.accept ok) rfl (fun _ _ k => by cases k) (fun _ k => by cases k) h
  | handlerReply r ok => exact loop (.handlerReply r ok) rfl (fun _ _ k => by cases k) (fun _ k => by cases k) h
  | recvError => exact loop .recvError rfl (fun _ _ k => by cases k) (fun _ k => by cases k) h

/-- Every step keeps the invariant, time being taken as it must. -/
theorem good_step {P : Params} {x x' : TimedSys α} {e : TimedSysEvent} (inv : Good P x) (h : x.step e = some x')
    (ht : SysOnTime P.late x e) : Good P x' := by
  obtain ⟨s, t, line⟩ := x
  have act : ∀ {line' : List Nat} {e : SysEvent} {s' : Sys α}, s.step e = some s' → s'.wire = s.wire →
      act ⟨s, t, line⟩ t line' e = some x' → x' = ⟨s', t, line'⟩ := by
    intro line' e s' hs hw h
    simp only [TimedSys.act, hs, hw, Nat.lt_irrefl, if_false, Option.some.injEq] at h
    exact h.symm
  have loop : ∀ {e : SysEvent} (ev : Event), s.step e = some (s.runLoop ev) → (∀ c r, ev ≠ .submit c r) →
      (∀ ok, ev ≠ .tick ok) → TimedSys.act ⟨s, t, line⟩ t line e = some x' → Good P x' := by
    intro e ev hs hsub htick h
    simp only [TimedSys.act, hs, Option.some.injEq] at h
    subst h
    exact good_loop inv hsub rfl rfl (fun _ => rfl) fun ok h => absurd h (htick ok)
  cases e with
  | elapse d =>
    cases h
    rcases ht with rfl | ⟨h1, h2⟩
    · exact inv
    · refine inv_elapse inv (fun i tk hi => ?_) h2
      have := h1 i tk hi
      unfold Resting at this
      split <;> rename_i hp <;> simp only [hp] at this
      · exact this
      · exact this
      · exact ⟨this.1, noMail_iff.mpr this.2⟩
      · trivial
  | lineUp i =>
    unfold step at h
    dsimp only at h
    split at h
    · rename_i p r past hi
      split at h
      · cases h
      · rename_i hn
        cases h
        exact inv_lineUp inv hi rfl hn
    · cases h
  | sys e =>
    cases e with
    | number i =>
      replace h : TimedSys.act ⟨s, t, line⟩ t line (.number i) = some x' := h
      match hs : s.step (.number i) with
      | none => simp only [TimedSys.act, hs] at h; cases h
      | some s' =>
        have hs' := hs
        unfold Sys.step at hs'
        dsimp only at hs'
        split at hs'
        · rename_i c k past hi
          cases hs'
          have hl : line.erase i = line := by
            refine List.erase_of_not_mem fun h => ?_
            obtain ⟨tk, r, h1, h2⟩ := inv.inLine i h
            replace h1 : s.tasks[i]? = some tk := h1
            rw [hi] at h1; cases h1; cases h2
          rw [act hs rfl h]
          have pr := inv.progress i _ hi
          have hnow : t.now ≤ P.by past.length := by
            rcases pr with pr | pr
            · exact absurd rfl (pr c k)
            · exact pr
          have := inv_set (new := ⟨.rpc c k, .numbered { header := (nextHeader s.counter c.kind).1, message := c.message, data := c.data }, past⟩)
            inv hi (.inr ⟨nofun, nofun⟩) ⟨Nat.le_trans hnow (P.by_le past.length), fun _ => hnow, fun _ xs ys hxy => by
              obtain ⟨tk, r, h1, h2⟩ := inv.inLine i (by rw [← hl, hxy]; simp)
              replace h1 : s.tasks[i]? = some tk := h1
              rw [hi] at h1; cases h1; cases h2⟩
          rw [hl] at this
          exact this
        · cases hs'
    | submit i => exact good_submit inv h
    | receive i =>
      replace h : TimedSys.act ⟨s, t, line⟩ t line (.receive i) = some x' := h
      match hs : s.step (.receive i) with
      | none => simp only [TimedSys.act, hs] at h; cases h
      | some s' =>
        have hs' := hs
        unfold Sys.step at hs'
        dsimp only at hs'
        split at hs'
        · rename_i c k chan r past hi
          have hl : line.erase i = line := by
            refine List.erase_of_not_mem fun h => ?_
            obtain ⟨tk, r, h1, h2⟩ := inv.inLine i h
            replace h1 : s.tasks[i]? = some tk := h1
            rw [hi] at h1; cases h1; cases h2
          have pr := inv.progress i _ hi
          have key : ∀ rep, (¬NoMail s.mail chan ∨ s.io.status ≠ .running) →
              Good P ⟨{ s with tasks := s.tasks.set i (Sys.resume c k past rep) }, t, line⟩ := by
            intro rep hn
            have := inv_set (new := Sys.resume c k past rep) inv hi (.inr ⟨nofun, fun c' r' h => by cases h; exact hn⟩)
              (.inr (by simpa [Sys.resume] using pr.1))
            rw [hl] at this
            exact this
          split at hs'
          · rename_i a ha
            cases hs'
            rw [act hs rfl h]
            exact key _ (.inl fun h => by rw [noMail_iff.mp h] at ha; cases ha)
          · split at hs'
            · cases hs'
            · rename_i hr
              cases hs'
              rw [act hs rfl h]
              exact key _ (.inr hr)
        · cases hs'
    | cancel i => exact good_cancel inv h
    | sp rec out =>
      replace h : TimedSys.act ⟨s, t, line⟩ t line (.sp rec out) = some x' := h
      match hs : s.step (.sp rec out) with
      | none => simp only [TimedSys.act, hs] at h; cases h
      | some s' =>
        have hs' := hs
        unfold Sys.step at hs'
        dsimp only at hs'
        split at hs'
        · cases hs'
          rw [act hs rfl h]
          exact inv
        · cases hs'
    | deliver src bytes ok =>
      replace h : TimedSys.act ⟨s, t, line⟩ t line (.deliver src bytes ok) = some x' := h
      by_cases hb : bytes ∈ s.spLog.flatMap Prod.snd
      · exact loop (.packet src bytes ok) (by simp only [Sys.step, if_pos hb]) nofun nofun h
      · simp only [TimedSys.act, Sys.step, if_neg hb] at h; cases h
    | noise src bytes ok =>
      replace h : TimedSys.act ⟨s, t, line⟩ t line (.noise src bytes ok) = some x' := h
      cases hb : Sys.isResponse bytes
      · exact loop (.packet src bytes ok) (by simp only [Sys.step, hb]; rfl) nofun nofun h
      · simp only [TimedSys.act, Sys.step, hb] at h; cases h
    | loop e => exact good_event inv h

theorem good_run {P : Params} {x x' : TimedSys α} {es : List TimedSysEvent} (inv : Good P x) (h : x.run es = some x')
    (hp : SysPrompt P.late x es) : Good P x' := by
  induction es generalizing x with
  | nil => cases h; exact inv
  | cons e es ih =>
    unfold run at h
    split at h
    · rename_i x₁ h1
      exact ih (good_step inv h1 hp.1) h (hp.2 x₁ h1)
    · cases h

/-- The steps of the system in a history in time. -/
def untimedSys (es : List TimedSysEvent) : List SysEvent := es.filterMap fun | .sys e => some e | _ => none

theorem act_sys {x x' : TimedSys α} {t : Timer} {line : List Nat} {e : SysEvent} (h : x.act t line e = some x') :
    x.sys.step e = some x'.sys := by
  unfold act at h
  split at h
  · rename_i s hs; cases h; exact hs
  · cases h

theorem step_sys {x x' : TimedSys α} {e : SysEvent} (h : x.step (.sys e) = some x') : x.sys.step e = some x'.sys := by
  unfold step at h
  split at h
  · cases ‹TimedSysEvent.sys e = _›
  · cases ‹TimedSysEvent.sys e = _›
  · cases ‹TimedSysEvent.sys e = _›
    split at h
    · exact act_sys h
    · cases h
  · cases ‹TimedSysEvent.sys e = _›
    split at h
    · split at h
      · exact act_sys h
      · cases h
    · split at h
      · exact act_sys h
      · cases h
  · cases ‹TimedSysEvent.sys e = _›
    exact act_sys h
  · cases ‹TimedSysEvent.sys e = _›
    exact act_sys h

/-- A history in time is one of the system. -/
theorem run_untimedSys {x x' : TimedSys α} {es : List TimedSysEvent} (h : x.run es = some x') :
    x.sys.run (untimedSys es) = some x'.sys := by
  induction es generalizing x with
  | nil => cases h; rfl
  | cons e es ih =>
    unfold run at h
    split at h
    · rename_i x₁ h1
      have := ih h
      cases e with
      | elapse d => cases h1; exact this
      | lineUp i =>
        unfold step at h1
        dsimp only at h1
        split at h1
        · split at h1
          · cases h1
          · cases h1; exact this
        · cases h1
      | sys e =>
        show x.sys.run (e :: untimedSys es) = _
        simp only [Sys.run, step_sys h1]
        exact this
    · cases h

/-- What a task has done is a beginning of what its program does. -/
def Begun (progs : List (Prog α)) (s : Sys α) : Prop :=
  ∀ (i : Nat) (p : Prog α) (tk : Task α), progs[i]? = some p → s.tasks[i]? = some tk → Leads p tk.past tk.prog

theorem begun_set {progs : List (Prog α)} {s s' : Sys α} {i : Nat} {old new : Task α} (h : Begun progs s)
    (ht : s'.tasks = s.tasks.set i new) (hi : s.tasks[i]? = some old)
    (hn : ∀ p, Leads p old.past old.prog → Leads p new.past new.prog) : Begun progs s' := by
  intro j p tk hp hj
  rw [ht] at hj
  by_cases hij : i = j
  · subst hij
    rw [List.getElem?_set_self (List.getElem?_eq_some_iff.mp hi).1] at hj
    cases hj
    exact hn p (h i p old hp hi)
  · rw [List.getElem?_set_ne hij] at hj
    exact h j p tk hp hj

theorem begun_step {progs : List (Prog α)} {s s' : Sys α} {e : SysEvent} (h : Begun progs s) (hs : s.step e = some s') :
    Begun progs s' := by
  cases e with
  | number i =>
    simp only [Sys.step] at hs
    split at hs
    · rename_i c k past ht
      cases hs
      exact begun_set h rfl ht fun _ h => h
    · cases hs
  | submit i =>
    simp only [Sys.step] at hs
    split at hs
    · rename_i c k req past ht
      split at hs
      · cases hs; exact begun_set h rfl ht fun _ h => h
      · cases hs; exact begun_set h rfl ht fun _ h => leads_resume _ h
    · cases hs
  | receive i =>
    simp only [Sys.step] at hs
    split at hs
    · rename_i c k chan req past ht
      split at hs
      · cases hs; exact begun_set h rfl ht fun _ h => leads_resume _ h
      · split at hs
        · cases hs
        · cases hs; exact begun_set h rfl ht fun _ h => leads_resume _ h
    · cases hs
  | cancel i =>
    simp only [Sys.step] at hs
    split at hs
    · rename_i ht; cases hs; exact begun_set h rfl ht fun _ h => h
    · rename_i ht; cases hs; exact begun_set h rfl ht fun _ h => h
    · cases hs
  | sp r out =>
    simp only [Sys.step] at hs
    split at hs
    · cases hs; exact h
    · cases hs
  | deliver src bytes ok =>
    simp only [Sys.step] at hs
    split at hs
    · cases hs; exact h
    · cases hs
  | noise src bytes ok =>
    simp only [Sys.step] at hs
    split at hs
    · cases hs
    · cases hs; exact h
  | loop e =>
    simp only [Sys.step] at hs
    split at hs <;> cases hs
    exact h

theorem begun_run {progs : List (Prog α)} {s s' : Sys α} {es : List SysEvent} (h : Begun progs s) (hs : s.run es = some s') :
    Begun progs s' := by
  induction es generalizing s with
  | nil => cases hs; exact h
  | cons e es ih =>
    unfold Sys.run at hs
    split at hs
    · rename_i s₁ h1
      exact ih (begun_step h h1) hs
    · cases hs

theorem begun_init (lim : Option Nat) (progs : List (Prog α)) : Begun progs (Sys.init lim progs) := by
  intro i p tk hp hi
  simp only [Sys.init, List.getElem?_map, hp, Option.map_some, Option.some.injEq] at hi
  subst hi
  exact fun t o h => h

end TimedSys

end Xcvr
