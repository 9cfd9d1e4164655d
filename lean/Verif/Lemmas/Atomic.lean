import Verif.Lemmas.PowerRace
import Verif.Props.Linear

/-!
# Operations of several tasks on one module, one after the other

The calls of several tasks come mixed. Each task changes the module by one call, or resets it by two. The lemma `atomic` puts
each operation at the call that completes it.
-/

namespace Xcvr

open Spec Sys

/-- One step after another. -/
def Spec.OneByOne {ι : Type} (R : ι → PortState → PortState → Prop) : PortState → List ι → PortState → Prop
  | s, [], s' => s' = s
  | s, i :: l, s' => ∃ c, R i s c ∧ Spec.OneByOne R c l s'

theorem oneByOne_mono {ι : Type} {R R' : ι → PortState → PortState → Prop} :
    ∀ {l : List ι} {s s' : PortState}, OneByOne R s l s' → (∀ i ∈ l, ∀ s c, R i s c → R' i s c) → OneByOne R' s l s'
  | [], _, _, h, _ => h
  | i :: l, _, _, ⟨c, h1, h2⟩, hi => ⟨c, hi i (by simp) _ _ h1, oneByOne_mono h2 fun j hj => hi j (by simp [hj])⟩

namespace Spec

/-- What an operation does to a module. -/
inductive Change where
  | resetPin (v : Bool)
  | supply (v : Bool)
  | lowPin (v : Bool)
  | led (l : LedState)
  | store (w : MemoryWrite) (d : Bytes)
  | nothing
  | reset

/-- The state before and after. A reset leaves the module out of reset, with memory that is not known; nor is memory known
after other changes of the reset pin or of the supply. -/
def Change.Does : Change → PortState → PortState → Prop
  | .resetPin v, s, s' => SamePins { s with reset := v } s'
  | .supply v, s, s' => SamePins { s with enabled := v } s'
  | .lowPin v, s, s' => s' = { s with lowPin := v }
  | .led l, s, s' => s' = { s with led := l }
  | .store w d, s, s' => s' = s.store w d
  | .nothing, s, s' => s' = s
  | .reset, s, s' => SamePins { s with reset := false } s'

end Spec

/-- What a task has still to do to a port. -/
inductive Due where
  | quiet
  | once (E : PortState → PortState → Prop)
  | cycle
  | closing

/-- The effect of it. -/
def Due.Rel : Due → PortState → PortState → Prop
  | .quiet, s, s' => s' = s
  | .once E, s, s' => E s s'
  | .cycle, s, s' => SamePins { s with reset := false } s'
  | .closing, s, s' => SamePins { s with reset := false } s'

/-- A call sets the reset pin. -/
def Pulls (port : Nat) (v : Bool) (x : Exchange) : Prop :=
  ∀ s s', StepsAt x port s s' → SamePins { s with reset := v } s'

/-- The calls that remain of a task. -/
def Remains (port : Nat) (t : List Exchange) : Due → Prop
  | .quiet => ∀ x ∈ t, Rests port x
  | .once E => ∃ t₁ x t₂, t = t₁ ++ x :: t₂ ∧ (∀ x ∈ t₁, Rests port x) ∧ (∀ x ∈ t₂, Rests port x) ∧
      ∀ s s', StepsAt x port s s' → E s s'
  | .cycle => ∃ x₁ x₂, t = [x₁, x₂] ∧ Pulls port true x₁ ∧ Pulls port false x₂
  | .closing => ∃ x, t = [x] ∧ Pulls port false x

/-- The states agree but for what a reset that is under way may change. -/
def Agrees (s s' : PortState) : Prop := s'.enabled = s.enabled ∧ s'.lowPin = s.lowPin ∧ s'.led = s.led

/-- What a task does does not depend on what a reset may change. -/
def Compat (E : PortState → PortState → Prop) : Prop := ∀ s s' c, E s c → Agrees s s' → ∃ c', E s' c' ∧ Agrees c c'

theorem does_agrees (x : Change) : Compat x.Does := by
  intro s s' c h ha
  obtain ⟨h1, h2, h3⟩ := ha
  cases x with
  | resetPin v =>
    obtain ⟨k1, k2, k3, k4⟩ := h
    exact ⟨{ s' with reset := v }, ⟨rfl, rfl, rfl, rfl⟩, h1.trans k1.symm, h2.trans k3.symm, h3.trans k4.symm⟩
  | reset =>
    obtain ⟨k1, k2, k3, k4⟩ := h
    exact ⟨{ s' with reset := false }, ⟨rfl, rfl, rfl, rfl⟩, h1.trans k1.symm, h2.trans k3.symm, h3.trans k4.symm⟩
  | supply v =>
    obtain ⟨k1, k2, k3, k4⟩ := h
    exact ⟨{ s' with enabled := v }, ⟨rfl, rfl, rfl, rfl⟩, k1.symm, h2.trans k3.symm, h3.trans k4.symm⟩
  | lowPin v => cases h; exact ⟨_, rfl, h1, rfl, h3⟩
  | led l => cases h; exact ⟨_, rfl, h1, h2, rfl⟩
  | store w d =>
    have h : c = s.store w d := h
    subst h
    refine ⟨s'.store w d, rfl, ?_⟩
    unfold Agrees PortState.store
    split <;> exact ⟨h1, h2, h3⟩
  | nothing => cases h; exact ⟨_, rfl, h1, h2, h3⟩

theorem callsOf_cons {ι : Type} [DecidableEq ι] (i j : ι) (x : Exchange) (l : List (ι × Exchange)) :
    callsOf i ((j, x) :: l) = if j = i then x :: callsOf i l else callsOf i l := by
  unfold callsOf
  by_cases h : j = i <;> simp [h]

theorem remains_ne {port : Nat} {t : List Exchange} {d : Due} (h : Remains port t d) (hd : d ≠ .quiet) : t ≠ [] := by
  cases d with
  | quiet => exact absurd rfl hd
  | once E => obtain ⟨t₁, x, t₂, rfl, -⟩ := h; simp
  | cycle => obtain ⟨x₁, x₂, rfl, -⟩ := h; simp
  | closing => obtain ⟨x, rfl, -⟩ := h; simp

/-- What is due after a change. -/
def setDue {ι : Type} [DecidableEq ι] (ρ : ι → Due) (i : ι) (d : Due) : ι → Due := fun j => if j = i then d else ρ j

/-- The sequence can be cut with the order of the calls. -/
def CutsWith {ι : Type} [DecidableEq ι] (order : List (ι × Exchange)) (seq : List ι) : Prop :=
  ∀ l₁ l₂, order = l₁ ++ l₂ → ∃ q₁ q₂, seq = q₁ ++ q₂ ∧ (∀ i ∈ q₁, callsOf i l₁ ≠ []) ∧ ∀ i ∈ q₂, callsOf i l₂ ≠ []

/-- A call that completes nothing. -/
theorem cutsWith_skip {ι : Type} [DecidableEq ι] {i : ι} {x : Exchange} {l : List (ι × Exchange)} {seq : List ι}
    (h : CutsWith l seq)
    (hne : ∀ j ∈ seq, callsOf j ((i, x) :: l) ≠ []) : CutsWith ((i, x) :: l) seq := by
  intro l₁ l₂ he
  cases l₁ with
  | nil =>
    rw [List.nil_append] at he
    exact ⟨[], seq, rfl, by simp, fun j hj => he ▸ hne j hj⟩
  | cons y l₁ =>
    rw [List.cons_append, List.cons.injEq] at he
    obtain ⟨rfl, he⟩ := he
    obtain ⟨q₁, q₂, h1, h2, h3⟩ := h l₁ l₂ he
    refine ⟨q₁, q₂, h1, fun j hj => ?_, h3⟩
    rw [callsOf_cons]
    split
    · simp
    · exact h2 j hj

/-- A call that completes an operation. -/
theorem cutsWith_take {ι : Type} [DecidableEq ι] {i : ι} {x : Exchange} {l : List (ι × Exchange)} {seq : List ι}
    (h : CutsWith l seq)
    (hne : ∀ j ∈ seq, callsOf j ((i, x) :: l) ≠ []) : CutsWith ((i, x) :: l) (i :: seq) := by
  intro l₁ l₂ he
  cases l₁ with
  | nil =>
    rw [List.nil_append] at he
    refine ⟨[], i :: seq, rfl, by simp, fun j hj => ?_⟩
    rw [← he]
    rcases List.mem_cons.1 hj with rfl | hj
    · rw [callsOf_cons, if_pos rfl]; simp
    · exact hne j hj
  | cons y l₁ =>
    rw [List.cons_append, List.cons.injEq] at he
    obtain ⟨rfl, he⟩ := he
    obtain ⟨q₁, q₂, h1, h2, h3⟩ := h l₁ l₂ he
    refine ⟨i :: q₁, q₂, by rw [h1]; rfl, fun j hj => ?_, h3⟩
    rw [callsOf_cons]
    split
    · simp
    · rename_i hn
      rcases List.mem_cons.1 hj with rfl | hj
      · exact absurd rfl hn
      · exact h2 j hj

/-- The calls of all tasks, however mixed, take the port where the operations take it one after the other, each once, in an
order that can be cut with that of the calls. -/
theorem atomic {ι : Type} [DecidableEq ι] {port : Nat} : ∀ (order : List (ι × Exchange)) (ρ : ι → Due) (s ŝ s' : PortState),
    EvolvesAt port s (order.map Prod.snd) s' → (∀ i, Remains port (callsOf i order) (ρ i)) →
    ((∀ i, ρ i ≠ .cycle ∧ ρ i ≠ .closing) ∨ ∀ i E, ρ i = .once E → Compat E) → Agrees s ŝ →
    ((∀ i, ρ i ≠ .closing) → ŝ = s) →
    ∃ seq : List ι, seq.Nodup ∧ (∀ i, i ∈ seq ↔ ρ i ≠ .quiet) ∧ OneByOne (fun i => (ρ i).Rel) ŝ seq s' ∧
      CutsWith order seq
  | [], ρ, s, ŝ, s', he, hr, _, ha, hq => by
    have hquiet : ∀ i, ρ i = .quiet := fun i => Classical.byContradiction fun hn => remains_ne (hr i) hn rfl
    refine ⟨[], List.nodup_nil, fun i => by simp [hquiet i], ?_, fun l₁ l₂ h => ⟨[], [], rfl, by simp, by simp⟩⟩
    rw [hq fun i => by rw [hquiet i]; simp]
    exact he
  | (i, x) :: l, ρ, s, ŝ, s', ⟨c, hx, he⟩, hr, hk, ha, hq => by
    have hne : ∀ j, ρ j ≠ .quiet → callsOf j ((i, x) :: l) ≠ [] := fun j hj => remains_ne (hr j) hj
    have hother : ∀ j, j ≠ i → Remains port (callsOf j l) (ρ j) := by
      intro j hj
      have := hr j
      rwa [callsOf_cons, if_neg (Ne.symm hj)] at this
    have hi := hr i
    rw [callsOf_cons, if_pos rfl] at hi
    have hrel : ∀ {d : Due} {seq : List ι} {a b : PortState}, i ∉ seq →
        OneByOne (fun j => (setDue ρ i d j).Rel) a seq b → OneByOne (fun j => (ρ j).Rel) a seq b := by
      intro d seq a b hn h
      refine oneByOne_mono h fun j hj s c hs => ?_
      have : j ≠ i := fun e => hn (e ▸ hj)
      simpa only [setDue, if_neg this] using hs
    have hset : ∀ {d : Due}, Remains port (callsOf i l) d → ∀ j, Remains port (callsOf j l) (setDue ρ i d j) := by
      intro d hd j
      unfold setDue
      split
      · subst_vars; exact hd
      · exact hother j ‹_›
    have hquiet : (∀ j, setDue ρ i .quiet j ≠ .cycle ∧ setDue ρ i .quiet j ≠ .closing) ∨
        ∀ j E, setDue ρ i .quiet j = .once E → Compat E := by
      rcases hk with hk | hk
      · refine .inl fun j => ?_
        unfold setDue
        split
        · exact ⟨by simp, by simp⟩
        · exact hk j
      · refine .inr fun j E hE => ?_
        unfold setDue at hE
        split at hE
        · cases hE
        · exact hk j E hE
    -- A call that leaves the port alone.
    have hskip : Rests port x → Remains port (callsOf i l) (ρ i) → ∃ seq : List ι, seq.Nodup ∧
        (∀ i, i ∈ seq ↔ ρ i ≠ .quiet) ∧ OneByOne (fun i => (ρ i).Rel) ŝ seq s' ∧ CutsWith ((i, x) :: l) seq := by
      rintro ⟨q, h1, h2⟩ h3
      obtain rfl : c = s := hx.quiet q h1 h2
      obtain ⟨seq, k1, k2, k3, k4⟩ := atomic l ρ c ŝ s' he
        (fun j => by by_cases hj : j = i; · subst hj; exact h3
                     · exact hother j hj) hk ha hq
      exact ⟨seq, k1, k2, k3, cutsWith_skip k4 fun j hj => hne j ((k2 j).1 hj)⟩
    -- A call that completes an operation.
    have htake : ∀ ĉ, ρ i ≠ .quiet → (ρ i).Rel ŝ ĉ → Remains port (callsOf i l) .quiet → Agrees c ĉ →
        ((∀ j, j ≠ i → ρ j ≠ .closing) → ĉ = c) → ∃ seq : List ι, seq.Nodup ∧
        (∀ i, i ∈ seq ↔ ρ i ≠ .quiet) ∧ OneByOne (fun i => (ρ i).Rel) ŝ seq s' ∧ CutsWith ((i, x) :: l) seq := by
      intro ĉ h0 h1 h2 h3 h4
      obtain ⟨seq, k1, k2, k3, k4⟩ := atomic l (setDue ρ i .quiet) c ĉ s' he (hset h2) hquiet h3 fun hn => h4 fun j hj hc => by
        refine hn j ?_
        simp only [setDue, if_neg hj, hc]
      have hmem : i ∉ seq := fun h => (k2 i).1 h (by simp [setDue])
      refine ⟨i :: seq, List.nodup_cons.2 ⟨hmem, k1⟩, fun j => ?_, ⟨ĉ, h1, hrel hmem k3⟩, cutsWith_take k4 fun j hj => ?_⟩
      · by_cases hj : j = i
        · subst hj; simp [h0]
        · rw [List.mem_cons, k2 j]
          simp [setDue, hj]
      · refine hne j ?_
        have := (k2 j).1 hj
        have hji : j ≠ i := fun e => hmem (e ▸ hj)
        simpa [setDue, hji] using this
    cases hρ : ρ i with
    | quiet =>
      rw [hρ] at hi
      exact hskip (hi x (by simp)) (by rw [hρ]; exact fun y hy => hi y (by simp [hy]))
    | once E =>
      rw [hρ] at hi
      obtain ⟨t₁, y, t₂, h1, h2, h3, h4⟩ := hi
      cases t₁ with
      | cons z t₁ =>
        rw [List.cons_append, List.cons.injEq] at h1
        obtain ⟨rfl, h1⟩ := h1
        exact hskip (h2 x (by simp)) (by rw [hρ]; exact ⟨t₁, y, t₂, h1, fun y hy => h2 y (by simp [hy]), h3, h4⟩)
      | nil =>
        rw [List.nil_append, List.cons.injEq] at h1
        obtain ⟨rfl, h1⟩ := h1
        have hE := h4 s c hx
        by_cases hp : ∀ j, ρ j ≠ .closing
        · obtain rfl := hq hp
          exact htake c (by rw [hρ]; simp) (by rw [hρ]; exact hE) (by rw [h1]; exact h3) ⟨rfl, rfl, rfl⟩ fun _ => rfl
        · obtain ⟨ĉ, h5, h6⟩ := hk.resolve_left (fun hk => hp fun j => (hk j).2) i E hρ s ŝ c hE ha
          refine htake ĉ (by rw [hρ]; simp) (by rw [hρ]; exact h5) (by rw [h1]; exact h3) h6 fun hn => (hp fun j => ?_).elim
          by_cases hj : j = i
          · subst hj; rw [hρ]; simp
          · exact hn j hj
    | cycle =>
      rw [hρ] at hi
      obtain ⟨x₁, x₂, h1, h2, h3⟩ := hi
      rw [List.cons.injEq] at h1
      obtain ⟨rfl, h1⟩ := h1
      obtain ⟨e1, e2, e3, e4⟩ := h2 s c hx
      obtain ⟨a1, a2, a3⟩ := ha
      obtain ⟨seq, k1, k2, k3, k4⟩ := atomic l (setDue ρ i .closing) c ŝ s' he (hset ⟨x₂, h1, h3⟩)
        (.inr fun j E hE => by
          unfold setDue at hE
          split at hE
          · cases hE
          · exact hk.resolve_left (fun hk => (hk i).1 hρ) j E hE)
        ⟨a1.trans e1.symm, a2.trans e3.symm, a3.trans e4.symm⟩ fun hn => (hn i (by simp [setDue])).elim
      have hk : ∀ j, j ∈ seq ↔ ρ j ≠ .quiet := by
        intro j
        rw [k2 j]
        by_cases hj : j = i
        · subst hj; simp [setDue, hρ]
        · simp [setDue, hj]
      refine ⟨seq, k1, hk, oneByOne_mono k3 fun j _ a b hab => ?_, cutsWith_skip k4 fun j hj => hne j ((hk j).1 hj)⟩
      by_cases hj : j = i
      · subst hj
        rw [hρ]
        have : Due.closing.Rel a b := by simpa [setDue] using hab
        exact this
      · simpa [setDue, hj] using hab
    | closing =>
      rw [hρ] at hi
      obtain ⟨y, h1, h2⟩ := hi
      rw [List.cons.injEq] at h1
      obtain ⟨rfl, h1⟩ := h1
      obtain ⟨e1, e2, e3, e4⟩ := h2 s c hx
      obtain ⟨a1, a2, a3⟩ := ha
      exact htake c (by rw [hρ]; simp) (by rw [hρ]; exact ⟨e1.trans a1.symm, e2, e3.trans a2.symm, e4.trans a3.symm⟩)
        (by rw [h1]; simp [Remains]) ⟨rfl, rfl, rfl⟩ fun _ => rfl

namespace Spec

/-- Task `i` had returned in state `s`. -/
def Over {α : Type} (s : Sys α) (i : Nat) : Prop := ∃ tk a, s.tasks[i]? = some tk ∧ tk.prog = .ret a

/-- Task `i` had sent nothing in state `s`. -/
def Unbegun {α : Type} (s : Sys α) (i : Nat) : Prop :=
  ∃ tk, s.tasks[i]? = some tk ∧ tk.past = [] ∧ ∀ chan req, tk.phase ≠ .waiting chan req

end Spec

theorem runs_longer {α : Type} : ∀ {p : Prog α} {t t' : List Exchange} {a a' : α},
    Prog.Runs p t (.ok a) → Prog.Runs p (t ++ t') (.ok a') → t' = []
  | .ret _, [], [], _, _, _, _ => rfl
  | .ret _, [], _ :: _, _, _, _, h => h.elim
  | .ret _, _ :: _, _, _, _, h, _ => h.elim
  | .fail _, [], _, _, _, h, _ => by cases h
  | .fail _, _ :: _, _, _, _, h, _ => h.elim
  | .panic, [], _, _, _, h, _ => by cases h
  | .panic, _ :: _, _, _, _, h, _ => h.elim
  | .rpc _ _, [], _, _, _, h, _ => h.elim
  | .rpc c k, (c', r) :: t, t', a, a', h, h' => runs_longer h.2 h'.2

/-- `atomic`, for operations of which something is due. -/
theorem atomic_core {ι : Type} [DecidableEq ι] {order : List (ι × Exchange)} {port : Nat} {D : ι → Due → Prop}
    (hruns : ∀ i d, D i d → d ≠ .quiet ∧ d ≠ .closing ∧ Remains port (callsOf i order) d)
    (hrest : ∀ i, (¬ ∃ d, D i d) → Remains port (callsOf i order) .quiet)
    (hk : (∀ i d, D i d → d ≠ .cycle) ∨ ∀ i E, D i (.once E) → Compat E) {b b' : PortState}
    (hev' : EvolvesAt port b (order.map Prod.snd) b') :
    ∃ seq : List ι, seq.Nodup ∧ (∀ i, i ∈ seq ↔ ∃ d, D i d) ∧
      OneByOne (fun i a a' => ∃ d, D i d ∧ d.Rel a a') b seq b' ∧ CutsWith order seq := by
  let ρ : ι → Due := fun i => open Classical in
    if h : ∃ d, D i d then h.choose else .quiet
  have hin : ∀ i (hx : ∃ d, D i d), ρ i = hx.choose := fun i hx => by simp only [ρ, dif_pos hx]
  have hout : ∀ i, (¬ ∃ d, D i d) → ρ i = .quiet := fun i hx => by simp only [ρ, dif_neg hx]
  have hρ : ∀ i, Remains port (callsOf i order) (ρ i) ∧ (ρ i ≠ .quiet ↔ ∃ d, D i d) ∧ ρ i ≠ .closing := by
    intro i
    by_cases hx : ∃ d, D i d
    · obtain ⟨h3, h4, h5⟩ := hruns i _ hx.choose_spec
      rw [hin i hx]
      exact ⟨h5, ⟨fun _ => hx, fun _ => h3⟩, h4⟩
    · rw [hout i hx]
      exact ⟨hrest i hx, by simp [hx], by simp⟩
  have hcompat : (∀ i, ρ i ≠ .cycle ∧ ρ i ≠ .closing) ∨ ∀ i E, ρ i = .once E → Compat E := by
    rcases hk with hk | hk
    · refine .inl fun i => ⟨fun hc => ?_, (hρ i).2.2⟩
      have hx := (hρ i).2.1.1 (by rw [hc]; simp)
      rw [hin i hx] at hc
      exact hk i _ hx.choose_spec hc
    · refine .inr fun i E hc => ?_
      have hx := (hρ i).2.1.1 (by rw [hc]; simp)
      rw [hin i hx] at hc
      exact hk i E (hc ▸ hx.choose_spec)
  obtain ⟨seq, k1, k2, k3, k4⟩ := atomic order ρ b b b' hev' (fun i => (hρ i).1) hcompat ⟨rfl, rfl, rfl⟩ fun _ => rfl
  have hseq : ∀ i, i ∈ seq ↔ ∃ d, D i d := fun i => (k2 i).trans (hρ i).2.1
  refine ⟨seq, k1, hseq, oneByOne_mono k3 fun i hi a a' hr => ?_, k4⟩
  have hx := (hseq i).1 hi
  rw [hin i hx] at hr
  exact ⟨_, hx.choose_spec, hr⟩

/-- The tasks of a controller, of which each spares the port or has something due to it, and came to its end: the port ends
where what was due takes it, done one after the other. -/
theorem atomic_tasks {α : Type} {lim : Option Nat} {progs : List (Prog α)} {evs : List SysEvent} {s : Sys α}
    (h : (Sys.init lim progs).run evs = some s) (hsp : SpDoes Proper evs) (hn : numbered evs ≤ 2 ^ 64) {port : Nat}
    (hreq : ∀ p ∈ progs, Requests p) {D : Nat → Due → Prop}
    (hD : ∀ i d, D i d → ∃ p tk a, progs[i]? = some p ∧ Prog.AllCalls Bench.IsHost p ∧ s.tasks[i]? = some tk ∧
      tk.prog = .ret a ∧ d ≠ .quiet ∧ d ≠ .closing ∧
      ∀ t, Prog.Runs p t (.ok a) → Conforming t → Remains port t d)
    (hk : (∀ i d, D i d → d ≠ .cycle) ∨ ∀ i E, D i (.once E) → Compat E)
    (htasks : ∀ i p, progs[i]? = some p → Spares p port ∨ ∃ d, D i d)
    (hord : InOrderAt port s.spLog) (hal : AlikeAt port s.spLog) {b b' : PortState}
    (he : LogEvolvesAt port b s.spLog b') :
    ∃ seq : List Nat, seq.Nodup ∧ (∀ i, i ∈ seq ↔ ∃ d, D i d) ∧
      OneByOne (fun i a a' => ∃ d, D i d ∧ d.Rel a a') b seq b' ∧
      ∀ e₁ e₂ s₁, evs = e₁ ++ e₂ → (Sys.init lim progs).run e₁ = some s₁ → ∀ i j, i ∈ seq → j ∈ seq → Over s₁ i →
        Unbegun s₁ j → ∃ q₁ q₂, seq = q₁ ++ q₂ ∧ i ∈ q₁ ∧ j ∈ q₂ := by
  obtain ⟨order, ho, hcut, hev⟩ := C140_linear lim progs evs s h hsp hn hreq
  obtain ⟨⟨_, inv⟩, hl⟩ := sysInv_run evs (P := Proper) (fun _ _ h => h.1) (sysInv_init lim progs) (by simp [Sys.init]) hsp
    (by omega) h
  have hev' : EvolvesAt port b (order.map Prod.snd) b' := by
    refine hev port (fun i p tk hp hi => ?_) hord hal b b' he
    rcases htasks i p hp with h1 | ⟨d, hd⟩
    · exact .inl h1
    · obtain ⟨p', tk', a, h1, h2, h3, h4, -⟩ := hD i d hd
      rw [hi] at h3
      cases h3
      exact .inr (finished_calls h hsp hn h1 h2 hi h4).1
  have hruns : ∀ i d, D i d → ∃ p a, progs[i]? = some p ∧ Prog.AllCalls Bench.IsHost p ∧ d ≠ .quiet ∧ d ≠ .closing ∧
      Remains port (callsOf i order) d ∧ Prog.Runs p (callsOf i order) (.ok a) := by
    intro i d hd
    obtain ⟨p, tk, a, h1, h2, h3, h4, h5, h6, h7⟩ := hD i d hd
    obtain ⟨h8, h9⟩ := C65_method lim progs evs s h hsp hn i _ h1 h2 tk h3 a h4
    rw [← (finished_calls h hsp hn h1 h2 h3 h4).2, ← ho.calls i tk h3] at h8 h9
    exact ⟨p, a, h1, h2, h5, h6, h7 _ h8 h9, h8⟩
  have hrest : ∀ i, (¬ ∃ d, D i d) → Remains port (callsOf i order) .quiet := by
    intro i hno x hx
    have hlt := ho.only _ (callsOf_mem.1 hx)
    have hi := List.getElem?_eq_getElem hlt
    have hp : progs[i]? = some (progs[i]'(by rw [← inv.length]; exact hlt)) := List.getElem?_eq_getElem _
    rw [ho.calls i _ hi] at hx
    have hs := (htasks i _ hp).resolve_right hno
    obtain ⟨q, h1, h2⟩ := spares_of inv hl hi (c := x.1)
      (.inl (List.mem_map_of_mem (f := Prod.fst) (List.mem_filter.1 hx).1)) (port := port) fun p' hp' => by
        rw [hp] at hp'
        cases hp'
        exact hs
    refine ⟨q, ?_, h2⟩
    unfold requestOf
    rw [h1]
  obtain ⟨seq, k1, hseq, k3, k4⟩ := atomic_core (fun i d hd => by
    obtain ⟨p, a, h1, h2, h3, h4, h5, h6⟩ := hruns i _ hd
    exact ⟨h3, h4, h5⟩) hrest hk hev'
  refine ⟨seq, k1, hseq, k3, ?_⟩
  intro e₁ e₂ s₁ hevs hrun i j hi hj hover hun
  obtain ⟨l₁, l₂, hlo, hat⟩ := hcut e₁ e₂ s₁ hevs hrun
  obtain ⟨q₁, q₂, hq, h1, h2⟩ := k4 l₁ l₂ hlo
  have hi2 : callsOf i l₂ = [] := by
    obtain ⟨d, hd⟩ := (hseq i).1 hi
    obtain ⟨p, a, h3, h4, -, -, -, h5⟩ := hruns i d hd
    obtain ⟨tk, a₁, h6, h7⟩ := hover
    have hsp₁ : SpDoes Proper e₁ := fun r out hr => hsp r out (by rw [hevs]; exact List.mem_append_left _ hr)
    have hn₁ : numbered e₁ ≤ 2 ^ 64 := by
      refine Nat.le_trans ?_ hn
      unfold numbered
      rw [hevs, List.countP_append]
      exact Nat.le_add_right _ _
    obtain ⟨h8, -⟩ := C65_method lim progs e₁ s₁ hrun hsp₁ hn₁ i p h3 h4 tk h6 a₁ h7
    rw [← (finished_calls hrun hsp₁ hn₁ h3 h4 h6 h7).2] at h8
    rcases hat i tk h6 with h9 | ⟨c, k, chan, req, r, h9, -⟩
    · rw [← h9] at h8
      rw [hlo, callsOf_append] at h5
      exact runs_longer h8 h5
    · rw [h7] at h9
      cases h9
  have hj1 : callsOf j l₁ = [] := by
    obtain ⟨tk, h3, h4, h5⟩ := hun
    rcases hat j tk h3 with h6 | ⟨c, k, chan, req, r, -, h6, -⟩
    · rw [h6, h4]; rfl
    · exact (h5 chan req h6).elim
  refine ⟨q₁, q₂, hq, ?_, ?_⟩
  · rw [hq] at hi
    exact (List.mem_append.1 hi).resolve_right fun hx => h2 i hx hi2
  · rw [hq] at hj
    exact (List.mem_append.1 hj).resolve_left fun hx => h1 j hx hj1

end Xcvr
