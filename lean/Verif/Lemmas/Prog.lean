import Verif.Model.Prog

/-! # Runs of programs -/

namespace Xcvr.Prog

variable {α β γ : Type}

@[simp] theorem pure_eq (a : α) : (pure a : Prog α) = ret a := (rfl)
@[simp] theorem ret_bind (a : α) (f : α → Prog β) : (ret a >>= f) = f a := (rfl)
@[simp] theorem fail_bind (e : CtlError) (f : α → Prog β) : (fail e >>= f) = fail e := (rfl)
@[simp] theorem panic_bind (f : α → Prog β) : ((panic : Prog α) >>= f) = panic := (rfl)
@[simp] theorem rpc_bind (c : Call) (k : Reply → Prog α) (f : α → Prog β) :
    (rpc c k >>= f) = rpc c fun r => k r >>= f := (rfl)

theorem bind_assoc' (p : Prog α) (f : α → Prog β) (g : β → Prog γ) : (p >>= f >>= g) = p >>= fun a => f a >>= g := by
  induction p with
  | ret | fail | panic => rfl
  | rpc c k ih =>
    simp only [rpc_bind]
    congr 1; funext r; exact ih r

theorem bind_ret' (p : Prog α) : (p >>= ret) = p := by
  induction p with
  | ret | fail | panic => rfl
  | rpc c k ih =>
    simp only [rpc_bind]
    congr 1; funext r; exact ih r

instance : LawfulMonad Prog := LawfulMonad.mk'
  (id_map := fun p => bind_ret' p)
  (pure_bind := fun _ _ => rfl)
  (bind_assoc := fun p f g => bind_assoc' p f g)

@[simp] theorem ofExec_ok (a : α) : ofExec (.ok a) = ret a := (rfl)
@[simp] theorem ofExec_err (e : CtlError) : (ofExec (.err e) : Prog α) = fail e := (rfl)
@[simp] theorem ofExec_panic : (ofExec .panic : Prog α) = panic := (rfl)

@[simp] theorem runs_ret {a : α} {t : List (Call × Reply)} {o : Exec CtlError α} :
    Runs (ret a) t o ↔ t = [] ∧ o = .ok a := by
  cases t <;> simp [Runs]

@[simp] theorem runs_fail {e : CtlError} {t : List (Call × Reply)} {o : Exec CtlError α} :
    Runs (fail e) t o ↔ t = [] ∧ o = .err e := by
  cases t <;> simp [Runs]

@[simp] theorem runs_panic {t : List (Call × Reply)} {o : Exec CtlError α} :
    Runs panic t o ↔ t = [] ∧ o = .panic := by
  cases t <;> simp [Runs]

theorem runs_rpc {c : Call} {k : Reply → Prog α} {t : List (Call × Reply)} {o : Exec CtlError α} :
    Runs (rpc c k) t o ↔ ∃ r t', t = (c, r) :: t' ∧ Runs (k r) t' o := by
  cases t with
  | nil => simp [Runs]
  | cons x t =>
    obtain ⟨c', r⟩ := x
    simp only [Runs, List.cons.injEq, Prod.mk.injEq]
    constructor
    · rintro ⟨rfl, h⟩; exact ⟨r, t, ⟨⟨rfl, rfl⟩, rfl⟩, h⟩
    · rintro ⟨_, _, ⟨⟨rfl, rfl⟩, rfl⟩, h⟩; exact ⟨rfl, h⟩

@[simp] theorem runs_ofExec {x : Exec CtlError α} {t : List (Call × Reply)} {o : Exec CtlError α} :
    Runs (ofExec x) t o ↔ t = [] ∧ o = x := by
  cases x <;> simp

/-- Sequencing: the first program succeeds and the second goes on, or the first one ends it. -/
theorem runs_bind {p : Prog α} {f : α → Prog β} {t : List (Call × Reply)} {o : Exec CtlError β} :
    Runs (p >>= f) t o ↔
      (∃ t₁ t₂ a, t = t₁ ++ t₂ ∧ Runs p t₁ (.ok a) ∧ Runs (f a) t₂ o) ∨
      (∃ e, Runs p t (.err e) ∧ o = .err e) ∨ (Runs p t .panic ∧ o = .panic) := by
  induction p generalizing t with
  | ret a =>
    simp only [ret_bind, runs_ret]
    constructor
    · intro h; exact .inl ⟨[], t, a, rfl, ⟨rfl, rfl⟩, h⟩
    · rintro (⟨t₁, t₂, b, rfl, ⟨rfl, hb⟩, h⟩ | ⟨e, ⟨_, h⟩, _⟩ | ⟨⟨_, h⟩, _⟩)
      · cases hb; exact h
      · cases h
      · cases h
  | fail e =>
    simp only [fail_bind, runs_fail]
    constructor
    · intro h; exact .inr (.inl ⟨e, ⟨h.1, rfl⟩, h.2⟩)
    · rintro (⟨t₁, t₂, b, rfl, ⟨rfl, hb⟩, h⟩ | ⟨e', ⟨rfl, h⟩, rfl⟩ | ⟨⟨_, h⟩, _⟩)
      · cases hb
      · cases h; exact ⟨rfl, rfl⟩
      · cases h
  | panic =>
    simp only [panic_bind, runs_panic]
    constructor
    · intro h; exact .inr (.inr ⟨⟨h.1, trivial⟩, h.2⟩)
    · rintro (⟨t₁, t₂, b, rfl, ⟨rfl, hb⟩, h⟩ | ⟨e', ⟨rfl, h⟩, rfl⟩ | ⟨⟨rfl, _⟩, rfl⟩)
      · cases hb
      · cases h
      · exact ⟨rfl, rfl⟩
  | rpc c k ih =>
    simp only [rpc_bind, runs_rpc]
    constructor
    · rintro ⟨r, t', rfl, h⟩
      rcases (ih r).1 h with ⟨t₁, t₂, a, rfl, h₁, h₂⟩ | ⟨e, h₁, rfl⟩ | ⟨h₁, rfl⟩
      · exact .inl ⟨(c, r) :: t₁, t₂, a, rfl, ⟨r, t₁, rfl, h₁⟩, h₂⟩
      · exact .inr (.inl ⟨e, ⟨r, t', rfl, h₁⟩, rfl⟩)
      · exact .inr (.inr ⟨⟨r, t', rfl, h₁⟩, rfl⟩)
    · rintro (⟨t₁, t₂, a, rfl, ⟨r, t', rfl, h₁⟩, h₂⟩ | ⟨e, ⟨r, t', rfl, h₁⟩, rfl⟩ | ⟨⟨r, t', rfl, h₁⟩, rfl⟩)
      · exact ⟨r, t' ++ t₂, rfl, (ih r).2 (.inl ⟨t', t₂, a, rfl, h₁, h₂⟩)⟩
      · exact ⟨r, t', rfl, (ih r).2 (.inr (.inl ⟨e, h₁, rfl⟩))⟩
      · exact ⟨r, t', rfl, (ih r).2 (.inr (.inr ⟨h₁, rfl⟩))⟩

theorem runs_call {c : Call} {t : List (Call × Reply)} {o : Exec CtlError SpRpcResponse} :
    Runs (call c) t o ↔ (t = [(c, .gone)] ∧ o = .panic) ∨ (∃ r, t = [(c, .answer (.ok r))] ∧ o = .ok r) ∨
      ∃ e, t = [(c, .answer (.error e))] ∧ o = .err (.ofIo e) := by
  unfold call
  rw [runs_rpc]
  constructor
  · rintro ⟨r, t', rfl, h⟩
    match r with
    | .gone => obtain ⟨rfl, rfl⟩ := runs_panic.1 h; exact .inl ⟨rfl, rfl⟩
    | .answer (.ok r) => obtain ⟨rfl, rfl⟩ := runs_ret.1 h; exact .inr (.inl ⟨r, rfl, rfl⟩)
    | .answer (.error e) => obtain ⟨rfl, rfl⟩ := runs_fail.1 h; exact .inr (.inr ⟨e, rfl, rfl⟩)
  · rintro (⟨rfl, rfl⟩ | ⟨r, rfl, rfl⟩ | ⟨e, rfl, rfl⟩)
    · exact ⟨_, _, rfl, runs_panic.2 ⟨rfl, rfl⟩⟩
    · exact ⟨_, _, rfl, runs_ret.2 ⟨rfl, rfl⟩⟩
    · exact ⟨_, _, rfl, runs_fail.2 ⟨rfl, rfl⟩⟩

/-- A call followed by something. -/
theorem runs_call_bind {c : Call} {f : SpRpcResponse → Prog α} {t : List (Call × Reply)} {o : Exec CtlError α} :
    Runs (call c >>= f) t o ↔ (t = [(c, .gone)] ∧ o = .panic) ∨
      (∃ r t', t = (c, .answer (.ok r)) :: t' ∧ Runs (f r) t' o) ∨
      ∃ e, t = [(c, .answer (.error e))] ∧ o = .err (.ofIo e) := by
  rw [runs_bind]
  constructor
  · rintro (⟨t₁, t₂, a, rfl, h₁, h₂⟩ | ⟨e, h₁, rfl⟩ | ⟨h₁, rfl⟩)
    · rcases runs_call.1 h₁ with ⟨_, h⟩ | ⟨r, rfl, h⟩ | ⟨e, _, h⟩
      · cases h
      · cases h; exact .inr (.inl ⟨_, _, rfl, h₂⟩)
      · cases h
    · rcases runs_call.1 h₁ with ⟨_, h⟩ | ⟨r, rfl, h⟩ | ⟨e, rfl, h⟩
      · cases h
      · cases h
      · cases h; exact .inr (.inr ⟨_, rfl, rfl⟩)
    · rcases runs_call.1 h₁ with ⟨rfl, h⟩ | ⟨r, rfl, h⟩ | ⟨e, _, h⟩
      · exact .inl ⟨rfl, rfl⟩
      · cases h
      · cases h
  · rintro (⟨rfl, rfl⟩ | ⟨r, t', rfl, h⟩ | ⟨e, rfl, rfl⟩)
    · exact .inr (.inr ⟨runs_call.2 (.inl ⟨rfl, rfl⟩), rfl⟩)
    · exact .inl ⟨[_], t', r, rfl, runs_call.2 (.inr (.inl ⟨_, rfl, rfl⟩)), h⟩
    · exact .inr (.inl ⟨_, runs_call.2 (.inr (.inr ⟨_, rfl, rfl⟩)), rfl⟩)

/-- Every program has a run against every SP. -/
theorem runs_exec (sp : List (Call × Reply) → Call → Reply) (p : Prog α) (h : List (Call × Reply)) :
    Runs p (p.exec sp h).1 (p.exec sp h).2 := by
  induction p generalizing h with
  | ret a => exact runs_ret.2 ⟨rfl, rfl⟩
  | fail e => exact runs_fail.2 ⟨rfl, rfl⟩
  | panic => exact runs_panic.2 ⟨rfl, rfl⟩
  | rpc c k ih =>
    rw [runs_rpc]
    exact ⟨sp h c, _, rfl, ih _ _⟩

/-- The replies determine a run. -/
theorem runs_deterministic {p : Prog α} {t₁ t₂ : List (Call × Reply)} {o₁ o₂ : Exec CtlError α} (h₁ : Runs p t₁ o₁)
    (h₂ : Runs p t₂ o₂) (h : t₁.map Prod.snd = t₂.map Prod.snd) : t₁ = t₂ ∧ o₁ = o₂ := by
  induction p generalizing t₁ t₂ with
  | ret a => rw [runs_ret] at h₁ h₂; rw [h₁.1, h₂.1, h₁.2, h₂.2]; exact ⟨rfl, rfl⟩
  | fail e => rw [runs_fail] at h₁ h₂; rw [h₁.1, h₂.1, h₁.2, h₂.2]; exact ⟨rfl, rfl⟩
  | panic => rw [runs_panic] at h₁ h₂; rw [h₁.1, h₂.1, h₁.2, h₂.2]; exact ⟨rfl, rfl⟩
  | rpc c k ih =>
    rw [runs_rpc] at h₁ h₂
    obtain ⟨r, t₁, rfl, h₁⟩ := h₁
    obtain ⟨r', t₂, rfl, h₂⟩ := h₂
    simp only [List.map_cons, List.cons.injEq] at h
    obtain ⟨rfl, h⟩ := h
    obtain ⟨rfl, rfl⟩ := ih _ h₁ h₂ h
    exact ⟨rfl, rfl⟩

/-- A condition on all exchanges of a run, applied to the parts of a sequence. -/
theorem runs_bind_ok {C : Call × Reply → Prop} {p : Prog α} {f : α → Prog β} {t : List (Call × Reply)}
    {o : Exec CtlError β} (h : Runs (p >>= f) t o) (hC : ∀ x ∈ t, C x)
    (hp : ∀ t o, Runs p t o → (∀ x ∈ t, C x) → ∃ a, o = .ok a) :
    ∃ t₁ t₂ a, t = t₁ ++ t₂ ∧ Runs p t₁ (.ok a) ∧ (∀ x ∈ t₁, C x) ∧ Runs (f a) t₂ o ∧ ∀ x ∈ t₂, C x := by
  rcases runs_bind.1 h with ⟨t₁, t₂, a, rfl, h₁, h₂⟩ | ⟨e, h₁, rfl⟩ | ⟨h₁, rfl⟩
  · exact ⟨t₁, t₂, a, rfl, h₁, fun x hx => hC x (List.mem_append_left _ hx), h₂,
      fun x hx => hC x (List.mem_append_right _ hx)⟩
  · obtain ⟨a, ha⟩ := hp _ _ h₁ hC; cases ha
  · obtain ⟨a, ha⟩ := hp _ _ h₁ hC; cases ha

end Xcvr.Prog
