import Verif.Lemmas.Linear
import Verif.Lemmas.Board
import Verif.Props.Power

/-! # Lemmas: several tasks set the power of one module at the same time -/

namespace Xcvr

open Spec Controller Prog

/-! ### What an exchange does to a port -/

/-- The exchange is not to change the port. -/
def Rests (p : Nat) (x : Exchange) : Prop := ∃ q, requestOf x = some q ∧ (IsQuery q ∨ ¬ Names q p)

/-- What an exchange of setting the power does to a port. -/
inductive Act where
  | still
  | reset (v : Bool)
  | supply (v : Bool)
  | pin (v : Bool)
  | store (w : MemoryWrite) (v : U8)

/-- The exchange does `a` to port `p`. -/
def Acts (p : Nat) (x : Exchange) : Act → Prop
  | .still => Rests p x
  | .reset v => ∃ m, x.1 = Call.host (if v then .assertReset m else .deassertReset m) ∧ Mem m p ∧ (okIn x p).isSome
  | .supply v => ∃ m, x.1 = Call.host (if v then .enablePower m else .disablePower m) ∧ Mem m p ∧ (okIn x p).isSome
  | .pin v => ∃ m, x.1 = Call.host (if v then .assertLpMode m else .deassertLpMode m) ∧ Mem m p ∧ (okIn x p).isSome
  | .store w v => ∃ m, x.1 = Call.host (.write m w) (some [v]) ∧ Mem m p ∧ (okIn x p).isSome

/-- Its effect. -/
def Act.Did : Act → PortState → PortState → Prop
  | .still, s, s' => s' = s
  | .reset v, s, s' => SamePins { s with reset := v } s'
  | .supply v, s, s' => SamePins { s with enabled := v } s'
  | .pin v, s, s' => s' = { s with lowPin := v }
  | .store w v, s, s' => s' = s.store w [v]

theorem acts_did {p : Nat} {x : Exchange} {a : Act} (h : Acts p x a) {s s' : PortState} (hs : StepsAt x p s s') :
    a.Did s s' := by
  cases a with
  | still =>
    obtain ⟨q, h1, h2⟩ := h
    exact hs.quiet q h1 h2
  | reset v =>
    obtain ⟨m, h1, -, h2⟩ := h
    have := steps_ok h1 hs h2
    cases v <;> exact this
  | supply v =>
    obtain ⟨m, h1, -, h2⟩ := h
    have := steps_ok h1 hs h2
    cases v <;> exact this
  | pin v =>
    obtain ⟨m, h1, -, h2⟩ := h
    have := steps_ok h1 hs h2
    cases v <;> exact this
  | store w v =>
    obtain ⟨m, h1, -, h2⟩ := h
    exact steps_ok h1 hs h2

/-- What no exchange changes stays. -/
theorem acts_keep {β : Type} (f : PortState → β) {p : Nat} {t : List Exchange} {s s' : PortState} (he : EvolvesAt p s t s')
    (h : ∀ x ∈ t, ∃ a, Acts p x a ∧ ∀ s s', a.Did s s' → f s' = f s) : f s' = f s := by
  induction t generalizing s with
  | nil => cases he; rfl
  | cons x t ih =>
    obtain ⟨c, h1, h2⟩ := he
    obtain ⟨a, h3, h4⟩ := h x List.mem_cons_self
    exact (ih h2 fun y hy => h y (List.mem_cons_of_mem _ hy)).trans (h4 s c (acts_did h3 h1))

theorem acts_invariant {I : PortState → Prop} {p : Nat} {t : List Exchange} {s s' : PortState} (he : EvolvesAt p s t s')
    (h : ∀ x ∈ t, ∃ a, Acts p x a ∧ ∀ s s', a.Did s s' → I s → I s') (hi : I s) : I s' := by
  induction t generalizing s with
  | nil => cases he; exact hi
  | cons x t ih =>
    obtain ⟨c, h1, h2⟩ := he
    obtain ⟨a, h3, h4⟩ := h x List.mem_cons_self
    exact ih h2 (fun y hy => h y (List.mem_cons_of_mem _ hy)) (h4 s c (acts_did h3 h1) hi)

/-! ### The control byte -/

/-- If the module is on, and the pin says `low`, its power state is that of `low`. -/
def SetGood (low : Bool) (s : PortState) : Prop :=
  (interfaceOfCode (s.lower 0) = some .sff8636 ∧ (bit (s.lower 93) 0 = true → bit (s.lower 93) 1 = low)) ∨
  (interfaceOfCode (s.lower 0) = some .cmis ∧ (bit (s.lower 26) 6 = false → bit (s.lower 26) 4 = low))

theorem good_power {low : Bool} {s : PortState} (h : SetGood low s) (he : s.enabled = true) (hr : s.reset = false)
    (hl : s.lowPin = low) : s.power = if low then .low else .high := by
  have hcode : codeOf s.memory = s.lower 0 := rfl
  have h93 : sffLow s.memory 93 = s.lower 93 := rfl
  have h26 : cmisLow s.memory 26 = s.lower 26 := rfl
  unfold PortState.power
  rw [he, hr, hl, if_neg (by simp)]
  unfold controlIn
  rw [hcode]
  rcases h with ⟨h1, h2⟩ | ⟨h1, h2⟩
  · rw [h1]
    dsimp only
    unfold sffPowerControl
    rw [h93]
    cases h3 : bit (s.lower 93) 0 with
    | true => rw [h2 h3]; rfl
    | false => rfl
  · rw [h1]
    dsimp only
    unfold cmisPowerControl
    rw [h26]
    cases h3 : bit (s.lower 26) 6 with
    | true => rfl
    | false => rw [h2 h3]; rfl

theorem store_sff (s : PortState) (v : U8) : (s.store ⟨.sff8636 .lower, 93, 1⟩ [v]).lower 0 = s.lower 0 ∧
    (s.store ⟨.sff8636 .lower, 93, 1⟩ [v]).lower 93 = v ∧
    (s.store ⟨.sff8636 .lower, 93, 1⟩ [v]).lower 26 = s.lower 26 := ⟨rfl, rfl, rfl⟩

theorem store_cmis (s : PortState) (v : U8) : (s.store ⟨.sff8636 .lower, 26, 1⟩ [v]).lower 0 = s.lower 0 ∧
    (s.store ⟨.sff8636 .lower, 26, 1⟩ [v]).lower 26 = v ∧
    (s.store ⟨.sff8636 .lower, 26, 1⟩ [v]).lower 93 = s.lower 93 := ⟨rfl, rfl, rfl⟩

/-- A write of the control byte of either kind of module leaves the state good. -/
theorem good_store {low : Bool} {s : PortState} (h : SetGood low s) {code : U8} {w : MemoryWrite} {v : U8} {ov : Bool}
    (hw : Selects code w v ov low) : SetGood low (s.store w [v]) := by
  rcases hw with ⟨-, rfl, -, h2⟩ | ⟨-, rfl, -, h2⟩
  · unfold SetGood
    rw [(store_sff s v).1, (store_sff s v).2.1, (store_sff s v).2.2]
    rcases h with ⟨h3, -⟩ | h
    · exact .inl ⟨h3, fun _ => h2⟩
    · exact .inr h
  · unfold SetGood
    rw [(store_cmis s v).1, (store_cmis s v).2.1, (store_cmis s v).2.2]
    rcases h with h | ⟨h3, -⟩
    · exact .inl h
    · exact .inr ⟨h3, fun _ => h2⟩

/-- After a write of the control byte of the module, the state is good. -/
theorem good_after {low : Bool} {s : PortState} {code : U8} {w : MemoryWrite} {v : U8} {ov : Bool} (hcode : s.lower 0 = code)
    (hw : Selects code w v ov low) : SetGood low (s.store w [v]) := by
  rcases hw with ⟨h1, rfl, -, h2⟩ | ⟨h1, rfl, -, h2⟩
  · unfold SetGood
    rw [(store_sff s v).1, (store_sff s v).2.1, (store_sff s v).2.2, hcode]
    exact .inl ⟨h1, fun _ => h2⟩
  · unfold SetGood
    rw [(store_cmis s v).1, (store_cmis s v).2.1, (store_cmis s v).2.2, hcode]
    exact .inr ⟨h1, fun _ => h2⟩

theorem selects_code {code : U8} {w : MemoryWrite} {v : U8} {ov low : Bool} (hw : Selects code w v ov low) (s : PortState) :
    (s.store w [v]).lower 0 = s.lower 0 := by
  rcases hw with ⟨-, rfl, -⟩ | ⟨-, rfl, -⟩ <;> rfl

/-! ### What one task does -/

/-- The module is identified, and after that its control byte is written. -/
def EndsIn (low : Bool) (p : Nat) (t : List Exchange) : Prop :=
  ∃ A xi B xw C code g w v ov, t = A ++ xi :: (B ++ xw :: C) ∧ requestOf xi = some (.read g identifierByte) ∧
    okIn xi p = some [code] ∧ Selects code w v ov low ∧ Acts p xw (.store w v)

theorem ends_append {low : Bool} {p : Nat} {t : List Exchange} (t' : List Exchange) (h : EndsIn low p t) :
    EndsIn low p (t' ++ t) := by
  obtain ⟨A, xi, B, xw, C, code, g, w, v, ov, rfl, h⟩ := h
  exact ⟨t' ++ A, xi, B, xw, C, code, g, w, v, ov, by rw [List.append_assoc], h⟩

/-- After a call with `P` comes what `Q` says. -/
def Then (P : Exchange → Prop) (Q : List Exchange → Prop) (t : List Exchange) : Prop :=
  ∀ t₁ x t₂, t = t₁ ++ x :: t₂ → P x → Q t₂

/-- The calls of a task that turned the module off. -/
structure Offs (p : Nat) (t : List Exchange) : Prop where
  acts : ∀ x ∈ t, Acts p x (.pin false) ∨ Acts p x (.reset true) ∨ Acts p x (.supply false)
  ends : Then (fun x => ¬ Acts p x (.supply false)) (fun t => ∃ y ∈ t, Acts p y (.supply false)) t
  some : ∃ y ∈ t, Acts p y (.supply false)

/-- The calls of a task that turned the module on. -/
structure Ons (low : Bool) (p : Nat) (t : List Exchange) : Prop where
  acts : ∀ x ∈ t, Acts p x .still ∨ Acts p x (.reset true) ∨ Acts p x (.reset false) ∨ Acts p x (.supply true) ∨
    Acts p x (.pin low) ∨ ∃ code w v ov, Selects code w v ov low ∧ Acts p x (.store w v)
  released : Then (fun x => Acts p x (.reset true)) (fun t => ∃ y ∈ t, Acts p y (.reset false)) t
  pinned : Then (fun x => Acts p x (.supply true)) (fun t => ∃ y ∈ t, Acts p y (.pin low)) t
  written : Then (fun x => (∃ v, Acts p x (.reset v)) ∨ Acts p x (.supply true)) (EndsIn low p) t
  pin : ∃ y ∈ t, Acts p y (.pin low)
  ends : EndsIn low p t
  status : ∃ x ∈ t, ∃ m v, requestOf x = some (.status m) ∧ okIn x p = some [v] ∧
    (NeedsPower v → (∃ y ∈ t, Acts p y (.supply true)) ∧ ∃ y ∈ t, Acts p y (.reset false))

theorem acts_rests {p : Nat} {x : Exchange} {q : HostRequest} {D : Option Bytes} {m : ModuleId} (h1 : x.1 = Call.host q D)
    (hq : ¬ IsQuery q) (hm : requestModules q = some m) (h2 : Mem m p) : ¬ Rests p x := by
  rintro ⟨q', h3, h4⟩
  rw [requestOf_host h1] at h3
  cases h3
  exact h4.elim hq fun h => h ⟨m, hm, h2⟩

/-- The kind of an act. -/
def Act.kind : Act → Nat
  | .still => 0
  | .reset v => if v then 1 else 2
  | .supply v => if v then 3 else 4
  | .pin v => if v then 5 else 6
  | .store _ _ => 7

/-- The kind of act that a request is for. -/
def actKind : HostRequest → Nat
  | .assertReset _ => 1
  | .deassertReset _ => 2
  | .enablePower _ => 3
  | .disablePower _ => 4
  | .assertLpMode _ => 5
  | .deassertLpMode _ => 6
  | .write _ _ => 7
  | _ => 0

theorem acts_request {p : Nat} {x : Exchange} {a : Act} (h : Acts p x a) : Rests p x ∧ a = .still ∨
    ¬ Rests p x ∧ ∃ q, requestOf x = some q ∧ actKind q = a.kind := by
  cases a with
  | still => exact .inl ⟨h, rfl⟩
  | reset v =>
    obtain ⟨m, h1, h2, -⟩ := h
    cases v <;> exact .inr ⟨acts_rests h1 (fun h => h) rfl h2, _, requestOf_host h1, rfl⟩
  | supply v =>
    obtain ⟨m, h1, h2, -⟩ := h
    cases v <;> exact .inr ⟨acts_rests h1 (fun h => h) rfl h2, _, requestOf_host h1, rfl⟩
  | pin v =>
    obtain ⟨m, h1, h2, -⟩ := h
    cases v <;> exact .inr ⟨acts_rests h1 (fun h => h) rfl h2, _, requestOf_host h1, rfl⟩
  | store w v =>
    obtain ⟨m, h1, h2, -⟩ := h
    exact .inr ⟨acts_rests h1 (fun h => h) rfl h2, _, requestOf_host h1, rfl⟩

theorem acts_kind {p : Nat} {x : Exchange} {a a' : Act} (h : Acts p x a) (h' : Acts p x a') : a.kind = a'.kind := by
  rcases acts_request h with ⟨h1, rfl⟩ | ⟨h1, q, h2, h3⟩ <;> rcases acts_request h' with ⟨h1', rfl⟩ | ⟨h1', q', h2', h3'⟩
  · rfl
  · exact absurd h1 h1'
  · exact absurd h1' h1
  · rw [h2] at h2'
    cases h2'
    exact h3.symm.trans h3'

/-- What comes after a call that is not among the last ones. -/
theorem then_suffix {t₁ t₂ A B : List Exchange} {x : Exchange} (h : A ++ B = t₁ ++ x :: t₂) (hx : x ∉ B) :
    ∃ M, t₂ = M ++ B := by
  rcases List.append_eq_append_iff.1 h with ⟨C, h1, h2⟩ | ⟨C, h1, h2⟩
  · refine absurd ?_ hx
    rw [h2]
    simp
  · cases C with
    | nil =>
      refine absurd ?_ hx
      rw [List.nil_append] at h2
      rw [← h2]
      simp
    | cons y C =>
      rw [List.cons_append, List.cons.injEq] at h2
      exact ⟨C, h2.2⟩

theorem offs_of {m : ModuleId} {t : List Exchange} {res : Res Unit} (h : Runs (setPower m .off) t (.ok res))
    (hc : Conforming t) {p : Nat} (hp : Mem res.modules p) : Offs p t := by
  obtain ⟨x₁, x₂, x₃, s₁, s₂, res', rfl, h1, h2, h3, h4, h5, h6, h7⟩ := C43_power_off m t _ h hc
  cases h6
  have hok : ∀ {x : Exchange} {q : HostRequest} {g : ModuleId}, x ∈ [x₁, x₂, x₃] → x.1 = Call.host q →
      requestModules q = some g → (okIn x p).isSome → Mem g p := by
    intro x q g hx hq hg hs
    obtain ⟨v, hv⟩ := Option.isSome_iff_exists.1 hs
    exact okIn_asked (hc x hx) (requestOf_host hq) hg hv
  have k3 : (okIn x₃ p).isSome := by
    obtain ⟨u, hu⟩ := (mem_iff_datum h7.wf.1 p).1 hp
    have := h7.ok p
    unfold okAt at this
    rw [hu, okAmong_singleton] at this
    cases hx : okIn x₃ p with
    | none => rw [hx] at this; cases this
    | some _ => rfl
  have m3 := hok (by simp) h3 rfl k3
  have k2 := (h5 p).1 m3
  have m2 := hok (by simp) h2 rfl k2
  have k1 := (h4 p).1 m2
  have a1 : Acts p x₁ (.pin false) := ⟨m, h1, hok (by simp) h1 rfl k1, k1⟩
  have a2 : Acts p x₂ (.reset true) := ⟨s₁, h2, m2, k2⟩
  have a3 : Acts p x₃ (.supply false) := ⟨s₂, h3, m3, k3⟩
  refine ⟨fun x hx => ?_, fun t₁ x t₂ ht hx => ?_, x₃, by simp, a3⟩
  · simp only [List.mem_cons, List.not_mem_nil, or_false] at hx
    rcases hx with rfl | rfl | rfl
    · exact .inl a1
    · exact .inr (.inl a2)
    · exact .inr (.inr a3)
  · obtain ⟨M, rfl⟩ := then_suffix (A := [x₁, x₂]) (B := [x₃]) ht (by
      rintro hm
      cases List.mem_singleton.1 hm
      exact hx a3)
    exact ⟨x₃, by simp, a3⟩

/-- What a step of powering on does to a port for which it did not fail. -/
theorem stepRan_acts {q : ModuleId → HostRequest} (hq : ∀ m, requestModules (q m) = some m) {target a a' : ModuleId}
    {f f' : FailedModules TransceiverError} {t : List Exchange} (h : StepRan q target a f t a' f') {p : Nat}
    (hp : ¬ Mem f'.modules p) :
    ¬ Mem f.modules p ∧ (Mem target p → Mem a' p ∧ ∃ x, t = [x] ∧ x.1 = Call.host (q target) ∧ (okIn x p).isSome) ∧
      (¬ Mem target p → ∀ x ∈ t, Rests p x) ∧ (Mem a' p → Mem target p ∨ Mem a p) := by
  rcases h with ⟨-, x, r, rfl, h1, h2, rfl, rfl⟩ | ⟨h1, rfl, rfl, rfl⟩
  · refine ⟨fun h => hp (mem_merge.2 (.inl h)), fun ht => ?_, fun ht y hy => ?_, fun h => .inl (((h2.split p).1).2 (.inl h))⟩
    · have hr := reports_success h2 ht fun h => hp (mem_merge.2 (.inr h))
      exact ⟨hr, x, rfl, h1, (reports_ok h2).1 hr⟩
    · cases List.mem_singleton.1 hy
      refine ⟨_, requestOf_host h1, .inr ?_⟩
      rintro ⟨m', h3, h4⟩
      rw [hq, Option.some.injEq] at h3
      exact ht (h3 ▸ h4)
  · exact ⟨hp, fun h => absurd h (h1 p), fun _ x hx => by (cases hx), .inr⟩

theorem acts_not {p : Nat} {x : Exchange} {a a' : Act} (h : Acts p x a) (hk : a.kind ≠ a'.kind) : ¬ Acts p x a' :=
  fun h' => hk (acts_kind h h')

theorem ons_of {m : ModuleId} {low : Bool} {t : List Exchange} {res : Res Unit} (h : Runs (setPowerOn m low) t (.ok res))
    (hc : Conforming t) {p : Nat} (hp : Mem res.modules p) (hf : ¬ Mem res.failures.modules p) : Ons low p t := by
  rcases setPowerOn_spec h hc with ⟨e, -, h1⟩ | ⟨tp, pw, t', rfl, h1, ⟨-, -, -, h2⟩ | ⟨-, h2⟩⟩
  · cases h1
  · cases h2
  obtain ⟨t₁, t₂, M, modes, F, xs, xl, need, rfl, hs, ha, -, hr, hc2⟩ := h2
  obtain ⟨str, ta, tb, td, noReset, m₁, m₂, f₁, f₂, rl, rfl, e1, e2, e3, e4, e5, e6, e7⟩ := hs.steps
  obtain ⟨ti, tw, rfl, hti, hw, hmono, hlast⟩ := setSoft_last ha hr hc2
  obtain ⟨hpM, t₀, x, code, g, r, rfl, hx, hg, hok, hid⟩ := hlast p hp
  have hpF : ¬ Mem F.modules p := fun h => hf (hmono p h)
  obtain ⟨d1, d2, d3, d4⟩ := stepRan_acts (fun _ => rfl) e7 hpF
  have hf2 : ¬ Mem f₂.modules p := fun h => d1 (mem_merge.2 (.inl h))
  have hfl : ¬ Mem rl.failures.modules p := fun h => d1 (mem_merge.2 (.inr h))
  obtain ⟨c1, c2, c3, c4⟩ := stepRan_acts (fun _ => rfl) e4 hf2
  obtain ⟨-, a2, a3, a4⟩ := stepRan_acts (fun _ => rfl) e3 c1
  have hnr : Mem noReset p → Mem need p := fun h3 => by
    obtain ⟨s, h4, h5, -⟩ := (e2 p).1 h3
    exact (hs.need p).2 ⟨s, h4, h5⟩
  have hm2 : Mem m₂ p := by
    by_cases hn : Mem need p
    · exact (c2 hn).1
    · exact ((e6.split p).1).2 (.inl ((d4 hpM).resolve_left hn))
  obtain ⟨v, hv⟩ : ∃ v, okIn xs p = some [v] := by
    by_cases hn : Mem need p
    · obtain ⟨v, h3, -⟩ := (hs.need p).1 hn
      exact ⟨v, h3⟩
    · have hm1 := (c4 hm2).resolve_left hn
      exact (status_reports hs.status hs.conforms e1 p).1 ((a4 hm1).resolve_left fun h => hn (hnr h))
  have hneed : NeedsPower v → Mem need p := fun h => (hs.need p).2 ⟨v, hv, h⟩
  -- the parts
  have htp : ∀ y ∈ tp, Acts p y .still := fun y hy => by
    obtain ⟨q, h3, h4⟩ := power_queries h1 y hy
    exact ⟨q, h3, .inl h4⟩
  have hxs : Acts p xs .still := ⟨_, requestOf_host hs.status, .inl trivial⟩
  have hta : ∀ y ∈ ta, Acts p y .still ∨ Acts p y (.reset true) ∧ Mem need p := fun y hy => by
    by_cases hn : Mem noReset p
    · obtain ⟨-, z, rfl, h3, h4⟩ := a2 hn
      cases List.mem_singleton.1 hy
      exact .inr ⟨⟨noReset, h3, hn, h4⟩, hnr hn⟩
    · exact .inl (a3 hn y hy)
  have htb : ∀ y ∈ tb, Acts p y .still ∨ Acts p y (.supply true) := fun y hy => by
    by_cases hn : Mem need p
    · obtain ⟨-, z, rfl, h3, h4⟩ := c2 hn
      cases List.mem_singleton.1 hy
      exact .inr ⟨need, h3, hn, h4⟩
    · exact .inl (c3 hn y hy)
  have hxl : Acts p xl (.pin low) := ⟨m₂, e5, hm2, (reports_ok e6).1 (reports_success e6 hm2 hfl)⟩
  have htd : ∀ y ∈ td, Acts p y .still ∨ Acts p y (.reset false) := fun y hy => by
    by_cases hn : Mem need p
    · obtain ⟨-, z, rfl, h3, h4⟩ := d2 hn
      cases List.mem_singleton.1 hy
      exact .inr ⟨need, h3, hn, h4⟩
    · exact .inl (d3 hn y hy)
  have htiw : ∀ y ∈ ti ++ (t₀ ++ [x]), Acts p y .still ∨
      ∃ code w v ov, Selects code w v ov low ∧ Acts p y (.store w v) := fun y hy => by
    rcases List.mem_append.1 hy with hy | hy
    · obtain ⟨q, h3, h4⟩ := readsOf_queries hti y hy
      exact .inl ⟨q, h3, .inl h4⟩
    · obtain ⟨code, g, ov, r, ⟨⟨w, v, h4, h5⟩, h6⟩, h7⟩ := hw y hy
      by_cases hgp : Mem g p
      · exact .inr ⟨code, w, v, ov, h4, g, h5, hgp,
          (reports_ok h6).1 (reports_success h6 hgp fun h => hf (h7 p h))⟩
      · refine .inl ⟨_, requestOf_host h5, .inr ?_⟩
        rintro ⟨m', h8, h9⟩
        cases h8
        exact hgp h9
  have hends : EndsIn low p (ti ++ (t₀ ++ [x])) := by
    unfold Identified okAmong at hid
    obtain ⟨xi, hxi, h3⟩ := List.exists_of_findSome?_eq_some hid
    obtain ⟨gi, hgi⟩ := requestOf_readsOf hti hxi
    obtain ⟨A, B, rfl⟩ := List.append_of_mem hxi
    obtain ⟨⟨w, v, h4, h5⟩, -⟩ := hx
    exact ⟨A, xi, B ++ t₀, x, [], code, gi, w, v, false, by simp, hgi, h3, h4, g, h5, hg, hok⟩
  -- where the acts are
  have hnotW : ∀ y ∈ ti ++ (t₀ ++ [x]), ∀ a, Acts p y a → a.kind = 0 ∨ a.kind = 7 := fun y hy a ha' => by
    rcases htiw y hy with h3 | ⟨_, w, v, _, -, h3⟩
    · exact .inl (acts_kind ha' h3)
    · exact .inr (acts_kind ha' h3)
  have hnotD : ∀ y ∈ td ++ (ti ++ (t₀ ++ [x])), ∀ a, Acts p y a → a.kind = 0 ∨ a.kind = 2 ∨ a.kind = 7 := fun y hy a ha' => by
    rcases List.mem_append.1 hy with hy | hy
    · rcases htd y hy with h3 | h3
      · exact .inl (acts_kind ha' h3)
      · exact .inr (.inl (acts_kind ha' h3))
    · exact (hnotW y hy a ha').imp id .inr
  have hlowk : (Act.pin low).kind = 5 ∨ (Act.pin low).kind = 6 := by cases low <;> simp [Act.kind]
  have hnotX : ∀ y ∈ xl :: (td ++ (ti ++ (t₀ ++ [x]))), ∀ a, Acts p y a → a.kind ≠ 3 := fun y hy a ha' => by
    rcases List.mem_cons.1 hy with rfl | hy
    · have := acts_kind ha' hxl
      omega
    · have := hnotD y hy a ha'
      omega
  have hall : ∀ y ∈ tp ++ (xs :: (ta ++ (tb ++ xl :: td)) ++ (ti ++ (t₀ ++ [x]))),
      (y ∈ tp ∨ y = xs ∨ y ∈ ta ∨ y ∈ tb) ∨ y = xl ∨ y ∈ td ∨ y ∈ ti ++ (t₀ ++ [x]) := fun y hy => by
    simp only [List.mem_append, List.mem_cons] at hy ⊢
    grind
  have hreset : ∀ y ∈ tp ++ (xs :: (ta ++ (tb ++ xl :: td)) ++ (ti ++ (t₀ ++ [x]))), Acts p y (.reset true) → Mem need p :=
    fun y hy hya => by
    rcases hall y hy with (h3 | rfl | h3 | h3) | rfl | h3 | h3
    · exact absurd hya (acts_not (htp y h3) (by simp [Act.kind]))
    · exact absurd hya (acts_not hxs (by simp [Act.kind]))
    · rcases hta y h3 with h4 | ⟨-, h4⟩
      · exact absurd hya (acts_not h4 (by simp [Act.kind]))
      · exact h4
    · rcases htb y h3 with h4 | h4
      · exact absurd hya (acts_not h4 (by simp [Act.kind]))
      · exact absurd hya (acts_not h4 (by simp [Act.kind]))
    · have := acts_kind hya hxl
      have : (Act.reset true).kind = 1 := rfl
      omega
    · have := hnotD y (List.mem_append_left _ h3) _ hya
      simp [Act.kind] at this
    · have := hnotW y h3 _ hya
      simp [Act.kind] at this
  refine ⟨fun y hy => ?_, fun l₁ y l₂ hl hya => ?_, fun l₁ y l₂ hl hya => ?_, fun l₁ y l₂ hl hya => ?_, ⟨xl, ?_, hxl⟩,
    ?_, xs, ?_, pw.modules, v, requestOf_host hs.status, hv, fun hnv => ?_⟩
  · rcases hall y hy with (h3 | rfl | h3 | h3) | rfl | h3 | h3
    · exact .inl (htp y h3)
    · exact .inl hxs
    · rcases hta y h3 with h4 | ⟨h4, -⟩
      · exact .inl h4
      · exact .inr (.inl h4)
    · rcases htb y h3 with h4 | h4
      · exact .inl h4
      · exact .inr (.inr (.inr (.inl h4)))
    · exact .inr (.inr (.inr (.inr (.inl hxl))))
    · rcases htd y h3 with h4 | h4
      · exact .inl h4
      · exact .inr (.inr (.inl h4))
    · rcases htiw y h3 with h4 | h4
      · exact .inl h4
      · exact .inr (.inr (.inr (.inr (.inr h4))))
  · have hn := hreset y (by rw [hl]; simp) hya
    obtain ⟨-, z, hz, h3, h4⟩ := d2 hn
    have hsplit : tp ++ (xs :: (ta ++ (tb ++ xl :: td)) ++ (ti ++ (t₀ ++ [x]))) =
      (tp ++ (xs :: (ta ++ (tb ++ [xl])))) ++ (td ++ (ti ++ (t₀ ++ [x]))) := by simp
    rw [hsplit] at hl
    obtain ⟨K, rfl⟩ := then_suffix hl fun hy => by
      have := hnotD y hy _ hya
      simp [Act.kind] at this
    exact ⟨z, by rw [hz]; simp, need, h3, hn, h4⟩
  · have hsplit : tp ++ (xs :: (ta ++ (tb ++ xl :: td)) ++ (ti ++ (t₀ ++ [x]))) =
      (tp ++ (xs :: (ta ++ tb))) ++ (xl :: (td ++ (ti ++ (t₀ ++ [x])))) := by simp
    rw [hsplit] at hl
    obtain ⟨K, rfl⟩ := then_suffix hl fun hy => hnotX y hy _ hya rfl
    exact ⟨xl, by simp, hxl⟩
  · rw [← List.append_assoc] at hl
    obtain ⟨K, rfl⟩ := then_suffix hl fun hy => by
      rcases hya with ⟨b, hya⟩ | hya
      · have := hnotW y hy _ hya
        cases b <;> simp [Act.kind] at this
      · have := hnotW y hy _ hya
        simp [Act.kind] at this
    exact ends_append _ hends
  · simp
  · rw [← List.append_assoc]
    exact ends_append _ hends
  · simp
  · have hn := hneed hnv
    obtain ⟨-, y, hy, h3, h4⟩ := c2 hn
    obtain ⟨-, z, hz, h5, h6⟩ := d2 hn
    exact ⟨⟨y, by rw [hy]; simp, need, h3, hn, h4⟩, z, by rw [hz]; simp, need, h5, hn, h6⟩

/-! ### All tasks together -/

theorem last_split {β : Type} (P : β → Prop) (l : List β) :
    (∀ x ∈ l, ¬ P x) ∨ ∃ l₁ x l₂, l = l₁ ++ x :: l₂ ∧ P x ∧ ∀ y ∈ l₂, ¬ P y := by
  induction l with
  | nil => exact .inl fun x hx => by cases hx
  | cons z l ih =>
    rcases ih with ih | ⟨l₁, x, l₂, rfl, h1, h2⟩
    · by_cases hz : P z
      · exact .inr ⟨[], z, l, rfl, hz, ih⟩
      · refine .inl fun x hx => ?_
        rcases List.mem_cons.1 hx with rfl | hx
        · exact hz
        · exact ih x hx
    · exact .inr ⟨z :: l₁, x, l₂, rfl, h1, h2⟩

theorem callsOf_split {ι : Type} [DecidableEq ι] (i : ι) (x : Exchange) (l r : List (ι × Exchange)) :
    callsOf i (l ++ (i, x) :: r) = callsOf i l ++ x :: callsOf i r := by
  rw [callsOf_append]
  simp [callsOf]

theorem callsOf_mem {ι : Type} [DecidableEq ι] {i : ι} {x : Exchange} {l : List (ι × Exchange)} : x ∈ callsOf i l ↔ (i, x) ∈ l := by
  unfold callsOf
  constructor
  · intro h
    obtain ⟨⟨j, y⟩, h0, rfl⟩ := List.mem_map.1 h
    obtain ⟨h1, h2⟩ := List.mem_filter.1 h0
    simp only [beq_iff_eq] at h2
    subst h2
    exact h1
  · intro h
    exact List.mem_map.2 ⟨(i, x), List.mem_filter.2 ⟨h, by simp⟩, rfl⟩

theorem callsOf_sublist {ι : Type} [DecidableEq ι] (i : ι) (l : List (ι × Exchange)) :
    (callsOf i l).Sublist (l.map Prod.snd) :=
  List.Sublist.map _ (List.filter_sublist ..)

theorem did_enabled {a : Act} (h : a.kind ≠ 3 ∧ a.kind ≠ 4) (s s' : PortState) (hd : a.Did s s') : s'.enabled = s.enabled := by
  cases a with
  | still => cases hd; rfl
  | reset v => exact hd.1
  | supply v => cases v <;> simp [Act.kind] at h
  | pin v => cases hd; rfl
  | store w v => cases hd; unfold PortState.store; split <;> rfl

theorem did_reset {a : Act} (h : a.kind ≠ 1 ∧ a.kind ≠ 2) (s s' : PortState) (hd : a.Did s s') : s'.reset = s.reset := by
  cases a with
  | still => cases hd; rfl
  | supply v => exact hd.2.1
  | reset v => cases v <;> simp [Act.kind] at h
  | pin v => cases hd; rfl
  | store w v => cases hd; unfold PortState.store; split <;> rfl

theorem did_pin {a : Act} (h : a.kind ≠ 5 ∧ a.kind ≠ 6) (s s' : PortState) (hd : a.Did s s') : s'.lowPin = s.lowPin := by
  cases a with
  | still => cases hd; rfl
  | supply v => exact hd.2.2.1
  | reset v => exact hd.2.2.1
  | pin v => cases v <;> simp [Act.kind] at h
  | store w v => cases hd; unfold PortState.store; split <;> rfl

/-- The acts that leave a module as it is, but for the pin and the control byte. -/
def Act.Mild (low : Bool) : Act → Prop
  | .still | .pin _ => True
  | .store w v => ∃ code ov, Selects code w v ov low
  | _ => False

theorem mild_code {low : Bool} {a : Act} (h : a.Mild low) (s s' : PortState) (hd : a.Did s s') : s'.lower 0 = s.lower 0 := by
  cases a with
  | still => cases hd; rfl
  | pin v => cases hd; rfl
  | store w v =>
    obtain ⟨code, ov, h⟩ := h
    cases hd
    exact selects_code h s
  | reset v => exact h.elim
  | supply v => exact h.elim

theorem mild_good {low : Bool} {a : Act} (h : a.Mild low) (s s' : PortState) (hd : a.Did s s') (hg : SetGood low s) :
    SetGood low s' := by
  cases a with
  | still => cases hd; exact hg
  | pin v => cases hd; exact hg
  | store w v =>
    obtain ⟨code, ov, h⟩ := h
    cases hd
    exact good_store hg h
  | reset v => exact h.elim
  | supply v => exact h.elim

/-- If nothing but that happens, the state is good in the end. -/
theorem ends_good {low : Bool} {p : Nat} {t t' : List Exchange} (hsub : t'.Sublist t) (he : EndsIn low p t') {s s' : PortState}
    (hev : EvolvesAt p s t s') (hm : ∀ x ∈ t, ∃ a, Acts p x a ∧ a.Mild low) : SetGood low s' := by
  obtain ⟨A, xi, B, xw, C, code, g, w, v, ov, rfl, h1, h2, h3, h4⟩ := he
  obtain ⟨r₁, r₂, rfl, -, h5⟩ := List.append_sublist_iff.1 hsub
  obtain ⟨q₁, q₂, rfl, h6, h7⟩ := List.cons_sublist_iff.1 h5
  obtain ⟨u₁, u₂, rfl, -, h8⟩ := List.append_sublist_iff.1 h7
  obtain ⟨w₁, w₂, rfl, h9, -⟩ := List.cons_sublist_iff.1 h8
  obtain ⟨e₁, e₂, rfl⟩ := List.append_of_mem h6
  obtain ⟨f₁, f₂, rfl⟩ := List.append_of_mem h9
  have hsplit : r₁ ++ (e₁ ++ xi :: e₂ ++ (u₁ ++ (f₁ ++ xw :: f₂ ++ w₂))) =
      (r₁ ++ e₁) ++ xi :: ((e₂ ++ u₁ ++ f₁) ++ xw :: (f₂ ++ w₂)) := by simp
  rw [hsplit] at hev hm
  obtain ⟨c, -, hev⟩ := evolvesAt_append.1 hev
  obtain ⟨c', hi, hev⟩ := hev
  obtain ⟨d, hev1, hev⟩ := evolvesAt_append.1 hev
  obtain ⟨d', hw, hev⟩ := hev
  have hcode : c.lower 0 = code := by
    have : [code] = answer c.memory identifierByte := hi.shows _ _ h1 h2
    exact ((List.cons.inj this).1).symm
  obtain ⟨ai, hai, hmi⟩ := hm xi (by simp)
  have hcode' : d.lower 0 = code := by
    rw [acts_keep (fun s => s.lower 0) hev1 fun x hx => ?_, mild_code hmi c c' (acts_did hai hi), hcode]
    obtain ⟨a, h10, h11⟩ := hm x (by simp only [List.mem_append, List.mem_cons] at hx ⊢; grind)
    exact ⟨a, h10, mild_code h11⟩
  refine acts_invariant (I := SetGood low) hev (fun x hx => ?_) ?_
  · obtain ⟨a, h10, h11⟩ := hm x (by simp only [List.mem_append, List.mem_cons] at hx ⊢; grind)
    exact ⟨a, h10, fun s s' hd hg => mild_good h11 s s' hd hg⟩
  · rw [show d' = d.store w [v] from acts_did h4 hw]
    exact good_after hcode' h3

/-- What a task did, by the state it set. -/
def Played (p : Nat) (t : List Exchange) : Option PowerState → Prop
  | none => ∀ x ∈ t, Rests p x
  | some .off => Offs p t
  | some .low => Ons true p t
  | some .high => Ons false p t

/-- The acts of a task that turned the module on. -/
theorem ons_kind {low : Bool} {p : Nat} {t : List Exchange} (h : Ons low p t) {x : Exchange} (hx : x ∈ t) {a : Act}
    (ha : Acts p x a) : a.kind ≠ 4 ∧ a.kind ≠ (Act.pin !low).kind := by
  have hk : ∀ v, (Act.pin v).kind = if v then 5 else 6 := fun _ => rfl
  rcases h.acts x hx with h1 | h1 | h1 | h1 | h1 | ⟨_, _, _, _, -, h1⟩ <;> rw [acts_kind ha h1] <;> cases low <;>
    simp [Act.kind]

theorem offs_kind {p : Nat} {t : List Exchange} (h : Offs p t) {x : Exchange} (hx : x ∈ t) {a : Act}
    (ha : Acts p x a) : a.kind = 6 ∨ a.kind = 1 ∨ a.kind = 4 := by
  rcases h.acts x hx with h1 | h1 | h1 <;> rw [acts_kind ha h1] <;> simp [Act.kind]

theorem played_acts {p : Nat} {t : List Exchange} {o : Option PowerState} (h : Played p t o) {x : Exchange} (hx : x ∈ t) :
    ∃ a, Acts p x a := by
  have hon : ∀ low, Ons low p t → ∃ a, Acts p x a := fun low h => by
    rcases h.acts x hx with h1 | h1 | h1 | h1 | h1 | ⟨_, _, _, _, -, h1⟩ <;> exact ⟨_, h1⟩
  match o, h with
  | none, h => exact ⟨.still, h x hx⟩
  | some .off, h => rcases h.acts x hx with h1 | h1 | h1 <;> exact ⟨_, h1⟩
  | some .low, h => exact hon true h
  | some .high, h => exact hon false h

/-- Calls in an order, of tasks that each did what its role says. -/
structure Race {ι : Type} [DecidableEq ι] (p : Nat) (order : List (ι × Exchange)) (role : ι → Option PowerState)
    (s s' : PortState) : Prop where
  evolves : EvolvesAt p s (order.map Prod.snd) s'
  played : ∀ i, Played p (callsOf i order) (role i)
  some : ∃ i st, role i = some st

variable {ι : Type} [DecidableEq ι] {p : Nat} {order : List (ι × Exchange)} {role : ι → Option PowerState} {s s' : PortState}

theorem Race.acts (h : Race p order role s s') {m : ι × Exchange} (hm : m ∈ order) : ∃ a, Acts p m.2 a :=
  played_acts (h.played m.1) (callsOf_mem.2 hm)

theorem Race.none (h : Race p order role s s') {m : ι × Exchange} (hm : m ∈ order) {a : Act} (ha : Acts p m.2 a)
    (hk : a.kind ≠ 0) : ∃ st, role m.1 = Option.some st := by
  cases hr : role m.1 with
  | some st => exact ⟨st, rfl⟩
  | none =>
    have := h.played m.1
    rw [hr] at this
    exact absurd (acts_kind ha (a' := .still) (this _ (callsOf_mem.2 hm))) hk

theorem Race.off (h : Race p order role s s') {i : ι} (hi : role i = Option.some .off) : Offs p (callsOf i order) := by
  have := h.played i
  rwa [hi] at this

/-- The state in which the module is on. -/
def onState (low : Bool) : PowerState := if low then .low else .high

theorem Race.on (h : Race p order role s s') {i : ι} {low : Bool} (hi : role i = Option.some (onState low)) :
    Ons low p (callsOf i order) := by
  have := h.played i
  rw [hi] at this
  cases low <;> exact this

theorem onState_cases (st : PowerState) : st = .off ∨ ∃ low, st = onState low := by
  cases st
  · exact .inl rfl
  · exact .inr ⟨true, rfl⟩
  · exact .inr ⟨false, rfl⟩

/-- What no act of the calls changes is kept. -/
theorem Race.keep (h : Race p order role s s') {β : Type} (f : PortState → β) (P : Act → Prop)
    (hf : ∀ a, ¬ P a → ∀ s s', a.Did s s' → f s' = f s) {r : List (ι × Exchange)} (hr : ∀ m ∈ r, m ∈ order)
    (hn : ∀ m ∈ r, ¬ ∃ a, P a ∧ Acts p m.2 a) {c c' : PortState} (he : EvolvesAt p c (r.map Prod.snd) c') : f c' = f c := by
  refine acts_keep f he fun x hx => ?_
  obtain ⟨m, hm, rfl⟩ := List.mem_map.1 hx
  obtain ⟨a, ha⟩ := h.acts (hr m hm)
  exact ⟨a, ha, hf a fun hP => hn m hm ⟨a, hP, ha⟩⟩

def IsSupply (a : Act) : Prop := a.kind = 3 ∨ a.kind = 4
def IsReset (a : Act) : Prop := a.kind = 1 ∨ a.kind = 2
def IsPin (a : Act) : Prop := a.kind = 5 ∨ a.kind = 6

theorem isSupply {a : Act} (h : IsSupply a) : ∃ v, a = .supply v := by
  cases a with
  | supply v => exact ⟨v, rfl⟩
  | still => simp [IsSupply, Act.kind] at h
  | store => simp [IsSupply, Act.kind] at h
  | reset v => cases v <;> simp [IsSupply, Act.kind] at h
  | pin v => cases v <;> simp [IsSupply, Act.kind] at h

theorem isReset {a : Act} (h : IsReset a) : ∃ v, a = .reset v := by
  cases a with
  | reset v => exact ⟨v, rfl⟩
  | still => simp [IsReset, Act.kind] at h
  | store => simp [IsReset, Act.kind] at h
  | supply v => cases v <;> simp [IsReset, Act.kind] at h
  | pin v => cases v <;> simp [IsReset, Act.kind] at h

theorem isPin {a : Act} (h : IsPin a) : ∃ v, a = .pin v := by
  cases a with
  | pin v => exact ⟨v, rfl⟩
  | still => simp [IsPin, Act.kind] at h
  | store => simp [IsPin, Act.kind] at h
  | supply v => cases v <;> simp [IsPin, Act.kind] at h
  | reset v => cases v <;> simp [IsPin, Act.kind] at h

theorem Race.enabled (h : Race p order role s s') {l r : List (ι × Exchange)} {m : ι × Exchange}
    (ho : order = l ++ m :: r) {v : Bool} (hm : Acts p m.2 (.supply v))
    (hn : ∀ m ∈ r, ¬ ∃ a, IsSupply a ∧ Acts p m.2 a) : s'.enabled = v := by
  have he := h.evolves
  rw [ho, List.map_append, List.map_cons] at he
  obtain ⟨c, -, c', hs, he⟩ := evolvesAt_append.1 he
  have h1 : c'.enabled = v := (acts_did hm hs).1
  rw [h.keep (fun s => s.enabled) IsSupply (fun a ha => did_enabled (not_or.1 ha)) (fun x hx => by rw [ho]; simp [hx]) hn he, h1]

theorem Race.reset (h : Race p order role s s') {l r : List (ι × Exchange)} {m : ι × Exchange}
    (ho : order = l ++ m :: r) {v : Bool} (hm : Acts p m.2 (.reset v))
    (hn : ∀ m ∈ r, ¬ ∃ a, IsReset a ∧ Acts p m.2 a) : s'.reset = v := by
  have he := h.evolves
  rw [ho, List.map_append, List.map_cons] at he
  obtain ⟨c, -, c', hs, he⟩ := evolvesAt_append.1 he
  have h1 : c'.reset = v := (acts_did hm hs).2.1
  rw [h.keep (fun s => s.reset) IsReset (fun a ha => did_reset (not_or.1 ha)) (fun x hx => by rw [ho]; simp [hx]) hn he, h1]

theorem Race.lowPin (h : Race p order role s s') {l r : List (ι × Exchange)} {m : ι × Exchange}
    (ho : order = l ++ m :: r) {v : Bool} (hm : Acts p m.2 (.pin v))
    (hn : ∀ m ∈ r, ¬ ∃ a, IsPin a ∧ Acts p m.2 a) : s'.lowPin = v := by
  have he := h.evolves
  rw [ho, List.map_append, List.map_cons] at he
  obtain ⟨c, -, c', hs, he⟩ := evolvesAt_append.1 he
  have h1 : c'.lowPin = v := by
    have := acts_did hm hs
    simp only [Act.Did] at this
    rw [this]
  rw [h.keep (fun s => s.lowPin) IsPin (fun a ha => did_pin (not_or.1 ha)) (fun x hx => by rw [ho]; simp [hx]) hn he, h1]

theorem Race.split (h : Race p order role s s') {i : ι} {x : Exchange} (hx : x ∈ callsOf i order) :
    ∃ l r c c', order = l ++ (i, x) :: r ∧ EvolvesAt p s (l.map Prod.snd) c ∧ StepsAt x p c c' ∧
      EvolvesAt p c' (r.map Prod.snd) s' := by
  obtain ⟨l, r, ho⟩ := List.append_of_mem (callsOf_mem.1 hx)
  have he := h.evolves
  rw [ho, List.map_append, List.map_cons] at he
  obtain ⟨c, h1, c', h2, h3⟩ := evolvesAt_append.1 he
  exact ⟨l, r, c, c', ho, h1, h2, h3⟩

/-- A task that turned the module on found it on, or turned it on. -/
theorem Race.status (h : Race p order role s s') {i : ι} {low : Bool} (hi : role i = Option.some (onState low)) :
    ((∀ m ∈ order, ¬ ∃ a, IsSupply a ∧ Acts p m.2 a) → s'.enabled = true) ∧
    ((∀ m ∈ order, ¬ ∃ a, IsReset a ∧ Acts p m.2 a) → s'.reset = false) := by
  obtain ⟨x, hx, m, v, h1, h2, h3⟩ := (h.on hi).status
  obtain ⟨l, r, c, c', ho, -, hst, he⟩ := h.split hx
  obtain ⟨s1, s5, s2, -⟩ := hst.shows _ _ h1 h2 v rfl
  have hc : c' = c := hst.quiet _ h1 (.inl trivial)
  have hn := needsPower_state s1 s5 s2
  have hmem : ∀ m ∈ r, m ∈ order := fun m hm => by rw [ho]; simp [hm]
  constructor
  · intro h4
    have h5 : ¬ NeedsPower v := fun hv => by
      obtain ⟨⟨y, hy, hy'⟩, -⟩ := h3 hv
      exact h4 _ (callsOf_mem.1 hy) ⟨_, .inl rfl, hy'⟩
    have h6 := h.keep (fun s => s.enabled) IsSupply (fun a ha => did_enabled (not_or.1 ha)) hmem
      (fun m hm => h4 m (hmem m hm)) he
    rw [h6, hc]
    rw [hn] at h5
    grind
  · intro h4
    have h5 : ¬ NeedsPower v := fun hv => by
      obtain ⟨-, ⟨y, hy, hy'⟩⟩ := h3 hv
      exact h4 _ (callsOf_mem.1 hy) ⟨_, .inr rfl, hy'⟩
    have h6 := h.keep (fun s => s.reset) IsReset (fun a ha => did_reset (not_or.1 ha)) hmem
      (fun m hm => h4 m (hmem m hm)) he
    rw [h6, hc]
    rw [hn] at h5
    grind

/-- The task's calls after one of its own. -/
theorem Race.then (_ : Race p order role s s') {l r : List (ι × Exchange)} {m : ι × Exchange} (ho : order = l ++ m :: r)
    {P : Exchange → Prop} {Q : List Exchange → Prop} (ht : Then P Q (callsOf m.1 order)) (hP : P m.2) :
    Q (callsOf m.1 r) := by
  refine ht (callsOf m.1 l) m.2 _ ?_ hP
  rw [ho]
  exact callsOf_split m.1 m.2 l r

/-- If no task turned the module off, it is on. -/
theorem Race.is_on (h : Race p order role s s') (hoff : ∀ i, role i ≠ Option.some .off) :
    s'.enabled = true ∧ s'.reset = false := by
  obtain ⟨i, st, hi⟩ := h.some
  have hon : ∀ j st, role j = Option.some st → ∃ low, st = onState low := fun j st hj => by
    rcases onState_cases st with rfl | h1
    · exact absurd hj (hoff j)
    · exact h1
  obtain ⟨low, rfl⟩ := hon i st hi
  obtain ⟨h1, h2⟩ := h.status hi
  constructor
  · rcases last_split (fun m : ι × Exchange => ∃ a, IsSupply a ∧ Acts p m.2 a) order with h3 | ⟨l, m, r, ho, ⟨a, ha, h3⟩, h4⟩
    · exact h1 h3
    · obtain ⟨v, rfl⟩ := isSupply ha
      rw [h.enabled ho h3 h4]
      have hm : m ∈ order := by rw [ho]; simp
      obtain ⟨st, hst⟩ := h.none hm h3 (by cases v <;> simp [Act.kind])
      obtain ⟨low', rfl⟩ := hon _ _ hst
      have := (ons_kind (h.on hst) (callsOf_mem.2 hm) h3).1
      cases v
      · exact absurd rfl this
      · rfl
  · rcases last_split (fun m : ι × Exchange => ∃ a, IsReset a ∧ Acts p m.2 a) order with h3 | ⟨l, m, r, ho, ⟨a, ha, h3⟩, h4⟩
    · exact h2 h3
    · obtain ⟨v, rfl⟩ := isReset ha
      rw [h.reset ho h3 h4]
      have hm : m ∈ order := by rw [ho]; simp
      obtain ⟨st, hst⟩ := h.none hm h3 (by cases v <;> simp [Act.kind])
      obtain ⟨low', rfl⟩ := hon _ _ hst
      cases v
      · rfl
      · obtain ⟨y, hy, hy'⟩ := h.then ho (h.on hst).released h3
        exact absurd ⟨_, .inr rfl, hy'⟩ (h4 _ (callsOf_mem.1 hy))

/-- If the supply is on in the end, then after each time that a task turned it off, one that turned the module on did so. -/
theorem Race.last_on (h : Race p order role s s') {low : Bool}
    (hrole : ∀ i st, role i = Option.some st → st = .off ∨ st = onState low) (he : s'.enabled = true)
    {l r : List (ι × Exchange)} (ho : order = l ++ r) {m : ι × Exchange} {v : Bool} (hm : m ∈ r)
    (hs : Acts p m.2 (.supply v)) :
    ∃ r₁ m' r₂, r = r₁ ++ m' :: r₂ ∧ role m'.1 = Option.some (onState low) ∧ Acts p m'.2 (.supply true) := by
  rcases last_split (fun m : ι × Exchange => ∃ a, IsSupply a ∧ Acts p m.2 a) r with h3 | ⟨r₁, m', r₂, hr, ⟨a, ha, h3⟩, h4⟩
  · exact absurd ⟨_, by cases v <;> simp [IsSupply, Act.kind], hs⟩ (h3 m hm)
  · obtain ⟨v', rfl⟩ := isSupply ha
    have ho' : order = (l ++ r₁) ++ m' :: r₂ := by rw [ho, hr]; simp
    have h5 := h.enabled ho' h3 h4
    rw [he] at h5
    subst h5
    have hm : m' ∈ order := by rw [ho']; simp
    obtain ⟨st, hst⟩ := h.none hm h3 (by simp [Act.kind])
    rcases hrole _ _ hst with rfl | rfl
    · have := offs_kind (h.off hst) (callsOf_mem.2 hm) h3
      simp [Act.kind] at this
    · exact ⟨r₁, m', r₂, hr, hst, h3⟩

/-- If the others turned the module off, and it is on, it is in the state that the rest set. -/
theorem Race.is_state (h : Race p order role s s') {low : Bool}
    (hrole : ∀ i st, role i = Option.some st → st = .off ∨ st = onState low) (hp : s'.power ≠ .off) :
    (∃ i, role i = Option.some (onState low)) ∧ s'.power = onState low := by
  have hen : s'.enabled = true ∧ s'.reset = false := by
    unfold PortState.power at hp
    split at hp
    · exact absurd rfl hp
    · grind
  obtain ⟨hen, hre⟩ := hen
  have hex : ∃ i, role i = Option.some (onState low) := by
    obtain ⟨i, st, hi⟩ := h.some
    rcases hrole i st hi with rfl | rfl
    · obtain ⟨y, hy, hy'⟩ := (h.off hi).some
      obtain ⟨r₁, m', r₂, -, h1, -⟩ := h.last_on hrole hen (l := []) rfl (callsOf_mem.1 hy) hy'
      exact ⟨_, h1⟩
    · exact ⟨i, hi⟩
  refine ⟨hex, ?_⟩
  obtain ⟨i, hi⟩ := hex
  have hpin : s'.lowPin = low := by
    rcases last_split (fun m : ι × Exchange => ∃ a, IsPin a ∧ Acts p m.2 a) order with h3 | ⟨l, m, r, ho, ⟨a, ha, h3⟩, h4⟩
    · obtain ⟨y, hy, hy'⟩ := (h.on hi).pin
      exact absurd ⟨_, by cases low <;> simp [IsPin, Act.kind], hy'⟩ (h3 _ (callsOf_mem.1 hy))
    · obtain ⟨v, rfl⟩ := isPin ha
      rw [h.lowPin ho h3 h4]
      have hm : m ∈ order := by rw [ho]; simp
      obtain ⟨st, hst⟩ := h.none hm h3 (by cases v <;> simp [Act.kind])
      rcases hrole _ _ hst with rfl | rfl
      · exfalso
        obtain ⟨y, hy, hy'⟩ := h.then ho (h.off hst).ends fun h5 => by
          have := acts_kind h3 h5
          cases v <;> simp [Act.kind] at this
        obtain ⟨r₁, m', r₂, hr, h6, h7⟩ := h.last_on hrole hen (l := l ++ [m]) (r := r) (by rw [ho]; simp) (callsOf_mem.1 hy) hy'
        have ho' : order = (l ++ m :: r₁) ++ m' :: r₂ := by rw [ho, hr]; simp
        obtain ⟨z, hz, hz'⟩ := h.then ho' (h.on h6).pinned h7
        refine h4 (m'.1, z) ?_ ⟨_, by cases low <;> simp [IsPin, Act.kind], hz'⟩
        rw [hr]
        have := callsOf_mem.1 hz
        simp [this]
      · have := (ons_kind (h.on hst) (callsOf_mem.2 hm) h3).2
        cases v <;> cases low <;> simp [Act.kind] at this ⊢
  have hmild : ∀ m ∈ order, (¬ ∃ a, (IsReset a ∨ IsSupply a) ∧ Acts p m.2 a) → ∃ a, Acts p m.2 a ∧ a.Mild low := by
    intro m hm hn
    cases hr : role m.1 with
    | none =>
      have := h.played m.1
      rw [hr] at this
      exact ⟨.still, this _ (callsOf_mem.2 hm), trivial⟩
    | some st =>
      rcases hrole _ _ hr with rfl | rfl
      · rcases (h.off hr).acts m.2 (callsOf_mem.2 hm) with h1 | h1 | h1
        · exact ⟨_, h1, trivial⟩
        · exact absurd ⟨_, .inl (.inl rfl), h1⟩ hn
        · exact absurd ⟨_, .inr (.inr rfl), h1⟩ hn
      · rcases (h.on hr).acts m.2 (callsOf_mem.2 hm) with h1 | h1 | h1 | h1 | h1 | ⟨code, w, v, ov, h2, h1⟩
        · exact ⟨_, h1, trivial⟩
        · exact absurd ⟨_, .inl (.inl rfl), h1⟩ hn
        · exact absurd ⟨_, .inl (.inr rfl), h1⟩ hn
        · exact absurd ⟨_, .inr (.inl rfl), h1⟩ hn
        · exact ⟨_, h1, trivial⟩
        · exact ⟨_, h1, code, ov, h2⟩
  have hgood : SetGood low s' := by
    rcases last_split (fun m : ι × Exchange => ∃ a, (IsReset a ∨ IsSupply a) ∧ Acts p m.2 a) order with
      h3 | ⟨l, m, r, ho, ⟨a, ha, h3⟩, h4⟩
    · refine ends_good (callsOf_sublist i order) (h.on hi).ends h.evolves fun x hx => ?_
      obtain ⟨m, hm, rfl⟩ := List.mem_map.1 hx
      exact hmild m hm (h3 m hm)
    · have hm : m ∈ order := by rw [ho]; simp
      have hk : a.kind ≠ 0 := by rcases ha with (ha | ha) | (ha | ha) <;> rw [ha] <;> decide
      obtain ⟨st, hst⟩ := h.none hm h3 hk
      rcases hrole _ _ hst with rfl | rfl
      · exfalso
        by_cases hs : Acts p m.2 (.supply false)
        · have := h.enabled ho hs fun x hx ⟨a, h5, h6⟩ => h4 x hx ⟨a, .inr h5, h6⟩
          rw [hen] at this
          cases this
        · obtain ⟨y, hy, hy'⟩ := h.then ho (h.off hst).ends hs
          exact h4 _ (callsOf_mem.1 hy) ⟨_, .inr (.inr rfl), hy'⟩
      · have hw : (∃ v, Acts p m.2 (.reset v)) ∨ Acts p m.2 (.supply true) := by
          rcases ha with ha | ha
          · obtain ⟨v, rfl⟩ := isReset ha
            exact .inl ⟨v, h3⟩
          · obtain ⟨v, rfl⟩ := isSupply ha
            have := (ons_kind (h.on hst) (callsOf_mem.2 hm) h3).1
            cases v
            · exact absurd rfl this
            · exact .inr h3
        have he := h.evolves
        rw [ho, List.map_append, List.map_cons] at he
        obtain ⟨c, -, c', hs, he⟩ := evolvesAt_append.1 he
        refine ends_good (callsOf_sublist m.1 r) (h.then ho (h.on hst).written hw) he fun x hx => ?_
        obtain ⟨m', hm', rfl⟩ := List.mem_map.1 hx
        exact hmild m' (by rw [ho]; simp [hm']) (h4 m' hm')
  exact good_power hgood hen hre hpin

/-- In the end the module is in a state that one of the tasks set. -/
theorem Race.winner (h : Race p order role s s') : ∃ i, role i = Option.some s'.power := by
  by_cases hoff : s'.power = .off
  · rw [hoff]
    refine Classical.byContradiction fun hn => ?_
    obtain ⟨h1, h2⟩ := h.is_on fun i hi => hn ⟨i, hi⟩
    unfold PortState.power at hoff
    rw [h1, h2, if_neg (by simp)] at hoff
    split at hoff <;> split at hoff <;> cases hoff
  · refine Classical.byContradiction fun hn => ?_
    obtain ⟨low, hl⟩ := (onState_cases s'.power).resolve_left hoff
    rw [hl] at hn
    have h1 := h.is_state (low := !low) (fun i st hi => ?_) hoff
    · rw [h1.2] at hl
      cases low <;> cases hl
    · rcases onState_cases st with rfl | ⟨low', rfl⟩
      · exact .inl rfl
      · refine .inr ?_
        by_cases heq : low' = low
        · subst heq; exact absurd ⟨i, hi⟩ hn
        · cases low <;> cases low' <;> simp at heq ⊢

end Xcvr
