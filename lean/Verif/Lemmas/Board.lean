import Verif.Spec.Board
import Verif.Props.Power

/-! # Lemmas about boards -/

namespace Xcvr

open Spec Prog Controller

theorem evolves_append {t₁ t₂ : List Exchange} {b b' : BoardState} :
    Evolves b (t₁ ++ t₂) b' ↔ ∃ c, Evolves b t₁ c ∧ Evolves c t₂ b' := by
  induction t₁ generalizing b with
  | nil => exact ⟨fun h => ⟨b, rfl, h⟩, fun ⟨c, h, h'⟩ => by cases h; exact h'⟩
  | cons x t ih =>
    constructor
    · rintro ⟨c, h, h'⟩
      obtain ⟨d, h1, h2⟩ := ih.1 h'
      exact ⟨d, ⟨c, h, h1⟩, h2⟩
    · rintro ⟨d, ⟨c, h, h1⟩, h2⟩
      exact ⟨c, h, ih.2 ⟨d, h1, h2⟩⟩

theorem evolves_one {x : Exchange} {b b' : BoardState} : Evolves b [x] b' ↔ ∀ p, StepsAt x p (b p) (b' p) :=
  ⟨fun ⟨c, h, h'⟩ => by cases h'; exact h, fun h => ⟨b', h, rfl⟩⟩

/-- A board evolves as its ports do. -/
theorem evolves_at {t : List Exchange} {b b' : BoardState} :
    Evolves b t b' ↔ ∀ p, EvolvesAt p (b p) t (b' p) := by
  induction t generalizing b with
  | nil => exact ⟨fun h p => congrFun h p, fun h => funext h⟩
  | cons x t ih =>
    constructor
    · rintro ⟨c, h1, h2⟩ p
      exact ⟨c p, h1 p, ih.1 h2 p⟩
    · intro h
      exact ⟨fun p => (h p).choose, fun p => (h p).choose_spec.1, ih.2 fun p => (h p).choose_spec.2⟩

theorem evolvesAt_append {p : Nat} {t₁ t₂ : List Exchange} {s s' : PortState} :
    EvolvesAt p s (t₁ ++ t₂) s' ↔ ∃ c, EvolvesAt p s t₁ c ∧ EvolvesAt p c t₂ s' := by
  induction t₁ generalizing s with
  | nil => exact ⟨fun h => ⟨s, rfl, h⟩, fun ⟨c, h, h'⟩ => by cases h; exact h'⟩
  | cons x t ih =>
    constructor
    · rintro ⟨c, h, h'⟩
      obtain ⟨d, h1, h2⟩ := ih.1 h'
      exact ⟨d, ⟨c, h, h1⟩, h2⟩
    · rintro ⟨d, ⟨c, h, h1⟩, h2⟩
      exact ⟨c, h, ih.2 ⟨d, h1, h2⟩⟩

theorem evolvesAt_one {p : Nat} {x : Exchange} {s s' : PortState} : EvolvesAt p s [x] s' ↔ StepsAt x p s s' :=
  ⟨fun ⟨c, h, h'⟩ => by cases h'; exact h, fun h => ⟨s', h, rfl⟩⟩

/-- A port that no request is to change stays as it is, and what is seen of it is what is there. -/
theorem evolvesAt_quiet {p : Nat} {t : List Exchange} {s s' : PortState} (h : EvolvesAt p s t s')
    (hq : ∀ x ∈ t, ∃ q, requestOf x = some q ∧ (IsQuery q ∨ ¬ Names q p)) : s' = s ∧
      ∀ x ∈ t, ∀ q v, requestOf x = some q → okIn x p = some v → Shows q v s := by
  induction t generalizing s with
  | nil => exact ⟨h, by simp⟩
  | cons x t ih =>
    obtain ⟨c, h1, h2⟩ := h
    obtain ⟨q, h3, h4⟩ := hq x (List.mem_cons_self ..)
    obtain rfl := h1.quiet q h3 h4
    obtain ⟨h3, h4⟩ := ih h2 fun y hy => hq y (List.mem_cons_of_mem _ hy)
    refine ⟨h3, fun y hy q v h5 h6 => ?_⟩
    rcases List.mem_cons.1 hy with rfl | hy
    · exact h1.shows q v h5 h6
    · exact h4 y hy q v h5 h6

theorem evolvesAt_queries {p : Nat} {t : List Exchange} {s s' : PortState} (h : EvolvesAt p s t s')
    (hq : ∀ x ∈ t, ∃ q, requestOf x = some q ∧ IsQuery q) : s' = s ∧
      ∀ x ∈ t, ∀ q v, requestOf x = some q → okIn x p = some v → Shows q v s :=
  evolvesAt_quiet h fun x hx => (hq x hx).imp fun _ h => ⟨h.1, .inl h.2⟩

theorem faithful_port {p : Nat} {t : List Exchange} {s s' : PortState} (h : EvolvesAt p s t s')
    (hq : ∀ x ∈ t, ∃ q, requestOf x = some q ∧ IsQuery q) : FaithfulAt p s.memory t :=
  fun x hx _ _ v h1 h2 => (evolvesAt_queries h hq).2 x hx _ v h1 h2

theorem evolves_queries {t : List Exchange} {b b' : BoardState} (h : Evolves b t b')
    (hq : ∀ x ∈ t, ∃ q, requestOf x = some q ∧ IsQuery q) : b' = b ∧
      ∀ x ∈ t, ∀ p q v, requestOf x = some q → okIn x p = some v → Shows q v (b p) := by
  induction t generalizing b with
  | nil => exact ⟨h, by simp⟩
  | cons x t ih =>
    obtain ⟨c, h1, h2⟩ := h
    have hc : c = b := funext fun p => by
      obtain ⟨q, h3, h4⟩ := hq x (List.mem_cons_self ..)
      exact (h1 p).quiet q h3 (.inl h4)
    subst hc
    obtain ⟨h3, h4⟩ := ih h2 fun y hy => hq y (List.mem_cons_of_mem _ hy)
    refine ⟨h3, fun y hy p q v h5 h6 => ?_⟩
    rcases List.mem_cons.1 hy with rfl | hy
    · exact (h1 p).shows q v h5 h6
    · exact h4 y hy p q v h5 h6

theorem faithful_board {t : List Exchange} {b b' : BoardState} (h : Evolves b t b')
    (hq : ∀ x ∈ t, ∃ q, requestOf x = some q ∧ IsQuery q) : Faithful (fun p => (b p).memory) t :=
  fun x hx _ _ p v h1 h2 => (evolves_queries h hq).2 x hx p _ v h1 h2

theorem readsOf_queries {M : ModuleId} {rd : MemoryRead} {t : List Exchange} (h : ReadsOf M rd t) :
    ∀ x ∈ t, ∃ q, requestOf x = some q ∧ IsQuery q := by
  intro x hx
  obtain ⟨g, hg⟩ := requestOf_readsOf h hx
  exact ⟨_, hg, trivial⟩

theorem needsPower_state {v : U8} {s : PortState} (h1 : bit v 1 = s.enabled) (h5 : bit v 5 = s.enabled)
    (h2 : bit v 2 = s.reset) : NeedsPower v ↔ s.enabled = false ∨ s.reset = true := by
  unfold NeedsPower
  rw [h1, h5, h2]
  cases s.enabled <;> cases s.reset <;> simp

theorem control_sff {mem : ModuleMemory} (h : SffModule (idOf mem)) : controlIn mem = some (sffPowerControl mem) := by
  unfold controlIn codeOf
  unfold idOf at h
  generalize mem (.sff8636 .lower) 0 = c at *
  have : interfaceOfCode c = some .sff8636 := by
    rcases h with h | h <;> rw [ofByte_injective h] <;> rfl
  rw [this]

theorem control_cmis {mem : ModuleMemory} (h : CmisModule (idOf mem)) : controlIn mem = some (cmisPowerControl mem) := by
  unfold controlIn codeOf
  unfold idOf at h
  generalize mem (.sff8636 .lower) 0 = c at *
  have : interfaceOfCode c = some .cmis := by
    rcases h with h | h <;> rw [ofByte_injective h] <;> rfl
  rw [this]

/-- The mode reported has the state of the port. -/
theorem mode_state {s : PortState} {v : U8} {mode : PowerMode} (h1 : bit v 1 = s.enabled) (h5 : bit v 5 = s.enabled)
    (h2 : bit v 2 = s.reset) (h3 : bit v 3 = s.lowPin) (h : modeIn s.memory v mode) : mode.state = s.power := by
  have hn := needsPower_state h1 h5 h2
  unfold PortState.power
  by_cases hp : NeedsPower v
  · rw [if_pos (hn.1 hp), h.1 hp]
  · rw [if_neg fun hx => hp (hn.2 hx)]
    rcases h.2 hp with ⟨h6, rfl⟩ | ⟨h6, rfl⟩
    · rw [control_sff h6]
      unfold modeFor
      cases sffPowerControl s.memory <;> simp [h3]
    · rw [control_cmis h6]
      unfold modeFor
      cases cmisPowerControl s.memory <;> simp [h3]

/-- The last of the writes to the control bytes. -/
theorem softKinds_last {low : Bool} {s s' : SoftState} {ks : List (Identifier × ModuleId)}
    (hk : ∀ k ∈ ks, ∃ code : U8, k.1 = Bf.ofByte code) {t : List Exchange}
    (h : Runs (softKinds low s ks) t (.ok s')) (hc : Conforming t) :
    (∀ p, Mem s.failures.modules p → Mem s'.failures.modules p) ∧
    (∀ x ∈ t, ∃ code g ov r, SoftWritten code ov low g x r ∧ ∀ p, Mem r.failures.modules p → Mem s'.failures.modules p) ∧
    (ks ≠ [] → ∃ t₀ x code g' g r, t = t₀ ++ [x] ∧ (Bf.ofByte code, g') ∈ ks ∧ SoftWritten code false low g x r ∧
      (∀ p, Mem g p → Mem g' p) ∧ s'.success = r.modules) := by
  induction ks generalizing s t with
  | nil =>
    simp only [softKinds, pure_eq, runs_ret, Exec.ok.injEq] at h
    obtain ⟨rfl, rfl⟩ := h
    exact ⟨fun _ h => h, by simp, fun h => absurd rfl h⟩
  | cons k ks ih =>
    obtain ⟨kid, g⟩ := k
    obtain ⟨code, hcode⟩ := hk _ (List.mem_cons_self ..)
    dsimp only at hcode
    subst hcode
    have hk' : ∀ k ∈ ks, ∃ code : U8, k.1 = Bf.ofByte code := fun k h => hk k (List.mem_cons_of_mem _ h)
    unfold softKinds at h
    rcases runs_bind.1 h with ⟨t₁, t₂, a, rfl, h1, h2⟩ | ⟨e, -, h1⟩ | ⟨-, h1⟩
    · have hc1 : Conforming t₁ := fun x hx => hc x (List.mem_append_left _ hx)
      have hc2 : Conforming t₂ := fun x hx => hc x (List.mem_append_right _ hx)
      rcases softKind_spec h1 hc1 with ⟨x₁, x₂, r₁, r₂, modes, rfl, h3, h4, h5⟩ | ⟨-, -, h5⟩
      · simp only [Exec.ok.injEq] at h5
        subst h5
        obtain ⟨h6, h6', h7⟩ := ih hk' h2 hc2
        refine ⟨fun p hp => h6 p (mem_merge.2 (.inl (mem_merge.2 (.inl hp)))), fun x hx => ?_, fun _ => ?_⟩
        · rcases List.mem_append.1 hx with hx | hx
          · simp only [List.mem_cons, List.not_mem_nil, or_false] at hx
            rcases hx with rfl | rfl
            · exact ⟨code, _, true, r₁, h3, fun p hp => h6 p (mem_merge.2 (.inl (mem_merge.2 (.inr hp))))⟩
            · exact ⟨code, _, false, r₂, h4, fun p hp => h6 p (mem_merge.2 (.inr hp))⟩
          · exact h6' x hx
        by_cases hks : ks = []
        · subst hks
          simp only [softKinds, pure_eq, runs_ret, Exec.ok.injEq] at h2
          obtain ⟨rfl, rfl⟩ := h2
          exact ⟨[x₁], x₂, code, g, _, r₂, rfl, List.mem_cons_self .., h4, fun p hp => withoutOverride_sub hp, rfl⟩
        · obtain ⟨t₀, x, c, g', g'', r, rfl, h8, h9⟩ := h7 hks
          exact ⟨_, x, c, g', g'', r, by rw [List.append_assoc], List.mem_cons_of_mem _ h8, h9⟩
      · cases h5
    · cases h1
    · cases h1

theorem setSoft_last {M : ModuleId} {modes : List PowerMode} {F : FailedModules TransceiverError} {low : Bool}
    {t : List Exchange} {res : Res Unit} (ha : Aligned M modes)
    (h : Runs (setSoftwarePowerState ⟨M, modes, F⟩ low) t (.ok res)) (hc : Conforming t) :
    ∃ ti tw, t = ti ++ tw ∧ ReadsOf M identifierByte ti ∧
      (∀ x ∈ tw, ∃ code g ov r, SoftWritten code ov low g x r ∧
        ∀ p, Mem r.failures.modules p → Mem res.failures.modules p) ∧
      (∀ p, Mem F.modules p → Mem res.failures.modules p) ∧
      (∀ p, Mem res.modules p → Mem M p ∧ ∃ t₀ x code g r, tw = t₀ ++ [x] ∧ SoftWritten code false low g x r ∧
        Mem g p ∧ (okIn x p).isSome ∧ Identified ti p code) := by
  unfold setSoftwarePowerState at h
  obtain ⟨ti, tw, a, rfl, h1, hc1, h2, hc2⟩ := runs_bind_ok h hc fun t o h hc => by
    obtain ⟨s, bytes, f, rfl, -⟩ := identifier_bytes h hc
    exact ⟨_, rfl⟩
  obtain ⟨I, bytes, fi, h3, h4, h5, h6⟩ := identifier_bytes h1 hc1
  simp only [Exec.ok.injEq] at h3
  subst h3
  have hia : Aligned I (bytes.map (Bf.ofByte : U8 → Identifier)) := by
    show _ = _
    rw [List.length_map]; exact h5.wf.1
  obtain ⟨kinds, h7, hk⟩ := split_kinds hia
  dsimp only at h2
  rw [h7, ofExec_ok, ret_bind] at h2
  have hcov : Covers M I fi := Covers.of_reports h5
  have hIM : ∀ p, Mem I p → Mem M p := fun p hp => ((hcov.split p).1).2 (.inl hp)
  have hkid : ∀ code g, (Bf.ofByte code, g) ∈ kinds → ∀ p, Mem g p → Mem I p ∧ Identified ti p code := by
    intro code g hg p hp
    have := (hk.mem _ g hg p).1 hp
    refine ⟨(mem_iff_datum hia p).2 ⟨_, this⟩, ?_⟩
    rw [datum_map] at this
    obtain ⟨b, hb, hb'⟩ := Option.map_eq_some_iff.1 this
    rw [← ofByte_injective hb']
    unfold Identified
    rw [h6, hb]
    rfl
  have hcode : ∀ k ∈ kinds, ∃ code : U8, k.1 = Bf.ofByte code := by
    intro k hk'
    obtain ⟨p, hp⟩ := hk.nonempty k hk'
    have := (hk.mem k.1 k.2 hk' p).1 hp
    rw [datum_map] at this
    obtain ⟨b, -, hb⟩ := Option.map_eq_some_iff.1 this
    exact ⟨b, hb.symm⟩
  refine ⟨ti, tw, rfl, h4, ?_⟩
  rcases runs_bind.1 h2 with ⟨t₁, t₂, s', rfl, h8, h9⟩ | ⟨e, -, h8⟩ | ⟨-, h8⟩
  · simp only [pure_eq, runs_ret, Exec.ok.injEq] at h9
    obtain ⟨rfl, rfl⟩ := h9
    rw [List.append_nil] at hc2 ⊢
    obtain ⟨h11, h10, h12⟩ := softKinds_last hcode h8 hc2
    refine ⟨h10, fun p hp => h11 p (mem_merge.2 (.inl hp)), fun p hp => ?_⟩
    · replace hp : Mem s'.success p := hp
      by_cases hks : kinds = []
      · exfalso
        subst hks
        simp only [softKinds, pure_eq, runs_ret, Exec.ok.injEq] at h8
        obtain ⟨-, rfl⟩ := h8
        have hpI : Mem I p := ((C04_keep M I modes ha).1 p).1 hp |>.2
        obtain ⟨id, hd⟩ := (mem_iff_datum hia p).1 hpI
        obtain ⟨g, hg⟩ := hk.cover p id hd
        cases hg
      · obtain ⟨t₀, x, code, g', g, r, h13, h14, h15, h16, h17⟩ := h12 hks
        rw [h17] at hp
        have hg : Mem g p := ((h15.2.split p).1).2 (.inl hp)
        have hi := hkid code g' h14 p (h16 p hg)
        refine ⟨hIM p hi.1, t₀, x, code, g, r, h13, h15, hg, ?_, hi.2⟩
        have := (reports_mem_ok h15.2 (p := p)).2 hp
        rwa [okAmong_singleton] at this
  · cases h8
  · cases h8

/-! ## One exchange -/

theorem steps_ok {x : Exchange} {q : HostRequest} {d : Option Bytes} (hx : x.1 = Call.host q d) {p : Nat}
    {s s' : PortState} (h : StepsAt x p s s') (hok : (okIn x p).isSome) : Effect q (d.getD []) s s' := by
  obtain ⟨b, hb⟩ := Option.isSome_iff_exists.1 hok
  have := h.effect q b (requestOf_host hx) hb
  rwa [hx] at this

theorem steps_not {x : Exchange} {q : HostRequest} {d : Option Bytes} (hx : x.1 = Call.host q d) {m : ModuleId}
    (hm : requestModules q = some m) {p : Nat} {s s' : PortState} (h : StepsAt x p s s') (hp : ¬ Mem m p) : s' = s := by
  refine h.quiet q (requestOf_host hx) (.inr ?_)
  rintro ⟨m', h1, h2⟩
  rw [hm, Option.some.injEq] at h1
  exact hp (h1 ▸ h2)

theorem reports_ok {P : Type} {f : Bytes → P} {m : ModuleId} {x : Exchange} {r : Res P} (h : Reports f m [x] r) {p : Nat} :
    Mem r.modules p ↔ (okIn x p).isSome := by
  rw [← reports_mem_ok h, okAmong_singleton]

theorem reports_success {P : Type} {f : Bytes → P} {m : ModuleId} {x : Exchange} {r : Res P} (h : Reports f m [x] r)
    {p : Nat} (hp : Mem m p) (hf : ¬ Mem r.failures.modules p) : Mem r.modules p := by
  rcases ((h.split p).1).1 hp with h1 | h1
  · exact h1
  · exact absurd h1 hf

/-- A step that did not fail for `p`. -/
theorem stepRan_at {q : ModuleId → HostRequest} (hq : ∀ m, requestModules (q m) = some m) {target a a' : ModuleId}
    {f f' : FailedModules TransceiverError} {t : List Exchange} (h : StepRan q target a f t a' f') {p : Nat}
    {b c : PortState} (he : EvolvesAt p b t c) (hp : ¬ Mem f'.modules p) :
    ¬ Mem f.modules p ∧ (Mem target p → Effect (q target) [] b c ∧ Mem a' p) ∧
      (¬ Mem target p → c = b) := by
  rcases h with ⟨-, x, r, rfl, h1, h2, rfl, rfl⟩ | ⟨h1, rfl, rfl, rfl⟩
  · have hs := evolvesAt_one.1 he
    refine ⟨fun h => hp (mem_merge.2 (.inl h)), fun ht => ?_, fun ht => steps_not h1 (hq _) hs ht⟩
    have hr := reports_success h2 ht fun h => hp (mem_merge.2 (.inr h))
    exact ⟨steps_ok h1 hs ((reports_ok h2).1 hr), hr⟩
  · cases he
    exact ⟨hp, fun h => absurd h (h1 p), fun _ => rfl⟩

/-- The pins and the identifier of the module stay as they are. -/
def Kept (s s' : PortState) : Prop := SamePins s s' ∧ s'.lower 0 = s.lower 0

theorem store_kept {code : U8} {w : MemoryWrite} {v : U8} {ov low : Bool} (h : Selects code w v ov low) (s : PortState) :
    Kept s (s.store w [v]) := by
  rcases h with ⟨-, rfl, -⟩ | ⟨-, rfl, -⟩ <;>
    exact ⟨⟨rfl, rfl, rfl, rfl⟩, rfl⟩

theorem soft_kept {low : Bool} {t : List Exchange} {R : ModuleId} (hw : ∀ x ∈ t, ∃ code g ov r,
    SoftWritten code ov low g x r ∧ ∀ p, Mem r.failures.modules p → Mem R p) {p : Nat} {b c : PortState}
    (he : EvolvesAt p b t c) (hp : ¬ Mem R p) : Kept b c := by
  induction t generalizing b with
  | nil => cases he; exact ⟨⟨rfl, rfl, rfl, rfl⟩, rfl⟩
  | cons x t ih =>
    obtain ⟨d, h1, h2⟩ := he
    have h3 := ih (fun y hy => hw y (List.mem_cons_of_mem _ hy)) h2
    obtain ⟨code, g, ov, r, ⟨⟨w, v, h4, h5⟩, h6⟩, h7⟩ := hw x (List.mem_cons_self ..)
    by_cases hg : Mem g p
    · have hr := reports_success h6 hg fun h => hp (h7 p h)
      have he := steps_ok h5 h1 ((reports_ok h6).1 hr)
      replace he : d = b.store w [v] := he
      have hk := store_kept h4 b
      rw [he] at h3
      obtain ⟨⟨k1, k2, k3, k4⟩, k5⟩ := h3
      obtain ⟨⟨l1, l2, l3, l4⟩, l5⟩ := hk
      exact ⟨⟨k1.trans l1, k2.trans l2, k3.trans l3, k4.trans l4⟩, k5.trans l5⟩
    · rw [← steps_not h5 rfl h1 hg]
      exact h3

/-- After the control byte is written, leaving the state to the pin, the pin decides. -/
theorem soft_power {code : U8} {w : MemoryWrite} {v : U8} {low : Bool} (h : Selects code w v false low) {s : PortState}
    (hcode : s.lower 0 = code) (he : s.enabled = true) (hr : s.reset = false) (hl : s.lowPin = low) :
    (s.store w [v]).power = if low then .low else .high := by
  have hk := store_kept h s
  obtain ⟨⟨k1, k2, k3, -⟩, k5⟩ := hk
  unfold PortState.power
  rw [k1, k2, k3, he, hr, hl, if_neg (by simp)]
  have hc : codeOf (s.store w [v]).memory = code := by
    rw [← hcode, ← k5]; rfl
  unfold controlIn
  rw [hc]
  rcases h with ⟨hi, rfl, h0, -⟩ | ⟨hi, rfl, h6, -⟩
  · rw [hi]
    have : sffPowerControl (s.store ⟨.sff8636 .lower, 93, 1⟩ [v]).memory = .useLpModePin := by
      unfold sffPowerControl
      have : sffLow (s.store ⟨.sff8636 .lower, 93, 1⟩ [v]).memory 93 = v := rfl
      rw [this, h0]
      rfl
    rw [this]
  · rw [hi]
    have : cmisPowerControl (s.store ⟨.sff8636 .lower, 26, 1⟩ [v]).memory = .useLpModePin := by
      unfold cmisPowerControl
      have : cmisLow (s.store ⟨.sff8636 .lower, 26, 1⟩ [v]).memory 26 = v := rfl
      rw [this, h6]
      rfl
    rw [this]

theorem identified_board {M : ModuleId} {ti : List Exchange} (hr : ReadsOf M identifierByte ti) {p : Nat} {b c : PortState}
    (he : EvolvesAt p b ti c) {code : U8} (h : Identified ti p code) : b.lower 0 = code := by
  obtain ⟨-, h1⟩ := evolvesAt_queries he (readsOf_queries hr)
  unfold Identified okAmong at h
  obtain ⟨x, hx, h⟩ := List.exists_of_findSome?_eq_some h
  obtain ⟨g, hg⟩ := requestOf_readsOf hr hx
  have : [code] = answer b.memory identifierByte := h1 x hx _ _ hg h
  exact ((List.cons.inj this).1).symm

end Xcvr
