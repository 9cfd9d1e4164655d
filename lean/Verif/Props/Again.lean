import Verif.Props.Board

/-!
# C154, C155: doing again what was done, and writing back what was read

Doing an operation a second time, after nothing but queries and operations on other modules, leaves a module for which it
succeeds both times as the first time left it.
-/

namespace Xcvr

open Spec Prog Controller

/-- Exchanges that are queries or do not name port `p`. -/
def Spec.Aside (p : Nat) (t : List Exchange) : Prop :=
  ∀ x ∈ t, ∃ q, requestOf x = some q ∧ (IsQuery q ∨ ¬ Names q p)

theorem evolvesAt_aside {p : Nat} {t : List Exchange} {s s' : PortState} (h : Aside p t) (he : EvolvesAt p s t s') :
    s' = s := by
  induction t generalizing s with
  | nil => exact he
  | cons x t ih =>
    obtain ⟨c, h1, h2⟩ := he
    obtain ⟨q, hq, h3⟩ := h x List.mem_cons_self
    rw [ih (fun y hy => h y (List.mem_cons_of_mem _ hy)) h2]
    exact h1.quiet q hq h3

theorem conforming_parts {t u t' : List Exchange} (hc : Conforming (t ++ u ++ t')) : Conforming t ∧ Conforming t' :=
  ⟨fun x hx => hc x (List.mem_append_left _ (List.mem_append_left _ hx)), fun x hx => hc x (List.mem_append_right _ hx)⟩

/-- The operations that may change what a module has in its memory: those that end a reset or begin one, and those that
switch power. -/
def Spec.Restarts : HostRequest → Prop
  | .assertReset _ | .deassertReset _ | .enablePower _ | .disablePower _ => True
  | _ => False

/-- C154, the single commands: the second time leaves the pins and the LED as they are, and everything else too unless the
command switches power or reset. -/
theorem C154_command (m m' : ModuleId) (led : LedState) (k : Nat) (c c' : Prog (Res Unit) × HostRequest)
    (hk : (commands m led)[k]? = some c) (hk' : (commands m' led)[k]? = some c') (t u t' : List Exchange)
    (res res' : Res Unit) (h : Runs c.1 t (.ok res)) (h' : Runs c'.1 t' (.ok res')) (hc : Conforming (t ++ u ++ t'))
    (p : Nat) (hu : Aside p u) (hp : Mem res.modules p) (hp' : Mem res'.modules p) (b d b' : BoardState)
    (hd : Evolves b (t ++ u) d) (he : Evolves d t' b') :
    SamePins (d p) (b' p) ∧ (¬ Restarts c.2 → b' p = d p) := by
  obtain ⟨e, h1, h2⟩ := evolves_append.1 hd
  have hm := List.mem_of_getElem? hk
  have hm' := List.mem_of_getElem? hk'
  have f1 := (C105_command m led c hm t res h (conforming_parts hc).1 b e h1 p).1 hp
  have f2 := (C105_command m' led c' hm' t' res' h' (conforming_parts hc).2 d b' he p).1 hp'
  rw [← evolvesAt_aside hu (evolves_at.1 h2 p)] at f1
  have hlt : k < 9 := by
    have := (List.getElem?_eq_some_iff.1 hk).1
    simpa [commands] using this
  have hcase : k = 0 ∨ k = 1 ∨ k = 2 ∨ k = 3 ∨ k = 4 ∨ k = 5 ∨ k = 6 ∨ k = 7 ∨ k = 8 := by omega
  rcases hcase with rfl | rfl | rfl | rfl | rfl | rfl | rfl | rfl | rfl <;>
    (simp only [commands, List.getElem?_cons_zero, List.getElem?_cons_succ, Option.some.injEq] at hk hk'
     subst hk hk'
     simp only [Effect, SamePins] at f1 f2
     simp only [SamePins, Restarts]
     grind)

theorem store_store (s : PortState) (w : MemoryWrite) (data : Bytes) :
    (s.store w data).store w data = s.store w data := by
  have h : ∀ old : Nat → U8, overwrite (overwrite old w.offset.toNat data) w.offset.toNat data =
      overwrite old w.offset.toNat data := fun old => by
    funext a
    unfold overwrite
    split
    · simp only [List.getD_eq_getElem?_getD]
      cases data[a - w.offset.toNat]? <;> rfl
    · rfl
  unfold PortState.store
  by_cases hw : isLower w.page
  · simp [hw, h]
  · simp only [hw, Bool.false_eq_true, if_false]
    congr 1
    funext page
    split
    · rename_i hp
      rw [h]
    · rfl

/-- C154, writes: the second time changes nothing. -/
theorem C154_write (m m' : ModuleId) (w : MemoryWrite) (data : Bytes) (t u t' : List Exchange) (res res' : Res Unit)
    (h : Runs (Controller.write m w data) t (.ok res)) (h' : Runs (Controller.write m' w data) t' (.ok res'))
    (hc : Conforming (t ++ u ++ t')) (p : Nat) (hu : Aside p u) (hp : Mem res.modules p) (hp' : Mem res'.modules p)
    (b d b' : BoardState) (hd : Evolves b (t ++ u) d) (he : Evolves d t' b') : b' p = d p := by
  obtain ⟨e, h1, h2⟩ := evolves_append.1 hd
  have f1 := (C105_write m w data t res h (conforming_parts hc).1 b e h1).2 p hp
  have f2 := (C105_write m' w data t' res' h' (conforming_parts hc).2 d b' he).2 p hp'
  rw [f2, evolvesAt_aside hu (evolves_at.1 h2 p), f1, store_store]

/-- C154, reset: the second time leaves the pins and the LED as they are. -/
theorem C154_reset (m m' : ModuleId) (t u t' : List Exchange) (res res' : Res Unit)
    (h : Runs (Controller.reset m) t (.ok res)) (h' : Runs (Controller.reset m') t' (.ok res'))
    (hc : Conforming (t ++ u ++ t')) (p : Nat) (hu : Aside p u) (hp : Mem res.modules p) (hp' : Mem res'.modules p)
    (b d b' : BoardState) (hd : Evolves b (t ++ u) d) (he : Evolves d t' b') : SamePins (d p) (b' p) := by
  obtain ⟨e, h1, h2⟩ := evolves_append.1 hd
  have f1 := C105_reset m t res h (conforming_parts hc).1 b e h1 p hp
  have f2 := C105_reset m' t' res' h' (conforming_parts hc).2 d b' he p hp'
  rw [← evolvesAt_aside hu (evolves_at.1 h2 p)] at f1
  simp only [SamePins] at f1 f2 ⊢
  grind

/-- C154, power: the second time leaves the power state as it is, and the pins and the LED. -/
theorem C154_power (m m' : ModuleId) (st : PowerState) (t u t' : List Exchange) (res res' : Res Unit)
    (h : Runs (setPower m st) t (.ok res)) (h' : Runs (setPower m' st) t' (.ok res')) (hc : Conforming (t ++ u ++ t'))
    (p : Nat) (hu : Aside p u) (hp : Mem res.modules p ∧ ¬ Mem res.failures.modules p)
    (hp' : Mem res'.modules p ∧ ¬ Mem res'.failures.modules p) (b d b' : BoardState) (hd : Evolves b (t ++ u) d)
    (he : Evolves d t' b') : (b' p).power = (d p).power ∧ SamePins (d p) (b' p) := by
  obtain ⟨e, h1, h2⟩ := evolves_append.1 hd
  have f1 := C104_set m st t res h (conforming_parts hc).1 b e h1 p hp.1 hp.2
  have f2 := C104_set m' st t' res' h' (conforming_parts hc).2 d b' he p hp'.1 hp'.2
  obtain ⟨g1, g2, g3, -⟩ := C104_pins m st t res h (conforming_parts hc).1 p _ _ (evolves_at.1 h1 p) hp.1 hp.2
  obtain ⟨k1, k2, k3, k4⟩ := C104_pins m' st t' res' h' (conforming_parts hc).2 p _ _ (evolves_at.1 he p) hp'.1 hp'.2
  have hd : d p = e p := evolvesAt_aside hu (evolves_at.1 h2 p)
  rw [hd] at k4 ⊢
  exact ⟨f2.trans f1.symm, k1.trans g1.symm, k2.trans g2.symm, k3.trans g3.symm, k4⟩

/-! ## C155: writing back what was read -/

/-- Two states of a port that differ at most in the bytes that a read is about. -/
def Spec.AlikeBut (rd : MemoryRead) (s s' : PortState) : Prop :=
  SamePins s s' ∧
  if isLower rd.page then
    s'.upper = s.upper ∧ ∀ a, a < rd.offset.toNat ∨ rd.offset.toNat + rd.len.toNat ≤ a → s'.lower a = s.lower a
  else
    s'.lower = s.lower ∧ ∀ page a, page ≠ rd.page ∨ a < rd.offset.toNat ∨ rd.offset.toNat + rd.len.toNat ≤ a →
      s'.upper page a = s.upper page a

theorem overwrite_answer {s : PortState} {rd : MemoryRead} {old : Nat → U8}
    (h : ∀ a, a < rd.offset.toNat ∨ rd.offset.toNat + rd.len.toNat ≤ a → old a = s.memory rd.page a) :
    overwrite old rd.offset.toNat (answer s.memory rd) = s.memory rd.page := by
  funext a
  unfold overwrite answer
  split
  · rename_i ha
    rw [List.getD_eq_getElem?_getD, List.getElem?_map]
    by_cases hb : a - rd.offset.toNat < rd.len.toNat
    · rw [List.getElem?_range hb]
      show s.memory rd.page (rd.offset.toNat + (a - rd.offset.toNat)) = _
      rw [Nat.add_sub_cancel' ha]
    · rw [List.getElem?_eq_none (by rw [List.length_range]; omega)]
      exact h a (.inr (by omega))
  · exact h a (.inl (by omega))

theorem store_answer {s s' : PortState} {rd : MemoryRead} {w : MemoryWrite} (hp : rd.page = w.page)
    (ho : rd.offset = w.offset) (h : AlikeBut rd s s') : s'.store w (answer s.memory rd) = s := by
  obtain ⟨⟨h1, h2, h3, h4⟩, h5⟩ := h
  unfold PortState.store
  rw [← hp, ← ho]
  by_cases hl : isLower rd.page
  · rw [if_pos hl] at h5 ⊢
    have hm : s.memory rd.page = s.lower := by funext a; simp [PortState.memory, hl]
    rw [overwrite_answer (fun a ha => by rw [hm]; exact h5.2 a ha), hm]
    cases s; cases s'
    simp_all
  · rw [if_neg hl] at h5 ⊢
    have hm : s.memory rd.page = s.upper rd.page := by funext a; simp [PortState.memory, hl]
    have hu : (fun page => if page = rd.page then overwrite (s'.upper page) rd.offset.toNat (answer s.memory rd)
        else s'.upper page) = s.upper := by
      funext page
      split
      · rename_i he
        rw [he, overwrite_answer (fun a ha => by rw [hm]; exact h5.2 _ a (.inr ha)), hm]
      · rename_i he
        funext a
        exact h5.2 page a (.inl he)
    rw [hu]
    cases s; cases s'
    simp_all

/-- C155: if data read from a module is written back to where it was read, and only these bytes have changed meanwhile, then
the port is as it was when it was read. -/
theorem C155_restore (m m' : ModuleId) (rd : MemoryRead) (hne : rd.len ≠ 0) (w : MemoryWrite) (hpage : rd.page = w.page)
    (hoff : rd.offset = w.offset) (t t' : List Exchange) (res : Res Bytes) (res' : Res Unit) (p : Nat) (data : Bytes)
    (h : Runs (Controller.read m rd) t (.ok res)) (hdata : okAt res p = some data)
    (h' : Runs (Controller.write m' w data) t' (.ok res')) (hc : Conforming (t ++ t')) (hp : Mem res.modules p)
    (hp' : Mem res'.modules p) (b c d b' : BoardState) (hb : Evolves b t c) (hd : AlikeBut rd (c p) (d p))
    (he : Evolves d t' b') : b' p = b p := by
  obtain ⟨rfl, h1⟩ := C105_read m rd hne t res h (fun x hx => hc x (List.mem_append_left _ hx)) b c hb
  have h2 := h1 p hp
  rw [hdata, Option.some.injEq] at h2
  rw [(C105_write m' w data t' res' h' (fun x hx => hc x (List.mem_append_right _ hx)) d b' he).2 p hp', h2]
  exact store_answer hpage hoff hd

/-- C155: writing back what was read changes nothing, after nothing but queries and operations on other modules. -/
theorem C155_same (m m' : ModuleId) (rd : MemoryRead) (hne : rd.len ≠ 0) (w : MemoryWrite) (hpage : rd.page = w.page)
    (hoff : rd.offset = w.offset) (t u t' : List Exchange) (res : Res Bytes) (res' : Res Unit) (p : Nat) (data : Bytes)
    (h : Runs (Controller.read m rd) t (.ok res)) (hdata : okAt res p = some data)
    (h' : Runs (Controller.write m' w data) t' (.ok res')) (hc : Conforming (t ++ u ++ t')) (hu : Aside p u)
    (hp : Mem res.modules p) (hp' : Mem res'.modules p) (b d b' : BoardState) (hd : Evolves b (t ++ u) d)
    (he : Evolves d t' b') : b' p = d p := by
  obtain ⟨c, h1, h2⟩ := evolves_append.1 hd
  have h3 := evolvesAt_aside hu (evolves_at.1 h2 p)
  have hb : c = b := (C105_read m rd hne t res h (conforming_parts hc).1 b c h1).1
  rw [h3, hb]
  refine C155_restore m m' rd hne w hpage hoff t t' res res' p data h hdata h' (fun x hx => ?_) hp hp' b c d b' h1 ?_ he
  · rcases List.mem_append.1 hx with hx | hx
    · exact (conforming_parts hc).1 x hx
    · exact (conforming_parts hc).2 x hx
  · rw [h3]
    refine ⟨⟨rfl, rfl, rfl, rfl⟩, ?_⟩
    split <;> exact ⟨rfl, fun _ => by intros; rfl⟩

/-- Setting LEDs, writing, resetting and setting the power succeed a second time on a board. -/
example :
    ((setLeds ⟨0b110⟩ .blink).exec (boardBench offBoard).sp
      ((setLeds ⟨0b110⟩ .blink).exec (boardBench offBoard).sp []).1).2 = .ok ⟨⟨0b110⟩, [(), ()], ⟨⟨0⟩, []⟩⟩ ∧
    ((Controller.write ⟨0b110000⟩ ⟨.cmis .lower, 31, 2⟩ [7, 9]).exec (boardBench offBoard).sp
      ((Controller.write ⟨0b110000⟩ ⟨.cmis .lower, 31, 2⟩ [7, 9]).exec (boardBench offBoard).sp []).1).2 =
      .ok ⟨⟨0b110000⟩, [(), ()], ⟨⟨0⟩, []⟩⟩ ∧
    ((Controller.reset ⟨0b1⟩).exec (boardBench offBoard).sp
      ((Controller.reset ⟨0b1⟩).exec (boardBench offBoard).sp []).1).2 = .ok ⟨⟨0b1⟩, [()], ⟨⟨0⟩, []⟩⟩ ∧
    ((setPower ⟨0b1⟩ .low).exec (boardBench offBoard).sp
      ((setPower ⟨0b1⟩ .low).exec (boardBench offBoard).sp []).1).2 = .ok ⟨⟨0b1⟩, [()], ⟨⟨0⟩, []⟩⟩ := by
  decide +kernel

/-- Two bytes of a CMIS module are read, changed, and written back. -/
example :
    let b := boardBench offBoard
    let t₁ := ((Controller.read ⟨0b110000⟩ ⟨.cmis .lower, 31, 2⟩).exec b.sp []).1
    let t₂ := ((Controller.write ⟨0b110000⟩ ⟨.cmis .lower, 31, 2⟩ [7, 9]).exec b.sp t₁).1
    let t₃ := ((Controller.write ⟨0b110000⟩ ⟨.cmis .lower, 31, 2⟩ [0, 0]).exec b.sp t₂).1
    ((Controller.read ⟨0b110000⟩ ⟨.cmis .lower, 31, 2⟩).exec b.sp []).2 = .ok ⟨⟨0b110000⟩, [[0, 0], [0, 0]], ⟨⟨0⟩, []⟩⟩ ∧
    (after offBoard t₂ 4).lower 32 = 9 ∧ (after offBoard t₃ 4).lower 32 = 0 := by
  decide +kernel

end Xcvr
