import Verif.Lemmas.SysBoard
import Verif.Spec.Hosts
import Verif.Props.System

/-! # Lemmas: several hosts, one SP -/

namespace Xcvr

open Spec Sys

variable {α : Type}

/-- What is not to change a port can be left out. -/
theorem logEvolvesAt_filter {p : Nat} (f : Nat × Bytes × List Bytes → Bool) {log : List (Nat × Bytes × List Bytes)}
    {b b' : PortState} (h : LogEvolvesAt p b (log.map Prod.snd) b')
    (hq : ∀ x ∈ log, f x = false → QuietPacket p x.2.1) : LogEvolvesAt p b ((log.filter f).map Prod.snd) b' := by
  induction log generalizing b with
  | nil => exact h
  | cons x log ih =>
    obtain ⟨c, h1, h2⟩ := h
    have h3 := ih h2 fun y hy => hq y (List.mem_cons_of_mem _ hy)
    cases hx : f x with
    | true =>
      rw [List.filter_cons_of_pos hx]
      exact ⟨c, h1, h3⟩
    | false =>
      rw [List.filter_cons_of_neg (by simp [hx])]
      obtain ⟨q, d, h4, h5⟩ := hq x (List.mem_cons_self ..) hx
      rw [← h1.quiet q d h4 h5]
      exact h3

theorem logEvolvesAt_quiet {p : Nat} {log : List (Bytes × List Bytes)} {b b' : PortState} (h : LogEvolvesAt p b log b')
    (hq : ∀ x ∈ log, QuietPacket p x.1) : b' = b ∧ ∀ x ∈ log, LogStepAt p x b b := by
  induction log generalizing b with
  | nil => exact ⟨h, by simp⟩
  | cons x log ih =>
    obtain ⟨c, h1, h2⟩ := h
    obtain ⟨q, d, h3, h4⟩ := hq x (List.mem_cons_self ..)
    obtain rfl : c = b := h1.quiet q d h3 h4
    obtain ⟨h5, h6⟩ := ih h2 fun y hy => hq y (List.mem_cons_of_mem _ hy)
    refine ⟨h5, fun y hy => ?_⟩
    rcases List.mem_cons.1 hy with rfl | hy
    · exact h1
    · exact h6 y hy

theorem evolvesAt_still {p : Nat} {t : List Exchange} {b : PortState} (h : ∀ x ∈ t, StepsAt x p b b) :
    EvolvesAt p b t b := by
  induction t with
  | nil => rfl
  | cons x t ih => exact ⟨b, h x (List.mem_cons_self ..), ih fun y hy => h y (List.mem_cons_of_mem _ hy)⟩

/-- A datagram from a host is not to change a port that the task that sent it spares. -/
theorem host_quiet (h : Host α) {port : Nat} (hs : ∀ p ∈ h.progs, Spares p port) {x : Bytes × List Bytes}
    (hx : x ∈ h.state.spLog) : QuietPacket port x.1 := by
  obtain ⟨⟨_, inv⟩, hl⟩ := sysInv_run h.evs (P := Proper) (fun _ _ h => h.1) (sysInv_init h.lim h.progs)
    (by simp [Sys.init]) h.proper (by have := h.few; omega) h.ran
  obtain ⟨j, tk, c, id, h3, h4, h5, -⟩ := C65_only h.lim h.progs h.evs h.state h.ran (fun r out hr => (h.proper r out hr).1)
    h.few x hx
  obtain ⟨q, h6, h7⟩ := spares_of inv hl h3 h4 fun p hp => hs p (List.mem_of_getElem? hp)
  exact ⟨q, _, h5 ▸ received_call.2 ⟨h6, rfl⟩, h7⟩

/-- An entry of the log is one of its host. -/
theorem together_host {hosts : List (Sigma Host)} {log : List (Nat × Bytes × List Bytes)} (ht : Together hosts log)
    {x : Nat × Bytes × List Bytes} (hx : x ∈ log) : ∃ h, hosts[x.1]? = some h ∧ x.2 ∈ h.2.state.spLog := by
  refine ⟨_, List.getElem?_eq_getElem (ht.known x hx), ?_⟩
  rw [← ht.own _ _ (List.getElem?_eq_getElem (ht.known x hx))]
  exact List.mem_map_of_mem (List.mem_filter.2 ⟨hx, by simp⟩)

end Xcvr
