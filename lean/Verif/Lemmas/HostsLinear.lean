import Verif.Lemmas.Hosts
import Verif.Props.Linear
import Verif.Spec.HostsLinear

/-! # Lemmas: one order for the calls of several hosts -/

namespace Xcvr

open Spec Sys

/-- What belongs to each part of a list, put together. -/
theorem merge {β γ : Type} : ∀ (log : List (Nat × β)) (Ls : Nat → List (β × γ)),
    (∀ k, (log.filter (·.1 == k)).map Prod.snd = (Ls k).map Prod.fst) →
    ∃ M : List (Nat × β × γ), M.map (fun z => (z.1, z.2.1)) = log ∧ ∀ k, (M.filter (·.1 == k)).map Prod.snd = Ls k
  | [], Ls, h => ⟨[], rfl, fun k => (List.map_eq_nil_iff.1 (h k).symm).symm⟩
  | (k, y) :: log, Ls, h => by
    have hk := h k
    rw [List.filter_cons_of_pos (by simp), List.map_cons] at hk
    cases hL : Ls k with
    | nil => rw [hL] at hk; cases hk
    | cons z L =>
      rw [hL, List.map_cons, List.cons.injEq] at hk
      obtain ⟨M, h1, h2⟩ := merge log (fun j => if j = k then L else Ls j) fun j => by
        by_cases hj : j = k
        · subst hj
          rw [if_pos rfl]
          exact hk.2
        · have := h j
          rw [List.filter_cons_of_neg (by simpa using Ne.symm hj)] at this
          rw [if_neg hj]
          exact this
      refine ⟨(k, z) :: M, ?_, fun j => ?_⟩
      · rw [List.map_cons, h1, ← hk.1]
      · have := h2 j
        by_cases hj : j = k
        · subst hj
          rw [if_pos rfl] at this
          rw [List.filter_cons_of_pos (by simp), List.map_cons, this, hL]
        · rw [if_neg hj] at this
          rw [List.filter_cons_of_neg (by simpa using Ne.symm hj), this]

/-- The part of the first `n`. -/
theorem filter_take {β : Type} (M : List β) (p : β → Bool) (n : Nat) :
    (M.take n).filter p = (M.filter p).take ((M.take n).filter p).length := by
  conv => rhs; rw [← List.take_append_drop n M, List.filter_append, List.take_append_drop]
  rw [List.take_left]

/-- The receptions of all hosts, as `collapse` needs them. -/
def keyed (M : List (Nat × (Bytes × List Bytes) × Option (Nat × Exchange))) : Keyed (Nat × Bytes) (Nat × Nat) :=
  M.map fun z => ((z.1, z.2.1.1), z.2.1, z.2.2.map fun m => ((z.1, m.1), m.2))

theorem hostCalls_keyed (M : List (Nat × (Bytes × List Bytes) × Option (Nat × Exchange))) (k : Nat) :
    hostCalls k (keyed M).order = Marks.order ((M.filter (·.1 == k)).map Prod.snd) := by
  induction M with
  | nil => rfl
  | cons z M ih =>
    obtain ⟨j, y, o⟩ := z
    by_cases hj : j = k
    · subst hj
      rw [List.filter_cons_of_pos (by simp)]
      cases o with
      | none => exact ih
      | some m =>
        have : hostCalls j (keyed ((j, y, some m) :: M)).order = m :: hostCalls j (keyed M).order := by
          simp [hostCalls, keyed, Keyed.order]
        rw [this, ih]
        rfl
    · rw [List.filter_cons_of_neg (by simpa using hj)]
      cases o with
      | none => exact ih
      | some m =>
        have : hostCalls k (keyed ((j, y, some m) :: M)).order = hostCalls k (keyed M).order := by
          simp [hostCalls, keyed, Keyed.order, hj]
        rw [this, ih]

theorem callsOf_host (k i : Nat) (order : List ((Nat × Nat) × Exchange)) :
    callsOf (k, i) order = callsOf i (hostCalls k order) := by
  induction order with
  | nil => rfl
  | cons x order ih =>
    obtain ⟨⟨k', i'⟩, x⟩ := x
    unfold callsOf hostCalls at ih ⊢
    by_cases hk : k' = k
    · by_cases hi : i' = i
      · simp [hk, hi, ih]
      · simp [hk, hi]
        simpa [Prod.ext_iff] using ih
    · simp [hk]
      simpa [Prod.ext_iff] using ih

/-- The marks of all hosts, put together. -/
theorem hosts_marks {hosts : List (Sigma Host)} {log : List (Nat × Bytes × List Bytes)} (ht : Together hosts log)
    (hreq : ∀ h ∈ hosts, ∀ p ∈ h.2.progs, Requests p) :
    ∃ M : List (Nat × (Bytes × List Bytes) × Option (Nat × Exchange)), M.map (fun z => (z.1, z.2.1)) = log ∧
      ∀ k h, hosts[k]? = some h →
        HostMarks h.2.lim h.2.progs h.2.evs h.2.state ((M.filter (·.1 == k)).map Prod.snd) := by
  have hex : ∀ k, ∃ L : Marks, (∀ h, hosts[k]? = some h → HostMarks h.2.lim h.2.progs h.2.evs h.2.state L) ∧
      (log.filter (·.1 == k)).map Prod.snd = L.map Prod.fst := by
    intro k
    cases hk : hosts[k]? with
    | none =>
      refine ⟨[], by simp, ?_⟩
      rw [List.map_nil, List.map_eq_nil_iff, List.filter_eq_nil_iff]
      intro x hx hxk
      have := ht.known x hx
      rw [beq_iff_eq] at hxk
      rw [List.getElem?_eq_none_iff] at hk
      omega
    | some h =>
      obtain ⟨L, hL⟩ := marks_run h.2.ran h.2.proper h.2.few (hreq h (List.mem_of_getElem? hk))
      refine ⟨L, fun h' e => by cases e; exact hL, ?_⟩
      rw [hL.log, ht.own k h hk]
  obtain ⟨M, h1, h2⟩ := merge log (fun k => (hex k).choose) fun k => (hex k).choose_spec.2
  refine ⟨M, h1, fun k h hk => ?_⟩
  rw [h2 k]
  exact (hex k).choose_spec.1 h hk

end Xcvr
