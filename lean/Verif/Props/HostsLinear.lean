import Verif.Lemmas.HostsLinear
import Verif.Props.AtomicReads

/-! # C146: operations of several hosts on the same module -/

namespace Xcvr

open Spec Sys

/-- **C146**: for all that the SP received from several hosts there is one order of the calls of all tasks, on all hosts, that
were answered, such that each task's calls are in the order it made them; the order can be cut at every moment, with what was
answered by then on any host before the cut and what was called for later, on any host, after it; and every port ends where
these calls, one at a time and each once, take it, if the tasks that are to change it came to their end with answers to all
calls, no copy of a datagram that is to change it was received after a later datagram of any host, and copies were
acknowledged alike. -/
theorem C146_linear (hosts : List (Sigma Host)) (log : List (Nat × Bytes × List Bytes)) (ht : Together hosts log)
    (hreq : ∀ h ∈ hosts, ∀ p ∈ h.2.progs, Requests p) :
    ∃ order : List ((Nat × Nat) × Exchange),
      (∀ x ∈ order, x.1.1 < hosts.length) ∧
      (∀ k h, hosts[k]? = some h → Ordered h.2.state.tasks (hostCalls k order)) ∧
      (∀ n, ∃ l₁ l₂, order = l₁ ++ l₂ ∧ ∀ (k : Nat) (h : Sigma Host) (s : Sys h.1), hosts[k]? = some h →
        WasIn log n k h.2 s → SoFar s (hostCalls k l₁)) ∧
      ∀ port, (∀ (k : Nat) (h : Sigma Host), hosts[k]? = some h → ∀ (i : Nat) (p : Prog h.1) (tk : Task h.1),
          h.2.progs[i]? = some p → h.2.state.tasks[i]? = some tk → Spares p port ∨ Finished tk) →
        AllInOrderAt port log → AllAlikeAt port log →
        ∀ b b', LogEvolvesAt port b (log.map Prod.snd) b' → EvolvesAt port b (order.map Prod.snd) b' := by
  obtain ⟨M, hM, hm⟩ := hosts_marks ht hreq
  have hof : ∀ z ∈ M, ∃ h, hosts[z.1]? = some h ∧ z.2 ∈ (M.filter (·.1 == z.1)).map Prod.snd := by
    intro z hz
    have hlt := ht.known (z.1, z.2.1) (hM ▸ List.mem_map.2 ⟨z, hz, rfl⟩)
    exact ⟨_, List.getElem?_eq_getElem hlt, List.mem_map_of_mem (List.mem_filter.2 ⟨hz, by simp⟩)⟩
  have hback : ∀ {k : Nat} {w : (Bytes × List Bytes) × Option (Nat × Exchange)},
      w ∈ (M.filter (·.1 == k)).map Prod.snd → (k, w) ∈ M := by
    intro k w hw
    obtain ⟨⟨k', w'⟩, h1, rfl⟩ := List.mem_map.1 hw
    obtain ⟨h2, h3⟩ := List.mem_filter.1 h1
    rw [beq_iff_eq] at h3
    exact h3 ▸ h2
  have hK : ∀ z ∈ keyed M, ∃ w ∈ M, z = ((w.1, w.2.1.1), w.2.1, w.2.2.map fun m => ((w.1, m.1), m.2)) := fun z hz => by
    obtain ⟨w, hw, rfl⟩ := List.mem_map.1 hz
    exact ⟨w, hw, rfl⟩
  refine ⟨(keyed M).order, fun x hx => ?_, fun k h hk => ?_, fun n => ?_, fun port hport hord hal b b' hev => ?_⟩
  · obtain ⟨z, hz, hzx⟩ := List.mem_filterMap.1 hx
    obtain ⟨w, hw, rfl⟩ := hK z hz
    obtain ⟨m, -, rfl⟩ := Option.map_eq_some_iff.1 hzx
    exact ht.known (w.1, w.2.1) (hM ▸ List.mem_map.2 ⟨w, hw, rfl⟩)
  · rw [hostCalls_keyed]
    exact (hm k h hk).ordered
  · refine ⟨(keyed (M.take n)).order, (keyed (M.drop n)).order, ?_, fun k h s hk hs => ?_⟩
    · unfold Keyed.order keyed
      rw [← List.filterMap_append, ← List.map_append, List.take_append_drop]
    · obtain ⟨e₁, e₂, h1, h2, h3⟩ := hs
      have hcut := ((hm k h hk).cut e₁ e₂ s h1 h2).cut
      rw [hostCalls_keyed, filter_take, List.map_take]
      have hlen : ((M.take n).filter (·.1 == k)).length = s.spLog.length := by
        rw [h3, ← hM, ← List.map_take, List.filter_map, List.length_map]
        rfl
      rw [hlen]
      exact hcut
  · have hlog : (keyed M).map (·.2.1) = log.map Prod.snd := by
      rw [← hM]
      simp [keyed]
    have hkeys : (keyed M).map (·.1) = log.map fun y => (y.1, y.2.1) := by
      rw [← hM]
      simp [keyed]
    refine collapse (keyed M).length (keyed M) (Nat.le_refl _) (by rw [hlog]; exact hev) (fun z hz w hw he => ?_)
      (fun z hz hc x hx => ?_) (fun z hz w hw he hc hs => ?_) (fun z hz => ?_) (fun k y i x hz => ?_) ?_ fun z hz hc => ?_
    · obtain ⟨z', -, rfl⟩ := hK z hz
      obtain ⟨w', -, rfl⟩ := hK w hw
      exact congrArg Prod.snd he
    · obtain ⟨z', -, rfl⟩ := hK z hz
      obtain ⟨q, d, h1, h2, h3⟩ := hc
      rw [hkeys]
      exact hord _ _ x q d h1 h2 h3 hx
    · obtain ⟨z', hz', rfl⟩ := hK z hz
      obtain ⟨w', hw', rfl⟩ := hK w hw
      obtain ⟨q, d, h1, h2, h3⟩ := hc
      rw [Prod.mk.injEq] at he
      exact hal (z'.1, z'.2.1) (hM ▸ List.mem_map.2 ⟨z', hz', rfl⟩) (w'.1, w'.2.1) (hM ▸ List.mem_map.2 ⟨w', hw', rfl⟩)
        he.1 he.2 q d h1 h2 h3 hs
    · obtain ⟨z', hz', rfl⟩ := hK z hz
      obtain ⟨h, h1, h2⟩ := hof z' hz'
      exact (hm _ h h1).kind port _ h2
    · obtain ⟨w, hw, he⟩ := hK _ hz
      obtain ⟨h, h1, h2⟩ := hof w hw
      obtain ⟨k', y', o⟩ := w
      simp only [Prod.mk.injEq] at he
      obtain ⟨-, rfl, he⟩ := he
      obtain ⟨m, rfl, hmx⟩ := Option.map_eq_some_iff.1 he.symm
      cases hmx
      exact (hm _ h h1).served y m.1 m.2 h2
    · unfold keyed
      rw [List.pairwise_map]
      rw [List.pairwise_iff_getElem]
      intro i j hi hj hij h1 h2 he
      simp only [Option.isSome_map] at h1 h2
      rw [Prod.mk.injEq] at he
      have hkk : M[i].1 = M[j].1 := he.1
      obtain ⟨h, h3, -⟩ := hof _ (List.getElem_mem hi)
      have honce := List.pairwise_map.1 (hm _ h h3).once
      have hsub : [M[i], M[j]].Sublist (M.filter (·.1 == M[i].1)) := by
        have h4 : [M[i], M[j]].Sublist M := by
          have h5 : M = M.take i ++ M[i] :: M.drop (i + 1) := by
            rw [List.getElem_cons_drop, List.take_append_drop]
          have h6 : M[j] ∈ M.drop (i + 1) := List.mem_drop_iff_getElem.2 ⟨j - (i + 1), by omega, by congr 1; omega⟩
          conv => rhs; rw [h5]
          exact ((List.singleton_sublist.2 h6).cons_cons _).trans (List.sublist_append_right ..)
        have h7 := h4.filter (fun z => z.1 == M[i].1)
        rwa [List.filter_eq_self.2 (by
          intro z hz
          simp only [List.mem_cons, List.not_mem_nil, or_false] at hz
          rcases hz with rfl | rfl
          · simp
          · simp [hkk])] at h7
      have := honce.sublist hsub
      simp only [List.pairwise_cons, List.mem_singleton, forall_eq] at this
      exact this.1 h1 h2 he.2
    · obtain ⟨z', hz', rfl⟩ := hK z hz
      obtain ⟨h, h1, h2⟩ := hof z' hz'
      obtain ⟨y, m, h3, h4⟩ := (hm _ h h1).cover port (hport _ h h1) z'.2 h2 hc
      refine ⟨y, ((z'.1, m.1), m.2), List.mem_map.2 ⟨_, hback h3, ?_⟩⟩
      rw [Option.map_some]
      exact congrArg (fun a => ((z'.1, a), y, some ((z'.1, m.1), m.2))) h4

/-! ### Operations, one after the other -/

/-- What the tasks, on all hosts, did to the port: each that is not to spare it has one thing due. -/
theorem atomic_hosts {hosts : List (Sigma Host)} {log : List (Nat × Bytes × List Bytes)} (ht : Together hosts log)
    {port : Nat} (hreq : ∀ h ∈ hosts, ∀ p ∈ h.2.progs, Requests p) {D : Nat × Nat → Due → Prop}
    (hD : ∀ k i d, D (k, i) d → ∃ (h : Sigma Host) (p : Prog h.1) (tk : Task h.1) (a : h.1), hosts[k]? = some h ∧
      h.2.progs[i]? = some p ∧ Prog.AllCalls Bench.IsHost p ∧ h.2.state.tasks[i]? = some tk ∧
      tk.prog = .ret a ∧ d ≠ .quiet ∧ d ≠ .closing ∧
      ∀ t, Prog.Runs p t (.ok a) → Conforming t → Remains port t d)
    (hk : (∀ i d, D i d → d ≠ .cycle) ∨ ∀ i E, D i (.once E) → Compat E)
    (htasks : ∀ k h, hosts[k]? = some h → ∀ i p, h.2.progs[i]? = some p → Spares p port ∨ ∃ d, D (k, i) d)
    (hord : AllInOrderAt port log) (hal : AllAlikeAt port log) {b b' : PortState}
    (he : LogEvolvesAt port b (log.map Prod.snd) b') :
    ∃ seq : List (Nat × Nat), seq.Nodup ∧ (∀ i, i ∈ seq ↔ ∃ d, D i d) ∧
      OneByOne (fun i a a' => ∃ d, D i d ∧ d.Rel a a') b seq b' ∧
      ∀ (n k k' i i' : Nat) (h h' : Sigma Host) (s : Sys h.1) (s' : Sys h'.1), hosts[k]? = some h → hosts[k']? = some h' →
        WasIn log n k h.2 s → WasIn log n k' h'.2 s' → (k, i) ∈ seq → (k', i') ∈ seq → Over s i → Unbegun s' i' →
        ∃ q₁ q₂, seq = q₁ ++ q₂ ∧ (k, i) ∈ q₁ ∧ (k', i') ∈ q₂ := by
  obtain ⟨order, hknown, ho, hcut, hev⟩ := C146_linear hosts log ht hreq
  have hev' : EvolvesAt port b (order.map Prod.snd) b' := by
    refine hev port (fun k h hk i p tk hp hi => ?_) hord hal b b' he
    rcases htasks k h hk i p hp with h1 | ⟨d, hd⟩
    · exact .inl h1
    · obtain ⟨h', p', tk', a, h0, h1, h2, h3, h4, -⟩ := hD k i d hd
      rw [hk] at h0
      cases h0
      rw [hi] at h3
      cases h3
      exact .inr (finished_calls h.2.ran h.2.proper h.2.few h1 h2 hi h4).1
  have hruns : ∀ k i d, D (k, i) d → ∃ (h : Sigma Host) (p : Prog h.1) (a : h.1), hosts[k]? = some h ∧
      h.2.progs[i]? = some p ∧ Prog.AllCalls Bench.IsHost p ∧ d ≠ .quiet ∧ d ≠ .closing ∧
      Remains port (callsOf (k, i) order) d ∧ Prog.Runs p (callsOf (k, i) order) (.ok a) := by
    intro k i d hd
    obtain ⟨h, p, tk, a, h0, h1, h2, h3, h4, h5, h6, h7⟩ := hD k i d hd
    obtain ⟨h8, h9⟩ := C65_method h.2.lim h.2.progs h.2.evs h.2.state h.2.ran h.2.proper h.2.few i _ h1 h2 tk h3 a h4
    rw [← (finished_calls h.2.ran h.2.proper h.2.few h1 h2 h3 h4).2, ← (ho k h h0).calls i tk h3, ← callsOf_host] at h8 h9
    exact ⟨h, p, a, h0, h1, h2, h5, h6, h7 _ h8 h9, h8⟩
  have hrest : ∀ i, (¬ ∃ d, D i d) → Remains port (callsOf i order) .quiet := by
    rintro ⟨k, i⟩ hno x hx
    have hkl := hknown _ (callsOf_mem.1 hx)
    obtain ⟨h, hh⟩ : ∃ h, hosts[k]? = some h := ⟨_, List.getElem?_eq_getElem hkl⟩
    obtain ⟨⟨_, inv⟩, hl⟩ := sysInv_run h.2.evs (P := Proper) (fun _ _ h => h.1) (sysInv_init h.2.lim h.2.progs)
      (by simp [Sys.init]) h.2.proper (by have := h.2.few; omega) h.2.ran
    rw [callsOf_host] at hx
    have hlt := (ho k h hh).only _ (callsOf_mem.1 hx)
    have hi := List.getElem?_eq_getElem hlt
    have hp : h.2.progs[i]? = some (h.2.progs[i]'(by rw [← inv.length]; exact hlt)) := List.getElem?_eq_getElem _
    rw [(ho k h hh).calls i _ hi] at hx
    have hs := (htasks k h hh i _ hp).resolve_right hno
    obtain ⟨q, h1, h2⟩ := spares_of inv hl hi (c := x.1)
      (.inl (List.mem_map_of_mem (f := Prod.fst) (List.mem_filter.1 hx).1)) (port := port) fun p' hp' => by
        rw [hp] at hp'
        cases hp'
        exact hs
    refine ⟨q, ?_, h2⟩
    unfold requestOf
    rw [h1]
  obtain ⟨seq, k1, hseq, k3, k4⟩ := atomic_core (fun i d hd => by
    obtain ⟨h, p, a, h0, h1, h2, h3, h4, h5, h6⟩ := hruns i.1 i.2 _ hd
    exact ⟨h3, h4, h5⟩) hrest hk hev'
  refine ⟨seq, k1, hseq, k3, ?_⟩
  intro n k k' i i' h h' s s' hh hh' hw hw' hi hi' hover hun
  obtain ⟨l₁, l₂, hlo, hat⟩ := hcut n
  obtain ⟨q₁, q₂, hq, h1, h2⟩ := k4 l₁ l₂ hlo
  have hi2 : callsOf (k, i) l₂ = [] := by
    obtain ⟨d, hd⟩ := (hseq (k, i)).1 hi
    obtain ⟨h0, p, a, h3, h4, h5, -, -, -, h6⟩ := hruns k i d hd
    rw [hh] at h3
    cases h3
    obtain ⟨tk, a₁, h7, h8⟩ := hover
    have hat' := hat k h s hh hw
    obtain ⟨e₁, e₂, hevs, hrun, -⟩ := hw
    have hsp₁ : SpDoes Proper e₁ := fun r out hr => h.2.proper r out (by rw [hevs]; exact List.mem_append_left _ hr)
    have hn₁ : numbered e₁ ≤ 2 ^ 64 := by
      refine Nat.le_trans ?_ h.2.few
      unfold numbered
      rw [hevs, List.countP_append]
      exact Nat.le_add_right _ _
    obtain ⟨h9, -⟩ := C65_method h.2.lim h.2.progs e₁ s hrun hsp₁ hn₁ i p h4 h5 tk h7 a₁ h8
    rw [← (finished_calls hrun hsp₁ hn₁ h4 h5 h7 h8).2] at h9
    rcases hat' i tk h7 with h10 | ⟨c, k, chan, req, r, h10, -⟩
    · rw [← h10, ← callsOf_host] at h9
      rw [hlo, callsOf_append] at h6
      exact runs_longer h9 h6
    · rw [h8] at h10
      cases h10
  have hj1 : callsOf (k', i') l₁ = [] := by
    obtain ⟨tk, h3, h4, h5⟩ := hun
    rw [callsOf_host]
    rcases hat k' h' s' hh' hw' i' tk h3 with h6 | ⟨c, k, chan, req, r, -, h6, -⟩
    · rw [h6, h4]; rfl
    · exact (h5 chan req h6).elim
  refine ⟨q₁, q₂, hq, ?_, ?_⟩
  · rw [hq] at hi
    exact (List.mem_append.1 hi).resolve_right fun hx => h2 _ hx hi2
  · rw [hq] at hi'
    exact (List.mem_append.1 hi').resolve_left fun hx => h1 _ hx hj1

/-- **C146** for commands, writes and resets: the port ends where the operations of all hosts, one after the other and each
as a whole, take it. An operation that was over on its host when another was not begun on its own comes before it. -/
theorem C146_atomic (hosts : List (Sigma Host)) (log : List (Nat × Bytes × List Bytes)) (ht : Together hosts log)
    (port : Nat) (hreq : ∀ h ∈ hosts, ∀ p ∈ h.2.progs, Requests p) (did : Nat × Nat → Option Change)
    (hdid : ∀ k i c, did (k, i) = some c → ∃ h : Host (Res Unit), hosts[k]? = some ⟨_, h⟩ ∧
      DidChange h.progs h.state port i c)
    (htasks : ∀ k h, hosts[k]? = some h → ∀ i p, h.2.progs[i]? = some p → Spares p port ∨ (did (k, i)).isSome)
    (hord : AllInOrderAt port log) (hal : AllAlikeAt port log) (b b' : PortState)
    (he : LogEvolvesAt port b (log.map Prod.snd) b') :
    ∃ seq : List (Nat × Nat), seq.Nodup ∧ (∀ i, i ∈ seq ↔ (did i).isSome) ∧
      OneByOne (fun i a a' => ∃ c, did i = some c ∧ c.Does a a') b seq b' ∧
      ∀ (n k k' i i' : Nat) (h h' : Sigma Host) (s : Sys h.1) (s' : Sys h'.1), hosts[k]? = some h → hosts[k']? = some h' →
        WasIn log n k h.2 s → WasIn log n k' h'.2 s' → (k, i) ∈ seq → (k', i') ∈ seq → Over s i → Unbegun s' i' →
        ∃ q₁ q₂, seq = q₁ ++ q₂ ∧ (k, i) ∈ q₁ ∧ (k', i') ∈ q₂ := by
  obtain ⟨seq, k1, k2, k3, k4⟩ := atomic_hosts ht hreq (D := fun i d => ∃ c, did i = some c ∧ d = dueOf c)
    (fun k i d ⟨c, hi, hd⟩ => by
      obtain ⟨h, h0, p, tk, res, h1, h2, h3, h4, h5⟩ := hdid k i c hi
      exact ⟨⟨_, h⟩, p, tk, res, h0, h1, operation_host h2, h3, h4, by rw [hd]; cases c <;> simp [dueOf],
        by rw [hd]; cases c <;> simp [dueOf], fun t hr hc => by rw [hd]; exact operation_remains h2 hr hc h5⟩)
    (.inr fun i E ⟨c, _, hE⟩ => by
      cases c <;> cases hE <;> exact does_agrees _)
    (fun k h hk i p hp => (htasks k h hk i p hp).imp_right fun hs => by
      obtain ⟨c, hc⟩ := Option.isSome_iff_exists.1 hs
      exact ⟨_, c, hc, rfl⟩) hord hal he
  refine ⟨seq, k1, fun i => (k2 i).trans ⟨fun ⟨d, c, hc, _⟩ => by rw [hc]; rfl, fun hs => ?_⟩,
    oneByOne_mono k3 fun i _ a a' ⟨d, ⟨c, hc, hd⟩, hr⟩ => ⟨c, hc, ?_⟩, k4⟩
  · obtain ⟨c, hc⟩ := Option.isSome_iff_exists.1 hs
    exact ⟨_, c, hc, rfl⟩
  · rw [hd] at hr
    exact (dueOf_rel c a a').1 hr

/-- **C146** for commands, writes and queries: what they reported, on all hosts, and where the port is in the end, is what
it would be had they been done one after the other. -/
theorem C146_linearizable (hosts : List (Sigma Host)) (log : List (Nat × Bytes × List Bytes)) (ht : Together hosts log)
    (port : Nat) (hreq : ∀ h ∈ hosts, ∀ p ∈ h.2.progs, Requests p)
    (act : Nat × Nat → Option (PortState → PortState → Prop))
    (hact : ∀ k i E, act (k, i) = some E → ∃ h : Host Report, hosts[k]? = some ⟨_, h⟩ ∧ ActedAs h.progs h.state port i E)
    (htasks : ∀ k h, hosts[k]? = some h → ∀ i p, h.2.progs[i]? = some p → Spares p port ∨ (act (k, i)).isSome)
    (hord : AllInOrderAt port log) (hal : AllAlikeAt port log) (b b' : PortState)
    (he : LogEvolvesAt port b (log.map Prod.snd) b') :
    ∃ seq : List (Nat × Nat), seq.Nodup ∧ (∀ i, i ∈ seq ↔ (act i).isSome) ∧
      OneByOne (fun i a a' => ∃ E, act i = some E ∧ E a a') b seq b' ∧
      ∀ (n k k' i i' : Nat) (h h' : Sigma Host) (s : Sys h.1) (s' : Sys h'.1), hosts[k]? = some h → hosts[k']? = some h' →
        WasIn log n k h.2 s → WasIn log n k' h'.2 s' → (k, i) ∈ seq → (k', i') ∈ seq → Over s i → Unbegun s' i' →
        ∃ q₁ q₂, seq = q₁ ++ q₂ ∧ (k, i) ∈ q₁ ∧ (k', i') ∈ q₂ := by
  obtain ⟨seq, k1, k2, k3, k4⟩ := atomic_hosts ht hreq (D := fun i d => ∃ E, act i = some E ∧ d = .once E)
    (fun k i d ⟨E, hi, hd⟩ => by
      obtain ⟨h, h0, p, tk, r, h1, h2, h3, h4⟩ := hact k i E hi
      exact ⟨⟨_, h⟩, p, tk, r, h0, h1, atom_host h4, h2, h3, by rw [hd]; simp, by rw [hd]; simp,
        fun t hr hc => by rw [hd]; exact atom_remains h4 hr hc⟩)
    (.inl fun i d ⟨E, _, hd⟩ => by rw [hd]; simp)
    (fun k h hk i p hp => (htasks k h hk i p hp).imp_right fun hs => by
      obtain ⟨E, hE⟩ := Option.isSome_iff_exists.1 hs
      exact ⟨_, E, hE, rfl⟩) hord hal he
  refine ⟨seq, k1, fun i => (k2 i).trans ⟨fun ⟨d, E, hE, _⟩ => by rw [hE]; rfl, fun hs => ?_⟩,
    oneByOne_mono k3 fun i _ a a' ⟨d, ⟨E, hE, hd⟩, hr⟩ => ⟨E, hE, ?_⟩, k4⟩
  · obtain ⟨E, hE⟩ := Option.isSome_iff_exists.1 hs
    exact ⟨_, E, hE, rfl⟩
  · rw [hd] at hr
    exact hr

/-- **C146** for the power: of several hosts that set it at the same time, one wins. -/
theorem C146_race (hosts : List (Sigma Host)) (log : List (Nat × Bytes × List Bytes)) (ht : Together hosts log)
    (port : Nat) (hreq : ∀ h ∈ hosts, ∀ p ∈ h.2.progs, Requests p) (to : Nat × Nat → Option PowerState)
    (hto : ∀ k i st, to (k, i) = some st → ∃ h : Host (Res Unit), hosts[k]? = some ⟨_, h⟩ ∧ SetTo h.progs h.state port i st)
    (htasks : ∀ k h, hosts[k]? = some h → ∀ i p, h.2.progs[i]? = some p → Spares p port ∨ (to (k, i)).isSome)
    (hone : ∃ i st, to i = some st)
    (hord : AllInOrderAt port log) (hal : AllAlikeAt port log) (b b' : PortState)
    (he : LogEvolvesAt port b (log.map Prod.snd) b') : ∃ i, to i = some b'.power := by
  obtain ⟨order, hknown, ho, -, hev⟩ := C146_linear hosts log ht hreq
  have hev' : EvolvesAt port b (order.map Prod.snd) b' := by
    refine hev port (fun k h hk i p tk hp hi => ?_) hord hal b b' he
    rcases htasks k h hk i p hp with h1 | hs
    · exact .inl h1
    · obtain ⟨st, hst⟩ := Option.isSome_iff_exists.1 hs
      obtain ⟨h', h0, m, tk', res, h1, h2, h3, -⟩ := hto k i st hst
      rw [hk] at h0
      cases h0
      rw [hi] at h2
      cases h2
      exact .inr (finished_calls h'.ran h'.proper h'.few h1 (allCalls_setPower m st) hi h3).1
  have hrace : Race port order to b b' := by
    refine ⟨hev', ?_, hone⟩
    rintro ⟨k, i⟩
    cases hi : to (k, i) with
    | some st =>
      obtain ⟨h, h0, m, tk, res, h1, h2, h3, h4, h5⟩ := hto k i st hi
      obtain ⟨h6, h7⟩ := C65_method h.lim h.progs h.evs h.state h.ran h.proper h.few i _ h1 (allCalls_setPower m st) tk h2
        res h3
      rw [← (finished_calls h.ran h.proper h.few h1 (allCalls_setPower m st) h2 h3).2, ← (ho k _ h0).calls i tk h2,
        ← callsOf_host] at h6 h7
      cases st with
      | off => exact offs_of h6 h7 h4
      | low => exact ons_of (low := true) h6 h7 h4 h5
      | high => exact ons_of (low := false) h6 h7 h4 h5
    | none =>
      intro x hx
      have hkl := hknown _ (callsOf_mem.1 hx)
      obtain ⟨h, hh⟩ : ∃ h, hosts[k]? = some h := ⟨_, List.getElem?_eq_getElem hkl⟩
      obtain ⟨⟨_, inv⟩, hl⟩ := sysInv_run h.2.evs (P := Proper) (fun _ _ h => h.1) (sysInv_init h.2.lim h.2.progs)
        (by simp [Sys.init]) h.2.proper (by have := h.2.few; omega) h.2.ran
      rw [callsOf_host] at hx
      have hlt := (ho k h hh).only _ (callsOf_mem.1 hx)
      have hit := List.getElem?_eq_getElem hlt
      have hp : h.2.progs[i]? = some (h.2.progs[i]'(by rw [← inv.length]; exact hlt)) := List.getElem?_eq_getElem _
      rw [(ho k h hh).calls i _ hit] at hx
      have hs := (htasks k h hh i _ hp).resolve_right (by rw [hi]; simp)
      obtain ⟨q, h1, h2⟩ := spares_of inv hl hit (c := x.1)
        (.inl (List.mem_map_of_mem (f := Prod.fst) (List.mem_filter.1 hx).1)) (port := port) fun p' hp' => by
          rw [hp] at hp'
          cases hp'
          exact hs
      refine ⟨q, ?_, h2⟩
      unfold requestOf
      rw [h1]
  exact hrace.winner

end Xcvr
