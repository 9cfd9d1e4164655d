import Verif.Lemmas.Bounds

/-!
# How many requests, by the number of modules of each kind

The bounds of `Lemmas/Bounds.lean` count 64 modules of each kind; here the groups share 64 modules.
-/

namespace Xcvr

open Spec Prog Controller

theorem atMost_readImpl_card (m : ModuleId) (rd : MemoryRead) :
    AtMost (messagesFor (card m) rd.len.toNat) (readImpl m rd) := by
  unfold readImpl
  split
  · exact atMost_mono (atMost_ofExec _) (Nat.zero_le _)
  · cases hs : splitLargeReads m rd with
    | ok gs =>
      have hl := splitLargeReads_length hs
      rw [ofExec_ok, ret_bind]
      cases gs with
      | nil => exact atMost_panic _
      | cons g gs =>
        rw [List.length_cons] at hl
        exact atMost_mono (atMost_bind (atMost_one g rd) fun _ => atMost_readLoop rd _ gs) (by omega)
    | err e => exact atMost_fail _ _
    | panic => exact atMost_panic _

/-- The requests for a list of reads of `n` modules. -/
def readsFor (n : Nat) (rds : List MemoryRead) : Nat := (rds.map fun rd => messagesFor n rd.len.toNat).sum

/-- The requests to decode a group of modules. -/
def groupCost {P : Type} (d : ModuleDecoder P) (k : Identifier × ModuleId) : Nat :=
  match d.reads k.1 with
  | .ok rds => readsFor (card k.2) rds
  | _ => 0

theorem atMost_readAll_card (m : ModuleId) (rds : List MemoryRead) : AtMost (readsFor (card m) rds) (readAll m rds) := by
  induction rds with
  | nil => exact atMost_ret _ _
  | cons rd rds ih =>
    unfold readsFor
    rw [List.map_cons, List.sum_cons]
    exact atMost_bind (atMost_readImpl_card m rd) fun _ => atMost_bind (n := 0) ih fun _ => atMost_ret _ _

theorem atMost_parseGroup {P : Type} (d : ModuleDecoder P) (s : ParseState P) (k : Identifier × ModuleId) :
    AtMost (groupCost d k) (parseKind d s k) := by
  unfold parseKind groupCost
  cases h : d.reads k.1 with
  | ok rds =>
    show AtMost _ (readAll k.2 rds >>= _)
    exact atMost_bind (n := 0) (atMost_readAll_card _ _) fun _ => atMost_ofExec _
  | err e => exact atMost_fail _ _
  | panic => exact atMost_panic _

theorem atMost_parseGroups {P : Type} (d : ModuleDecoder P) (s : ParseState P) (ks : List (Identifier × ModuleId)) :
    AtMost (ks.map (groupCost d)).sum (parseKinds d s ks) := by
  induction ks generalizing s with
  | nil => exact atMost_ret _ _
  | cons k ks ih =>
    rw [List.map_cons, List.sum_cons]
    exact atMost_bind (atMost_parseGroup d s k) fun _ => ih _

theorem sum_rank {ks : List (Identifier × ModuleId)} (h : ks.Pairwise fun a b => ∀ p, Mem a.2 p → ¬ Mem b.2 p) (n : Nat) :
    (ks.map fun k => rank k.2 n).sum ≤ n := by
  induction n with
  | zero =>
    have : (ks.map fun k => rank k.2 0) = ks.map fun _ => 0 := rfl
    rw [this]
    clear h this
    induction ks with
    | nil => exact Nat.le_refl _
    | cons k ks ih => rw [List.map_cons, List.sum_cons]; omega
  | succ n ih =>
    have h1 : ∀ k : Identifier × ModuleId, rank k.2 (n + 1) = rank k.2 n + if Mem k.2 n then 1 else 0 := fun k => by
      unfold rank
      rw [List.range_succ, List.countP_append, List.countP_singleton]
      simp
    have h2 : (ks.map fun k => if Mem k.2 n then 1 else 0).sum ≤ 1 := by
      clear ih
      induction ks with
      | nil => simp
      | cons k ks ih =>
        rw [List.pairwise_cons] at h
        rw [List.map_cons, List.sum_cons]
        by_cases hk : Mem k.2 n
        · have h0 : (ks.map fun k => if Mem k.2 n then 1 else 0) = ks.map fun _ => 0 :=
            List.map_congr_left fun b hb => if_neg (h.1 b hb n hk)
          have h3 : ∀ l : List (Identifier × ModuleId), (l.map fun _ => 0).sum = 0 := fun l => by
            induction l with
            | nil => rfl
            | cons a l ih => rw [List.map_cons, List.sum_cons, ih]
          rw [h0, h3, if_pos hk]
          exact Nat.le_refl _
        · rw [if_neg hk]
          have := ih h.2
          omega
    have h3 : (ks.map fun k => rank k.2 (n + 1)).sum =
        (ks.map fun k => rank k.2 n).sum + (ks.map fun k => if Mem k.2 n then 1 else 0).sum := by
      clear ih h2 h
      induction ks with
      | nil => rfl
      | cons k ks ih =>
        rw [List.map_cons, List.sum_cons, List.map_cons, List.sum_cons, List.map_cons, List.sum_cons, ih, h1]
        omega
    omega

/-- Groups of which no two have a module in common have at most 64 modules together. -/
theorem sum_card {ks : List (Identifier × ModuleId)}
    (h : ks.Pairwise fun a b => ∀ p, Mem a.2 p → ¬ Mem b.2 p) : (ks.map fun k => card k.2).sum ≤ 64 :=
  sum_rank h 64

/-- Groups whose costs are bounded by their number of modules and what their kind adds. -/
theorem atMost_parse_shared {P : Type} (d : ModuleDecoder P) (m : ModuleId) (q : Nat) (extra : Identifier → Nat)
    (hcost : ∀ k, q * groupCost d k ≤ card k.2 + extra k.1) (hx : ∀ id, ¬ SffModule id → ¬ CmisModule id → extra id = 0)
    (n : Nat) (hn : 64 + (supportedKinds.map extra).sum < q * (n + 1)) :
    AtMost (1 + n) (parseModulesByIdentifier d m) := by
  unfold parseModulesByIdentifier
  refine atMost_bind (atMost_identifier m) fun ident => ?_
  by_cases ha : Aligned ident.modules ident.data
  · obtain ⟨kinds, h1, hk⟩ := split_kinds ha
    rw [h1, ofExec_ok, ret_bind]
    refine atMost_bind (n := 0) (atMost_mono (atMost_parseGroups d _ kinds) ?_) fun _ => atMost_ret _ _
    have h2 := sum_le_of_zero extra supportedKinds (kinds.map Prod.fst) (kinds_nodup hk) fun x _ hS =>
      hx x (supported_iff hS).1 (supported_iff hS).2
    rw [List.map_map] at h2
    have h3 : (kinds.map fun k => card k.2).sum ≤ 64 := by
      apply sum_card
      refine List.Pairwise.imp_of_mem (fun {a b} hma hmb hab p hp hp' => ?_) hk.sorted
      have e1 := (hk.mem a.1 a.2 hma p).1 hp
      have e2 := (hk.mem b.1 b.2 hmb p).1 hp'
      rw [e1, Option.some.injEq] at e2
      rw [e2, identifierLt_strict.irrefl] at hab
      cases hab
    have h4 : q * (kinds.map (groupCost d)).sum ≤
        (kinds.map fun k => card k.2).sum + (kinds.map (extra ∘ Prod.fst)).sum := by
      clear h1 hk h2 h3
      induction kinds with
      | nil => simp
      | cons k ks ih =>
        have := hcost k
        simp only [List.map_cons, List.sum_cons, Nat.mul_add, Function.comp_apply] at ih ⊢
        omega
    have h5 : q * (kinds.map (groupCost d)).sum < q * (n + 1) := by omega
    have := Nat.lt_of_mul_lt_mul_left h5
    omega
  · have : splitModulesByIdentifier ident.modules ident.data = .panic := by
      unfold splitModulesByIdentifier
      rw [if_pos]
      rw [count_eq_card]
      exact fun h => ha h.symm
    rw [this]
    exact atMost_panic _

/-- What a kind of module adds to the cost of vendor information, in fourteenths of a request. -/
def vendorExtra (id : Identifier) : Nat :=
  if id = Bf.ofByte 0x0d ∨ id = Bf.ofByte 0x11 then 13 else if id = Bf.ofByte 0x18 ∨ id = Bf.ofByte 0x1e then 111 else 0

theorem vendor_cost (k : Identifier × ModuleId) : 14 * groupCost VendorInfo.decoder k ≤ card k.2 + vendorExtra k.1 := by
  have hc := card_le k.2
  unfold groupCost
  by_cases h1 : SffModule k.1
  · rw [show VendorInfo.decoder.reads k.1 = _ from VendorInfo.reads_sff h1]
    have hx : vendorExtra k.1 = 13 := if_pos h1
    rw [hx]
    simp [readsFor, messagesFor]
    omega
  · by_cases h2 : CmisModule k.1
    · rw [show VendorInfo.decoder.reads k.1 = _ from VendorInfo.reads_cmis h2]
      have hx : vendorExtra k.1 = 111 := (if_neg h1).trans (if_pos h2)
      rw [hx]
      simp [readsFor, messagesFor, VendorInfo.cmisOffsets]
      omega
    · have := (C54_refused h1 h2 []).2.2.1
      rw [this]
      simp

theorem atMost_vendorInfo (m : ModuleId) : AtMost 23 (vendorInfo m) :=
  atMost_parse_shared VendorInfo.decoder m 14 vendorExtra vendor_cost
    (fun id h h' => (if_neg h).trans (if_neg h')) 22 (by decide +kernel)

end Xcvr
