import Verif.Model.CliCmd
import Verif.Props.Controller
import Verif.Props.Results

/-! # C68-C70: the status command and the report of failures -/

namespace Xcvr

open Spec Prog Cli

namespace Prog

/-- Recovery: the first program does not fail, or the second goes on where it failed. -/
theorem runs_orElse {α : Type} {p : Prog α} {f : CtlError → Prog α} {t : List Exchange} {o : Exec CtlError α} :
    Runs (p.orElse f) t o ↔
      (Runs p t o ∧ ∀ e, o ≠ .err e) ∨ ∃ t₁ t₂ e, t = t₁ ++ t₂ ∧ Runs p t₁ (.err e) ∧ Runs (f e) t₂ o := by
  induction p generalizing t with
  | ret a =>
    simp only [Prog.orElse, runs_ret]
    constructor
    · rintro ⟨rfl, rfl⟩
      exact .inl ⟨⟨rfl, rfl⟩, fun e h => by cases h⟩
    · rintro (⟨h, -⟩ | ⟨_, _, e, -, ⟨-, h⟩, -⟩)
      · exact h
      · cases h
  | fail e =>
    simp only [Prog.orElse, runs_fail]
    constructor
    · intro h
      exact .inr ⟨[], t, e, rfl, ⟨rfl, rfl⟩, h⟩
    · rintro (⟨⟨-, rfl⟩, h⟩ | ⟨_, _, e', rfl, ⟨rfl, h'⟩, h⟩)
      · exact absurd rfl (h e)
      · cases h'
        exact h
  | panic =>
    simp only [Prog.orElse, runs_panic]
    constructor
    · rintro ⟨rfl, rfl⟩
      exact .inl ⟨⟨rfl, rfl⟩, fun e h => by cases h⟩
    · rintro (⟨h, -⟩ | ⟨_, _, e, -, ⟨-, h⟩, -⟩)
      · exact h
      · cases h
  | rpc c k ih =>
    simp only [Prog.orElse, runs_rpc]
    constructor
    · rintro ⟨r, t', rfl, h⟩
      rcases (ih r).1 h with ⟨h, hn⟩ | ⟨t₁, t₂, e, rfl, h₁, h₂⟩
      · exact .inl ⟨⟨r, t', rfl, h⟩, hn⟩
      · exact .inr ⟨(c, r) :: t₁, t₂, e, rfl, ⟨r, t₁, rfl, h₁⟩, h₂⟩
    · rintro (⟨⟨r, t', rfl, h⟩, hn⟩ | ⟨_, t₂, e, rfl, ⟨r, t₁, rfl, h₁⟩, h₂⟩)
      · exact ⟨r, t', rfl, (ih r).2 (.inl ⟨h, hn⟩)⟩
      · exact ⟨r, t₁ ++ t₂, rfl, (ih r).2 (.inr ⟨t₁, t₂, e, rfl, h₁, h₂⟩)⟩

end Prog

/-! ## C68 -/

theorem runs_statusCmd {m : ModuleId} {t : List Exchange} {o : Exec CtlError (Res U32)} (h : Runs (statusCmd m) t o) :
    ∃ r, (t = [(Call.host (.extendedStatus m), r)] ∧ Runs (Controller.extendedStatus m) t o ∧ ∀ e, o ≠ .err e) ∨
      ∃ r' e, t = [(Call.host (.extendedStatus m), r), (Call.host (.status m), r')] ∧
        Runs (Controller.extendedStatus m) [(Call.host (.extendedStatus m), r)] (.err e) ∧
        ((∃ st, Runs (Controller.status m) [(Call.host (.status m), r')] (.ok st) ∧
            o = .ok ⟨st.modules, st.data.map extend, st.failures⟩) ∨
         (∃ e, Runs (Controller.status m) [(Call.host (.status m), r')] (.err e) ∧ o = .err e) ∨
         (Runs (Controller.status m) [(Call.host (.status m), r')] .panic ∧ o = .panic)) := by
  rcases runs_orElse.1 h with ⟨h1, h2⟩ | ⟨t₁, t₂, e, rfl, h1, h2⟩
  · obtain ⟨r, rfl⟩ := (C39_one_status m t).2.1 o h1
    exact ⟨r, .inl ⟨rfl, h1, h2⟩⟩
  · obtain ⟨r, rfl⟩ := (C39_one_status m _).2.1 _ h1
    refine ⟨r, .inr ?_⟩
    rcases runs_bind.1 h2 with ⟨t₃, t₄, st, rfl, h3, h4⟩ | ⟨e', h3, rfl⟩ | ⟨h3, rfl⟩
    · obtain ⟨r', rfl⟩ := (C39_one_status m _).1 _ h3
      rw [pure_eq, runs_ret] at h4
      obtain ⟨rfl, rfl⟩ := h4
      exact ⟨r', e, rfl, h1, .inl ⟨st, h3, rfl⟩⟩
    · obtain ⟨r', rfl⟩ := (C39_one_status m _).1 _ h3
      exact ⟨r', e, rfl, h1, .inr (.inl ⟨e', h3, rfl⟩)⟩
    · obtain ⟨r', rfl⟩ := (C39_one_status m _).1 _ h3
      exact ⟨r', e, rfl, h1, .inr (.inr ⟨h3, rfl⟩)⟩

/-- **C68**: the extended status is asked for once. If the SP answers it properly, that is what is reported, and nothing
else is asked. -/
theorem C68_extended (m : ModuleId) (x : Exchange) (t : List Exchange) (o : Exec CtlError (Res U32))
    (h : Runs (statusCmd m) (x :: t) o) (hc : Conforms x) :
    t = [] ∧ x.1 = Call.host (.extendedStatus m) ∧ ∃ res, o = .ok res ∧ Reports word m [x] res := by
  obtain ⟨r, ⟨h1, h2, -⟩ | ⟨r', e, h1, h2, -⟩⟩ := runs_statusCmd h
  · cases h1
    obtain ⟨-, res, -, rfl, h3⟩ := extendedStatus_spec h2 (by simpa [Conforming] using hc)
    exact ⟨rfl, rfl, res, rfl, h3⟩
  · cases h1
    obtain ⟨-, res, -, h4, -⟩ := extendedStatus_spec h2 (by simpa [Conforming] using hc)
    cases h4

/-- **C68**: if the extended status fails, say because the SP does not know the request, the status is asked for, and its
eight flags are reported for each module, the others being clear. -/
theorem C68_fallback (m : ModuleId) (r : Reply) (t : List Exchange) (o : Exec CtlError (Res U32)) (e : CtlError)
    (h : Runs (statusCmd m) ((Call.host (.extendedStatus m), r) :: t) o)
    (hf : Runs (Controller.extendedStatus m) [(Call.host (.extendedStatus m), r)] (.err e)) :
    ∃ x, t = [x] ∧ x.1 = Call.host (.status m) ∧
      (Conforms x → ∃ res, o = .ok res ∧ Reports (fun b => BitVec.ofNat 32 (b.headD 0).toNat) m [x] res) := by
  obtain ⟨r₁, ⟨h1, h2, h3⟩ | ⟨r', e', h1, h2, h3⟩⟩ := runs_statusCmd h
  · cases h1
    exact absurd (runs_deterministic h2 hf rfl).2 (h3 e)
  · cases h1
    refine ⟨_, rfl, rfl, fun hc => ?_⟩
    have hcc : Conforming [(Call.host (.status m), r')] := by simpa [Conforming] using hc
    rcases h3 with ⟨st, h4, rfl⟩ | ⟨e, h4, rfl⟩ | ⟨h4, rfl⟩
    · obtain ⟨-, res, -, h5, h6⟩ := status_spec h4 hcc
      simp only [Exec.ok.injEq] at h5
      subst h5
      refine ⟨_, rfl, ?_⟩
      have h7 := reports_map h6 extend
      have : (fun b : Bytes => BitVec.ofNat 32 (b.headD 0).toNat) = fun b => extend (b.headD 0) := by
        funext b
        apply BitVec.eq_of_toNat_eq
        simp [extend]
      rw [this]
      exact h7
    · obtain ⟨-, res, -, h5, h6⟩ := status_spec h4 hcc
      cases h5
    · obtain ⟨-, res, -, h5, h6⟩ := status_spec h4 hcc
      cases h5

/-- An SP that does not know extended status, and one that does. -/
def oldSp (h : List Exchange) (c : Call) : Reply :=
  match c.message.body with
  | .hostRequest (.extendedStatus _) =>
    .answer (.ok ⟨Header.new 0 .error, Message.new (.error .notSupported), none⟩)
  | _ => Bench.sp { status := fun _ i => i + 1, failing := fun _ _ => ⟨0b100⟩ } h c

example : ((statusCmd ⟨0b111⟩).exec oldSp []).2 =
      .ok ⟨⟨0b11⟩, [1, 2], ⟨⟨0b100⟩, [.hardware 2 .disabledBySp none]⟩⟩ ∧
    ((statusCmd ⟨0b111⟩).exec (Bench.sp { status := fun _ i => i + 1 }) []).2 =
      .ok ⟨⟨0b111⟩, [1, 2, 3], ⟨⟨0⟩, []⟩⟩ := by
  decide +kernel

/-! ## C69 -/

/-- All flags of `w` are set in `s`. -/
def Spec.AllSet (w s : U32) : Prop := ∀ k, w.toNat.testBit k = true → s.toNat.testBit k = true

/-- No flag of `w` is set in `s`. -/
def Spec.NoneSet (w s : U32) : Prop := ∀ k, w.toNat.testBit k = true → s.toNat.testBit k = false

theorem containsFlags_iff (s w : U32) : containsFlags s w = true ↔ AllSet w s := by
  unfold containsFlags AllSet
  rw [beq_iff_eq]
  constructor
  · intro h k hk
    rw [← h, BitVec.toNat_and, Nat.testBit_and, Bool.and_eq_true] at hk
    exact hk.1
  · intro h
    apply BitVec.eq_of_toNat_eq
    rw [BitVec.toNat_and]
    apply Nat.eq_of_testBit_eq
    intro k
    rw [Nat.testBit_and]
    cases hk : w.toNat.testBit k with
    | false => simp
    | true => simp [h k hk]

theorem allSet_zero (s : U32) : AllSet 0 s := fun k h => by simp at h

/-- The column should be 1 exactly for the modules with all flags of `w` set and none of `wo`. -/
def Spec.Column (w wo : U32) (r : Res U32) (l : List (U8 × Bool)) : Prop :=
  (l.map Prod.fst).Pairwise (· < ·) ∧
    ∀ i b, (i, b) ∈ l ↔ ∃ s, okAt r i.toNat = some s ∧ (b = true ↔ AllSet w s ∧ NoneSet wo s)

theorem limited_value (w wo s : U32) :
    (if wo = 0 then containsFlags s w
      else if w = 0 then !containsFlags s wo
      else containsFlags s w && !containsFlags s wo) = true ↔ AllSet w s ∧ (wo = 0 ∨ ¬ AllSet wo s) := by
  rw [← containsFlags_iff, ← containsFlags_iff]
  split
  · rename_i h
    exact ⟨fun h' => ⟨h', .inl h⟩, fun h' => h'.1⟩
  · rename_i h
    rw [or_iff_right h]
    split
    · rename_i hw
      subst hw
      rw [(containsFlags_iff s 0).2 (allSet_zero s)]
      simp
    · simp

theorem limited_mem (w wo : U32) (r : Res U32) (h : w ≠ 0 ∨ wo ≠ 0) :
    ∃ l, limitedColumn w wo r = .ok l ∧ (l.map Prod.fst).Pairwise (· < ·) ∧
      ∀ i b, (i, b) ∈ l ↔ ∃ s, okAt r i.toNat = some s ∧ (b = true ↔ AllSet w s ∧ (wo = 0 ∨ ¬ AllSet wo s)) := by
  unfold limitedColumn
  rw [if_neg (fun hn => h.elim (absurd hn.1) (absurd hn.2))]
  refine ⟨_, rfl, ?_, fun i b => ?_⟩
  · rw [List.map_map]
    exact (C20_iter r).1
  · simp only [List.mem_map, Prod.mk.injEq]
    constructor
    · rintro ⟨⟨j, s⟩, h1, rfl, rfl⟩
      refine ⟨s, ((C20_iter r).2.1 _ _).1 h1, ?_⟩
      exact limited_value w wo s
    · rintro ⟨s, h1, h2⟩
      refine ⟨(i, s), ((C20_iter r).2.1 _ _).2 h1, rfl, ?_⟩
      rw [Bool.eq_iff_iff, h2]
      exact limited_value w wo s

/-- **C69**, what holds in general: one line per module that answered, in port order; 1 exactly if all flags of `--with`
are set and not all of `--without`, if given, are. -/
theorem C69_column_partial (w wo : U32) (r : Res U32) (h : w ≠ 0 ∨ wo ≠ 0) :
    ∃ l, limitedColumn w wo r = .ok l ∧ (l.map Prod.fst).Pairwise (· < ·) ∧
      ∀ i b, (i, b) ∈ l ↔ ∃ s, okAt r i.toNat = some s ∧ (b = true ↔ AllSet w s ∧ (wo = 0 ∨ ¬ AllSet wo s)) :=
  limited_mem w wo r h

/-- **C69** holds if `--without` names at most one flag. -/
theorem C69_one_flag_partial (w wo : U32) (r : Res U32) (h : w ≠ 0 ∨ wo ≠ 0)
    (h1 : ∀ j k, wo.toNat.testBit j = true → wo.toNat.testBit k = true → j = k) :
    ∃ l, limitedColumn w wo r = .ok l ∧ Column w wo r l := by
  obtain ⟨l, h2, h3, h4⟩ := limited_mem w wo r h
  refine ⟨l, h2, h3, fun i b => ?_⟩
  rw [h4]
  refine exists_congr fun s => and_congr_right fun _ => iff_congr Iff.rfl (and_congr_right fun _ => ?_)
  constructor
  · rintro (rfl | hn) k hk
    · simp at hk
    · cases hs : s.toNat.testBit k with
      | false => rfl
      | true =>
        exfalso
        apply hn
        intro j hj
        rw [h1 j k hj hk]
        exact hs
  · intro hn
    by_cases hwo : wo = 0
    · exact .inl hwo
    · right
      intro ha
      apply hwo
      apply BitVec.eq_of_toNat_eq
      apply Nat.eq_of_testBit_eq
      intro k
      cases hk : wo.toNat.testBit k with
      | false => simp
      | true =>
        have := hn k hk
        rw [ha k hk] at this
        cases this

/-- The property is false: a module with one of two flags set counts as being without them. -/
theorem C69_counterexample :
    limitedColumn 0 0b11 ⟨⟨1⟩, [0b01], ⟨⟨0⟩, []⟩⟩ = .ok [(0, true)] ∧ ¬ NoneSet 0b11 0b01 :=
  ⟨by decide, fun h => by simpa using h 0⟩

/-- **C69** also fails outright: the command goes through with no flags at all (`--with ""`), and aborts after it has asked
the SP. -/
theorem C69_empty_counterexample (r : Res U32) :
    statusKind (some 0) none false false = .ok (.limited 0 0) ∧ limitedColumn 0 0 r = .panic := by
  refine ⟨by decide, ?_⟩
  unfold limitedColumn
  rw [if_pos ⟨rfl, rfl⟩]

/-- **C69** is false of the code, with or without empty flags. -/
theorem C69_false :
    (¬ ∀ w wo r, w ≠ 0 ∨ wo ≠ 0 → ∃ l, limitedColumn w wo r = .ok l ∧ Column w wo r l) ∧
    ¬ ∀ w wo r, limitedColumn w wo r ≠ .panic := by
  constructor
  · intro h
    obtain ⟨l, h1, -, h2⟩ := h 0 0b11 ⟨⟨1⟩, [0b01], ⟨⟨0⟩, []⟩⟩ (.inr (by decide))
    rw [C69_counterexample.1, Exec.ok.injEq] at h1
    subst h1
    obtain ⟨s, h3, h4⟩ := (h2 0 true).1 (by simp)
    have : s = 0b01 := by
      have : okAt (⟨⟨1⟩, [0b01], ⟨⟨0⟩, []⟩⟩ : Res U32) (0 : U8).toNat = some 0b01 := by decide
      rw [this, Option.some.injEq] at h3
      exact h3.symm
    subst this
    exact C69_counterexample.2 (h4.1 rfl).2
  · intro h
    exact h 0 0 ⟨⟨0⟩, [], ⟨⟨0⟩, []⟩⟩ (C69_empty_counterexample _).2

/-- The other ways of printing are chosen by the flags alone. -/
theorem C69_kinds (w wo : Option U32) (all parseable : Bool)
    (h : (parseable = true → w = none ∧ wo = none ∧ all = false) ∧ (all = true → w = none ∧ wo = none)) :
    ∃ k, statusKind w wo all parseable = .ok k ∧ (k = .parseable ↔ parseable = true) ∧ (k = .all ↔ all = true) ∧
      (k = .normal ↔ w = none ∧ wo = none ∧ all = false ∧ parseable = false) := by
  cases w <;> cases wo <;> cases all <;> cases parseable <;> simp_all [statusKind]

/-! ## C70 -/

/-- **C70**: the failures printed are exactly the failed modules, each once, in port order, with its own error. -/
theorem C70_lines (f : FailedModules TransceiverError) (hf : Aligned f.modules f.errors) :
    (failureLines f).map Prod.fst = f.modules.toIndices ∧
    (∀ i e, (i, e) ∈ failureLines f ↔ datum f.modules f.errors i.toNat = some e) ∧
    (∀ i : U8, Mem f.modules i.toNat ↔ ∃ e, (i, e) ∈ failureLines f) := by
  have h1 : failureLines f = f.modules.toIndices.zip f.errors := by
    unfold failureLines
    split
    · rfl
    · rename_i hn
      have : f.modules.toIndices = [] := by
        rw [← List.length_eq_zero_iff, length_toIndices]
        omega
      rw [this]
      rfl
  rw [h1]
  refine ⟨?_, fun _ _ => mem_zip_iff_datum, fun i => ?_⟩
  · rw [List.map_fst_zip]
    rw [aligned_iff_toIndices.1 hf]
    exact Nat.le_refl _
  · rw [← datum_isSome hf, Option.isSome_iff_exists]
    exact exists_congr fun e => mem_zip_iff_datum.symm

example : failureLines ⟨⟨0b1010⟩, [.hardware 1 .disabledBySp none, .hardware 3 .disabledBySp none]⟩ =
    [(1, .hardware 1 .disabledBySp none), (3, .hardware 3 .disabledBySp none)] := by decide

end Xcvr
