import Verif.Model.BTree

/-! # Lemmas about maps -/

namespace Xcvr

/-- A strict total order, as `Ord` promises. -/
structure StrictOrder {κ : Type} (lt : κ → κ → Bool) : Prop where
  irrefl : ∀ a, lt a a = false
  trans : ∀ a b c, lt a b = true → lt b c = true → lt a c = true
  total : ∀ a b, lt a b = true ∨ a = b ∨ lt b a = true

theorem u8Lt_strict : StrictOrder u8Lt where
  irrefl a := by simp [u8Lt]
  trans a b c := by simp only [u8Lt, decide_eq_true_eq]; exact BitVec.lt_trans
  total a b := by
    simp only [u8Lt, decide_eq_true_eq, BitVec.lt_def, ← BitVec.toNat_inj]; omega

namespace BMap

variable {κ V : Type} [DecidableEq κ] {lt : κ → κ → Bool}

/-- Keys strictly increase. -/
def Sorted (lt : κ → κ → Bool) (m : List (κ × V)) : Prop := m.Pairwise fun a b => lt a.1 b.1 = true

theorem get?_eq_none {m : List (κ × V)} {k : κ} (h : ∀ e ∈ m, k ≠ e.1) : get? m k = none := by
  induction m with
  | nil => rfl
  | cons e m ih =>
    rw [get?, if_neg (h e List.mem_cons_self)]
    exact ih fun e he => h e (List.mem_cons_of_mem _ he)

theorem mem_of_get? {m : List (κ × V)} {k : κ} {v : V} (h : get? m k = some v) : (k, v) ∈ m := by
  induction m with
  | nil => cases h
  | cons e m ih =>
    rw [get?] at h
    split at h
    · rename_i hk; cases h; subst hk; exact List.mem_cons_self
    · exact List.mem_cons_of_mem _ (ih h)

theorem get?_of_mem (ho : StrictOrder lt) {m : List (κ × V)} (hs : Sorted lt m) {k : κ} {v : V} (h : (k, v) ∈ m) :
    get? m k = some v := by
  induction m with
  | nil => cases h
  | cons e m ih =>
    rw [Sorted, List.pairwise_cons] at hs
    rw [get?]
    rcases List.mem_cons.mp h with rfl | h
    · rw [if_pos rfl]
    · have := hs.1 _ h
      rw [if_neg]
      · exact ih hs.2 h
      · rintro rfl; simp [ho.irrefl] at this

theorem get?_iff_mem (ho : StrictOrder lt) {m : List (κ × V)} (hs : Sorted lt m) {k : κ} {v : V} :
    get? m k = some v ↔ (k, v) ∈ m := ⟨mem_of_get?, get?_of_mem ho hs⟩

theorem upsert_keys {m : List (κ × V)} {k : κ} {f : Option V → V} {e : κ × V} (h : e ∈ upsert lt k f m) :
    e.1 = k ∨ ∃ v, (e.1, v) ∈ m := by
  induction m with
  | nil => simp only [upsert, List.mem_singleton] at h; subst h; exact Or.inl rfl
  | cons e' m ih =>
    rw [upsert] at h
    split at h
    · rcases List.mem_cons.mp h with rfl | h
      · exact Or.inl rfl
      · exact Or.inr ⟨e.2, List.mem_cons_of_mem _ h⟩
    · split at h
      · rcases List.mem_cons.mp h with rfl | h
        · exact Or.inl rfl
        · exact Or.inr ⟨e.2, h⟩
      · rcases List.mem_cons.mp h with rfl | h
        · exact Or.inr ⟨_, List.mem_cons_self⟩
        · rcases ih h with h | ⟨v, h⟩
          · exact Or.inl h
          · exact Or.inr ⟨v, List.mem_cons_of_mem _ h⟩

theorem upsert_sorted (ho : StrictOrder lt) {m : List (κ × V)} (hs : Sorted lt m) (k : κ) (f : Option V → V) :
    Sorted lt (upsert lt k f m) := by
  induction m with
  | nil => simp [upsert, Sorted]
  | cons e m ih =>
    have hs' := hs
    rw [Sorted, List.pairwise_cons] at hs
    rw [upsert]
    split
    · rename_i hk; subst hk
      exact List.pairwise_cons.mpr hs
    · rename_i hk
      split
      · rename_i hlt
        refine List.pairwise_cons.mpr ⟨fun e' he' => ?_, hs'⟩
        rcases List.mem_cons.mp he' with rfl | he'
        · exact hlt
        · exact ho.trans _ _ _ hlt (hs.1 _ he')
      · rename_i hlt
        refine List.pairwise_cons.mpr ⟨fun e' he' => ?_, ih hs.2⟩
        rcases upsert_keys he' with h | ⟨v, h⟩
        · rw [h]
          rcases ho.total k e.1 with h | h | h
          · exact absurd h hlt
          · exact absurd h hk
          · exact h
        · exact hs.1 (e'.1, v) h

theorem get?_upsert (ho : StrictOrder lt) {m : List (κ × V)} (hs : Sorted lt m) (k : κ) (f : Option V → V) (k' : κ) :
    get? (upsert lt k f m) k' = if k' = k then some (f (get? m k)) else get? m k' := by
  induction m with
  | nil => simp only [upsert, get?]
  | cons e m ih =>
    rw [Sorted, List.pairwise_cons] at hs
    rw [upsert]
    by_cases hk : k = e.1
    · rw [if_pos hk]
      by_cases h : k' = k
      · rw [if_pos h, get?, if_pos h, get?, if_pos hk]
      · rw [if_neg h, get?, if_neg h, get?, if_neg (by rw [← hk]; exact h)]
    · rw [if_neg hk]
      by_cases hlt : lt k e.1 = true
      · rw [if_pos hlt]
        have hn : get? m k = none := by
          apply get?_eq_none
          rintro e' he' rfl
          have := ho.trans _ _ _ hlt (hs.1 _ he')
          simp [ho.irrefl] at this
        by_cases h : k' = k
        · rw [if_pos h, get?, if_pos h, get?, if_neg hk, hn]
        · rw [if_neg h, get?, if_neg h]
      · rw [if_neg hlt, get?, get?, get?, if_neg hk]
        by_cases h' : k' = e.1
        · rw [if_pos h', if_pos h', if_neg (by rintro rfl; exact hk h')]
        · rw [if_neg h', if_neg h', ih hs.2]

end BMap

end Xcvr
