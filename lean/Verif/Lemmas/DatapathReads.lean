import Verif.Spec.DatapathReads
import Verif.Lemmas.Malformed

/-! # CMIS datapaths from reads of any length -/

namespace Xcvr

open Spec.Malformed Decode

section folds

variable {ε α β : Type}

/-- The computation gives a value. -/
def IsOk (x : Exec ε α) : Prop := ∃ v, x = .ok v

/-- The computation gives an error. -/
def IsErr (x : Exec ε α) : Prop := ∃ e, x = .err e

theorem isOk_bind {x : Exec ε α} {f : α → Exec ε β} : IsOk (x >>= f) ↔ ∃ a, x = .ok a ∧ IsOk (f a) := by
  cases x <;> simp [IsOk]

theorem isErr_bind {x : Exec ε α} {f : α → Exec ε β} :
    IsErr (x >>= f) ↔ IsErr x ∨ ∃ a, x = .ok a ∧ IsErr (f a) := by
  cases x <;> simp [IsErr]

theorem foldlM_isOk {step : β → α → Exec ε β} {good : α → Prop} (h : ∀ b a, IsOk (step b a) ↔ good a) (l : List α) (b : β) :
    IsOk (l.foldlM step b) ↔ ∀ a ∈ l, good a := by
  induction l generalizing b with
  | nil => simp [IsOk]
  | cons a l ih =>
    rw [List.foldlM_cons, isOk_bind, List.forall_mem_cons, ← h b a]
    constructor
    · rintro ⟨c, hc, hr⟩
      exact ⟨⟨c, hc⟩, (ih c).1 hr⟩
    · rintro ⟨⟨c, hc⟩, hr⟩
      exact ⟨c, hc, (ih c).2 hr⟩

theorem foldlM_isErr {step : β → α → Exec ε β} {good bad : α → Prop} (h : ∀ b a, IsOk (step b a) ↔ good a)
    (h' : ∀ b a, IsErr (step b a) ↔ bad a) (l : List α) (b : β) :
    IsErr (l.foldlM step b) ↔ ∃ p a s, l = p ++ a :: s ∧ (∀ x ∈ p, good x) ∧ bad a := by
  induction l generalizing b with
  | nil => simp [IsErr]
  | cons a l ih =>
    rw [List.foldlM_cons, isErr_bind]
    constructor
    · rintro (he | ⟨c, hc, hr⟩)
      · exact ⟨[], a, l, rfl, fun x hx => (by cases hx), (h' b a).1 he⟩
      · obtain ⟨p, x, s, rfl, hp, hx⟩ := (ih c).1 hr
        refine ⟨a :: p, x, s, rfl, ?_, hx⟩
        rw [List.forall_mem_cons]
        exact ⟨(h b a).1 ⟨c, hc⟩, hp⟩
    · rintro ⟨p, x, s, he, hp, hx⟩
      cases p with
      | nil =>
        cases he
        exact .inl ((h' b a).2 hx)
      | cons y p =>
        cases he
        rw [List.forall_mem_cons] at hp
        obtain ⟨c, hc⟩ := (h b a).2 hp.1
        exact .inr ⟨c, hc, (ih c).2 ⟨p, x, s, rfl, hp.2, hx⟩⟩

/-- The first element of a list in strict order that is bad, where all before are good. -/
theorem split_first {R : α → α → Prop} (hR : ∀ x, ¬ R x x) (hA : ∀ x y, R x y → ¬ R y x) {l : List α}
    (hl : l.Pairwise R) {good bad : α → Prop} :
    (∃ p a s, l = p ++ a :: s ∧ (∀ x ∈ p, good x) ∧ bad a) ↔ ∃ a ∈ l, bad a ∧ ∀ x ∈ l, R x a → good x := by
  constructor
  · rintro ⟨p, a, s, rfl, hp, ha⟩
    refine ⟨a, by simp, ha, fun x hx hxa => ?_⟩
    rcases List.mem_append.1 hx with hx | hx
    · exact hp x hx
    · rcases List.mem_cons.1 hx with rfl | hx
      · exact absurd hxa (hR _)
      · have := (List.pairwise_cons.1 (List.pairwise_append.1 hl).2.1).1 x hx
        exact absurd hxa (hA _ _ this)
  · rintro ⟨a, ha, hb, hg⟩
    obtain ⟨p, s, rfl⟩ := List.append_of_mem ha
    refine ⟨p, a, s, rfl, fun x hx => hg x (List.mem_append_left _ hx) ?_, hb⟩
    exact (List.pairwise_append.1 hl).2.2 x hx a List.mem_cons_self

end folds

namespace Datapath

/-! ## Descriptors -/

theorem idx_isOk (b : Bytes) (k : Nat) (v : U8) : idx b k = .ok v ↔ b[k]? = some v := by
  unfold idx
  cases b[k]? <;> simp [Exec.unwrap]

theorem idx_isErr (b : Bytes) (k : Nat) : ¬ IsErr (idx b k) := by
  unfold idx
  cases b[k]? <;> simp [Exec.unwrap, IsErr]

theorem heads_quads (b : Bytes) : (quads b).map (·.1) = heads b := by
  unfold heads
  induction b using quads.induct with
  | case1 a b c d rest ih =>
    have : (a :: b :: c :: d :: rest).length / 4 = rest.length / 4 + 1 := by
      simp only [List.length_cons]; omega
    rw [this, List.range_succ_eq_map, quads, List.map_cons, ih, List.map_cons, List.map_map]
    refine congrArg (a :: ·) (List.map_congr_left fun k _ => ?_)
    have : 4 * (k + 1) = 4 * k + 4 := by omega
    simp [this]
  | case2 b h =>
    have hl : b.length / 4 = 0 := by
      match b, h with
      | [], _ | [_], _ | [_, _], _ | [_, _, _], _ => simp
      | a :: b :: c :: d :: rest, h => exact absurd rfl (h a b c d rest)
    rw [hl]
    match b, h with
    | [], _ | [_], _ | [_, _], _ | [_, _, _], _ => rfl
    | a :: b :: c :: d :: rest, h => exact absurd rfl (h a b c d rest)

/-- The loop over descriptors gives a value exactly if the media type is known and an assignment is there for each. -/
theorem applications_isOk (t : MediaType) (as : Bytes) (ds : List (U8 × U8 × U8 × U8)) (i : Nat) :
    IsOk (applications t as i ds) ↔
      (ds ≠ [] → ∀ x, MediaInterfaceId.fromU8 t x ≠ none) ∧
      (ds ≠ [] → i + min ds.length ((ds.takeWhile fun d => d.1 != 0xff).length + 1) ≤ as.length) := by
  induction ds generalizing i with
  | nil => simp [applications, IsOk]
  | cons d ds ih =>
    rw [applications, isOk_bind]
    rcases fromU8_cases t with ht | ⟨f, hf⟩
    · constructor
      · rintro ⟨a, _, h⟩
        rw [isOk_bind] at h
        obtain ⟨v, hv, _⟩ := h
        simp [applicationFromBytes, ht, Exec.unwrap] at hv
      · rintro ⟨h, _⟩
        exact absurd (ht 0) (h (by simp) 0)
    · have hk : ∀ x, MediaInterfaceId.fromU8 t x ≠ none := fun x => by rw [hf]; simp
      have hap (a : U8) : applicationFromBytes t d a = some (appOf f d a) := by rw [applicationFromBytes, hf]; rfl
      have he (a : U8) : ((appOf f d a).hostId = endOfList) ↔ d.1 = 0xff := endOfList_iff d.1
      simp only [hap, Exec.unwrap, Exec.ok_bind, idx_isOk, he]
      by_cases hd : d.1 = 0xff
      · simp only [hd, if_true]
        rw [List.takeWhile_cons_of_neg (by simp [hd])]
        constructor
        · rintro ⟨a, ha, _⟩
          refine ⟨fun _ => hk, fun _ => ?_⟩
          have := (List.getElem?_eq_some_iff.1 ha).1
          simp only [List.length_cons, List.length_nil]
          omega
        · rintro ⟨_, h⟩
          have := h (by simp)
          simp only [List.length_cons, List.length_nil] at this
          exact ⟨_, List.getElem?_eq_getElem (by omega), ⟨_, rfl⟩⟩
      · simp only [if_neg hd, isOk_bind]
        rw [List.takeWhile_cons_of_pos (by simpa using hd)]
        constructor
        · rintro ⟨a, ha, r, hr, _⟩
          refine ⟨fun _ => hk, fun _ => ?_⟩
          have h1 := (List.getElem?_eq_some_iff.1 ha).1
          have h2 := ((ih (i + 1)).1 ⟨r, hr⟩).2
          simp only [List.length_cons]
          cases ds with
          | nil => simp; omega
          | cons d' ds =>
            have := h2 (by simp)
            simp only [List.length_cons] at this ⊢
            omega
        · rintro ⟨_, h⟩
          have h := h (by simp)
          simp only [List.length_cons] at h
          obtain ⟨r, hr⟩ := (ih (i + 1)).2 ⟨fun _ => hk, fun _ => by omega⟩
          exact ⟨_, List.getElem?_eq_getElem (by omega), r, hr, ⟨_, rfl⟩⟩

theorem applications_noErr (t : MediaType) (as : Bytes) (ds : List (U8 × U8 × U8 × U8)) (i : Nat) :
    ¬ IsErr (applications t as i ds) := by
  induction ds generalizing i with
  | nil => simp [applications, IsErr]
  | cons d ds ih =>
    rw [applications, isErr_bind]
    rintro (h | ⟨a, _, h⟩)
    · exact idx_isErr _ _ h
    rw [isErr_bind] at h
    rcases h with h | ⟨v, _, h⟩
    · cases hv : applicationFromBytes t d a <;> simp [hv, Exec.unwrap, IsErr] at h
    split at h
    · simp [IsErr] at h
    rw [isErr_bind] at h
    rcases h with h | ⟨r, _, h⟩
    · exact ih _ h
    · simp [IsErr] at h

/-- How many applications the loop gives. -/
theorem applications_length {t : MediaType} {as : Bytes} {ds : List (U8 × U8 × U8 × U8)} {i : Nat} {apps}
    (h : applications t as i ds = .ok apps) : apps.length = (ds.takeWhile fun d => d.1 != 0xff).length := by
  induction ds generalizing i apps with
  | nil => cases h; rfl
  | cons d ds ih =>
    rw [applications] at h
    obtain ⟨a, _, h⟩ := Exec.bind_eq_ok.1 h
    obtain ⟨app, ha, h⟩ := Exec.bind_eq_ok.1 h
    have he : app.hostId = endOfList ↔ d.1 = 0xff := by
      have : app.hostId = Bf.ofByte d.1 := by
        unfold applicationFromBytes at ha
        split at ha
        · cases ha
        · cases ha; rfl
      rw [this, endOfList_iff]
    split at h
    · rename_i hd
      rw [List.takeWhile_cons_of_neg (by simp [he.1 hd])]
      cases h; rfl
    · rename_i hd
      rw [List.takeWhile_cons_of_pos (by simpa using fun x => hd (he.2 x))]
      obtain ⟨r, hr, h⟩ := Exec.bind_eq_ok.1 h
      cases h
      rw [List.length_cons, List.length_cons, ih hr]

/-! ## Lanes -/

theorem idx_ok_iff (b : Bytes) (k : Nat) : IsOk (idx b k) ↔ k < b.length := by
  unfold IsOk
  simp only [idx_isOk]
  constructor
  · rintro ⟨v, hv⟩; exact (List.getElem?_eq_some_iff.1 hv).1
  · intro h; exact ⟨_, List.getElem?_eq_getElem h⟩

theorem idx_bind_ok {γ : Type} (b : Bytes) (k : Nat) (f : U8 → Exec DecodeError γ) :
    IsOk (idx b k >>= f) ↔ ∃ h : k < b.length, IsOk (f b[k]) := by
  rw [isOk_bind]
  simp only [idx_isOk]
  constructor
  · rintro ⟨v, hv, h⟩
    obtain ⟨hk, rfl⟩ := List.getElem?_eq_some_iff.1 hv
    exact ⟨hk, h⟩
  · rintro ⟨hk, h⟩
    exact ⟨_, List.getElem?_eq_getElem hk, h⟩

theorem idx_bind_err {γ : Type} (b : Bytes) (k : Nat) (f : U8 → Exec DecodeError γ) :
    IsErr (idx b k >>= f) ↔ ∃ h : k < b.length, IsErr (f b[k]) := by
  rw [isErr_bind]
  simp only [idx_isOk, idx_isErr, false_or]
  constructor
  · rintro ⟨v, hv, h⟩
    obtain ⟨hk, rfl⟩ := List.getElem?_eq_some_iff.1 hv
    exact ⟨hk, h⟩
  · rintro ⟨hk, h⟩
    exact ⟨_, List.getElem?_eq_getElem hk, h⟩

/-- The code of the state of a lane. -/
def codeOf (states : Bytes) (lane : U8) : Nat :=
  let x := (states[lane.toNat / 2]?.getD 0).toNat
  if lane.toNat % 2 = 0 then x / 16 % 8 else x % 8

theorem tryFrom_ok (x : U8) : (∃ s, CmisDatapathState.tryFrom x = .ok s) ↔ x.toNat % 8 ≠ 0 := by
  have : (cmisDatapathStates.findFinIdx? fun v => v.1 == ((x &&& CmisDatapathState.mask) >>> 0)) = none ↔ x.toNat % 8 = 0 := by
    revert x; decide +kernel
  unfold CmisDatapathState.tryFrom
  cases hf : cmisDatapathStates.findFinIdx? fun v => v.1 == ((x &&& CmisDatapathState.mask) >>> 0) with
  | none => simpa using this.1 hf
  | some i =>
    refine ⟨fun _ h => ?_, fun _ => ⟨i, rfl⟩⟩
    rw [this.2 h] at hf
    cases hf

theorem ofExcept_ok (x : U8) : IsOk (Exec.ofExcept (CmisDatapathState.tryFrom x)) ↔ x.toNat % 8 ≠ 0 := by
  rw [← tryFrom_ok]
  cases CmisDatapathState.tryFrom x <;> simp [Exec.ofExcept, IsOk]

theorem ofExcept_err (x : U8) : IsErr (Exec.ofExcept (CmisDatapathState.tryFrom x)) ↔ x.toNat % 8 = 0 := by
  have := tryFrom_ok x
  cases h : CmisDatapathState.tryFrom x with
  | error e => simp [h] at this; simp [Exec.ofExcept, IsErr, this]
  | ok s => simp [h] at this; simp [Exec.ofExcept, IsErr, this]

/-- The state of a lane is looked up in the states. -/
theorem state_code {states : Bytes} {lane v : U8}
    (hv : stateNibble states lane = .ok v) : v.toNat % 8 = codeOf states lane := by
  unfold stateNibble at hv
  have hn : (lane / 2).toNat = lane.toNat / 2 := rfl
  rw [hn] at hv
  obtain ⟨x, hx, hv⟩ := Exec.bind_eq_ok.1 hv
  rw [idx_isOk] at hx
  unfold codeOf
  rw [hx]
  have hm : (lane % 2 = 1) ↔ ¬ lane.toNat % 2 = 0 := by
    have (l : U8) : (l % 2 = 1) ↔ ¬ l.toNat % 2 = 0 := by revert l; decide +kernel
    exact this lane
  have h1 (x : U8) : ((x &&& ((0x0f : U8) <<< (4 : U8))) >>> (4 : U8)).toNat % 8 = x.toNat / 16 % 8 := by
    revert x; decide +kernel
  have h0 (x : U8) : ((x &&& ((0x0f : U8) <<< (0 : U8))) >>> (0 : U8)).toNat % 8 = x.toNat % 8 := by
    revert x; decide +kernel
  cases hv
  by_cases hl : lane.toNat % 2 = 0
  · have : ¬ lane % 2 = 1 := fun h => hm.1 h hl
    simp only [hl, this, if_true, if_false]
    exact h1 x
  · have : lane % 2 = 1 := hm.2 hl
    simp only [hl, this, if_true, if_false]
    exact h0 x

theorem nibble_ok (states : Bytes) (lane : U8) : IsOk (stateNibble states lane) ↔ lane.toNat / 2 < states.length := by
  unfold stateNibble
  rw [idx_bind_ok]
  have hn : (lane / 2).toNat = lane.toNat / 2 := rfl
  rw [hn]
  exact ⟨fun ⟨h, _⟩ => h, fun h => ⟨h, _, rfl⟩⟩

theorem nibble_noErr (states : Bytes) (lane : U8) : ¬ IsErr (stateNibble states lane) := by
  unfold stateNibble
  rw [idx_bind_err]
  rintro ⟨_, e, h⟩
  cases h

theorem state_ok {γ : Type} (states : Bytes) (lane : U8) (f : CmisDatapathState → Exec DecodeError γ) (Q : Prop)
    (h : ∀ s, IsOk (f s) ↔ Q) :
    IsOk (stateNibble states lane >>= fun n => Exec.ofExcept (CmisDatapathState.tryFrom n) >>= f) ↔
      lane.toNat / 2 < states.length ∧ codeOf states lane ≠ 0 ∧ Q := by
  rw [isOk_bind]
  constructor
  · rintro ⟨n, hn, hr⟩
    obtain ⟨s, hs, hr⟩ := isOk_bind.1 hr
    refine ⟨(nibble_ok _ _).1 ⟨n, hn⟩, ?_, (h s).1 hr⟩
    rw [← state_code hn]
    exact (ofExcept_ok n).1 ⟨s, hs⟩
  · rintro ⟨h1, h2, h3⟩
    obtain ⟨n, hn⟩ := (nibble_ok _ _).2 h1
    rw [← state_code hn] at h2
    obtain ⟨s, hs⟩ := (ofExcept_ok n).2 h2
    exact ⟨n, hn, isOk_bind.2 ⟨s, hs, (h s).2 h3⟩⟩

theorem state_err {γ : Type} (states : Bytes) (lane : U8) (f : CmisDatapathState → Exec DecodeError γ)
    (h : ∀ s, ¬ IsErr (f s)) :
    IsErr (stateNibble states lane >>= fun n => Exec.ofExcept (CmisDatapathState.tryFrom n) >>= f) ↔
      lane.toNat / 2 < states.length ∧ codeOf states lane = 0 := by
  rw [isErr_bind]
  constructor
  · rintro (he | ⟨n, hn, hr⟩)
    · exact absurd he (nibble_noErr _ _)
    refine ⟨(nibble_ok _ _).1 ⟨n, hn⟩, ?_⟩
    rw [← state_code hn]
    rcases isErr_bind.1 hr with hr | ⟨s, _, hr⟩
    · exact (ofExcept_err n).1 hr
    · exact absurd hr (h s)
  · rintro ⟨h1, h2⟩
    obtain ⟨n, hn⟩ := (nibble_ok _ _).2 h1
    rw [← state_code hn] at h2
    exact .inr ⟨n, hn, isErr_bind.2 (.inl ((ofExcept_err n).2 h2))⟩

/-- The bytes for a lane are there, up to its state. -/
def Reached (r : LaneReads) (lane : U8) : Prop :=
  4 ≤ r.support.length ∧ 4 ≤ r.controls0.length ∧ 6 ≤ r.controls1.length ∧ lane.toNat / 2 < r.datapathState.length ∧
  2 ≤ r.laneStatus.length ∧ 4 ≤ r.txLaneFlags.length ∧ 1 ≤ r.rxLaneFlags.length

theorem laneStatus_isOk (r : LaneReads) (lane : U8) : IsOk (laneStatusOf r lane) ↔
    Reached r lane ∧ codeOf r.datapathState lane ≠ 0 ∧ 2 ≤ r.rxLaneFlags.length := by
  have hp {γ : Type} (x : γ) : IsOk (pure x : Exec DecodeError γ) := ⟨x, rfl⟩
  unfold laneStatusOf Reached
  constructor
  · intro h
    obtain ⟨h1, h⟩ := (idx_bind_ok _ _ _).1 h
    obtain ⟨h2, h⟩ := (idx_bind_ok _ _ _).1 h
    obtain ⟨h3, h⟩ := (idx_bind_ok _ _ _).1 h
    obtain ⟨h4, h⟩ := (idx_bind_ok _ _ _).1 h
    obtain ⟨h5, h⟩ := (idx_bind_ok _ _ _).1 h
    obtain ⟨h6, h⟩ := (idx_bind_ok _ _ _).1 h
    obtain ⟨h7, h⟩ := (idx_bind_ok _ _ _).1 h
    obtain ⟨h8, h⟩ := (idx_bind_ok _ _ _).1 h
    obtain ⟨h9, h⟩ := (idx_bind_ok _ _ _).1 h
    obtain ⟨h10, h⟩ := (idx_bind_ok _ _ _).1 h
    obtain ⟨h11, h⟩ := (idx_bind_ok _ _ _).1 h
    obtain ⟨h12, h⟩ := (idx_bind_ok _ _ _).1 h
    obtain ⟨h13, h⟩ := (idx_bind_ok _ _ _).1 h
    obtain ⟨h14, h⟩ := (idx_bind_ok _ _ _).1 h
    obtain ⟨h15, h⟩ := (idx_bind_ok _ _ _).1 h
    obtain ⟨h16, h⟩ := (idx_bind_ok _ _ _).1 h
    obtain ⟨h17, h⟩ := (idx_bind_ok _ _ _).1 h
    obtain ⟨h18, h⟩ := (idx_bind_ok _ _ _).1 h
    rw [state_ok (Q := 1 < r.rxLaneFlags.length)] at h
    · refine ⟨⟨?_, ?_, ?_, h.1, ?_, ?_, ?_⟩, h.2.1, ?_⟩ <;> omega
    · intro s; exact (idx_bind_ok _ _ _).trans ⟨fun ⟨h, _⟩ => h, fun h => ⟨h, hp _⟩⟩
  · rintro ⟨⟨h1, h2, h3, h4, h5, h6, h7⟩, h8, h9⟩
    iterate 18 refine (idx_bind_ok _ _ _).2 ⟨by omega, ?_⟩
    rw [state_ok (Q := 1 < r.rxLaneFlags.length)]
    · exact ⟨h4, h8, by omega⟩
    · intro s; exact (idx_bind_ok _ _ _).trans ⟨fun ⟨h, _⟩ => h, fun h => ⟨h, hp _⟩⟩

theorem laneStatus_isErr (r : LaneReads) (lane : U8) : IsErr (laneStatusOf r lane) ↔
    Reached r lane ∧ codeOf r.datapathState lane = 0 := by
  have hp {γ : Type} (x : γ) : ¬ IsErr (pure x : Exec DecodeError γ) := fun ⟨e, h⟩ => by cases h
  unfold laneStatusOf Reached
  constructor
  · intro h
    obtain ⟨h1, h⟩ := (idx_bind_err _ _ _).1 h
    obtain ⟨h2, h⟩ := (idx_bind_err _ _ _).1 h
    obtain ⟨h3, h⟩ := (idx_bind_err _ _ _).1 h
    obtain ⟨h4, h⟩ := (idx_bind_err _ _ _).1 h
    obtain ⟨h5, h⟩ := (idx_bind_err _ _ _).1 h
    obtain ⟨h6, h⟩ := (idx_bind_err _ _ _).1 h
    obtain ⟨h7, h⟩ := (idx_bind_err _ _ _).1 h
    obtain ⟨h8, h⟩ := (idx_bind_err _ _ _).1 h
    obtain ⟨h9, h⟩ := (idx_bind_err _ _ _).1 h
    obtain ⟨h10, h⟩ := (idx_bind_err _ _ _).1 h
    obtain ⟨h11, h⟩ := (idx_bind_err _ _ _).1 h
    obtain ⟨h12, h⟩ := (idx_bind_err _ _ _).1 h
    obtain ⟨h13, h⟩ := (idx_bind_err _ _ _).1 h
    obtain ⟨h14, h⟩ := (idx_bind_err _ _ _).1 h
    obtain ⟨h15, h⟩ := (idx_bind_err _ _ _).1 h
    obtain ⟨h16, h⟩ := (idx_bind_err _ _ _).1 h
    obtain ⟨h17, h⟩ := (idx_bind_err _ _ _).1 h
    obtain ⟨h18, h⟩ := (idx_bind_err _ _ _).1 h
    rw [state_err] at h
    · refine ⟨⟨?_, ?_, ?_, h.1, ?_, ?_, ?_⟩, h.2⟩ <;> omega
    · intro s h; obtain ⟨_, h⟩ := (idx_bind_err _ _ _).1 h; exact hp _ h
  · rintro ⟨⟨h1, h2, h3, h4, h5, h6, h7⟩, h8⟩
    iterate 18 refine (idx_bind_err _ _ _).2 ⟨by omega, ?_⟩
    rw [state_err]
    · exact ⟨h4, h8⟩
    · intro s h; obtain ⟨_, h⟩ := (idx_bind_err _ _ _).1 h; exact hp _ h

theorem addLane_ok (r : LaneReads) (k : U8) (app : ApplicationDescriptor) (dps) (lane : U8) :
    IsOk (addLane r k app dps lane) ↔ IsOk (laneStatusOf r lane) := by
  unfold addLane
  rw [isOk_bind]
  exact ⟨fun ⟨a, h, _⟩ => ⟨a, h⟩, fun ⟨a, h⟩ => ⟨a, h, _, rfl⟩⟩

theorem addLane_err (r : LaneReads) (k : U8) (app : ApplicationDescriptor) (dps) (lane : U8) :
    IsErr (addLane r k app dps lane) ↔ IsErr (laneStatusOf r lane) := by
  unfold addLane
  rw [isErr_bind]
  refine ⟨?_, fun h => .inl h⟩
  rintro (h | ⟨a, _, e, h⟩)
  · exact h
  · cases h

/-! ## The order of the lanes -/

/-- The lanes of each group are in order, and all below `n`. -/
def LanesIn (a : List (U8 × ApplicationDescriptor × List U8)) (n : Nat) : Prop :=
  ∀ k e, BMap.get? a k = some e → e.2.Pairwise (fun x y => x.toNat < y.toNat) ∧ ∀ x ∈ e.2, x.toNat < n

theorem lanesIn_step {apps a} (hs : BMap.Sorted u8Lt a) {n : Nat} (hn : n < 256) (h : LanesIn a n) (c : U8) :
    BMap.Sorted u8Lt (activatePure apps a (c, n)) ∧ LanesIn (activatePure apps a (c, n)) (n + 1) := by
  have hmore : LanesIn a (n + 1) := fun k e he => ⟨(h k e he).1, fun x hx => by have := (h k e he).2 x hx; omega⟩
  have ht : (BitVec.ofNat 8 n : U8).toNat = n := by rw [BitVec.toNat_ofNat]; exact Nat.mod_eq_of_lt hn
  unfold activatePure
  split
  · split
    · rename_i app _
      refine ⟨BMap.upsert_sorted u8Lt_strict hs _ _, fun k e he => ?_⟩
      rw [BMap.get?_upsert u8Lt_strict hs] at he
      split at he
      · cases he
        have hold : ∀ e', e' = (BMap.get? a (appSelectCode c)).getD (app, []) →
            e'.2.Pairwise (fun x y => x.toNat < y.toNat) ∧ ∀ x ∈ e'.2, x.toNat < n := by
          rintro e' rfl
          cases hg : BMap.get? a (appSelectCode c) with
          | none => exact ⟨List.Pairwise.nil, fun x hx => (by cases hx)⟩
          | some e' => exact h _ _ hg
        obtain ⟨h1, h2⟩ := hold _ rfl
        constructor
        · rw [List.pairwise_append]
          refine ⟨h1, List.pairwise_singleton _ _, fun x hx y hy => ?_⟩
          rw [List.mem_singleton] at hy
          subst hy
          rw [ht]
          exact h2 x hx
        · intro x hx
          rcases List.mem_append.1 hx with hx | hx
          · have := h2 x hx; omega
          · rw [List.mem_singleton] at hx
            subst hx
            rw [ht]; omega
      · exact hmore k e he
    · exact ⟨hs, hmore⟩
  · exact ⟨hs, hmore⟩

theorem lanesIn_run (apps : List ApplicationDescriptor) (config : Bytes) (n : Nat) (a)
    (hs : BMap.Sorted u8Lt a) (h : LanesIn a n) (hl : n + config.length ≤ 256) :
    LanesIn ((config.zipIdx n).foldl (activatePure apps) a) (n + config.length) := by
  induction config generalizing n a with
  | nil => exact h
  | cons c config ih =>
    rw [List.zipIdx_cons, List.foldl_cons]
    rw [List.length_cons] at hl
    obtain ⟨h1, h2⟩ := lanesIn_step (apps := apps) hs (by omega) h c
    have := ih (n + 1) _ h1 h2 (by omega)
    rw [List.length_cons]
    rwa [show n + (config.length + 1) = n + 1 + config.length by omega]

/-- One lane is looked at before another. -/
def Earlier (x y : U8 × ApplicationDescriptor × U8) : Prop := Sooner x.2.2.toNat x.1.toNat y.2.2.toNat y.1.toNat

theorem flat_ordered {a : List (U8 × ApplicationDescriptor × List U8)} (hs : BMap.Sorted u8Lt a) {n : Nat}
    (h : LanesIn a n) : (flat a).Pairwise Earlier := by
  have hm : ∀ e ∈ a, e.2.2.Pairwise (fun x y => x.toNat < y.toNat) := fun e he =>
    (h e.1 e.2 (BMap.get?_of_mem u8Lt_strict hs he)).1
  unfold flat
  have hs' : a.Pairwise fun x y => u8Lt x.1 y.1 = true := hs
  clear h hs
  induction a with
  | nil => exact List.Pairwise.nil
  | cons e a ih =>
    rw [List.flatMap_cons, List.pairwise_append]
    rw [List.pairwise_cons] at hs'
    refine ⟨?_, ih (fun x hx => hm x (List.mem_cons_of_mem _ hx)) hs'.2, ?_⟩
    · rw [List.pairwise_map]
      exact (hm e List.mem_cons_self).imp fun h => .inr ⟨rfl, h⟩
    · intro x hx y hy
      obtain ⟨l, _, rfl⟩ := List.mem_map.1 hx
      obtain ⟨e', he', hy⟩ := List.mem_flatMap.1 hy
      obtain ⟨l', _, rfl⟩ := List.mem_map.1 hy
      have := hs'.1 e' he'
      exact .inl (by simpa [u8Lt, BitVec.lt_def] using this)

/-- The lanes of the groups are the lanes that are assigned. -/
theorem flat_mem {apps config} (hg : ∀ p ∈ (config : Bytes).zipIdx, GoodLane apps p) (k lane : U8) :
    (∃ app, (k, app, lane) ∈ flat (config.zipIdx.foldl (activatePure apps) [])) ↔
      k ≠ 0 ∧ ∃ c i, config[i]? = some c ∧ appSelectCode c = k ∧ lane = BitVec.ofNat 8 i := by
  have hi := active_inv apps _ hg
  generalize config.zipIdx.foldl (activatePure apps) [] = a at hi
  have := hi.lanes k lane
  constructor
  · rintro ⟨app, hm⟩
    unfold flat at hm
    obtain ⟨e, he, hm⟩ := List.mem_flatMap.1 hm
    obtain ⟨l, hl, he'⟩ := List.mem_map.1 hm
    cases he'
    obtain ⟨p, hp, h1, h2, h3⟩ := this.1 ⟨e.2, BMap.get?_of_mem u8Lt_strict hi.sorted he, hl⟩
    exact ⟨h2, p.1, p.2, (List.mem_zipIdx_iff_getElem?).1 hp, h1, h3⟩
  · rintro ⟨h0, c, i, hc, h1, h2⟩
    obtain ⟨e, he, hl⟩ := this.2 ⟨(c, i), List.mem_zipIdx_iff_getElem?.2 hc, h1, h0, h2⟩
    refine ⟨e.1, ?_⟩
    unfold flat
    exact List.mem_flatMap.2 ⟨(k, e), BMap.mem_of_get? he, List.mem_map.2 ⟨lane, hl, rfl⟩⟩

/-! ## The whole parser -/

theorem next_ran {γ : Type} {rs : List Bytes} {f : Bytes × List Bytes → Exec DecodeError γ}
    (h : (nextUnwrap rs >>= f) ≠ .panic) : ∃ b rest, rs = b :: rest ∧ f (b, rest) ≠ .panic := by
  cases rs with
  | nil => exact absurd rfl h
  | cons b rest => exact ⟨b, rest, rfl, h⟩

theorem len_ran {γ : Type} {b : Bytes} {n : Nat} {f : Unit → Exec DecodeError γ}
    (h : (assertLen b n >>= f) ≠ .panic) : b.length = n ∧ f () ≠ .panic := by
  rcases assertLen_cases b n with ⟨h1, h2⟩ | ⟨h1, h2⟩
  · rw [h2] at h; exact ⟨h1, h⟩
  · rw [h2] at h; exact absurd rfl h

theorem noErr_ran {α γ : Type} {x : Exec DecodeError α} (hx : ¬ IsErr x) {f : α → Exec DecodeError γ}
    (h : (x >>= f) ≠ .panic) : ∃ a, x = .ok a ∧ f a ≠ .panic := by
  cases x with
  | ok a => exact ⟨a, rfl, h⟩
  | err e => exact absurd ⟨e, rfl⟩ hx
  | panic => exact absurd rfl h

theorem activate_noErr (apps : List ApplicationDescriptor) (l : List (U8 × Nat)) (a) :
    ¬ IsErr (l.foldlM (fun a (x : U8 × Nat) => activate apps a (BitVec.ofNat 8 x.2) x.1) a) := by
  rw [foldlM_isErr (good := GoodLane apps) (bad := fun _ => False)]
  · rintro ⟨_, _, _, _, _, h⟩; exact h
  · intro b p
    by_cases h : GoodLane apps p
    · rw [activate_good apps b p h]; simp [IsOk, h]
    · rw [activate_bad apps b p h]; simp [IsOk, h]
  · intro b p
    by_cases h : GoodLane apps p
    · rw [activate_good apps b p h]; simp [IsErr]
    · rw [activate_bad apps b p h]; simp [IsErr]

theorem activate_all {apps : List ApplicationDescriptor} {l : List (U8 × Nat)} {v}
    (h : l.foldlM (fun a (x : U8 × Nat) => activate apps a (BitVec.ofNat 8 x.2) x.1) [] = .ok v) :
    ∀ p ∈ l, GoodLane apps p := by
  refine (foldlM_isOk (good := GoodLane apps) ?_ l []).1 ⟨v, h⟩
  intro b p
  by_cases h : GoodLane apps p
  · rw [activate_good apps b p h]; simp [IsOk, h]
  · rw [activate_bad apps b p h]; simp [IsOk, h]

/-- The descriptors in the reads. -/
def quadsOf (d0 d1 d2 d3 : Bytes) : List (U8 × U8 × U8 × U8) := quads d0 ++ quads d1 ++ quads d2 ++ quads d3

/-- What there is if the parser does not panic before it looks at the lanes. -/
structure Front (rs : List Bytes) (config : Bytes) (apps : List ApplicationDescriptor) (r : LaneReads) : Prop where
  shape : ∃ c m as d0 d1 d2 d3 more, rs = c :: config :: m :: as :: d0 :: d1 :: d2 :: d3 :: r.support :: r.controls0 ::
      r.controls1 :: r.datapathState :: r.laneStatus :: r.txLaneFlags :: r.rxLaneFlags :: more ∧
    c.length = 7 ∧ config.length = 8 ∧ ∃ t, m[0]? = some t ∧
      applications (Bf.ofByte t) as 0 (quadsOf d0 d1 d2 d3) = .ok apps
  good : ∀ p ∈ config.zipIdx, GoodLane apps p

theorem front_of {rs : List Bytes} (h : parseCmis rs ≠ .panic) : ∃ config apps r, Front rs config apps r := by
  unfold parseCmis at h
  obtain ⟨c, rs1, e, h'⟩ := next_ran h
  clear h; subst e; have h := h'; clear h'
  obtain ⟨l0, h⟩ := len_ran h
  obtain ⟨_, _, h⟩ := noErr_ran (idx_isErr _ _) h
  obtain ⟨_, _, h⟩ := noErr_ran (idx_isErr _ _) h
  obtain ⟨config, rs2, e, h'⟩ := next_ran h
  clear h; subst e; have h := h'; clear h'
  obtain ⟨l1, h⟩ := len_ran h
  obtain ⟨m, rs3, e, h'⟩ := next_ran h
  clear h; subst e; have h := h'; clear h'
  obtain ⟨t, ht, h⟩ := noErr_ran (idx_isErr _ _) h
  obtain ⟨as, rs4, e, h'⟩ := next_ran h
  clear h; subst e; have h := h'; clear h'
  obtain ⟨d0, rs5, e, h'⟩ := next_ran h
  clear h; subst e; have h := h'; clear h'
  obtain ⟨d1, rs6, e, h'⟩ := next_ran h
  clear h; subst e; have h := h'; clear h'
  obtain ⟨d2, rs7, e, h'⟩ := next_ran h
  clear h; subst e; have h := h'; clear h'
  obtain ⟨d3, rs8, e, h'⟩ := next_ran h
  clear h; subst e; have h := h'; clear h'
  obtain ⟨apps, hap, h⟩ := noErr_ran (applications_noErr _ _ _ _) h
  obtain ⟨active, hac, h⟩ := noErr_ran (activate_noErr apps _ _) h
  obtain ⟨r0, rs9, e, h'⟩ := next_ran h
  clear h; subst e; have h := h'; clear h'
  obtain ⟨r1, rs10, e, h'⟩ := next_ran h
  clear h; subst e; have h := h'; clear h'
  obtain ⟨r2, rs11, e, h'⟩ := next_ran h
  clear h; subst e; have h := h'; clear h'
  obtain ⟨r3, rs12, e, h'⟩ := next_ran h
  clear h; subst e; have h := h'; clear h'
  obtain ⟨r4, rs13, e, h'⟩ := next_ran h
  clear h; subst e; have h := h'; clear h'
  obtain ⟨r5, rs14, e, h'⟩ := next_ran h
  clear h; subst e; have h := h'; clear h'
  obtain ⟨r6, rs15, e, h'⟩ := next_ran h
  clear h; subst e; have h := h'; clear h'
  exact ⟨config, apps, ⟨r0, r1, r2, r3, r4, r5, r6⟩,
    ⟨c, m, as, d0, d1, d2, d3, rs15, rfl, l0, l1, t, (idx_isOk _ _ _).1 ht, hap⟩, activate_all hac⟩

theorem front_run {rs config apps r} (h : Front rs config apps r) : ∃ connector supported, parseCmis rs =
    (datapathsOf r (config.zipIdx.foldl (activatePure apps) []) >>= fun d => pure (.cmis connector supported d)) := by
  obtain ⟨⟨c, m, as, d0, d1, d2, d3, more, rfl, l0, l1, t, ht, hap⟩, hg⟩ := h
  have a0 : assertLen c 7 = .ok () := by unfold assertLen; rw [if_pos l0]
  have a1 : assertLen config 8 = .ok () := by unfold assertLen; rw [if_pos l1]
  have i0 : idx c 0 = .ok (c[0]'(by omega)) := (idx_isOk _ _ _).2 (List.getElem?_eq_getElem (by omega))
  have i6 : idx c 6 = .ok (c[6]'(by omega)) := (idx_isOk _ _ _).2 (List.getElem?_eq_getElem (by omega))
  have it : idx m 0 = .ok t := (idx_isOk _ _ _).2 ht
  have hac : config.zipIdx.foldlM (fun a (x : U8 × Nat) => activate apps a (BitVec.ofNat 8 x.2) x.1) [] =
      .ok (config.zipIdx.foldl (activatePure apps) []) :=
    foldlM_ok _ (GoodLane apps) (activatePure apps) _ (fun b a _ h => activate_good apps b a h) hg []
  refine ⟨Bf.ofByte (c[0]'(by omega)), ~~~ (c[6]'(by omega)), ?_⟩
  unfold quadsOf at hap
  unfold parseCmis
  simp only [nextUnwrap, a0, a1, i0, i6, it, hap, hac, Exec.ok_bind]

theorem cons_of_le {α : Type} {n : Nat} {l : List α} (h : n + 1 ≤ l.length) : ∃ b rest, l = b :: rest ∧ n ≤ rest.length := by
  cases l with
  | nil => exact absurd h (by simp)
  | cons b rest => exact ⟨b, rest, rfl, by simpa using h⟩

theorem select_toNat (x : U8) : (appSelectCode x).toNat = x.toNat / 16 := by
  revert x; decide +kernel

theorem good_iff (apps : List ApplicationDescriptor) (p : U8 × Nat) : GoodLane apps p ↔ p.1.toNat / 16 ≤ apps.length := by
  have (k : U8) (n : Nat) : (k ≠ 0 → (k - 1).toNat < n) ↔ k.toNat ≤ n := by
    have : k ≠ 0 → (k - 1).toNat = k.toNat - 1 ∧ k.toNat ≠ 0 := by revert k; decide +kernel
    by_cases hk : k = 0
    · subst hk; simp
    · obtain ⟨h1, h2⟩ := this hk
      rw [h1]
      exact ⟨fun h => by have := h hk; omega, fun h _ => by omega⟩
  unfold GoodLane
  rw [this, select_toNat]

theorem front_codes {c config m as d0 d1 d2 d3 : Bytes} {more : List Bytes} :
    hostCodes (c :: config :: m :: as :: d0 :: d1 :: d2 :: d3 :: more) = (quadsOf d0 d1 d2 d3).map (·.1) := by
  unfold quadsOf
  simp only [List.map_append, heads_quads]
  simp [hostCodes]

theorem front_described {c config m as d0 d1 d2 d3 : Bytes} {more : List Bytes} :
    described (c :: config :: m :: as :: d0 :: d1 :: d2 :: d3 :: more) =
      ((quadsOf d0 d1 d2 d3).takeWhile fun d => d.1 != 0xff).length := by
  unfold described
  rw [front_codes, List.takeWhile_map, List.length_map]
  rfl

theorem front_iff (rs : List Bytes) : FrontOk rs ↔ ∃ config apps r, Front rs config apps r := by
  constructor
  · intro h
    obtain ⟨h1, h2, ⟨t, h3, h3'⟩, h4, h5, h6⟩ := h
    obtain ⟨c, rs1, rfl, n1⟩ := cons_of_le h6
    obtain ⟨config, rs2, rfl, n2⟩ := cons_of_le n1
    obtain ⟨m, rs3, rfl, n3⟩ := cons_of_le n2
    obtain ⟨as, rs4, rfl, n4⟩ := cons_of_le n3
    obtain ⟨d0, rs5, rfl, n5⟩ := cons_of_le n4
    obtain ⟨d1, rs6, rfl, n6⟩ := cons_of_le n5
    obtain ⟨d2, rs7, rfl, n7⟩ := cons_of_le n6
    obtain ⟨d3, rs8, rfl, n8⟩ := cons_of_le n7
    obtain ⟨r0, rs9, rfl, n9⟩ := cons_of_le n8
    obtain ⟨r1, rs10, rfl, n10⟩ := cons_of_le n9
    obtain ⟨r2, rs11, rfl, n11⟩ := cons_of_le n10
    obtain ⟨r3, rs12, rfl, n12⟩ := cons_of_le n11
    obtain ⟨r4, rs13, rfl, n13⟩ := cons_of_le n12
    obtain ⟨r5, rs14, rfl, n14⟩ := cons_of_le n13
    obtain ⟨r6, rs15, rfl, n15⟩ := cons_of_le n14
    rw [front_codes] at h3' h4
    rw [front_described] at h4
    rw [List.length_map] at h4
    have hne : quadsOf d0 d1 d2 d3 ≠ [] → 1 ≤ t.toNat ∧ t.toNat ≤ 5 := fun hq => h3' (by simpa using hq)
    obtain ⟨apps, hap⟩ := (applications_isOk (Bf.ofByte t) as (quadsOf d0 d1 d2 d3) 0).2
      ⟨fun hq x => (known_iff t x).1 (hne hq), fun _ => by rw [Nat.zero_add]; exact h4⟩
    refine ⟨config, apps, ⟨r0, r1, r2, r3, r4, r5, r6⟩,
      ⟨c, m, as, d0, d1, d2, d3, rs15, rfl, by simpa using h1, by simpa using h2, t, h3, hap⟩, fun p hp => ?_⟩
    rw [good_iff, applications_length hap, ← front_described]
    by_cases h0 : p.1.toNat / 16 = 0
    · omega
    · exact h5 p.2 _ ⟨h0, p.1, List.mem_zipIdx_iff_getElem?.1 hp, rfl⟩
  · rintro ⟨config, apps, r, ⟨c, m, as, d0, d1, d2, d3, more, rfl, l0, l1, t, ht, hap⟩, hg⟩
    obtain ⟨k1, k2⟩ := (applications_isOk _ _ _ _).1 ⟨apps, hap⟩
    refine ⟨by simpa using l0, by simpa using l1, ⟨t, ht, ?_⟩, ?_, ?_, by simp⟩
    · rw [front_codes]
      intro hq
      exact (known_iff t 0).2 (k1 (by simpa using hq) 0)
    · rw [front_codes, front_described, List.length_map]
      by_cases hq : quadsOf d0 d1 d2 d3 = []
      · simp [hq]
      · have := k2 hq
        rw [Nat.zero_add] at this
        exact this
    · rintro i s ⟨_, x, hx, rfl⟩
      rw [front_described, ← applications_length hap]
      exact (good_iff apps (x, i)).1 (hg (x, i) (List.mem_zipIdx_iff_getElem?.2 hx))

/-- The lanes that are looked at, of the reads. -/
theorem flat_assigned {rs config apps r} (h : Front rs config apps r) (i s : Nat) :
    AssignedTo rs i s ↔ ∃ x ∈ flat (config.zipIdx.foldl (activatePure apps) []), x.2.2.toNat = i ∧ x.1.toNat = s := by
  obtain ⟨⟨c, m, as, d0, d1, d2, d3, more, rfl, l0, l1, t, ht, hap⟩, hg⟩ := h
  constructor
  · rintro ⟨h0, x, hx, rfl⟩
    have hi : i < 8 := l1 ▸ (List.getElem?_eq_some_iff.1 (show config[i]? = some x from hx)).1
    have hk : appSelectCode x ≠ 0 := fun h => h0 (by rw [← select_toNat, h]; rfl)
    obtain ⟨app, hm⟩ := (flat_mem hg (appSelectCode x) (BitVec.ofNat 8 i)).2 ⟨hk, x, i, hx, rfl, rfl⟩
    exact ⟨_, hm, by simp; omega, select_toNat x⟩
  · rintro ⟨⟨k, app, lane⟩, hm, rfl, rfl⟩
    obtain ⟨hk, x, j, hx, rfl, rfl⟩ := (flat_mem hg k lane).1 ⟨app, hm⟩
    have hj : j < 8 := l1 ▸ (List.getElem?_eq_some_iff.1 hx).1
    have : (BitVec.ofNat 8 j : U8).toNat = j := by simp; omega
    refine ⟨fun h => hk (BitVec.eq_of_toNat_eq (by rw [h]; rfl)), x, ?_, (select_toNat x).symm⟩
    simp only [this]
    exact hx

theorem front_lane {rs config apps r} (h : Front rs config apps r) (lane : U8) :
    (IsOk (laneStatusOf r lane) ↔ LaneRead rs lane.toNat) ∧ (IsErr (laneStatusOf r lane) ↔ LaneUnknown rs lane.toNat) := by
  obtain ⟨⟨c, m, as, d0, d1, d2, d3, more, rfl, l0, l1, t, ht, hap⟩, hg⟩ := h
  rw [laneStatus_isOk, laneStatus_isErr]
  have hr : Reached r lane ↔ StateReached (c :: config :: m :: as :: d0 :: d1 :: d2 :: d3 :: r.support :: r.controls0 ::
      r.controls1 :: r.datapathState :: r.laneStatus :: r.txLaneFlags :: r.rxLaneFlags :: more) lane.toNat :=
    ⟨fun ⟨a, b, c, d, e, f, g⟩ => ⟨a, b, c, d, e, f, g⟩, fun ⟨a, b, c, d, e, f, g⟩ => ⟨a, b, c, d, e, f, g⟩⟩
  exact ⟨and_congr hr Iff.rfl, and_congr hr Iff.rfl⟩

theorem parseCmis_isOk (rs : List Bytes) :
    IsOk (parseCmis rs) ↔ FrontOk rs ∧ ∀ i s, AssignedTo rs i s → LaneRead rs i := by
  have main {config apps r} (hf : Front rs config apps r) :
      IsOk (parseCmis rs) ↔ ∀ i s, AssignedTo rs i s → LaneRead rs i := by
    obtain ⟨cn, sp, hp⟩ := front_run hf
    rw [hp, isOk_bind]
    have : IsOk (datapathsOf r (config.zipIdx.foldl (activatePure apps) [])) ↔ ∀ i s, AssignedTo rs i s → LaneRead rs i := by
      unfold datapathsOf
      rw [datapathsOf_flat, foldlM_isOk (good := fun x => LaneRead rs x.2.2.toNat)
        (fun b x => (addLane_ok _ _ _ _ _).trans (front_lane hf x.2.2).1)]
      constructor
      · intro h i s ha
        obtain ⟨x, hx, rfl, _⟩ := (flat_assigned hf i s).1 ha
        exact h x hx
      · intro h x hx
        exact h _ _ ((flat_assigned hf _ _).2 ⟨x, hx, rfl, rfl⟩)
    rw [← this]
    exact ⟨fun ⟨a, ha, _⟩ => ⟨a, ha⟩, fun ⟨a, ha⟩ => ⟨a, ha, _, rfl⟩⟩
  constructor
  · intro h
    obtain ⟨config, apps, r, hf⟩ := front_of (rs := rs) (by obtain ⟨v, h⟩ := h; rw [h]; simp)
    exact ⟨(front_iff rs).2 ⟨config, apps, r, hf⟩, (main hf).1 h⟩
  · rintro ⟨h1, h2⟩
    obtain ⟨config, apps, r, hf⟩ := (front_iff rs).1 h1
    exact (main hf).2 h2

theorem parseCmis_isErr (rs : List Bytes) :
    IsErr (parseCmis rs) ↔ FrontOk rs ∧ ∃ i s, AssignedTo rs i s ∧ LaneUnknown rs i ∧
      ∀ j t, AssignedTo rs j t → Sooner j t i s → LaneRead rs j := by
  have main {config apps r} (hf : Front rs config apps r) :
      IsErr (parseCmis rs) ↔ ∃ i s, AssignedTo rs i s ∧ LaneUnknown rs i ∧
      ∀ j t, AssignedTo rs j t → Sooner j t i s → LaneRead rs j := by
    obtain ⟨cn, sp, hp⟩ := front_run hf
    rw [hp, isErr_bind]
    have hlen : config.length = 8 := by obtain ⟨⟨c, m, as, d0, d1, d2, d3, more, _, _, l1, _⟩, _⟩ := hf; exact l1
    have hord : (flat (config.zipIdx.foldl (activatePure apps) [])).Pairwise Earlier := by
      refine flat_ordered (active_inv apps _ hf.good).sorted (lanesIn_run apps config 0 [] List.Pairwise.nil ?_ (by omega))
      intro k e h; cases h
    have : IsErr (datapathsOf r (config.zipIdx.foldl (activatePure apps) [])) ↔ ∃ i s, AssignedTo rs i s ∧ LaneUnknown rs i ∧
        ∀ j t, AssignedTo rs j t → Sooner j t i s → LaneRead rs j := by
      unfold datapathsOf
      rw [datapathsOf_flat, foldlM_isErr (good := fun x => LaneRead rs x.2.2.toNat) (bad := fun x => LaneUnknown rs x.2.2.toNat)
        (fun b x => (addLane_ok _ _ _ _ _).trans (front_lane hf x.2.2).1)
        (fun b x => (addLane_err _ _ _ _ _).trans (front_lane hf x.2.2).2),
        split_first (R := Earlier) ?_ ?_ hord]
      · constructor
        · rintro ⟨x, hx, hb, hs⟩
          refine ⟨_, _, (flat_assigned hf _ _).2 ⟨x, hx, rfl, rfl⟩, hb, fun j t ha hj => ?_⟩
          obtain ⟨y, hy, rfl, rfl⟩ := (flat_assigned hf j t).1 ha
          exact hs y hy hj
        · rintro ⟨i, s, ha, hb, hs⟩
          obtain ⟨x, hx, rfl, rfl⟩ := (flat_assigned hf i s).1 ha
          exact ⟨x, hx, hb, fun y hy hyx => hs _ _ ((flat_assigned hf _ _).2 ⟨y, hy, rfl, rfl⟩) hyx⟩
      · intro x h
        unfold Earlier Sooner at h
        omega
      · intro x y h h'
        unfold Earlier Sooner at h h'
        omega
    rw [← this]
    refine ⟨?_, fun h => .inl h⟩
    rintro (h | ⟨a, _, e, h⟩)
    · exact h
    · cases h
  constructor
  · intro h
    obtain ⟨config, apps, r, hf⟩ := front_of (rs := rs) (by obtain ⟨v, h⟩ := h; rw [h]; simp)
    exact ⟨(front_iff rs).2 ⟨config, apps, r, hf⟩, (main hf).1 h⟩
  · rintro ⟨h1, h2⟩
    obtain ⟨config, apps, r, hf⟩ := (front_iff rs).1 h1
    exact (main hf).2 h2

/-- Among the assigned lanes that are not as they should be there is one looked at first. -/
theorem first_bad {rs : List Bytes} (hl : rs[1]?.map List.length = some 8) (h : ∃ i s, AssignedTo rs i s ∧ ¬ LaneRead rs i) :
    ∃ i s, AssignedTo rs i s ∧ ¬ LaneRead rs i ∧ ∀ j t, AssignedTo rs j t → Sooner j t i s → LaneRead rs j := by
  have hlt {i s} (ha : AssignedTo rs i s) : i < 8 := by
    obtain ⟨_, x, hx, _⟩ := ha
    unfold byteOf at hx
    have := (List.getElem?_eq_some_iff.1 hx).1
    cases hr : rs[1]? with
    | none => rw [hr] at hl; cases hl
    | some b =>
      rw [hr] at hl this
      simp at hl this
      omega
  obtain ⟨i, s, ha, hb⟩ := h
  -- descent on the place in the order
  suffices ∀ n i s, 8 * s + i < n → AssignedTo rs i s → ¬ LaneRead rs i →
      ∃ i s, AssignedTo rs i s ∧ ¬ LaneRead rs i ∧ ∀ j t, AssignedTo rs j t → Sooner j t i s → LaneRead rs j from
    this _ i s (Nat.lt_succ_self _) ha hb
  intro n
  induction n with
  | zero => intro i s h; omega
  | succ n ih =>
    intro i s hn ha hb
    apply Classical.byContradiction
    intro hc
    apply hc
    refine ⟨i, s, ha, hb, fun j t hj hs => ?_⟩
    apply Classical.byContradiction
    intro hr
    have := hlt hj
    have := hlt ha
    exact hc (ih j t (by unfold Sooner at hs; omega) hj hr)

theorem parseCmis_panic (rs : List Bytes) :
    parseCmis rs = .panic ↔ ¬ FrontOk rs ∨ ∃ i s, AssignedTo rs i s ∧ ¬ LaneRead rs i ∧ ¬ LaneUnknown rs i ∧
      ∀ j t, AssignedTo rs j t → Sooner j t i s → LaneRead rs j := by
  have h1 := parseCmis_isOk rs
  have h2 := parseCmis_isErr rs
  constructor
  · intro h
    rw [h] at h1 h2
    apply Classical.byContradiction
    intro hn
    have hf : FrontOk rs := Classical.byContradiction fun hf => hn (.inl hf)
    have hk : ¬ ∀ i s, AssignedTo rs i s → LaneRead rs i := fun hk => by
      obtain ⟨v, hv⟩ := h1.2 ⟨hf, hk⟩
      cases hv
    have : ∃ i s, AssignedTo rs i s ∧ ¬ LaneRead rs i := by
      apply Classical.byContradiction
      intro hx
      exact hk fun i s ha => Classical.byContradiction fun hr => hx ⟨i, s, ha, hr⟩
    obtain ⟨i, s, ha, hb, hs⟩ := first_bad hf.lanes this
    by_cases hu : LaneUnknown rs i
    · obtain ⟨e, he⟩ := h2.2 ⟨hf, i, s, ha, hu, hs⟩
      cases he
    · exact hn (.inr ⟨i, s, ha, hb, hu, hs⟩)
  · intro h
    cases hp : parseCmis rs with
    | panic => rfl
    | ok v =>
      obtain ⟨hf, hk⟩ := h1.1 ⟨v, hp⟩
      rcases h with h | ⟨i, s, ha, hb, _⟩
      · exact absurd hf h
      · exact absurd (hk i s ha) hb
    | err e =>
      obtain ⟨hf, i, s, ha, hu, hs⟩ := h2.1 ⟨e, hp⟩
      rcases h with h | ⟨j, t, hj, hb, hn, hs'⟩
      · exact absurd hf h
      · have hnr : ¬ LaneRead rs i := fun h => h.2.1 hu.2
        by_cases h1 : Sooner j t i s
        · exact absurd (hs j t hj h1) hb
        by_cases h2 : Sooner i s j t
        · exact absurd (hs' i s ha h2) hnr
        have : i = j := by unfold Sooner at h1 h2; omega
        subst this
        exact absurd hu hn

end Datapath

end Xcvr
