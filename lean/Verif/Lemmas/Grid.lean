import Verif.Spec.Grid
import Verif.Lemmas.Datapath

/-! # Lemmas: grids -/

namespace Xcvr

open Spec Cli

theorem find_unique {α : Type} {l : List α} {p : α → Bool} {x : α} (hx : x ∈ l) (hp : p x = true)
    (hu : ∀ y ∈ l, p y = true → y = x) : l.find? p = some x := by
  induction l with
  | nil => cases hx
  | cons a l ih =>
    rw [List.find?_cons]
    split
    · rename_i h
      rw [hu a List.mem_cons_self h]
    · rename_i h
      rcases List.mem_cons.1 hx with rfl | hx
      · rw [hp] at h; cases h
      · exact ih hx fun y hy => hu y (List.mem_cons_of_mem _ hy)

theorem zip_map_self {α β γ : Type} (f : α → β) (g : α → γ) (l : List α) :
    (l.map f).zip (l.map g) = l.map fun x => (f x, g x) := by
  induction l with
  | nil => rfl
  | cons x l ih => simp only [List.map_cons, List.zip_cons_cons, ih]

theorem unique_of_pairwise {α β : Type} {f : α → β} {l : List α} (h : l.Pairwise fun a b => f a ≠ f b) {a b : α}
    (ha : a ∈ l) (hb : b ∈ l) (he : f a = f b) : a = b := by
  induction l with
  | nil => cases ha
  | cons x l ih =>
    rw [List.pairwise_cons] at h
    rcases List.mem_cons.1 ha with h1 | h1 <;> rcases List.mem_cons.1 hb with h2 | h2
    · rw [h1, h2]
    · subst h1; exact absurd he (h.1 _ h2)
    · subst h2; exact absurd he.symm (h.1 _ h1)
    · exact ih h.2 h1 h2

theorem gridCell_of {L : Type} {lanes : List L} {h : L → List Char} {rows : List (List Char × (L → List Char))}
    (hn : rows.Pairwise fun a b => a.1 ≠ b.1) {r : List Char × (L → List Char)} (hr : r ∈ rows) {l : L} (hl : l ∈ lanes)
    (hi : ∀ x ∈ lanes, h x = h l → x = l) (h0 : h l ≠ []) :
    gridCell (([] :: lanes.map h) :: rows.map fun r => r.1 :: lanes.map r.2) r.1 (h l) = some (r.2 l) := by
  have hf : (rows.map fun r => r.1 :: lanes.map r.2).find? (fun x => x.head? == some r.1) =
      some (r.1 :: lanes.map r.2) := by
    refine find_unique (List.mem_map.2 ⟨r, hr, rfl⟩) (by simp) fun y hy hp => ?_
    obtain ⟨r', hr', rfl⟩ := List.mem_map.1 hy
    have he : r'.1 = r.1 := by simpa using hp
    rw [unique_of_pairwise hn hr' hr he]
  unfold gridCell
  dsimp only
  rw [hf]
  show (((([] : List Char) :: lanes.map h).zip (r.1 :: lanes.map r.2)).find? fun c => c.1 == h l).map Prod.snd = _
  rw [List.zip_cons_cons, List.find?_cons_of_neg (by simpa using h0), zip_map_self,
    find_unique (x := (h l, r.2 l)) (List.mem_map.2 ⟨l, hl, rfl⟩) (by simp)]
  · rfl
  · intro y hy hp
    obtain ⟨x, hx, rfl⟩ := List.mem_map.1 hy
    rw [hi x hx (by simpa using hp)]

theorem pairwise_lt_ext {l₁ l₂ : List Nat} (h₁ : l₁.Pairwise (· < ·)) (h₂ : l₂.Pairwise (· < ·))
    (h : ∀ x, x ∈ l₁ ↔ x ∈ l₂) : l₁ = l₂ := by
  induction l₁ generalizing l₂ with
  | nil =>
    cases l₂ with
    | nil => rfl
    | cons y l => exact absurd ((h y).2 List.mem_cons_self) (by simp)
  | cons x l ih =>
    cases l₂ with
    | nil => exact absurd ((h x).1 List.mem_cons_self) (by simp)
    | cons y l' =>
      rw [List.pairwise_cons] at h₁ h₂
      have hxy : x = y := by
        rcases List.mem_cons.1 ((h x).1 List.mem_cons_self) with h3 | h3
        · exact h3
        · rcases List.mem_cons.1 ((h y).2 List.mem_cons_self) with h4 | h4
          · exact h4.symm
          · have := h₂.1 _ h3
            have := h₁.1 _ h4
            omega
      subst hxy
      rw [ih h₁.2 h₂.2 fun z => ?_]
      constructor
      · intro hz
        rcases List.mem_cons.1 ((h z).1 (List.mem_cons_of_mem _ hz)) with h3 | h3
        · have := h₁.1 _ hz; omega
        · exact h3
      · intro hz
        rcases List.mem_cons.1 ((h z).2 (List.mem_cons_of_mem _ hz)) with h3 | h3
        · have := h₂.1 _ hz; omega
        · exact h3

theorem separated_intercalate (bs : List Lines) : separated bs = [([] : List Char)].intercalate bs := by
  match bs with
  | [] => rfl
  | [b] => simp [separated, List.intercalate, List.intersperse]
  | b :: c :: rest =>
    rw [separated, separated_intercalate (c :: rest)]
    simp [List.intercalate, List.intersperse, List.append_assoc]

/-! ## SFF-8636 -/

/-- The grid of four lanes, as rows of texts of a lane's number. -/
def sffGridRows (mem : ModuleMemory) : List (List Char × (Nat → List Char)) :=
  sffRows.map fun r => (r.1, fun k => boolText (r.2 (sffLaneFlags mem k)))

theorem sffGrid_eq (mem : ModuleMemory) : sffGrid ([0, 1, 2, 3].map (sffLaneFlags mem)) =
    ([] :: [0, 1, 2, 3].map laneName) :: (sffGridRows mem).map fun r => r.1 :: [0, 1, 2, 3].map r.2 := by
  rfl

theorem sffGridRows_eq (mem : ModuleMemory) (k : Nat) : (sffGridRows mem).map (fun r => (r.1, r.2 k)) =
    sffFlags.map fun f => (f.1, if bit (sffLow mem f.2.1) (f.2.2.1 + k) != f.2.2.2 then chars!"true" else chars!"false") := by
  have ht : ∀ b : Bool, boolText b = if b != false then chars!"true" else chars!"false" := by decide
  have hf : ∀ b : Bool, boolText (!b) = if b != true then chars!"true" else chars!"false" := by decide
  simp only [sffGridRows, sffRows, sffFlags, List.map_cons, List.map_nil, sffLaneFlags, Nat.add_comm k, Nat.zero_add, hf]
  simp only [ht]

theorem sffGrid_spec (mem : ModuleMemory) : SffGrid mem (sffGrid ([0, 1, 2, 3].map (sffLaneFlags mem))) := by
  refine ⟨rfl, rfl, ?_, fun f hf k hk => ?_⟩
  · rw [sffGrid_eq]
    intro r hr
    rcases List.mem_cons.1 hr with rfl | hr
    · rfl
    · obtain ⟨x, -, rfl⟩ := List.mem_map.1 hr
      rfl
  · have hm := List.mem_map_of_mem (f := fun f : List Char × Nat × Nat × Bool =>
      (f.1, if bit (sffLow mem f.2.1) (f.2.2.1 + k) != f.2.2.2 then chars!"true" else chars!"false")) hf
    rw [← sffGridRows_eq] at hm
    obtain ⟨r, hr, he⟩ := List.mem_map.1 hm
    injection he with h1 h2
    rw [sffGrid_eq, ← h1, ← h2]
    refine gridCell_of ?_ hr (by simp; omega) ?_ (by simp [laneName])
    · unfold sffGridRows
      rw [List.pairwise_map]
      exact (by decide : sffRows.Pairwise fun a b => a.1 ≠ b.1)
    · intro x hx h
      have h3 : ∀ x ∈ [0, 1, 2, 3], ∀ k < 4, laneName x = laneName k → x = k := by decide
      exact h3 x hx k hk h

/-! ## CMIS -/

theorem supportedText_given {α β : Type} (f : β → List Char) (g : α → β) (c : Bool) (y : α) :
    supportedText f ((given c y).map g) = if c then f (g y) else chars!"Unsupported" := by
  cases c <;> rfl

theorem supportedText_given' {α : Type} (f : α → List Char) (c : Bool) (y : α) :
    supportedText f (given c y) = if c then f y else chars!"Unsupported" := by
  cases c <;> rfl

theorem cmisRows_eq {mem : ModuleMemory} {i : Nat} {st : CmisLaneStatus} (h : LaneFlags mem i st) :
    cmisRows.tail.map (fun r => (r.1, r.2 st)) = cmisFlags.map fun f => (f.name, f.text mem i) := by
  obtain ⟨h1, h2, h3, h4, h5, h6, h7, h8, h9, h10, h11, h12, h13, h14, h15⟩ := h
  simp only [cmisRows, cmisFlags, CmisFlag.text, List.tail_cons, List.map_cons, List.map_nil, h1, h2, h3, h4, h5, h6, h7, h8,
    h9, h10, h11, h12, h13, h14, h15, advertised, supportedText_given, supportedText_given', Option.all_some,
    Option.all_none, if_true]
  have hb : ∀ (c y : Bool), (if c then boolText (!y) else chars!"Unsupported") =
    if c then (if y then chars!"false" else chars!"true") else chars!"Unsupported" := by decide
  have hb' : ∀ (c y : Bool), (if c then boolText y else chars!"Unsupported") =
    if c then (if y then chars!"true" else chars!"false") else chars!"Unsupported" := by decide
  have hs : ∀ (c y : Bool), (if c then squelchText y else chars!"Unsupported") =
    if c then (if y then chars!"Disabled" else chars!"Enabled") else chars!"Unsupported" := by decide
  have hp : ∀ (c y : Bool), (if c then LanePolarity.text (if y then .flipped else .normal) else chars!"Unsupported") =
    if c then (if y then chars!"Flipped" else chars!"Normal") else chars!"Unsupported" := by decide
  have ho : ∀ (y : Bool), OutputStatus.text (if y then .valid else .invalid) =
    if y then chars!"Valid" else chars!"Invalid" := by decide
  simp only [hb, hb', hs, hp, ho]

theorem assigned_lt (mem : ModuleMemory) (i : Nat) : assigned mem i < 16 := by
  unfold assigned
  have := (cmisBank0 mem 0x11 (206 + i)).isLt
  omega

theorem grouped_lanes {mem : ModuleMemory} {dps : List (U8 × CmisDatapath)} (h : Grouped mem dps) {e : U8 × CmisDatapath}
    (he : e ∈ dps) : (e.2.laneStatus.map fun l => l.1.toNat) = (lanesOf mem e.1.toNat).map (· + 1) := by
  refine pairwise_lt_ext ?_ ?_ fun x => ?_
  · rw [List.pairwise_map]
    exact (h.lanesIncreasing e he).2
  · rw [List.pairwise_map]
    refine List.Pairwise.imp (fun h => Nat.add_lt_add_right h 1) ?_
    exact List.Pairwise.filter _ List.pairwise_lt_range
  · simp only [List.mem_map, lanesOf, List.mem_filter, List.mem_range, beq_iff_eq]
    constructor
    · rintro ⟨l, hl, rfl⟩
      obtain ⟨i, h1, h2, h3, -⟩ := h.sound e he l hl
      exact ⟨i, ⟨h1, h3⟩, h2.symm⟩
    · rintro ⟨i, ⟨h1, h2⟩, rfl⟩
      obtain ⟨e', he', h3, l, hl, h4⟩ := h.complete i h1 (by rw [h2]; exact (h.application e he).1)
      have : e' = e := by
        rw [h2] at h3
        exact unique_of_pairwise (h.increasing.imp fun h => Nat.ne_of_lt h) he' he h3
      subst this
      exact ⟨l, hl, h4⟩

theorem grouped_applications {mem : ModuleMemory} {dps : List (U8 × CmisDatapath)} (h : Grouped mem dps) :
    (dps.map fun e => e.1.toNat) = applicationsUsed mem := by
  refine pairwise_lt_ext ?_ ?_ fun x => ?_
  · rw [List.pairwise_map]
    exact h.increasing
  · exact List.Pairwise.filter _ List.pairwise_lt_range
  · simp only [List.mem_map, applicationsUsed, List.mem_filter, List.mem_range, List.any_eq_true, Bool.and_eq_true,
      beq_iff_eq, bne_iff_ne]
    constructor
    · rintro ⟨e, he, rfl⟩
      obtain ⟨l, hl⟩ := List.exists_mem_of_ne_nil _ (h.lanesIncreasing e he).1
      obtain ⟨i, h1, h2, h3, -⟩ := h.sound e he l hl
      refine ⟨?_, (h.application e he).1, i, h1, h3⟩
      rw [← h3]
      exact assigned_lt mem i
    · rintro ⟨h1, h2, i, h3, h4⟩
      obtain ⟨e, he, h5, -⟩ := h.complete i h3 (by rw [h4]; exact h2)
      exact ⟨e, he, h5.trans h4⟩

theorem decimal_lane : ∀ x : U8, x.toNat < 10 → chars!"Lane " ++ decimal x = laneName x.toNat := by
  intro x hx
  unfold decimal laneName
  rw [if_pos hx]

theorem laneName_inj : ∀ i < 8, ∀ k < 8, laneName (i + 1) = laneName (k + 1) → i = k := by decide

theorem cmisGrid_spec {mem : ModuleMemory} {dps : List (U8 × CmisDatapath)} (h : Grouped mem dps) {e : U8 × CmisDatapath}
    (he : e ∈ dps) : CmisGrid mem e.1.toNat (cmisGrid e.2.laneStatus) := by
  have hk := grouped_lanes h he
  have hlen : e.2.laneStatus.length = (lanesOf mem e.1.toNat).length := by
    have := congrArg List.length hk
    simpa using this
  have hname : ∀ l ∈ e.2.laneStatus, l.1.toNat < 10 := by
    intro l hl
    obtain ⟨i, h1, h2, -⟩ := h.sound e he l hl
    omega
  have hhead : (e.2.laneStatus.map fun l => chars!"Lane " ++ decimal l.1) =
      e.2.laneStatus.map fun l => laneName l.1.toNat :=
    List.map_congr_left fun l hl => decimal_lane _ (hname l hl)
  refine ⟨?_, rfl, ?_, fun f hf i hi => ?_⟩
  · show some (_ :: _) = _
    rw [hhead, show (fun l : U8 × CmisLaneStatus => laneName l.1.toNat) = laneName ∘ fun l => l.1.toNat from rfl,
      ← List.map_map, hk, List.map_map]
    rfl
  · intro r hr
    rw [← hlen]
    rcases List.mem_cons.1 hr with rfl | hr
    · simp
    · obtain ⟨x, -, rfl⟩ := List.mem_map.1 hr
      simp
  · have : i + 1 ∈ e.2.laneStatus.map fun l => l.1.toNat := by
      rw [hk]
      exact List.mem_map.2 ⟨i, hi, rfl⟩
    obtain ⟨l, hl, hli⟩ := List.mem_map.1 this
    obtain ⟨j, h1, h2, h3, h4⟩ := h.sound e he l hl
    have : j = i := by omega
    subst this
    have hm := List.mem_map_of_mem (f := fun f : CmisFlag => (f.name, f.text mem j)) hf
    rw [← cmisRows_eq h4] at hm
    obtain ⟨r, hr, hre⟩ := List.mem_map.1 hm
    injection hre with h5 h6
    have hg : cmisGrid e.2.laneStatus = ([] :: e.2.laneStatus.map fun l => laneName l.1.toNat) ::
        (cmisRows.map fun r => (r.1, fun l : U8 × CmisLaneStatus => r.2 l.2)).map fun r =>
          r.1 :: e.2.laneStatus.map r.2 := by
      unfold cmisGrid
      rw [hhead, List.map_map]
      rfl
    rw [hg, ← h5, ← h6, ← hli]
    refine gridCell_of (h := fun l : U8 × CmisLaneStatus => laneName l.1.toNat)
      (r := (r.1, fun l : U8 × CmisLaneStatus => r.2 l.2)) ?_
      (List.mem_map.2 ⟨r, List.mem_of_mem_tail hr, rfl⟩) hl ?_ (by simp [laneName])
    · rw [List.pairwise_map]
      exact (by decide : cmisRows.Pairwise fun a b => a.1 ≠ b.1)
    · intro x hx hxl
      obtain ⟨j', h1', h2', -⟩ := h.sound e he x hx
      rw [h2', h2] at hxl
      have := laneName_inj _ h1' _ h1 hxl
      exact unique_of_pairwise (f := fun l : U8 × CmisLaneStatus => l.1.toNat)
        ((h.lanesIncreasing e he).2.imp fun h => Nat.ne_of_lt h) hx hl (by rw [h2', h2, this])

theorem lanesText_eq (mem : ModuleMemory) : lanesText (~~~ (cmisUp mem 0 209)) = supportedLanes mem := by
  unfold supportedLanes
  generalize cmisUp mem 0 209 = x
  revert x
  decide +kernel

theorem media_text {t x : U8} {m : MediaInterfaceId} (h : MediaInterfaceId.fromU8 (Bf.ofByte t) x = some m) :
    (1 ≤ t.toNat ∧ t.toNat ≤ 5) ∧ mediaText m = mediaNamed t x := by
  refine ⟨(Datapath.known_iff t x).2 (by rw [h]; simp), ?_⟩
  have hk (y : U8) : ((Bf.ofByte y : MediaType) = MediaType.multiModeFiber ↔ y.toNat = 1) ∧
      ((Bf.ofByte y : MediaType) = MediaType.singleModeFiber ↔ y.toNat = 2) ∧
      ((Bf.ofByte y : MediaType) = MediaType.passiveCopper ↔ y.toNat = 3) ∧
      ((Bf.ofByte y : MediaType) = MediaType.activeCable ↔ y.toNat = 4) ∧
      ((Bf.ofByte y : MediaType) = MediaType.baseT ↔ y.toNat = 5) := by
    revert y; decide +kernel
  obtain ⟨h1, h2, h3, h4, h5⟩ := hk t
  unfold MediaInterfaceId.fromU8 at h
  simp only [h1, h2, h3, h4, h5] at h
  unfold mediaNamed
  split at h
  · rename_i e; rw [e]; cases h; rfl
  split at h
  · rename_i e; rw [e]; cases h; rfl
  split at h
  · rename_i e; rw [e]; cases h; rfl
  split at h
  · rename_i e; rw [e]; cases h; rfl
  split at h
  · rename_i e; rw [e]; cases h; rfl
  · cases h

theorem datapathBlock_cmis {fmt : Fmt} {mem : ModuleMemory} {dps : List (U8 × CmisDatapath)} (h : Grouped mem dps) :
    ∃ apps, Pairs (ApplicationText fmt mem) (applicationsUsed mem) apps ∧
      (dps.map fun d => cmisApplication fmt (~~~ (cmisUp mem 0 209)) d.1 d.2).flatten = apps.flatten := by
  refine ⟨_, ?_, rfl⟩
  rw [← grouped_applications h]
  have : ∀ l : List (U8 × CmisDatapath), (∀ e ∈ l, e ∈ dps) →
      Pairs (ApplicationText fmt mem) (l.map fun e => e.1.toNat)
        (l.map fun d => cmisApplication fmt (~~~ (cmisUp mem 0 209)) d.1 d.2) := by
    intro l
    induction l with
    | nil => exact fun _ => .nil
    | cons e l ih =>
      intro hl
      have he := hl e List.mem_cons_self
      obtain ⟨hk, hh, hm, _⟩ := h.application e he
      obtain ⟨hn, ht⟩ := media_text hm
      refine .cons ⟨cmisGrid e.2.laneStatus, hk, hn, cmisGrid_spec h he, ?_⟩
        (ih fun e' h' => hl e' (List.mem_cons_of_mem _ h'))
      unfold cmisApplication
      dsimp only
      have h0 : e.2.laneStatus.isEmpty = false := by
        rw [List.isEmpty_eq_false_iff]
        exact (h.lanesIncreasing e he).1
      rw [h0, lanesText_eq, BitVec.ofNat_toNat, BitVec.setWidth_eq, hh, ht]
      rfl
  exact this dps fun _ h => h

end Xcvr
