import Verif.Lemmas.Calls

/-! # Lemmas about identifying modules -/

namespace Xcvr

open Spec Prog Controller

theorem readsOf_of_split {m : ModuleId} {rd : MemoryRead} (hlen : rd.len ≠ 0) {gs : List ModuleId} {t : List Exchange}
    (hg : splitLargeReads m rd = .ok gs) (ht : t.map Prod.fst = gs.map fun g => Call.host (.read g rd)) :
    ReadsOf m rd t := by
  obtain ⟨gs', g1, g2, g3⟩ := splitLargeReads_spec m rd hlen
  rw [hg] at g1
  simp only [Exec.ok.injEq] at g1
  subst g1
  have hsf := split_facts g2
  refine ⟨gs, ⟨hsf.1, hsf.2, fun g hg => ?_⟩, ht⟩
  obtain ⟨i, hi⟩ := List.exists_mem_of_ne_nil _ (g3 g hg).1
  exact ⟨_, mem_toIndices.1 hi⟩

theorem readsOf_mem {m : ModuleId} {rd : MemoryRead} {t : List Exchange} (h : ReadsOf m rd t) {x : Exchange}
    (hx : x ∈ t) : ∃ g, x.1 = Call.host (.read g rd) := by
  obtain ⟨gs, -, h⟩ := h
  have : x.1 ∈ t.map Prod.fst := List.mem_map_of_mem hx
  rw [h] at this
  obtain ⟨g, -, hg⟩ := List.mem_map.1 this
  exact ⟨g, hg.symm⟩

theorem okIn_length_of {x : Exchange} {g : ModuleId} {rd : MemoryRead} (hx : requestOf x = some (.read g rd))
    (hc : Conforms x) {p : Nat} {b : Bytes} (h : okIn x p = some b) : b.length = rd.len.toNat := by
  obtain ⟨q, R, data, h1, h2, ha⟩ := hc
  have hq : q = .read g rd := Option.some.inj (h1.symm.trans hx)
  subst hq
  have hk := ha.kind
  cases R with
  | read s f rd' =>
    simp only [SameKind] at hk
    subst hk
    unfold okIn at h
    rw [h2] at h
    cases data with
    | none => simp at h
    | some d =>
      have hsz := ha.size
      simp only [Option.map_some, expectedTrailing, Option.some.injEq] at hsz
      simp only [record, responseModules, recordSize] at h
      split at h
      · rename_i hp
        simp only [Option.some.injEq] at h
        subst h
        have : rank s p * rd'.len.toNat + rd'.len.toNat ≤ card s * rd'.len.toNat := by
          rw [← Nat.succ_mul]; exact Nat.mul_le_mul_right _ (rank_lt_card hp)
        rw [List.length_take, List.length_drop]
        omega
      · simp at h
  | _ => simp [SameKind] at hk

theorem okIn_length {x : Exchange} {g : ModuleId} {rd : MemoryRead} (hx : x.1 = Call.host (.read g rd))
    (hc : Conforms x) {p : Nat} {b : Bytes} (h : okIn x p = some b) : b.length = rd.len.toNat :=
  okIn_length_of (by unfold requestOf; rw [hx]; rfl) hc h

theorem okAmong_length {m : ModuleId} {rd : MemoryRead} {t : List Exchange} (h : ReadsOf m rd t) (hc : Conforming t)
    {p : Nat} {b : Bytes} (hb : okAmong t p = some b) : b.length = rd.len.toNat := by
  unfold okAmong at hb
  obtain ⟨x, hx, hb⟩ := List.exists_of_findSome?_eq_some hb
  obtain ⟨g, hg⟩ := readsOf_mem h hx
  exact okIn_length hg (hc x hx) hb

theorem reports_data {P : Type} {f : Bytes → P} {m : ModuleId} {t : List Exchange} {res : Res P}
    (h : Reports f m t res) {y : P} (hy : y ∈ res.data) : ∃ p b, okAmong t p = some b ∧ y = f b := by
  obtain ⟨i, hi, rfl⟩ := List.mem_iff_getElem.1 hy
  have hi' : i < card res.modules := by
    have : res.data.length = card res.modules := h.wf.1
    omega
  obtain ⟨p, hp, rfl⟩ := exists_rank hi'
  have hok := h.ok p
  have : okAt res p = some res.data[rank res.modules p] := by
    unfold okAt datum
    rw [if_pos hp, List.getElem?_eq_getElem hi]
  rw [this] at hok
  cases hb : okAmong t p with
  | none => rw [hb] at hok; simp at hok
  | some b =>
    rw [hb] at hok
    simp only [Option.map_some, Option.some.injEq] at hok
    exact ⟨p, b, hb, hok⟩

theorem reports_map {P Q : Type} {f : Bytes → P} {m : ModuleId} {t : List Exchange} {res : Res P}
    (h : Reports f m t res) (g : P → Q) : Reports (fun b => g (f b)) m t ⟨res.modules, res.data.map g, res.failures⟩ where
  wf := ⟨by
    show _ = _
    rw [List.length_map]
    exact h.wf.1, h.wf.2⟩
  split := h.split
  ok p := by
    show datum _ _ _ = _
    rw [datum_map]
    have := h.ok p
    unfold okAt at this
    rw [this, Option.map_map]
    rfl
  err := h.err

theorem readImpl_reports {m : ModuleId} {rd : MemoryRead} (hlen : rd.len ≠ 0) {t : List Exchange}
    {o : Exec CtlError (Res Bytes)} (h : Runs (readImpl m rd) t o) (hc : Conforming t) :
    ∃ res, o = .ok res ∧ ReadsOf m rd t ∧ Reports id m t res := by
  obtain ⟨res, gs, h1, h2, h3, h4⟩ := readImpl_spec hlen h hc
  exact ⟨res, h1, readsOf_of_split hlen h2 h3, h4⟩

theorem identifierOf_map {l : List Bytes} (h : ∀ b ∈ l, b ≠ []) :
    l.mapM identifierOf = .ok (l.map fun b => Bf.ofByte (b.headD 0)) := by
  induction l with
  | nil => rfl
  | cons a l ih =>
    cases a with
    | nil => exact absurd rfl (h [] List.mem_cons_self)
    | cons x a =>
      rw [List.mapM_cons, ih fun b hb => h b (List.mem_cons_of_mem _ hb)]
      rfl

theorem identifier_bytes {m : ModuleId} {t : List Exchange} {o : Exec CtlError (Res Identifier)}
    (h : Runs (identifier m) t o) (hc : Conforming t) :
    ∃ s bytes f, o = .ok ⟨s, bytes.map Bf.ofByte, f⟩ ∧ ReadsOf m identifierByte t ∧
      Reports (fun b => b.headD 0) m t ⟨s, bytes, f⟩ ∧ ∀ p, okAmong t p = (datum s bytes p).map fun b => [b] := by
  unfold identifier at h
  rw [identifierRead_eq, ofExec_ok, ret_bind] at h
  obtain ⟨t₁, t₂, a, rfl, h1, hc1, h2, -⟩ := runs_bind_ok h hc fun t o h hc => by
    obtain ⟨res, rfl, -⟩ := readImpl_reports (rd := identifierByte) (by decide) h hc
    exact ⟨_, rfl⟩
  obtain ⟨res, h3, h4, h5⟩ := readImpl_reports (rd := identifierByte) (by decide) h1 hc1
  simp only [Exec.ok.injEq] at h3
  subst h3
  rw [identifierOf_map] at h2
  · simp only [ofExec_ok, ret_bind, pure_eq, runs_ret] at h2
    obtain ⟨rfl, rfl⟩ := h2
    rw [List.append_nil]
    refine ⟨a.modules, a.data.map fun b : Bytes => b.headD (0 : U8), a.failures, by rw [List.map_map]; rfl, h4,
      reports_map h5 fun b => b.headD 0, fun p => ?_⟩
    have hok := h5.ok p
    unfold okAt at hok
    rw [datum_map, hok, Option.map_id]
    cases hb : okAmong t₁ p with
    | none => rfl
    | some b =>
      have hl := okAmong_length h4 hc1 hb
      match b, hl with
      | [x], _ => rfl
  · intro b hb
    obtain ⟨p, b', h6, rfl⟩ := reports_data h5 hb
    have := okAmong_length h4 hc1 h6
    intro h0
    rw [h0] at this
    simp [identifierByte] at this

theorem identifier_spec {m : ModuleId} {t : List Exchange} {o : Exec CtlError (Res Identifier)}
    (h : Runs (identifier m) t o) (hc : Conforming t) :
    ∃ res, o = .ok res ∧ ReadsOf m identifierByte t ∧ Reports (fun b => Bf.ofByte (b.headD 0)) m t res := by
  obtain ⟨s, bytes, f, h1, h2, h3, -⟩ := identifier_bytes h hc
  exact ⟨_, h1, h2, reports_map h3 Bf.ofByte⟩

/-! ## Checking kinds -/

theorem verify_code : ∀ b : U8,
    (decide ((Bf.ofByte b : Identifier) = Identifier.qsfp28) || decide ((Bf.ofByte b : Identifier) = Identifier.qsfpPlusSff8636)) =
      (interfaceOfCode b == some .sff8636) ∧
    (decide ((Bf.ofByte b : Identifier) = Identifier.qsfpDD) || decide ((Bf.ofByte b : Identifier) = Identifier.qsfpPlusCmis)) =
      (interfaceOfCode b == some .cmis) := by
  decide +kernel

theorem verifyIds_eq (page : Page) (m : ModuleId) (bytes : List U8) :
    verifyIdsForPage page m (bytes.map Bf.ofByte) =
      match (m.toIndices.zip bytes).find? fun x => !(interfaceOfCode x.2 == some page.managementInterface) with
      | none => .ok ()
      | some (i, b) => .err (.transceiver (.invalidInterfaceForModule i (Bf.ofByte b) page.managementInterface)) := by
  have hfind : ∀ (w : Identifier → Bool) (v : U8 → Bool), (∀ b, w (Bf.ofByte b) = v b) → ∀ l : List U8,
      (l.zip (bytes.map Bf.ofByte)).find? (fun x => w x.2) =
        ((l.zip bytes).find? fun x => v x.2).map fun x => (x.1, (Bf.ofByte x.2 : Identifier)) := by
    intro w v hwv l
    induction l generalizing bytes with
    | nil => rfl
    | cons a l ih =>
      cases bytes with
      | nil => rfl
      | cons b bytes =>
        simp only [List.map_cons, List.zip_cons_cons, List.find?_cons, hwv]
        cases v b with
        | true => rfl
        | false => exact ih bytes
  unfold verifyIdsForPage
  cases page with
  | sff8636 p =>
    simp only [Page.managementInterface]
    rw [hfind (fun ident => !(decide (ident = Identifier.qsfp28) || decide (ident = Identifier.qsfpPlusSff8636)))
      (fun b => !(interfaceOfCode b == some .sff8636)) (fun b => by rw [← (verify_code b).1])]
    cases (m.toIndices.zip bytes).find? fun x => !(interfaceOfCode x.2 == some .sff8636) <;> rfl
  | cmis p =>
    simp only [Page.managementInterface]
    rw [hfind (fun ident => !(decide (ident = Identifier.qsfpDD) || decide (ident = Identifier.qsfpPlusCmis)))
      (fun b => !(interfaceOfCode b == some .cmis)) (fun b => by rw [← (verify_code b).2])]
    cases (m.toIndices.zip bytes).find? fun x => !(interfaceOfCode x.2 == some .cmis) <;> rfl

/-- What the check of kinds finds, in terms of the identification exchanges. -/
theorem verify_cases (page : Page) {s : ModuleId} {bytes : List U8} {t : List Exchange}
    (hb : ∀ p, okAmong t p = (datum s bytes p).map fun b => [b]) :
    (verifyIdsForPage page s (bytes.map Bf.ofByte) = .ok () ∧
      ∀ p b, okAmong t p = some [b] → interfaceOfCode b = some page.managementInterface) ∨
    ∃ i b, verifyIdsForPage page s (bytes.map Bf.ofByte) =
        .err (.transceiver (.invalidInterfaceForModule i (Bf.ofByte b) page.managementInterface)) ∧
      okAmong t i.toNat = some [b] ∧ interfaceOfCode b ≠ some page.managementInterface ∧
      ∀ q b', q < i.toNat → okAmong t q = some [b'] → interfaceOfCode b' = some page.managementInterface := by
  rw [verifyIds_eq]
  have hmem : ∀ (i : U8) (b : U8), (i, b) ∈ s.toIndices.zip bytes ↔ okAmong t i.toNat = some [b] := by
    intro i b
    rw [mem_zip_iff_datum, hb]
    cases datum s bytes i.toNat <;> simp
  have hport : ∀ p b, okAmong t p = some [b] → ∃ i : U8, i.toNat = p := by
    intro p b hp
    rw [hb] at hp
    cases hd : datum s bytes p with
    | none => rw [hd] at hp; simp at hp
    | some y => exact ⟨BitVec.ofNat 8 p, ofNat_toNat_lt (datum_lt hd)⟩
  cases hf : (s.toIndices.zip bytes).find? fun x => !(interfaceOfCode x.2 == some page.managementInterface) with
  | none =>
    left
    refine ⟨rfl, fun p b hp => ?_⟩
    obtain ⟨i, rfl⟩ := hport p b hp
    rw [List.find?_eq_none] at hf
    have := hf (i, b) ((hmem i b).2 hp)
    simpa using this
  | some x =>
    obtain ⟨i, b⟩ := x
    right
    rw [List.find?_eq_some_iff_append] at hf
    obtain ⟨h1, as, bs, h2, h3⟩ := hf
    refine ⟨i, b, rfl, (hmem i b).1 (by rw [h2]; simp), by simpa using h1, fun q b' hq hok => ?_⟩
    obtain ⟨j, rfl⟩ := hport q b' hok
    have hj := (hmem j b').2 hok
    have hs := zip_sorted s bytes
    rw [h2, List.map_append, List.map_cons, List.pairwise_append, List.pairwise_cons] at hs
    rw [h2] at hj
    rcases List.mem_append.1 hj with hj | hj
    · have := h3 _ hj
      simpa using this
    · exfalso
      rcases List.mem_cons.1 hj with hj | hj
      · simp only [Prod.mk.injEq] at hj
        rw [hj.1] at hq
        exact Nat.lt_irrefl _ hq
      · have := hs.2.1.1 j (List.mem_map.2 ⟨_, hj, rfl⟩)
        simp only [BitVec.lt_def] at this
        omega

/-! ## Chaining steps -/

theorem reportsLast_of {P : Type} {f : Bytes → P} {m : ModuleId} {t : List Exchange} {a : Res P} (h : Reports f m t a) :
    ReportsLast f m [] t a := ⟨h.wf, h.split, h.ok, h.err⟩

theorem aligned_merge {E : Type} {a b : FailedModules E} (ha : Aligned a.modules a.errors)
    (hb : Aligned b.modules b.errors) : Aligned (a.merge b).modules (a.merge b).errors :=
  (mergeModuleData_pairs ha hb).1

theorem reportsLast_step {P Q : Type} {f : Bytes → P} {g : Bytes → Q} {m : ModuleId} {t₀ t₁ t₂ : List Exchange}
    {a : Res P} {b : Res Q} (ha : ReportsLast f m t₀ t₁ a) (hb : Reports g a.modules t₂ b) :
    ReportsLast g m (t₀ ++ t₁) t₂ ⟨b.modules, b.data, a.failures.merge b.failures⟩ := by
  have hmem : ∀ p, Mem (a.failures.merge b.failures).modules p ↔ Mem a.failures.modules p ∨ Mem b.failures.modules p :=
    fun p => mem_merge
  have hsplit : Partition m b.modules (a.failures.merge b.failures).modules := by
    intro p
    have h1 := ha.split p
    have h2 := hb.split p
    have h3 := hmem p
    grind
  refine ⟨⟨hb.wf.1, aligned_merge ha.wf.2.1 hb.wf.2.1, fun p => (hsplit p).2⟩, hsplit, hb.ok, fun p => ?_⟩
  show datum _ _ _ = _
  have h1 := ha.err p
  have h2 := hb.err p
  have h3 : datum (a.failures.merge b.failures).modules (a.failures.merge b.failures).errors p =
    (datum b.failures.modules b.failures.errors p).or (datum a.failures.modules a.failures.errors p) :=
    datum_mergeModuleData ha.wf.2.1 hb.wf.2.1 p
  unfold errAt at h1 h2
  rw [h3, errAmong_append, ← h1, ← h2]
  by_cases hp : Mem b.failures.modules p
  · have : ¬ Mem a.failures.modules p := fun hpa =>
      (ha.split p).2 ⟨((hb.split p).1).2 (.inr hp), hpa⟩
    rw [datum_none this]
    cases datum b.failures.modules b.failures.errors p <;> rfl
  · rw [datum_none hp]
    cases datum a.failures.modules a.failures.errors p <;> rfl

/-! ## Results are aligned whatever the SP answers -/

theorem runs_ofExec_bind_ok {α β : Type} {x : Exec CtlError α} {f : α → Prog β} {t : List Exchange} {b : β}
    (h : Runs (ofExec x >>= f) t (.ok b)) : ∃ a, x = .ok a ∧ Runs (f a) t (.ok b) := by
  cases x with
  | ok a => exact ⟨a, rfl, h⟩
  | err e => simp at h
  | panic => simp at h

theorem runs_bind_okay {α β : Type} {p : Prog α} {f : α → Prog β} {t : List Exchange} {b : β}
    (h : Runs (p >>= f) t (.ok b)) : ∃ t₁ t₂ a, t = t₁ ++ t₂ ∧ Runs p t₁ (.ok a) ∧ Runs (f a) t₂ (.ok b) := by
  rcases runs_bind.1 h with h | ⟨e, -, h⟩ | ⟨-, h⟩
  · exact h
  · cases h
  · cases h

theorem aligned_one {m : ModuleId} {rd : MemoryRead} {t : List Exchange} {res : Res Bytes}
    (h : Runs (readImplOneMessage m rd) t (.ok res)) : Aligned res.modules res.data := by
  by_cases hf : fitsInOneMessage m rd = true
  · rw [readImplOneMessage_eq (fits_iff.1 hf)] at h
    obtain ⟨t₁, t₂, resp, rfl, -, h⟩ := runs_bind_okay h
    split at h
    · obtain ⟨d, -, h⟩ := runs_ofExec_bind_ok h
      obtain ⟨n, -, h⟩ := runs_ofExec_bind_ok h
      obtain ⟨x, -, h⟩ := runs_ofExec_bind_ok h
      obtain ⟨cs, -, h⟩ := runs_ofExec_bind_ok h
      dsimp only at h
      split at h
      · simp at h
      · rename_i hl
        obtain ⟨fl, -, h⟩ := runs_ofExec_bind_ok h
        simp only [pure_eq, runs_ret, Exec.ok.injEq] at h
        rw [h.2]
        show _ = _
        rw [← count_eq_card]
        exact Decidable.not_not.1 hl
    · simp at h
  · unfold readImplOneMessage at h
    rw [Bool.not_eq_true] at hf
    rw [hf] at h
    simp at h

theorem aligned_resMerge {a b r : Res Bytes} (ha : Aligned a.modules a.data) (hb : Aligned b.modules b.data)
    (h : a.merge b = some r) : Aligned r.modules r.data := by
  unfold ModuleResult.merge at h
  split at h
  · simp at h
  · split at h
    · simp at h
    · simp only [Option.some.injEq] at h
      subst h
      exact (mergeModuleData_pairs (removeModuleData_pairs ha).1 (removeModuleData_pairs hb).1).1

theorem aligned_readLoop {rd : MemoryRead} {gs : List ModuleId} {a : Res Bytes} (ha : Aligned a.modules a.data)
    {t : List Exchange} {res : Res Bytes} (h : Runs (readLoop rd a gs) t (.ok res)) : Aligned res.modules res.data := by
  induction gs generalizing a t with
  | nil =>
    simp only [readLoop, pure_eq, runs_ret, Exec.ok.injEq] at h
    rw [h.2]; exact ha
  | cons g gs ih =>
    obtain ⟨t₁, t₂, b, rfl, h1, h⟩ := runs_bind_okay h
    obtain ⟨r, hr, h⟩ := runs_ofExec_bind_ok h
    refine ih (aligned_resMerge ha (aligned_one h1) ?_) h
    cases hm : a.merge b with
    | none => rw [hm] at hr; simp [Exec.unwrap] at hr
    | some x => rw [hm] at hr; simp [Exec.unwrap] at hr; rw [hr]

theorem aligned_readImpl {m : ModuleId} {rd : MemoryRead} {t : List Exchange} {res : Res Bytes}
    (h : Runs (readImpl m rd) t (.ok res)) : Aligned res.modules res.data := by
  unfold readImpl at h
  split at h
  · rw [runs_ofExec] at h
    have h1 := h.2
    unfold ModuleResult.success at h1
    split at h1
    · rename_i h0
      simp only [Exec.unwrap, Exec.ok.injEq] at h1
      rw [h1]
      show _ = _
      rw [← count_eq_card]
      have h2 : m.count = 0 := by simpa using h0
      exact h2.symm
    · simp [Exec.unwrap] at h1
  · obtain ⟨gs, -, h⟩ := runs_ofExec_bind_ok h
    cases gs with
    | nil => simp at h
    | cons g gs =>
      obtain ⟨t₁, t₂, b, rfl, h1, h⟩ := runs_bind_okay h
      exact aligned_readLoop (aligned_one h1) h

theorem mapM_length {ε α β : Type} {f : α → Exec ε β} {l : List α} {ys : List β} (h : l.mapM f = .ok ys) :
    ys.length = l.length := by
  induction l generalizing ys with
  | nil =>
    have : ys = [] := by simpa [List.mapM_nil, pure, eq_comm] using h
    rw [this]; rfl
  | cons a l ih =>
    rw [List.mapM_cons] at h
    cases ha : f a with
    | ok y =>
      cases hl : l.mapM f with
      | ok zs =>
        rw [ha, hl] at h
        have : ys = y :: zs := by
          have := h.symm
          exact Exec.ok.inj this
        rw [this, List.length_cons, ih hl, List.length_cons]
      | err e => rw [ha, hl] at h; cases h
      | panic => rw [ha, hl] at h; cases h
    | err e => rw [ha] at h; cases h
    | panic => rw [ha] at h; cases h

theorem aligned_identifier {m : ModuleId} {t : List Exchange} {res : Res Identifier}
    (h : Runs (identifier m) t (.ok res)) : Aligned res.modules res.data := by
  unfold identifier at h
  rw [identifierRead_eq, ofExec_ok, ret_bind] at h
  obtain ⟨t₁, t₂, a, rfl, h1, h⟩ := runs_bind_okay h
  obtain ⟨ids, hi, h⟩ := runs_ofExec_bind_ok h
  simp only [pure_eq, runs_ret, Exec.ok.injEq] at h
  rw [h.2]
  show _ = _
  rw [mapM_length hi]
  exact aligned_readImpl h1

/-- What passing the check means, whatever the SP answered. -/
theorem verify_ok {page : Page} {m : ModuleId} {ids : List Identifier}
    (h : verifyIdsForPage page m ids = .ok ()) (p : Nat) (id : Identifier) (hd : datum m ids p = some id) :
    id.managementInterface = .ok page.managementInterface := by
  have hp : (BitVec.ofNat 8 p).toNat = p := ofNat_toNat_lt (datum_lt hd)
  have hmem : (BitVec.ofNat 8 p, id) ∈ m.toIndices.zip ids := mem_zip_iff_datum.2 (by rw [hp]; exact hd)
  have key : ∀ w : Identifier → Bool,
      ((match (m.toIndices.zip ids).find? fun p => w p.2 with
        | none => .ok ()
        | some (ix, ident) => .err (.transceiver (.invalidInterfaceForModule ix ident page.managementInterface))) :
        Exec CtlError Unit) = .ok () → w id = false := by
    intro w hw
    cases hf : (m.toIndices.zip ids).find? fun p => w p.2 with
    | some x => rw [hf] at hw; cases hw
    | none =>
      rw [List.find?_eq_none] at hf
      have := hf _ hmem
      simpa using this
  unfold verifyIdsForPage at h
  cases page with
  | sff8636 pg =>
    have := key (fun ident => !(ident = Identifier.qsfp28 || ident = Identifier.qsfpPlusSff8636)) h
    simp only [Bool.not_eq_false', Bool.or_eq_true, decide_eq_true_eq] at this
    unfold Identifier.managementInterface
    rw [if_pos this.symm]; rfl
  | cmis pg =>
    have := key (fun ident => !(ident = Identifier.qsfpDD || ident = Identifier.qsfpPlusCmis)) h
    simp only [Bool.not_eq_false', Bool.or_eq_true, decide_eq_true_eq] at this
    unfold Identifier.managementInterface
    rcases this with rfl | rfl <;> rfl

end Xcvr
