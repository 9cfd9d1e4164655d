import Verif.Lemmas.Decode
import Verif.Lemmas.BTree

/-! # Lemmas about decoding datapaths -/

namespace Xcvr

open Spec

namespace Datapath

theorem sffLane_eq (e l0 l1 l2 c : U8) (k : Fin 4) :
    sffLane e [l0, l1, l2] c (BitVec.ofNat 8 k.val) = .ok
      { txEnabled := !bit e k.val, txLos := bit l0 (k.val + 4), rxLos := bit l0 k.val,
        txAdaptiveEqFault := bit l1 (k.val + 4), txFault := bit l1 k.val, txLol := bit l2 (k.val + 4),
        rxLol := bit l2 k.val, txCdrEnabled := bit c (k.val + 4), rxCdrEnabled := bit c k.val } := by
  have h1 (x : U8) : Decode.extractBit x (BitVec.ofNat 8 k.val) = .ok (bit x k.val) :=
    extractBit_eq x ⟨k.val, by omega⟩
  have h2 (x : U8) : Decode.extractBit x (BitVec.ofNat 8 k.val + 4) = .ok (bit x (k.val + 4)) := by
    rw [show BitVec.ofNat 8 k.val + 4 = BitVec.ofNat 8 (k.val + 4) by rw [BitVec.ofNat_add]; rfl]
    exact extractBit_eq x ⟨k.val + 4, by omega⟩
  have i0 : Decode.idx [l0, l1, l2] 0 = .ok l0 := rfl
  have i1 : Decode.idx [l0, l1, l2] 1 = .ok l1 := rfl
  have i2 : Decode.idx [l0, l1, l2] 2 = .ok l2 := rfl
  simp only [sffLane, h1, h2, i0, i1, i2, Exec.ok_bind, Exec.pure_eq]

theorem decode_sff {id} (h : SffModule id) (mem : ModuleMemory) :
    decodeFrom decoder id mem = .ok (sffDatapath mem) := by
  show (reads id).bind _ = _
  rw [reads_sff h]
  show parse id [[sffLow mem 86], [sffLow mem 3, sffLow mem 4, sffLow mem 5], [sffLow mem 98],
    [sffUp00 mem 130, sffUp00 mem 131], [sffUp00 mem 192]] = _
  rw [parse, Decode.byKind_sff h]
  have hl : ([0, 1, 2, 3] : List U8).mapM (fun lane =>
      (do sffLane (← Decode.idx [sffLow mem 86] 0) [sffLow mem 3, sffLow mem 4, sffLow mem 5]
            (← Decode.idx [sffLow mem 98] 0) lane : Exec DecodeError Sff8636Datapath)) =
      .ok ([0, 1, 2, 3].map (sffLaneFlags mem)) := by
    have i (x : U8) : Decode.idx [x] 0 = .ok x := rfl
    have s0 := sffLane_eq (sffLow mem 86) (sffLow mem 3) (sffLow mem 4) (sffLow mem 5) (sffLow mem 98) 0
    have s1 := sffLane_eq (sffLow mem 86) (sffLow mem 3) (sffLow mem 4) (sffLow mem 5) (sffLow mem 98) 1
    have s2 := sffLane_eq (sffLow mem 86) (sffLow mem 3) (sffLow mem 4) (sffLow mem 5) (sffLow mem 98) 2
    have s3 := sffLane_eq (sffLow mem 86) (sffLow mem 3) (sffLow mem 4) (sffLow mem 5) (sffLow mem 98) 3
    have z0 : (0 : U8) = BitVec.ofNat 8 (0 : Fin 4).val := rfl
    have z1 : (1 : U8) = BitVec.ofNat 8 (1 : Fin 4).val := rfl
    have z2 : (2 : U8) = BitVec.ofNat 8 (2 : Fin 4).val := rfl
    have z3 : (3 : U8) = BitVec.ofNat 8 (3 : Fin 4).val := rfl
    rw [z0, z1, z2, z3]
    simp only [List.mapM_cons, List.mapM_nil, i, Exec.ok_bind, s0, s1, s2, s3, Exec.pure_eq]
    rfl
  show ((([0, 1, 2, 3] : List U8).mapM (fun lane =>
      (do sffLane (← Decode.idx [sffLow mem 86] 0) [sffLow mem 3, sffLow mem 4, sffLow mem 5]
            (← Decode.idx [sffLow mem 98] 0) lane : Exec DecodeError Sff8636Datapath))).bind fun lanes =>
      .ok (Datapath.sff8636 (Bf.ofByte (sffUp00 mem 130))
        (SffComplianceCode.new (sffUp00 mem 131) (sffUp00 mem 192)) lanes)) = _
  rw [hl]
  show Exec.ok _ = _
  rw [sffDatapath]
  rfl

/-! ## Folds that may fail -/

section folds

variable {ε α β : Type}

/-- A loop whose steps all succeed or fail with the same outcome. -/
theorem foldlM_ok (step : β → α → Exec ε β) (good : α → Prop) (g : β → α → β) (l : List α)
    (h : ∀ b, ∀ a ∈ l, good a → step b a = .ok (g b a)) (hl : ∀ a ∈ l, good a) (b : β) :
    l.foldlM step b = .ok (l.foldl g b) := by
  induction l generalizing b with
  | nil => rfl
  | cons a l ih =>
    rw [List.foldlM_cons, h b a List.mem_cons_self (hl a List.mem_cons_self)]
    exact ih (fun b a ha => h b a (List.mem_cons_of_mem _ ha)) (fun a ha => hl a (List.mem_cons_of_mem _ ha)) _

theorem foldlM_bad (step : β → α → Exec ε β) (good : α → Prop) (out : Exec ε β) (g : β → α → β) (l : List α)
    (hb : ∀ f, out.bind f = out)
    (h : ∀ b, ∀ a ∈ l, good a → step b a = .ok (g b a)) (h' : ∀ b, ∀ a ∈ l, ¬ good a → step b a = out)
    (hl : ∃ a ∈ l, ¬ good a) (b : β) : l.foldlM step b = out := by
  induction l generalizing b with
  | nil => obtain ⟨a, ha, _⟩ := hl; cases ha
  | cons a l ih =>
    rw [List.foldlM_cons]
    by_cases hg : good a
    · rw [h b a List.mem_cons_self hg]
      apply ih (fun b a ha => h b a (List.mem_cons_of_mem _ ha)) (fun b a ha => h' b a (List.mem_cons_of_mem _ ha))
      obtain ⟨a', ha', hn⟩ := hl
      rcases List.mem_cons.mp ha' with rfl | ha'
      · exact absurd hg hn
      · exact ⟨a', ha', hn⟩
    · rw [h' b a List.mem_cons_self hg]; exact hb _

end folds

/-! ## Applications -/

theorem endOfList_iff (x : U8) : (Bf.ofByte x : HostElectricalInterfaceId) = endOfList ↔ x = 0xff := by
  revert x; decide +kernel

/-- The application described by four bytes and the media lane assignment options. -/
def appOf (mediaId : U8 → MediaInterfaceId) (d : U8 × U8 × U8 × U8) (media : U8) : ApplicationDescriptor :=
  { hostId := Bf.ofByte d.1, mediaId := mediaId d.2.1, hostLaneCount := (d.2.2.1 &&& 0xf0) >>> 4,
    mediaLaneCount := d.2.2.1 &&& 0x0f, hostLaneAssignmentOptions := d.2.2.2, mediaLaneAssignmentOptions := media }

theorem applications_none {t : MediaType} (h : ∀ x, MediaInterfaceId.fromU8 t x = none) (as : Bytes) (i : Nat)
    (ds : List (U8 × U8 × U8 × U8)) (hd : ds ≠ []) : applications t as i ds = .panic := by
  cases ds with
  | nil => exact absurd rfl hd
  | cons d ds =>
    rw [applications]
    cases ha : as[i]? with
    | none => simp [Decode.idx, ha, Exec.unwrap]
    | some a => simp [Decode.idx, ha, Exec.unwrap, applicationFromBytes, h]

theorem applications_some {t : MediaType} {f : U8 → MediaInterfaceId} (h : ∀ x, MediaInterfaceId.fromU8 t x = some (f x))
    (as : Bytes) (ds : List (U8 × U8 × U8 × U8)) (i : Nat) (hl : i + ds.length ≤ as.length) :
    applications t as i ds =
      .ok (((ds.takeWhile fun d => d.1 != 0xff).zip (as.drop i)).map fun p => appOf f p.1 p.2) := by
  induction ds generalizing i with
  | nil => rfl
  | cons d ds ih =>
    rw [List.length_cons] at hl
    have hi : as[i]? = some as[i] := List.getElem?_eq_getElem (by omega)
    have hf : applicationFromBytes t d as[i] = some (appOf f d as[i]) := by
      rw [applicationFromBytes, h]; rfl
    rw [applications]
    simp only [Decode.idx, hi, Exec.unwrap, Exec.ok_bind, hf]
    have he : ((appOf f d as[i]).hostId = endOfList) ↔ d.1 = 0xff := endOfList_iff d.1
    by_cases hd : d.1 = 0xff
    · rw [if_pos (he.mpr hd), List.takeWhile_cons_of_neg (by simp [hd])]; rfl
    · rw [if_neg (fun x => hd (he.mp x)), List.takeWhile_cons_of_pos (by simpa using hd), ih (i + 1) (by omega),
        List.drop_eq_getElem_cons (by omega : i < as.length)]
      rfl

/-- Whether the media type is one whose interface codes are known does not depend on the code. -/
theorem fromU8_cases (t : MediaType) :
    (∀ x, MediaInterfaceId.fromU8 t x = none) ∨ ∃ f : U8 → MediaInterfaceId, ∀ x, MediaInterfaceId.fromU8 t x = some (f x) := by
  unfold MediaInterfaceId.fromU8
  by_cases h1 : t = MediaType.multiModeFiber
  · exact Or.inr ⟨fun x => .mmf (Bf.ofByte x), fun x => if_pos h1⟩
  by_cases h2 : t = MediaType.singleModeFiber
  · exact Or.inr ⟨fun x => .smf (Bf.ofByte x), fun x => by rw [if_neg h1, if_pos h2]⟩
  by_cases h3 : t = MediaType.passiveCopper
  · exact Or.inr ⟨fun x => .passiveCopper (Bf.ofByte x), fun x => by rw [if_neg h1, if_neg h2, if_pos h3]⟩
  by_cases h4 : t = MediaType.activeCable
  · exact Or.inr ⟨fun x => .activeCable (Bf.ofByte x), fun x => by rw [if_neg h1, if_neg h2, if_neg h3, if_pos h4]⟩
  by_cases h5 : t = MediaType.baseT
  · exact Or.inr ⟨fun x => .baseT (Bf.ofByte x), fun x => by rw [if_neg h1, if_neg h2, if_neg h3, if_neg h4, if_pos h5]⟩
  · exact Or.inl fun x => by rw [if_neg h1, if_neg h2, if_neg h3, if_neg h4, if_neg h5]

/-! ## Lanes -/

/-- The status of a lane, given its state. -/
def statusOf (mem : ModuleMemory) (i : Nat) (state : CmisDatapathState) : CmisLaneStatus :=
  let S := cmisUp mem 0x01
  let C := cmisBank0 mem 0x10
  let F := cmisBank0 mem 0x11
  { state
    txInputPolarity := (advertised (S 155) 0 (C 129) i).map (fun x => if x then .flipped else .normal)
    txOutputEnabled := (advertised (S 155) 1 (C 130) i).map (! ·)
    txAutoSquelchDisable := advertised (S 155) 2 (C 131) i
    txForceSquelch := advertised (S 155) 3 (C 132) i
    rxOutputPolarity := (advertised (S 156) 0 (C 137) i).map (fun x => if x then .flipped else .normal)
    rxOutputEnabled := (advertised (S 156) 1 (C 138) i).map (! ·)
    rxAutoSquelchDisable := advertised (S 156) 2 (C 139) i
    rxOutputStatus := if bit (F 132) i then .valid else .invalid
    txOutputStatus := if bit (F 133) i then .valid else .invalid
    txFailure := advertised (S 157) 0 (F 135) i
    txLos := advertised (S 157) 1 (F 136) i
    txLol := advertised (S 157) 2 (F 137) i
    txAdaptiveEqFail := advertised (S 157) 3 (F 138) i
    rxLos := advertised (S 158) 1 (F 147) i
    rxLol := advertised (S 158) 2 (F 148) i }

/-- The reads that describe the lanes. -/
def laneReads (mem : ModuleMemory) : LaneReads :=
  { support := bytesAt (cmisUp mem 0x01) 155 4
    controls0 := bytesAt (cmisBank0 mem 0x10) 129 4
    controls1 := bytesAt (cmisBank0 mem 0x10) 134 6
    datapathState := bytesAt (cmisBank0 mem 0x11) 128 4
    laneStatus := bytesAt (cmisBank0 mem 0x11) 132 2
    txLaneFlags := bytesAt (cmisBank0 mem 0x11) 135 4
    rxLaneFlags := bytesAt (cmisBank0 mem 0x11) 147 2 }

theorem supported_eq (s : U8) (b : Fin 8) (x : U8) (i : Fin 8) :
    supportedBitIsSet s (BitVec.ofNat 8 b.val) x (BitVec.ofNat 8 i.val) = advertised s b.val x i.val := by
  rw [supportedBitIsSet, extractBit_eq, extractBit_eq, advertised, given]
  cases bit s b.val <;> rfl

theorem outputStatus_eq (x : U8) (i : Fin 8) :
    outputStatus x (BitVec.ofNat 8 i.val) = if bit x i.val then .valid else .invalid := by
  rw [outputStatus]
  by_cases h : bit x i.val = true
  · rw [if_pos h, if_pos ((and_shift_ne x i).mpr h)]
  · rw [if_neg h, if_neg (fun hh => h ((and_shift_ne x i).mp hh))]

/-- The nibble the code takes as the state of lane `i`: the high one for the first lane of each pair. -/
def codeNibble (mem : ModuleMemory) (i : Nat) : U8 :=
  let x := cmisBank0 mem 0x11 (128 + i / 2)
  if i % 2 = 0 then x >>> 4 else x &&& 0x0f

theorem stateNibble_eq (mem : ModuleMemory) (i : Fin 8) :
    stateNibble (bytesAt (cmisBank0 mem 0x11) 128 4) (BitVec.ofNat 8 i.val) = .ok (codeNibble mem i.val) := by
  have h1 (x : U8) : (x &&& ((0x0f : U8) <<< (4 : U8))) >>> (4 : U8) = x >>> 4 := by revert x; decide +kernel
  have h0 (x : U8) : (x &&& ((0x0f : U8) <<< (0 : U8))) >>> (0 : U8) = x &&& 0x0f := by revert x; decide +kernel
  match i with
  | 0 => exact congrArg Exec.ok (h1 _)
  | 1 => exact congrArg Exec.ok (h0 _)
  | 2 => exact congrArg Exec.ok (h1 _)
  | 3 => exact congrArg Exec.ok (h0 _)
  | 4 => exact congrArg Exec.ok (h1 _)
  | 5 => exact congrArg Exec.ok (h0 _)
  | 6 => exact congrArg Exec.ok (h1 _)
  | 7 => exact congrArg Exec.ok (h0 _)

theorem laneStatusOf_eq (mem : ModuleMemory) (i : Fin 8) :
    laneStatusOf (laneReads mem) (BitVec.ofNat 8 i.val) =
      (Exec.ofExcept (CmisDatapathState.tryFrom (codeNibble mem i.val))).bind fun s => .ok (statusOf mem i.val s) := by
  have x (m : Nat → U8) (a n k : Nat) (h : k < n) : Decode.idx (bytesAt m a n) k = .ok (m (a + k)) := by
    simp [Decode.idx, bytesAt, h, Exec.unwrap]
  have s0 s x := supported_eq s 0 x i
  have s1 s x := supported_eq s 1 x i
  have s2 s x := supported_eq s 2 x i
  have s3 s x := supported_eq s 3 x i
  have z0 : (0 : U8) = BitVec.ofNat 8 (0 : Fin 8).val := rfl
  have z1 : (1 : U8) = BitVec.ofNat 8 (1 : Fin 8).val := rfl
  have z2 : (2 : U8) = BitVec.ofNat 8 (2 : Fin 8).val := rfl
  have z3 : (3 : U8) = BitVec.ofNat 8 (3 : Fin 8).val := rfl
  rw [← z0] at s0; rw [← z1] at s1; rw [← z2] at s2; rw [← z3] at s3
  have j (m : Nat → U8) : Decode.idx (bytesAt m 155 4) 0 = .ok (m 155) := rfl
  simp only [laneStatusOf, laneReads, x, Nat.reduceLT, Exec.ok_bind, s0, s1, s2, s3, outputStatus_eq, stateNibble_eq,
    Exec.pure_eq]
  rfl

/-! ## Grouping lanes by application -/

section fold_inv

variable {α β : Type}

theorem foldl_inv (Inv : β → List α → Prop) (g : β → α → β) (l : List α) (b : β) (h0 : Inv b [])
    (hs : ∀ b p, ∀ x ∈ l, Inv b p → Inv (g b x) (p ++ [x])) : Inv (l.foldl g b) l := by
  suffices ∀ (todo done : List α) (b : β), (∀ x ∈ todo, x ∈ l) → Inv b done → Inv (todo.foldl g b) (done ++ todo) by
    simpa using this l [] b (fun _ h => h) h0
  intro todo
  induction todo with
  | nil => intro done b _ hb; simpa using hb
  | cons x todo ih =>
    intro done b hm hb
    have := ih (done ++ [x]) (g b x) (fun y hy => hm y (List.mem_cons_of_mem _ hy))
      (hs b done x (hm x List.mem_cons_self) hb)
    simpa using this

end fold_inv

/-- One step of grouping when the application exists. -/
def activatePure (apps : List ApplicationDescriptor) (a : List (U8 × ApplicationDescriptor × List U8)) (p : U8 × Nat) :
    List (U8 × ApplicationDescriptor × List U8) :=
  if appSelectCode p.1 ≠ 0 then
    match apps[(appSelectCode p.1 - 1).toNat]? with
    | some app => BMap.upsert u8Lt (appSelectCode p.1)
        (fun e => let e := e.getD (app, []); (e.1, e.2 ++ [BitVec.ofNat 8 p.2])) a
    | none => a
  else a

/-- The lane is unassigned, or its application exists. -/
def GoodLane (apps : List ApplicationDescriptor) (p : U8 × Nat) : Prop :=
  appSelectCode p.1 ≠ 0 → (appSelectCode p.1 - 1).toNat < apps.length

theorem activate_good (apps : List ApplicationDescriptor) (a : List (U8 × ApplicationDescriptor × List U8)) (p : U8 × Nat)
    (h : GoodLane apps p) : activate apps a (BitVec.ofNat 8 p.2) p.1 = .ok (activatePure apps a p) := by
  unfold activate activatePure
  by_cases h0 : appSelectCode p.1 ≠ 0
  · rw [if_pos h0, if_pos h0, List.getElem?_eq_getElem (h h0)]; rfl
  · rw [if_neg h0, if_neg h0]; rfl

theorem activate_bad (apps : List ApplicationDescriptor) (a : List (U8 × ApplicationDescriptor × List U8)) (p : U8 × Nat)
    (h : ¬ GoodLane apps p) : activate apps a (BitVec.ofNat 8 p.2) p.1 = .panic := by
  unfold activate
  by_cases h0 : appSelectCode p.1 ≠ 0
  · have : apps[(appSelectCode p.1 - 1).toNat]? = none := List.getElem?_eq_none (by
      apply Nat.le_of_not_lt; intro hl; exact h fun _ => hl)
    rw [if_pos h0, this]; rfl
  · exact absurd (fun h1 => absurd h1 h0) h

/-- What the groups contain after some lanes. -/
structure InvA (apps : List ApplicationDescriptor) (a : List (U8 × ApplicationDescriptor × List U8))
    (done : List (U8 × Nat)) : Prop where
  sorted : BMap.Sorted u8Lt a
  app : ∀ k e, BMap.get? a k = some e → k ≠ 0 ∧ apps[(k - 1).toNat]? = some e.1
  lanes : ∀ k lane, (∃ e, BMap.get? a k = some e ∧ lane ∈ e.2) ↔
    ∃ p ∈ done, appSelectCode p.1 = k ∧ k ≠ 0 ∧ lane = BitVec.ofNat 8 p.2

theorem invA_step {apps a done} (hi : InvA apps a done) (p : U8 × Nat) (hg : GoodLane apps p) :
    InvA apps (activatePure apps a p) (done ++ [p]) := by
  by_cases h0 : appSelectCode p.1 ≠ 0
  · have he : apps[(appSelectCode p.1 - 1).toNat]? = some (apps[(appSelectCode p.1 - 1).toNat]'(hg h0)) :=
      List.getElem?_eq_getElem (hg h0)
    have hp : activatePure apps a p = BMap.upsert u8Lt (appSelectCode p.1)
        (fun e => let e := e.getD (apps[(appSelectCode p.1 - 1).toNat]'(hg h0), [])
                  (e.1, e.2 ++ [BitVec.ofNat 8 p.2])) a := by
      rw [activatePure, if_pos h0, he]
    generalize apps[(appSelectCode p.1 - 1).toNat]'(hg h0) = app at he hp
    rw [hp]
    refine ⟨BMap.upsert_sorted u8Lt_strict hi.sorted _ _, ?_, ?_⟩
    · intro k e hke
      rw [BMap.get?_upsert u8Lt_strict hi.sorted] at hke
      split at hke
      · rename_i hk
        subst hk
        simp only [Option.some.injEq] at hke
        subst hke
        refine ⟨h0, ?_⟩
        cases hg' : BMap.get? a (appSelectCode p.1) with
        | none => exact he
        | some e' => exact (hi.app _ _ hg').2
      · exact hi.app k e hke
    · intro k lane
      simp only [BMap.get?_upsert u8Lt_strict hi.sorted, List.mem_append, List.mem_singleton]
      by_cases hk : k = appSelectCode p.1
      · subst hk
        simp only [if_true, Option.some.injEq]
        have hl := hi.lanes (appSelectCode p.1) lane
        constructor
        · rintro ⟨e, rfl, hm⟩
          rw [List.mem_append, List.mem_singleton] at hm
          rcases hm with hm | rfl
          · cases hg' : BMap.get? a (appSelectCode p.1) with
            | none => rw [hg'] at hm; cases hm
            | some e' =>
              rw [hg'] at hm
              obtain ⟨q, hq, hr⟩ := hl.mp ⟨e', hg', hm⟩
              exact ⟨q, Or.inl hq, hr⟩
          · exact ⟨p, Or.inr rfl, rfl, h0, rfl⟩
        · rintro ⟨q, hq | rfl, h1, h2, h3⟩
          · obtain ⟨e', he', hm⟩ := hl.mpr ⟨q, hq, h1, h2, h3⟩
            exact ⟨_, rfl, by rw [he']; exact List.mem_append_left _ hm⟩
          · exact ⟨_, rfl, by rw [h3]; exact List.mem_append_right _ List.mem_cons_self⟩
      · simp only [if_neg hk]
        rw [hi.lanes]
        constructor
        · rintro ⟨q, hq, hr⟩; exact ⟨q, Or.inl hq, hr⟩
        · rintro ⟨q, hq | rfl, hr⟩
          · exact ⟨q, hq, hr⟩
          · exact absurd hr.1.symm hk
  · have hp : activatePure apps a p = a := by rw [activatePure, if_neg h0]
    rw [hp]
    refine ⟨hi.sorted, hi.app, fun k lane => ?_⟩
    rw [hi.lanes]
    constructor
    · rintro ⟨q, hq, hr⟩; exact ⟨q, List.mem_append_left _ hq, hr⟩
    · rintro ⟨q, hq, hr⟩
      rcases List.mem_append.mp hq with hq | hq
      · exact ⟨q, hq, hr⟩
      · rw [List.mem_singleton] at hq
        subst hq
        exact absurd (fun h => hr.2.1 (hr.1 ▸ h)) h0

theorem active_inv (apps : List ApplicationDescriptor) (l : List (U8 × Nat)) (h : ∀ p ∈ l, GoodLane apps p) :
    InvA apps (l.foldl (activatePure apps) []) l := by
  apply foldl_inv (InvA apps)
  · refine ⟨List.Pairwise.nil, fun k e h => (by cases h), fun k lane => ?_⟩
    constructor
    · rintro ⟨e, h, _⟩; cases h
    · rintro ⟨p, hp, _⟩; cases hp
  · intro b p x hx hb
    exact invA_step hb x (h x hx)

/-! ## Building datapaths -/

/-- All lanes of all groups. -/
def flat (active : List (U8 × ApplicationDescriptor × List U8)) : List (U8 × ApplicationDescriptor × U8) :=
  active.flatMap fun e => e.2.2.map fun lane => (e.1, e.2.1, lane)

theorem datapathsOf_flat (r : LaneReads) (active : List (U8 × ApplicationDescriptor × List U8))
    (dps : List (U8 × CmisDatapath)) :
    active.foldlM (fun dps e => e.2.2.foldlM (addLane r e.1 e.2.1) dps) dps =
      (flat active).foldlM (fun dps x => addLane r x.1 x.2.1 dps x.2.2) dps := by
  induction active generalizing dps with
  | nil => rfl
  | cons e active ih =>
    rw [List.foldlM_cons, flat, List.flatMap_cons, List.foldlM_append, List.foldlM_map]
    congr 1
    funext dps
    exact ih dps

/-- One lane added to the datapaths. -/
def addPure (st : U8 → CmisLaneStatus) (dps : List (U8 × CmisDatapath)) (x : U8 × ApplicationDescriptor × U8) :
    List (U8 × CmisDatapath) :=
  BMap.upsert u8Lt x.1
    (fun e => let dp := e.getD ⟨x.2.1, []⟩
              { dp with laneStatus := BMap.upsert u8Lt (1 + x.2.2) (fun _ => st x.2.2) dp.laneStatus }) dps

/-- What the datapaths contain after some lanes. -/
structure InvD (st : U8 → CmisLaneStatus) (dps : List (U8 × CmisDatapath))
    (done : List (U8 × ApplicationDescriptor × U8)) : Prop where
  sorted : BMap.Sorted u8Lt dps
  each : ∀ k dp, BMap.get? dps k = some dp → BMap.Sorted u8Lt dp.laneStatus ∧ ∃ lane, (k, dp.application, lane) ∈ done
  lanes : ∀ k n s, (∃ dp, BMap.get? dps k = some dp ∧ BMap.get? dp.laneStatus n = some s) ↔
    ∃ x ∈ done, x.1 = k ∧ n = 1 + x.2.2 ∧ s = st x.2.2

theorem one_add_inj {a b : U8} (h : 1 + a = 1 + b) : a = b := by
  have : 1 + a - 1 = 1 + b - 1 := by rw [h]
  simpa [BitVec.add_comm 1, BitVec.add_sub_cancel] using this

theorem invD_step {st dps done} (hi : InvD st dps done) (x : U8 × ApplicationDescriptor × U8) :
    InvD st (addPure st dps x) (done ++ [x]) := by
  unfold addPure
  have hls : BMap.Sorted u8Lt ((BMap.get? dps x.1).getD ⟨x.2.1, []⟩).laneStatus := by
    cases hg : BMap.get? dps x.1 with
    | none => exact List.Pairwise.nil
    | some dp => exact (hi.each _ _ hg).1
  refine ⟨BMap.upsert_sorted u8Lt_strict hi.sorted _ _, ?_, ?_⟩
  · intro k dp hk
    rw [BMap.get?_upsert u8Lt_strict hi.sorted] at hk
    split at hk
    · rename_i hkx
      subst hkx
      simp only [Option.some.injEq] at hk
      subst hk
      refine ⟨BMap.upsert_sorted u8Lt_strict hls _ _, ?_⟩
      cases hg : BMap.get? dps x.1 with
      | none => exact ⟨x.2.2, List.mem_append_right _ List.mem_cons_self⟩
      | some dp =>
        obtain ⟨lane, hl⟩ := (hi.each _ _ hg).2
        exact ⟨lane, List.mem_append_left _ hl⟩
    · obtain ⟨h1, lane, hl⟩ := hi.each k dp hk
      exact ⟨h1, lane, List.mem_append_left _ hl⟩
  · intro k n s
    simp only [BMap.get?_upsert u8Lt_strict hi.sorted, List.mem_append, List.mem_singleton]
    by_cases hk : k = x.1
    · subst hk
      simp only [if_true, Option.some.injEq]
      have hl := hi.lanes x.1 n s
      constructor
      · rintro ⟨dp, rfl, hm⟩
        simp only [BMap.get?_upsert u8Lt_strict hls] at hm
        split at hm
        · rename_i hn
          simp only [Option.some.injEq] at hm
          exact ⟨x, Or.inr rfl, rfl, hn, hm.symm⟩
        · cases hg : BMap.get? dps x.1 with
          | none => rw [hg] at hm; cases hm
          | some dp =>
            rw [hg] at hm
            obtain ⟨y, hy, hr⟩ := hl.mp ⟨dp, hg, hm⟩
            exact ⟨y, Or.inl hy, hr⟩
      · rintro ⟨y, hy, h1, h2, h3⟩
        refine ⟨_, rfl, ?_⟩
        simp only [BMap.get?_upsert u8Lt_strict hls]
        by_cases hn : n = 1 + x.2.2
        · rw [if_pos hn, h3, one_add_inj (h2.symm.trans hn)]
        · rw [if_neg hn]
          rcases hy with hy | rfl
          · obtain ⟨dp, hg, hm⟩ := hl.mpr ⟨y, hy, h1, h2, h3⟩
            rw [hg]; exact hm
          · exact absurd h2 hn
    · simp only [if_neg hk]
      rw [hi.lanes]
      constructor
      · rintro ⟨y, hy, hr⟩; exact ⟨y, Or.inl hy, hr⟩
      · rintro ⟨y, hy | rfl, hr⟩
        · exact ⟨y, hy, hr⟩
        · exact absurd hr.1.symm hk

theorem datapaths_inv (st : U8 → CmisLaneStatus) (l : List (U8 × ApplicationDescriptor × U8)) :
    InvD st (l.foldl (addPure st) []) l := by
  apply foldl_inv (InvD st)
  · refine ⟨List.Pairwise.nil, fun k e h => (by cases h), fun k n s => ?_⟩
    constructor
    · rintro ⟨e, h, _⟩; cases h
    · rintro ⟨p, hp, _⟩; cases hp
  · intro b p x _ hb
    exact invD_step hb x

/-! ## Decoding CMIS datapaths -/

theorem known_iff (t x : U8) :
    (1 ≤ t.toNat ∧ t.toNat ≤ 5) ↔ MediaInterfaceId.fromU8 (Bf.ofByte t) x ≠ none := by
  have (y : U8) : (1 ≤ y.toNat ∧ y.toNat ≤ 5) ↔
      ((Bf.ofByte y : MediaType) = MediaType.multiModeFiber ∨ (Bf.ofByte y : MediaType) = MediaType.singleModeFiber ∨
       (Bf.ofByte y : MediaType) = MediaType.passiveCopper ∨ (Bf.ofByte y : MediaType) = MediaType.activeCable ∨
       (Bf.ofByte y : MediaType) = MediaType.baseT) := by
    revert y; decide +kernel
  rw [this]
  unfold MediaInterfaceId.fromU8
  split
  · simp_all
  · split
    · simp_all
    · split
      · simp_all
      · split
        · simp_all
        · split <;> simp_all

theorem mediaKnown_iff (mem : ModuleMemory) (x : U8) :
    MediaKnown mem ↔ MediaInterfaceId.fromU8 (Bf.ofByte (cmisLow mem 85)) x ≠ none := known_iff _ x

/-- Descriptor `j` (from 0). -/
def descriptor (mem : ModuleMemory) (j : Nat) : U8 × U8 × U8 × U8 :=
  let a := 86 + 4 * j
  (cmisLow mem a, cmisLow mem (a + 1), cmisLow mem (a + 2), cmisLow mem (a + 3))

/-- The applications before the end of the list. -/
def appsOf (mem : ModuleMemory) (f : U8 → MediaInterfaceId) : List ApplicationDescriptor :=
  (List.range (applicationCount mem)).map fun j => appOf f (descriptor mem j) (cmisUp mem 1 (176 + j))

theorem count_le (mem : ModuleMemory) : applicationCount mem ≤ 8 := by
  unfold applicationCount
  exact Nat.le_trans (List.takeWhile_sublist _).length_le (by simp)

theorem takeWhile_range (p : Nat → Bool) (n : Nat) :
    (List.range n).takeWhile p = List.range ((List.range n).takeWhile p).length := by
  have h := List.prefix_iff_eq_take.mp (List.takeWhile_prefix p (l := List.range n))
  have hl : ((List.range n).takeWhile p).length ≤ n :=
    Nat.le_trans (List.takeWhile_sublist _).length_le (by simp)
  generalize ((List.range n).takeWhile p).length = k at *
  rw [h, List.take_range, Nat.min_eq_left hl]

theorem apps_eq (mem : ModuleMemory) {t : MediaType} {f : U8 → MediaInterfaceId}
    (h : ∀ x, MediaInterfaceId.fromU8 t x = some (f x)) :
    applications t (bytesAt (cmisUp mem 1) 176 8) 0 ((List.range 8).map (descriptor mem)) = .ok (appsOf mem f) := by
  rw [applications_some h _ _ 0 (by simp [bytesAt])]
  congr 1
  rw [List.takeWhile_map, List.drop_zero]
  have : ((List.range 8).takeWhile ((fun d : U8 × U8 × U8 × U8 => d.1 != 0xff) ∘ descriptor mem)) =
      List.range (applicationCount mem) := takeWhile_range _ 8
  rw [this, appsOf]
  have hc := count_le mem
  apply List.ext_getElem?
  intro j
  by_cases hj : j < applicationCount mem
  · simp [List.getElem?_zip_eq_some, bytesAt, hj, Nat.lt_of_lt_of_le hj hc, List.zip, List.getElem?_zipWith]
  · simp [hj, List.zip, List.getElem?_zipWith]

theorem appSelectCode_toNat (x : U8) : (appSelectCode x).toNat = x.toNat / 16 := by
  revert x; decide +kernel

/-- The configuration bytes and numbers of the lanes. -/
def laneConfigs (mem : ModuleMemory) : List (U8 × Nat) :=
  (List.range 8).map fun i => (cmisBank0 mem 0x11 (206 + i), i)

theorem goodLane_iff (mem : ModuleMemory) (f : U8 → MediaInterfaceId) (i : Nat) :
    GoodLane (appsOf mem f) (cmisBank0 mem 0x11 (206 + i), i) ↔ assigned mem i ≤ applicationCount mem := by
  unfold GoodLane assigned
  rw [← appSelectCode_toNat]
  generalize appSelectCode (cmisBank0 mem 0x11 (206 + i)) = k
  have hl : (appsOf mem f).length = applicationCount mem := by simp [appsOf]
  rw [hl]
  by_cases hk : k = 0
  · subst hk; simp
  · have h0 : k.toNat ≠ 0 := fun h => hk (BitVec.eq_of_toNat_eq h)
    have hk1 : (k - 1).toNat = k.toNat - 1 := by
      have := k.isLt
      rw [BitVec.toNat_sub]; simp; omega
    rw [hk1]
    constructor
    · intro h; have := h hk; omega
    · intro h _; omega

/-- The outcome once applications are known. -/
theorem decode_cmis_eq {id} (h : CmisModule id) (mem : ModuleMemory) :
    decodeFrom decoder id mem =
      (applications (Bf.ofByte (cmisLow mem 85)) (bytesAt (cmisUp mem 1) 176 8) 0
        ((List.range 8).map (descriptor mem))).bind fun apps =>
      ((laneConfigs mem).foldlM (fun a p => activate apps a (BitVec.ofNat 8 p.2) p.1) []).bind fun active =>
      (datapathsOf (laneReads mem) active).bind fun dps =>
        .ok (.cmis (Bf.ofByte (cmisUp mem 0 203)) (~~~ (cmisUp mem 0 209)) dps) := by
  show (reads id).bind _ = _
  rw [reads_cmis h]
  show parse id _ = _
  rw [parse, Decode.byKind_cmis h]
  rfl

theorem decode_cmis_media {id} (h : CmisModule id) (mem : ModuleMemory) (hm : ¬ MediaKnown mem) :
    decodeFrom decoder id mem = .panic := by
  rw [decode_cmis_eq h, applications_none _ _ _ _ (by simp)]
  · rfl
  · intro x
    have := mediaKnown_iff mem x
    cases hx : MediaInterfaceId.fromU8 (Bf.ofByte (cmisLow mem 85)) x with
    | none => rfl
    | some _ => exact absurd (this.mpr (by rw [hx]; simp)) hm

theorem mediaKnown_fun {mem : ModuleMemory} (hm : MediaKnown mem) :
    ∃ f : U8 → MediaInterfaceId, ∀ x, MediaInterfaceId.fromU8 (Bf.ofByte (cmisLow mem 85)) x = some (f x) := by
  rcases fromU8_cases (Bf.ofByte (cmisLow mem 85)) with h | h
  · exact absurd (h 0) ((mediaKnown_iff mem 0).mp hm)
  · exact h

theorem decode_cmis_unlisted {id} (h : CmisModule id) (mem : ModuleMemory) (hl : ¬ AssignedListed mem) :
    decodeFrom decoder id mem = .panic := by
  by_cases hm : MediaKnown mem
  · obtain ⟨f, hf⟩ := mediaKnown_fun hm
    rw [decode_cmis_eq h, apps_eq mem hf]
    have : (laneConfigs mem).foldlM (fun a p => activate (appsOf mem f) a (BitVec.ofNat 8 p.2) p.1) [] =
        (.panic : Exec DecodeError _) := by
      apply foldlM_bad _ (GoodLane (appsOf mem f)) .panic (activatePure (appsOf mem f)) _ (fun _ => rfl)
      · intro b a _ hg; exact activate_good _ _ _ hg
      · intro b a _ hg; exact activate_bad _ _ _ hg
      · unfold AssignedListed at hl
        simp only [Classical.not_forall] at hl
        obtain ⟨i, hi, hn⟩ := hl
        exact ⟨(cmisBank0 mem 0x11 (206 + i), i), List.mem_map.mpr ⟨i, List.mem_range.mpr hi, rfl⟩,
          fun hg => hn ((goodLane_iff mem f i).mp hg)⟩
    show ((laneConfigs mem).foldlM (fun a p => activate (appsOf mem f) a (BitVec.ofNat 8 p.2) p.1) []).bind _ = _
    rw [this]; rfl
  · exact decode_cmis_media h mem hm

/-- The groups of lanes. -/
def activeOf (mem : ModuleMemory) (f : U8 → MediaInterfaceId) : List (U8 × ApplicationDescriptor × List U8) :=
  (laneConfigs mem).foldl (activatePure (appsOf mem f)) []

theorem decode_cmis_listed {id} (h : CmisModule id) (mem : ModuleMemory) {f : U8 → MediaInterfaceId}
    (hf : ∀ x, MediaInterfaceId.fromU8 (Bf.ofByte (cmisLow mem 85)) x = some (f x)) (hl : AssignedListed mem) :
    decodeFrom decoder id mem =
      ((flat (activeOf mem f)).foldlM (fun dps x => addLane (laneReads mem) x.1 x.2.1 dps x.2.2) []).bind fun dps =>
        .ok (.cmis (Bf.ofByte (cmisUp mem 0 203)) (~~~ (cmisUp mem 0 209)) dps) := by
  rw [decode_cmis_eq h, apps_eq mem hf]
  show ((laneConfigs mem).foldlM (fun a p => activate (appsOf mem f) a (BitVec.ofNat 8 p.2) p.1) []).bind _ = _
  rw [foldlM_ok _ (GoodLane (appsOf mem f)) (activatePure (appsOf mem f)) (laneConfigs mem)]
  · show (datapathsOf (laneReads mem) (activeOf mem f)).bind _ = _
    rw [datapathsOf, datapathsOf_flat]
  · intro b a _ hg; exact activate_good _ _ _ hg
  · intro a ha
    obtain ⟨i, hi, rfl⟩ := List.mem_map.mp ha
    exact (goodLane_iff mem f i).mpr (hl i (List.mem_range.mp hi))

theorem active_invA (mem : ModuleMemory) (f : U8 → MediaInterfaceId) (hl : AssignedListed mem) :
    InvA (appsOf mem f) (activeOf mem f) (laneConfigs mem) := by
  apply active_inv
  intro a ha
  obtain ⟨i, hi, rfl⟩ := List.mem_map.mp ha
  exact (goodLane_iff mem f i).mpr (hl i (List.mem_range.mp hi))

theorem mem_flat (mem : ModuleMemory) (f : U8 → MediaInterfaceId) (hl : AssignedListed mem)
    (x : U8 × ApplicationDescriptor × U8) :
    x ∈ flat (activeOf mem f) ↔
      ∃ i, i < 8 ∧ x.1.toNat = assigned mem i ∧ x.1 ≠ 0 ∧ x.2.2 = BitVec.ofNat 8 i ∧
        (appsOf mem f)[(x.1 - 1).toNat]? = some x.2.1 := by
  have hi := active_invA mem f hl
  obtain ⟨k, app, lane⟩ := x
  have hm : (k, app, lane) ∈ flat (activeOf mem f) ↔
      ∃ e, BMap.get? (activeOf mem f) k = some e ∧ lane ∈ e.2 ∧ e.1 = app := by
    unfold flat
    simp only [List.mem_flatMap, List.mem_map, Prod.mk.injEq]
    constructor
    · rintro ⟨e, he, l, hl', rfl, rfl, rfl⟩
      exact ⟨e.2, BMap.get?_of_mem u8Lt_strict hi.sorted he, hl', rfl⟩
    · rintro ⟨e, he, hl', rfl⟩
      exact ⟨(k, e), BMap.mem_of_get? he, lane, hl', rfl, rfl, rfl⟩
  rw [hm]
  constructor
  · rintro ⟨e, he, hl', rfl⟩
    obtain ⟨p, hp, h1, h2, h3⟩ := (hi.lanes k lane).mp ⟨e, he, hl'⟩
    obtain ⟨i, hi8, rfl⟩ := List.mem_map.mp hp
    exact ⟨i, List.mem_range.mp hi8, by rw [← h1, appSelectCode_toNat]; rfl, h2, h3, (hi.app _ _ he).2⟩
  · rintro ⟨i, hi8, h1, h2, h3, h4⟩
    simp only at h1 h2 h3 h4
    obtain ⟨e, he, hl'⟩ := (hi.lanes k lane).mpr ⟨(cmisBank0 mem 0x11 (206 + i), i),
      List.mem_map.mpr ⟨i, List.mem_range.mpr hi8, rfl⟩,
      BitVec.eq_of_toNat_eq (by rw [h1, appSelectCode_toNat]; rfl), h2, h3⟩
    refine ⟨e, he, hl', ?_⟩
    have := (hi.app _ _ he).2
    rw [h4, Option.some.injEq] at this
    exact this.symm

/-- The states the code accepts are the non-zero values of the low three bits of a nibble. -/
theorem tryFrom_cases (x : U8) :
    (x.toNat % 8 ≠ 0 ∧ ∃ s, CmisDatapathState.tryFrom x = .ok s ∧ s.toByte.toNat = x.toNat % 8) ∨
    (x.toNat % 8 = 0 ∧ CmisDatapathState.tryFrom x = .error .invalidBitField) := by
  revert x; decide +kernel

theorem codeNibble_toNat (mem : ModuleMemory) (i : Nat) : (codeNibble mem i).toNat = otherLaneStateCode mem i := by
  unfold codeNibble otherLaneStateCode
  simp only
  have h1 (x : U8) : (x >>> 4).toNat = x.toNat / 16 := by revert x; decide +kernel
  have h0 (x : U8) : (x &&& 0x0f).toNat = x.toNat % 16 := by revert x; decide +kernel
  split
  · exact h1 _
  · exact h0 _

/-- The lane's state is one the code accepts. -/
def StateOk (mem : ModuleMemory) (i : Nat) : Prop := otherLaneStateCode mem i % 8 ≠ 0

instance (mem : ModuleMemory) (i : Nat) : Decidable (StateOk mem i) := inferInstanceAs (Decidable (_ ≠ _))

/-- The state the code reports, if there is one. -/
def stateOf (mem : ModuleMemory) (i : Nat) : CmisDatapathState :=
  match CmisDatapathState.tryFrom (codeNibble mem i) with
  | .ok s => s
  | .error _ => ⟨0, by decide⟩

theorem laneStatus_ok (mem : ModuleMemory) (i : Nat) (hi : i < 8) (h : StateOk mem i) :
    laneStatusOf (laneReads mem) (BitVec.ofNat 8 i) = .ok (statusOf mem i (stateOf mem i)) ∧
      (stateOf mem i).toByte.toNat = otherLaneStateCode mem i % 8 := by
  have he := laneStatusOf_eq mem ⟨i, hi⟩
  have hc := codeNibble_toNat mem i
  unfold stateOf
  rcases tryFrom_cases (codeNibble mem i) with ⟨_, s, hs, hb⟩ | ⟨h0, _⟩
  · rw [hs] at he ⊢
    exact ⟨he, by rw [hb, hc]⟩
  · rw [hc] at h0; exact absurd h0 h

theorem laneStatus_err (mem : ModuleMemory) (i : Nat) (hi : i < 8) (h : ¬ StateOk mem i) :
    laneStatusOf (laneReads mem) (BitVec.ofNat 8 i) = .err .invalidBitField := by
  have he := laneStatusOf_eq mem ⟨i, hi⟩
  have hc := codeNibble_toNat mem i
  rcases tryFrom_cases (codeNibble mem i) with ⟨h0, _⟩ | ⟨_, hs⟩
  · rw [hc] at h0; exact absurd h0 h
  · rw [hs] at he; exact he

theorem ofNat_toNat_lt {i : Nat} (h : i < 8) : (BitVec.ofNat 8 i : U8).toNat = i := by
  rw [BitVec.toNat_ofNat]; omega

theorem decode_cmis_badState {id} (h : CmisModule id) (mem : ModuleMemory) (hm : MediaKnown mem) (hl : AssignedListed mem)
    (hs : ∃ i, i < 8 ∧ assigned mem i ≠ 0 ∧ ¬ StateOk mem i) :
    decodeFrom decoder id mem = .err .invalidBitField := by
  obtain ⟨f, hf⟩ := mediaKnown_fun hm
  rw [decode_cmis_listed h mem hf hl]
  rw [foldlM_bad _ (fun x => StateOk mem x.2.2.toNat) (.err .invalidBitField)
    (addPure fun lane => statusOf mem lane.toNat (stateOf mem lane.toNat))]
  · rfl
  · intro _; rfl
  · intro b x hx hg
    obtain ⟨i, hi, _, _, h3, _⟩ := (mem_flat mem f hl x).mp hx
    rw [h3, ofNat_toNat_lt hi] at hg
    rw [addLane, h3, (laneStatus_ok mem i hi hg).1, addPure, h3, ofNat_toNat_lt hi]
    rfl
  · intro b x hx hg
    obtain ⟨i, hi, _, _, h3, _⟩ := (mem_flat mem f hl x).mp hx
    rw [h3, ofNat_toNat_lt hi] at hg
    rw [addLane, h3, laneStatus_err mem i hi hg]
    rfl
  · obtain ⟨i, hi, ha, hn⟩ := hs
    have hk : (BitVec.ofNat 8 (assigned mem i) : U8).toNat = assigned mem i := by
      rw [BitVec.toNat_ofNat]
      have := hl i hi
      have := count_le mem
      omega
    have hlen : ((BitVec.ofNat 8 (assigned mem i) : U8) - 1).toNat < (appsOf mem f).length := by
      have h1 := hl i hi
      have : (appsOf mem f).length = applicationCount mem := by simp [appsOf]
      rw [this, BitVec.toNat_sub, hk]
      have := count_le mem
      simp; omega
    refine ⟨(BitVec.ofNat 8 (assigned mem i), _, BitVec.ofNat 8 i), (mem_flat mem f hl _).mpr
      ⟨i, hi, hk, ?_, rfl, List.getElem?_eq_getElem hlen⟩, ?_⟩
    · intro hz
      simp only at hz
      rw [hz] at hk
      exact ha hk.symm
    · simp only [ofNat_toNat_lt hi]; exact hn

theorem isApplication_of (mem : ModuleMemory) {f : U8 → MediaInterfaceId}
    (hf : ∀ x, MediaInterfaceId.fromU8 (Bf.ofByte (cmisLow mem 85)) x = some (f x)) {k : U8} (hk : k ≠ 0)
    {app : ApplicationDescriptor} (h : (appsOf mem f)[(k - 1).toNat]? = some app) : IsApplication mem k.toNat app := by
  have hk1 : (k - 1).toNat = k.toNat - 1 := by
    have h0 : k.toNat ≠ 0 := fun h => hk (BitVec.eq_of_toNat_eq h)
    have := k.isLt
    rw [BitVec.toNat_sub]; simp; omega
  rw [appsOf, hk1, List.getElem?_map] at h
  obtain ⟨j, hj, rfl⟩ := Option.map_eq_some_iff.mp h
  have hj' := List.getElem?_eq_some_iff.mp hj
  obtain ⟨_, hj'⟩ := hj'
  rw [List.getElem_range] at hj'
  subst hj'
  refine ⟨rfl, hf _, ?_, ?_, rfl, rfl⟩
  · have (x : U8) : ((x &&& 0xf0) >>> 4).toNat = x.toNat / 16 := by revert x; decide +kernel
    exact this _
  · have (x : U8) : (x &&& 0x0f).toNat = x.toNat % 16 := by revert x; decide +kernel
    exact this _

theorem decode_cmis_ok {id} (h : CmisModule id) (mem : ModuleMemory) (hm : MediaKnown mem) (hl : AssignedListed mem)
    (hs : ∀ i, i < 8 → assigned mem i ≠ 0 → StateOk mem i) :
    ∃ dps, decodeFrom decoder id mem = .ok (.cmis (Bf.ofByte (cmisUp mem 0 203)) (~~~ (cmisUp mem 0 209)) dps) ∧
      Grouped mem dps ∧
      ∀ e ∈ dps, ∀ l ∈ e.2.laneStatus, ∀ i, l.1.toNat = i + 1 → l.2.state.toByte.toNat = otherLaneStateCode mem i % 8 := by
  obtain ⟨f, hf⟩ := mediaKnown_fun hm
  have hflat := mem_flat mem f hl
  have hi := datapaths_inv (fun lane => statusOf mem lane.toNat (stateOf mem lane.toNat)) (flat (activeOf mem f))
  refine ⟨(flat (activeOf mem f)).foldl (addPure fun lane => statusOf mem lane.toNat (stateOf mem lane.toNat)) [],
    ?_, ?_, ?_⟩
  · rw [decode_cmis_listed h mem hf hl, foldlM_ok _ (fun _ => True)
      (addPure fun lane => statusOf mem lane.toNat (stateOf mem lane.toNat))]
    · rfl
    · intro b x hx _
      obtain ⟨i, hi, h1, h2, h3, _⟩ := (hflat x).mp hx
      have hg : StateOk mem i := hs i hi fun hz => h2 (BitVec.eq_of_toNat_eq (by rw [h1, hz]; rfl))
      rw [addLane, h3, (laneStatus_ok mem i hi hg).1, addPure, h3, ofNat_toNat_lt hi]
      rfl
    · intros; trivial
  all_goals
    generalize (flat (activeOf mem f)).foldl (addPure fun lane => statusOf mem lane.toNat (stateOf mem lane.toNat)) [] = dps
      at hi
    have key : ∀ e ∈ dps, ∀ l ∈ e.2.laneStatus, ∃ i, i < 8 ∧ l.1.toNat = i + 1 ∧ e.1.toNat = assigned mem i ∧ e.1 ≠ 0 ∧
        l.2 = statusOf mem i (stateOf mem i) := by
      intro e he l hl'
      have hg := BMap.get?_of_mem u8Lt_strict hi.sorted he
      obtain ⟨x, hx, h1, h2, h3⟩ := (hi.lanes e.1 l.1 l.2).mp ⟨e.2, hg,
        BMap.get?_of_mem u8Lt_strict (hi.each _ _ hg).1 hl'⟩
      obtain ⟨i, hi8, e1, e2, e3, _⟩ := (hflat x).mp hx
      rw [h1] at e1 e2
      refine ⟨i, hi8, ?_, e1, e2, ?_⟩
      · rw [h2, e3, BitVec.toNat_add, ofNat_toNat_lt hi8]; simp; omega
      · rw [h3, e3, ofNat_toNat_lt hi8]
  · refine ⟨?_, ?_, ?_, ?_, ?_⟩
    · refine List.Pairwise.imp ?_ hi.sorted
      intro a b hab
      simpa [u8Lt, BitVec.lt_def] using hab
    · intro e he
      obtain ⟨_, lane, hlane⟩ := hi.each _ _ (BMap.get?_of_mem u8Lt_strict hi.sorted he)
      obtain ⟨i, hi8, e1, e2, e3, e4⟩ := (hflat _).mp hlane
      exact ⟨fun hz => e2 (BitVec.eq_of_toNat_eq hz), isApplication_of mem hf e2 e4⟩
    · intro e he
      have hg := BMap.get?_of_mem u8Lt_strict hi.sorted he
      obtain ⟨hso, lane, hlane⟩ := hi.each _ _ hg
      refine ⟨?_, List.Pairwise.imp (by intro a b hab; simpa [u8Lt, BitVec.lt_def] using hab) hso⟩
      intro hnil
      obtain ⟨dp, hd, hm'⟩ := (hi.lanes e.1 (1 + lane) _).mpr ⟨_, hlane, rfl, rfl, rfl⟩
      rw [hg, Option.some.injEq] at hd
      rw [← hd, hnil] at hm'
      cases hm'
    · intro e he l hl'
      obtain ⟨i, hi8, h1, h2, h3, h4⟩ := key e he l hl'
      refine ⟨i, hi8, h1, h2.symm, ?_⟩
      rw [h4]
      exact ⟨rfl, rfl, rfl, rfl, rfl, rfl, rfl, rfl, rfl, rfl, rfl, rfl, rfl, rfl, rfl⟩
    · intro i hi8 ha
      have hk : (BitVec.ofNat 8 (assigned mem i) : U8).toNat = assigned mem i := by
        rw [BitVec.toNat_ofNat]
        have := hl i hi8
        have := count_le mem
        omega
      have hlen : ((BitVec.ofNat 8 (assigned mem i) : U8) - 1).toNat < (appsOf mem f).length := by
        have h1 := hl i hi8
        have : (appsOf mem f).length = applicationCount mem := by simp [appsOf]
        rw [this, BitVec.toNat_sub, hk]
        have := count_le mem
        simp; omega
      have hx : (BitVec.ofNat 8 (assigned mem i), (appsOf mem f)[((BitVec.ofNat 8 (assigned mem i) : U8) - 1).toNat],
          (BitVec.ofNat 8 i : U8)) ∈ flat (activeOf mem f) :=
        (hflat _).mpr ⟨i, hi8, hk, fun hz => ha (by simp only at hz; rw [← hk, hz]; rfl), rfl,
          List.getElem?_eq_getElem hlen⟩
      obtain ⟨dp, hd, hm'⟩ := (hi.lanes _ _ _).mpr ⟨_, hx, rfl, rfl, rfl⟩
      refine ⟨_, BMap.mem_of_get? hd, hk, _, BMap.mem_of_get? hm', ?_⟩
      simp only
      rw [BitVec.toNat_add, ofNat_toNat_lt hi8]; simp; omega
  · intro e he l hl' j hj
    obtain ⟨i, hi8, h1, h2, h3, h4⟩ := key e he l hl'
    have : i = j := by omega
    subst this
    rw [h4]
    exact (laneStatus_ok mem i hi8 (hs i hi8 fun hz => h3 (BitVec.eq_of_toNat_eq (by rw [h2, hz]; rfl)))).2

end Datapath

end Xcvr
