import Verif.Model.CliCmd
import Verif.Props.Controller
import Verif.Props.Power

/-! # C67: which modules a selection stands for -/

namespace Xcvr

open Spec Prog Cli

theorem mem_allSidecar (p : Nat) : Mem ModuleId.allSidecar p ↔ p < 32 := (C01_set_operations ModuleId.empty ModuleId.empty p).2.2.2.2.2.2.1

/-- **C67**, selections by number: they stand for themselves and ask nothing. -/
theorem C67_fixed (m : ModuleId) (t : List Exchange) (o : Exec CtlError ModuleId) :
    (Runs (addressTransceivers .all) t o ↔ t = [] ∧ ∃ s, o = .ok s ∧ ∀ p, Mem s p ↔ p < 32) ∧
    (Runs (addressTransceivers (.index m)) t o ↔ t = [] ∧ o = .ok m) := by
  have hall := mem_allSidecar
  constructor
  · show Runs (Prog.ret _) _ _ ↔ _
    rw [runs_ret]
    constructor
    · rintro ⟨rfl, rfl⟩
      exact ⟨rfl, _, rfl, hall⟩
    · rintro ⟨rfl, s, rfl, hs⟩
      refine ⟨rfl, congrArg _ ?_⟩
      exact moduleId_ext_mem fun p => by rw [hs, hall]
  · show Runs (Prog.ret _) _ _ ↔ _
    rw [runs_ret]

/-- **C67**, `present`: one status request for all ports of the switch; the selection is exactly the ports whose status
has bit 0 set. -/
theorem C67_present (t : List Exchange) (o : Exec CtlError ModuleId) (h : Runs (addressTransceivers .present) t o)
    (hc : Conforming t) :
    ∃ x s, t = [x] ∧ x.1 = Call.host (.status ModuleId.allSidecar) ∧ o = .ok s ∧
      ∀ p, Mem s p ↔ ∃ st, okIn x p = some [st] ∧ bit st 0 = true := by
  obtain ⟨t₁, t₂, r, rfl, h1, hc1, h2, hc2⟩ := runs_bind_ok h hc fun t o h hc => by
    obtain ⟨r, res, -, rfl, -⟩ := status_spec h hc
    exact ⟨_, rfl⟩
  obtain ⟨y, res, rfl, h3, hst⟩ := status_spec h1 hc1
  simp only [Exec.ok.injEq] at h3
  subst h3
  have hcx := hc1 _ (List.mem_cons_self ..)
  have hd := status_data (m := ModuleId.allSidecar) rfl hcx hst
  rw [pure_eq, runs_ret] at h2
  obtain ⟨rfl, rfl⟩ := h2
  refine ⟨_, _, rfl, rfl, rfl, fun p => ?_⟩
  rw [mem_filter' _ hst.wf.1]
  refine exists_congr fun st => and_congr (hd p st) ?_
  revert st
  have : ∀ st : U8, Controller.Status.contains st Cli.present = bit st 0 := by decide +kernel
  exact fun st => by rw [this]

/-- **C67**, by power state. The outcome is a selection, unless some powered module is of an unsupported kind. Selected
are exactly the ports whose mode, by their status and power control byte, has the state; what is not selected has another
state or did not answer. -/
theorem C67_power (state : PowerState) (t : List Exchange) (o : Exec CtlError ModuleId)
    (h : Runs (addressTransceivers (.powerState state)) t o) (hc : Conforming t) :
    ∃ x t₁ t₂, t = x :: (t₁ ++ t₂) ∧ x.1 = Call.host (.status ModuleId.allSidecar) ∧
      ((∃ s, o = .ok s ∧ (∀ p, Mem s p → p < 32 ∧ ∃ mode, ModeOf x t₁ t₂ p mode ∧ mode.state = state) ∧
        ∀ p, p < 32 → ¬ Mem s p → (∃ mode, ModeOf x t₁ t₂ p mode ∧ mode.state ≠ state) ∨ (errIn x p).isSome ∨
          ∃ e, OwnError PowerControl.decoder t₁ t₂ p e) ∨
       ∃ p b, Readable x p ∧ Identified t₁ p b ∧ interfaceOfCode b = none ∧
         o = .err (.transceiver (.decode (.unsupportedIdentifier (Bf.ofByte b))))) := by
  have hall := mem_allSidecar
  rcases runs_bind.1 h with ⟨tp, t', r, rfl, h1, h2⟩ | ⟨e, h1, rfl⟩ | ⟨h1, rfl⟩
  · rw [pure_eq, runs_ret] at h2
    obtain ⟨rfl, rfl⟩ := h2
    rw [List.append_nil] at *
    obtain ⟨x, t₁, t₂, -, rfl, hx, -, -, -, hw, hp, hok, -, hf⟩ := power_spec h1 hc
    refine ⟨x, t₁, t₂, rfl, hx, .inl ⟨_, rfl, fun p hm => ?_, fun p hlt hm => ?_⟩⟩
    · rw [mem_filter' _ hw.1] at hm
      obtain ⟨mode, h3, h4⟩ := hm
      refine ⟨?_, mode, hok p mode h3, by simpa using h4⟩
      rw [← hall, (hp p).1]
      exact .inl ((mem_iff_datum hw.1 p).2 ⟨_, h3⟩)
    · rw [mem_filter' _ hw.1] at hm
      rcases (hp p).1.1 ((hall p).2 hlt) with h3 | h3
      · obtain ⟨mode, h3⟩ := (mem_iff_datum hw.1 p).1 h3
        refine .inl ⟨mode, hok p mode h3, fun he => hm ⟨mode, h3, by simpa using he⟩⟩
      · exact .inr (hf p h3)
  · obtain ⟨x, t₁, t₂, -, rfl, hx, -, -, -, q, b, h5, h6, h7, rfl⟩ := power_spec h1 hc
    exact ⟨x, t₁, t₂, rfl, hx, .inr ⟨q, b, h5, h6, h7, rfl⟩⟩
  · obtain ⟨x, t₁, t₂, -, rfl, hx, -, -, -, hf⟩ := power_spec h1 hc
    exact hf.elim

/-- **C67**, `off`: every port whose status lacks power, or is held in reset, is selected; empty ports too. -/
theorem C67_off (t : List Exchange) (s : ModuleId)
    (h : Runs (addressTransceivers (.powerState .off)) t (.ok s)) (hc : Conforming t) :
    ∃ x t', t = x :: t' ∧ x.1 = Call.host (.status ModuleId.allSidecar) ∧
      ∀ p, Mem s p ↔ ∃ st, okIn x p = some [st] ∧ NeedsPower st := by
  rcases runs_bind.1 h with ⟨tp, t', r, rfl, h1, h2⟩ | ⟨e, h1, h2⟩ | ⟨h1, h2⟩
  · rw [pure_eq, runs_ret] at h2
    obtain ⟨rfl, hs⟩ := h2
    simp only [Exec.ok.injEq] at hs
    subst hs
    rw [List.append_nil] at *
    obtain ⟨x, t₁, t₂, -, rfl, hx, -, -, -, hw, hp, hok, hoff, hf⟩ := power_spec h1 hc
    refine ⟨x, _, rfl, hx, fun p => ?_⟩
    rw [mem_filter' _ hw.1]
    constructor
    · rintro ⟨mode, h3, h4⟩
      obtain ⟨st, h5, ⟨h6, -⟩ | ⟨-, c, -, rfl⟩⟩ := hok p mode h3
      · exact ⟨st, h5, h6⟩
      · exfalso
        cases c with
        | overrideLpModePin b => cases b <;> simp [modeFor] at h4
        | useLpModePin => cases hb : bit st 3 <;> simp [modeFor, hb] at h4
    · rintro ⟨st, h5, h6⟩
      exact ⟨_, hoff p st h5 h6, rfl⟩
  · cases h2
  · cases h2

/-- **C67**, by kind: the identifier byte of every port is read; the selection is exactly the ports that returned one of
this kind. Unknown identifiers do not disturb it. -/
theorem C67_kind (kind : ManagementInterface) (t : List Exchange) (o : Exec CtlError ModuleId)
    (h : Runs (addressTransceivers (.kind kind)) t o) (hc : Conforming t) :
    ∃ s, o = .ok s ∧ ReadsOf ModuleId.allSidecar identifierByte t ∧
      ∀ p, Mem s p ↔ ∃ code, Identified t p code ∧ interfaceOfCode code = some kind := by
  obtain ⟨t₁, t₂, r, rfl, h1, hc1, h2, hc2⟩ := runs_bind_ok h hc fun t o h hc => by
    obtain ⟨res, rfl, -⟩ := identifier_spec h hc
    exact ⟨_, rfl⟩
  rw [pure_eq, runs_ret] at h2
  obtain ⟨rfl, rfl⟩ := h2
  rw [List.append_nil] at *
  obtain ⟨s, bytes, f, h3, h4, h5, h6⟩ := identifier_bytes h1 hc1
  simp only [Exec.ok.injEq] at h3
  subst h3
  refine ⟨_, rfl, h4, fun p => ?_⟩
  have hw : Aligned s (bytes.map (Bf.ofByte : U8 → Identifier)) := by
    have := h5.wf.1
    unfold Aligned at this ⊢
    simpa using this
  rw [mem_filter' _ hw]
  have key : ∀ code : U8, (match Identifier.managementInterface (Bf.ofByte code) with
      | .ok iface => iface == kind
      | .error _ => false) = true ↔ interfaceOfCode code = some kind := by
    have h : ∀ code : U8, (match Identifier.managementInterface (Bf.ofByte code) with
        | .ok iface => some iface
        | .error _ => none) = interfaceOfCode code := by decide +kernel
    intro code
    rw [← h code]
    cases Identifier.managementInterface (Bf.ofByte code) <;> simp
  unfold Identified
  constructor
  · rintro ⟨id, h7, h8⟩
    rw [datum_map] at h7
    cases hd : datum s bytes p with
    | none => rw [hd] at h7; cases h7
    | some code =>
      rw [hd, Option.map_some, Option.some.injEq] at h7
      subst h7
      exact ⟨code, by rw [h6, hd]; rfl, (key code).1 h8⟩
  · rintro ⟨code, h7, h8⟩
    rw [h6] at h7
    cases hd : datum s bytes p with
    | none => rw [hd] at h7; cases h7
    | some c =>
      rw [hd, Option.map_some, Option.some.injEq, List.cons.injEq] at h7
      obtain ⟨rfl, -⟩ := h7
      exact ⟨_, by rw [datum_map, hd]; rfl, (key c).2 h8⟩

/-- Ports 0 to 3 are present, 1 to 3 powered; port 1 holds an SFF-8636 module, port 2 a CMIS one in low power mode, port 3 is
unknown or CMIS. Port 4 does not answer. -/
def selectBench (code : U8) : Bench where
  failing _ _ := ⟨0b10000⟩
  status _ i := if i = 0 then 0x01 else if i = 2 then 0x2b else if i.toNat < 4 then 0x23 else 0
  memory _ i rd _ := if rd.offset = 0 then (if i = 1 then 0x11 else if i = 2 then 0x18 else if i = 3 then code else 0)
    else if i.toNat = 2 then 0x40 else 0

example : ((addressTransceivers .present).exec (selectBench 0x33).sp []).2 = .ok ⟨0b1111⟩ ∧
    ((addressTransceivers (.kind .cmis)).exec (selectBench 0x33).sp []).2 = .ok ⟨0b100⟩ ∧
    ((addressTransceivers (.powerState .low)).exec (selectBench 0x1e).sp []).2 = .ok ⟨0b100⟩ ∧
    ((addressTransceivers (.powerState .off)).exec (selectBench 0x1e).sp []).2 = .ok ⟨0xffffffe1⟩ ∧
    ((addressTransceivers (.powerState .high)).exec (selectBench 0x33).sp []).2 =
      .err (.transceiver (.decode (.unsupportedIdentifier (Bf.ofByte 0x33)))) := by
  decide +kernel

end Xcvr
