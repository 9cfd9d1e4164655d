import Verif.Lemmas.Scope
import Verif.Props.Power

/-! # C84, C85, C86: what a method touches -/

namespace Xcvr

open Spec Prog Controller

/-! ## C84: a method addresses only the modules it was given -/

/-- Whatever the method, every request it sends is about modules it was given, as long as the SP's responses name only
modules they were asked about. The run may end in any way, and the responses may be malformed otherwise. -/
theorem C84_addresses (op : Op) (m : ModuleId) (hm : opModules op = some m) (t : List Exchange) (o : Exec CtlError Unit)
    (h : Runs op.prog t o) (ht : ∀ x ∈ t, OnTopic x) : ∀ x ∈ t, Addresses m x :=
  (scoped_runs (scoped_op op (.inl hm)) h ht).1

/-- The results name only modules the method was given. -/
theorem C84_results (m : ModuleId) (t : List Exchange) (ht : ∀ x ∈ t, OnTopic x) :
    (∀ res, Runs (identifier m) t (.ok res) → ResultAmong m res) ∧
    (∀ res, Runs (vendorInfo m) t (.ok res) → ResultAmong m res) ∧
    (∀ res, Runs (memoryModel m) t (.ok res) → ResultAmong m res) ∧
    (∀ res, Runs (monitors m) t (.ok res) → ResultAmong m res) ∧
    (∀ res, Runs (datapath m) t (.ok res) → ResultAmong m res) ∧
    (∀ res, Runs (power m) t (.ok res) → ResultAmong m res) ∧
    (∀ s res, Runs (setPower m s) t (.ok res) → ResultAmong m res) ∧
    (∀ res, Runs (Controller.reset m) t (.ok res) → ResultAmong m res) ∧
    (∀ res, Runs (status m) t (.ok res) → ResultAmong m res) ∧
    (∀ res, Runs (extendedStatus m) t (.ok res) → ResultAmong m res) ∧
    (∀ res, Runs (leds m) t (.ok res) → ResultAmong m res) ∧
    (∀ rd res, Runs (Controller.read m rd) t (.ok res) → ResultAmong m res) ∧
    (∀ w data res, Runs (Controller.write m w data) t (.ok res) → ResultAmong m res) ∧
    (∀ q res, requestModules q = some m → Runs (noPayloadRequest q) t (.ok res) → ResultAmong m res) := by
  have hr := among_refl m
  refine ⟨?_, ?_, ?_, ?_, ?_, ?_, ?_, ?_, ?_, ?_, ?_, ?_, ?_, ?_⟩
  · exact fun res h => (scoped_runs (scoped_identifier hr) h ht).2 res rfl
  · exact fun res h => (scoped_runs (scoped_parse _ hr) h ht).2 res rfl
  · exact fun res h => (scoped_runs (scoped_parse _ hr) h ht).2 res rfl
  · exact fun res h => (scoped_runs (scoped_parse _ hr) h ht).2 res rfl
  · exact fun res h => (scoped_runs (scoped_parse _ hr) h ht).2 res rfl
  · exact fun res h => (scoped_runs (scoped_power hr) h ht).2 res rfl
  · exact fun s res h => (scoped_runs scoped_setPower h ht).2 res rfl
  · exact fun res h => (scoped_runs scoped_reset h ht).2 res rfl
  · exact fun res h => (scoped_runs (scoped_status hr) h ht).2 res rfl
  · exact fun res h => (scoped_runs (scoped_extendedStatus hr) h ht).2 res rfl
  · exact fun res h => (scoped_runs (scoped_leds hr) h ht).2 res rfl
  · exact fun rd res h => (scoped_runs scoped_read h ht).2 res rfl
  · exact fun w data res h => (scoped_runs scoped_write h ht).2 res rfl
  · exact fun q res hq h => (scoped_runs (scoped_noPayload hq hr) h ht).2 res rfl

namespace C84

/-- An acknowledgement of `m`. -/
def ack (m : ModuleId) : Reply :=
  .answer (.ok ⟨⟨1, 1, .spResponse⟩, Message.new (.spResponse (.ack m ⟨0⟩)), some []⟩)

theorem reset_runs (a b : ModuleId) : Runs (Op.prog (.reset a))
    [(.host (.assertReset a), ack b), (.host (.deassertReset b), ack b)] (.ok ()) := ⟨rfl, rfl, rfl⟩

end C84

/-- The hypothesis is needed: the modules of a response are not compared with those of the request, so an SP that answers
about module 1 when asked about module 0 makes a reset of module 0 release module 1 from reset. -/
theorem C84_unchecked : ∃ t o x, Runs (Op.prog (.reset ⟨1⟩)) t o ∧ x ∈ t ∧ ¬ Addresses ⟨1⟩ x := by
  refine ⟨_, _, (.host (.deassertReset ⟨2⟩), C84.ack ⟨2⟩), C84.reset_runs ⟨1⟩ ⟨2⟩, by simp, fun h => ?_⟩
  have := h (.deassertReset ⟨2⟩) ⟨2⟩ rfl rfl 1 (by decide)
  exact absurd this (by decide)

/-- The hypotheses are met by a reset of two modules of which both are acknowledged. -/
example : ∃ t o, Runs (Op.prog (.reset ⟨3⟩)) t o ∧ t.length = 2 ∧ ∀ x ∈ t, OnTopic x := by
  refine ⟨_, _, C84.reset_runs ⟨3⟩ ⟨3⟩, rfl, fun x hx => ?_⟩
  simp only [List.mem_cons, List.not_mem_nil, or_false] at hx
  rcases hx with rfl | rfl
  · intro q R d g s f hq hR hg hs
    cases hq; cases hR; cases hg; cases hs
    exact ⟨among_refl _, among_empty _⟩
  · intro q R d g s f hq hR hg hs
    cases hq; cases hR; cases hg; cases hs
    exact ⟨among_refl _, among_empty _⟩

/-! ## C85: inspecting changes nothing -/

/-- The request of a call is a query. -/
def CallQuery (c : Call) : Prop := ∃ q, c = Call.host q ∧ IsQuery q

theorem callQuery_read (g : ModuleId) (rd : MemoryRead) : CallQuery (.host (.read g rd)) := ⟨_, rfl, trivial⟩

/-- The methods that inspect modules send nothing but queries, whatever the SP answers. -/
theorem C85_queries (op : Op) (hop : Inspects op) (t : List Exchange) (o : Exec CtlError Unit) (h : Runs op.prog t o) :
    ∀ x ∈ t, ∃ q, requestOf x = some q ∧ IsQuery q ∧ x.1.data = none := by
  have hr := callQuery_read
  have hq : AllCalls CallQuery op.prog := by
    cases op <;> try exact absurd hop id
    case identifier m => exact allCalls_bind (allCalls_identifier fun g _ => hr g _) fun _ => trivial
    case vendorInfo m => exact allCalls_bind (allCalls_parse _ m hr) fun _ => trivial
    case memoryModel m => exact allCalls_bind (allCalls_parse _ m hr) fun _ => trivial
    case monitors m => exact allCalls_bind (allCalls_parse _ m hr) fun _ => trivial
    case datapath m => exact allCalls_bind (allCalls_parse _ m hr) fun _ => trivial
    case power m => exact allCalls_bind (allCalls_power m hr ⟨_, rfl, trivial⟩) fun _ => trivial
    case status m => exact allCalls_bind (allCalls_status ⟨_, rfl, trivial⟩) fun _ => trivial
    case extendedStatus m => exact allCalls_bind (allCalls_extendedStatus ⟨_, rfl, trivial⟩) fun _ => trivial
    case leds m => exact allCalls_bind (allCalls_leds ⟨_, rfl, trivial⟩) fun _ => trivial
    case macAddrs => exact allCalls_bind (allCalls_macAddrs ⟨_, rfl, trivial⟩) fun _ => trivial
    case read m rd =>
      refine allCalls_bind ?_ fun _ => trivial
      unfold Controller.read
      split
      · exact allCalls_ofExec _
      · exact allCalls_bind (allCalls_identifier fun g _ => hr g _) fun _ => allCalls_bind (allCalls_ofExec _) fun _ =>
          allCalls_bind (allCalls_readImpl fun g _ _ => hr g _) fun _ => trivial
  intro x hx
  obtain ⟨q, h2, h1⟩ := allCalls_runs hq h x hx
  obtain ⟨c, r⟩ := x
  cases h2
  exact ⟨q, rfl, h1, rfl⟩

/-- A method that inspects and makes a call. -/
example : ∃ t o, Runs (Op.prog (.status ⟨1⟩)) t o ∧ t ≠ [] :=
  ⟨[(.host (.status ⟨1⟩), .gone)], .panic, ⟨rfl, rfl⟩, by simp⟩

/-! ## C86: module memory is written only where asked -/

/-- The power control bytes of SFF-8636 and CMIS modules. -/
def PowerByte (w : MemoryWrite) : Prop := w = ⟨.sff8636 .lower, 93, 1⟩ ∨ w = ⟨.sff8636 .lower, 26, 1⟩

/-- Bit `i` of the byte at the write's address has to do with power: bits 0 and 1 of byte 93, bits 4 and 6 of byte 26. -/
def Spec.PowerBit (w : MemoryWrite) (i : Nat) : Prop :=
  (w.offset = 93 ∧ (i = 0 ∨ i = 1)) ∨ (w.offset = 26 ∧ (i = 4 ∨ i = 6))

/-- A write to a power control byte that clears all bits not about power. -/
def PowerWrite (w : MemoryWrite) (d : Bytes) : Prop :=
  PowerByte w ∧ ∃ b, d = [b] ∧ ∀ i, i < 8 → ¬ PowerBit w i → bit b i = false

/-- A call that may write only `C`. -/
def CallWrites (C : MemoryWrite → Bytes → Prop) (c : Call) : Prop :=
  (∃ q, (∀ m w, q ≠ .write m w) ∧ c = Call.host q) ∨ ∃ m w d, c = Call.host (.write m w) (some d) ∧ C w d

theorem powerWord_byte {id : Identifier} {ov low : Bool} {w : MemoryWrite} {b : U8}
    (h : powerWord id ov low = .ok (w, b)) : PowerByte w := by
  unfold powerWord at h
  split at h
  · have : MemAccess.newWrite SffPage.lower 93 1 = .ok ⟨.sff8636 .lower, 93, 1⟩ := by decide
    rw [this] at h
    cases h
    exact .inl rfl
  · split at h
    · have : MemAccess.newWrite SffPage.lower 26 1 = .ok ⟨.sff8636 .lower, 26, 1⟩ := by decide
      rw [this] at h
      cases h
      exact .inr rfl
    · cases h

theorem powerWord_zero {id : Identifier} {ov low : Bool} {w : MemoryWrite} {b : U8}
    (h : powerWord id ov low = .ok (w, b)) : ∀ i, i < 8 → ¬ PowerBit w i → bit b i = false := by
  unfold powerWord at h
  split at h
  · have : MemAccess.newWrite SffPage.lower 93 1 = .ok ⟨.sff8636 .lower, 93, 1⟩ := by decide
    rw [this] at h
    cases h
    unfold PowerBit
    cases ov <;> cases low <;> decide
  · split at h
    · have : MemAccess.newWrite SffPage.lower 26 1 = .ok ⟨.sff8636 .lower, 26, 1⟩ := by decide
      rw [this] at h
      cases h
      unfold PowerBit
      cases ov <;> cases low <;> decide
    · cases h

theorem allCalls_exec_bind {α β : Type} {C : Call → Prop} {x : Exec CtlError α} {f : α → Prog β}
    (hf : ∀ a, x = .ok a → AllCalls C (f a)) : AllCalls C (ofExec x >>= f) := by
  cases x with
  | ok a => exact hf a rfl
  | err e => trivial
  | panic => trivial

theorem writes_softKinds (low : Bool) (s : SoftState) (ks : List (Identifier × ModuleId)) :
    AllCalls (CallWrites PowerWrite) (softKinds low s ks) := by
  have hw : ∀ ident (s : SoftState) p, AllCalls (CallWrites PowerWrite) (softWrite ident low s p) := by
    intro ident s p
    refine allCalls_exec_bind fun x hx => ?_
    obtain ⟨w, b⟩ := x
    exact allCalls_bind (allCalls_writeImpl fun _ => .inr ⟨_, _, _, rfl, powerWord_byte hx, _, rfl, powerWord_zero hx⟩) fun _ => trivial
  induction ks generalizing s with
  | nil => trivial
  | cons k ks ih => exact allCalls_bind (allCalls_bind (hw _ _ _) fun _ => hw _ _ _) fun _ => ih _

theorem writes_setPowerOn (m : ModuleId) (low : Bool) :
    AllCalls (CallWrites PowerWrite) (setPowerOn m low) := by
  have h : ∀ q, (∀ m w, q ≠ HostRequest.write m w) → CallWrites PowerWrite (.host q) := fun q hq =>
    .inl ⟨q, hq, rfl⟩
  have hr : ∀ g rd, CallWrites PowerWrite (.host (.read g rd)) := fun g rd => h _ fun _ _ h => by cases h
  have hs : ∀ r, AllCalls (CallWrites PowerWrite) (setSoftwarePowerState r low) := fun r =>
    allCalls_bind (allCalls_identifier fun g _ => hr g _) fun _ => allCalls_bind (allCalls_ofExec _) fun _ =>
      allCalls_bind (writes_softKinds low _ _) fun _ => trivial
  unfold setPowerOn
  refine allCalls_bind (allCalls_power m hr (h _ fun _ _ h => by cases h)) fun pw => ?_
  split
  · trivial
  · refine allCalls_bind (allCalls_status (h _ fun _ _ h => by cases h)) fun st => ?_
    dsimp only
    refine allCalls_bind (allCalls_stepIfAny (fun m => allCalls_noPayloadRequest (h _ fun _ _ h => by cases h)) _ _ _)
      fun _ => ?_
    refine allCalls_bind (allCalls_stepIfAny (fun m => allCalls_noPayloadRequest (h _ fun _ _ h => by cases h)) _ _ _)
      fun _ => ?_
    cases low with
    | true =>
      refine allCalls_bind (allCalls_noPayloadRequest (h _ fun _ _ h => by cases h)) fun _ => ?_
      refine allCalls_bind (allCalls_stepIfAny (fun m => allCalls_noPayloadRequest (h _ fun _ _ h => by cases h)) _ _ _)
        fun _ => ?_
      exact hs _
    | false =>
      refine allCalls_bind (allCalls_noPayloadRequest (h _ fun _ _ h => by cases h)) fun _ => ?_
      refine allCalls_bind (allCalls_stepIfAny (fun m => allCalls_noPayloadRequest (h _ fun _ _ h => by cases h)) _ _ _)
        fun _ => ?_
      exact hs _

/-- What a method may write: `write` what it was given, setting low or high power the power control byte, all others
nothing. -/
def MayWrite : Op → MemoryWrite → Bytes → Prop
  | .write _ w data, w', d => w' = w ∧ d = data
  | .setPower _ .low, w, d | .setPower _ .high, w, d => PowerWrite w d
  | _, _, _ => False

theorem writes_op (op : Op) : AllCalls (CallWrites (MayWrite op)) op.prog := by
  have hh : ∀ {C : MemoryWrite → Bytes → Prop} (q : HostRequest), (∀ m w, q ≠ .write m w) → CallWrites C (.host q) :=
    fun q hq => .inl ⟨q, hq, rfl⟩
  have hr : ∀ {C : MemoryWrite → Bytes → Prop} g rd, CallWrites C (.host (.read g rd)) :=
    fun g rd => hh _ fun _ _ h => by cases h
  have hn : ∀ {C : MemoryWrite → Bytes → Prop} (q : HostRequest), (∀ m w, q ≠ .write m w) →
      AllCalls (CallWrites C) (do let _ ← noPayloadRequest q) :=
    fun q h => allCalls_bind (allCalls_noPayloadRequest (hh q h)) fun _ => trivial
  cases op with
  | identifier m => exact allCalls_bind (allCalls_identifier fun g _ => hr g _) fun _ => trivial
  | vendorInfo m => exact allCalls_bind (allCalls_parse _ m hr) fun _ => trivial
  | memoryModel m => exact allCalls_bind (allCalls_parse _ m hr) fun _ => trivial
  | monitors m => exact allCalls_bind (allCalls_parse _ m hr) fun _ => trivial
  | datapath m => exact allCalls_bind (allCalls_parse _ m hr) fun _ => trivial
  | reset m =>
    exact allCalls_bind (allCalls_bind (allCalls_noPayloadRequest (hh _ fun _ _ h => by cases h)) fun _ =>
      allCalls_bind (allCalls_noPayloadRequest (hh _ fun _ _ h => by cases h)) fun _ => trivial) fun _ => trivial
  | power m => exact allCalls_bind (allCalls_power m hr (hh _ fun _ _ h => by cases h)) fun _ => trivial
  | setPower m s =>
    refine allCalls_bind ?_ fun _ => trivial
    cases s with
    | off => exact allCalls_setPowerOff m hh
    | low => exact writes_setPowerOn m true
    | high => exact writes_setPowerOn m false
  | status m => exact allCalls_bind (allCalls_status (hh _ fun _ _ h => by cases h)) fun _ => trivial
  | extendedStatus m => exact allCalls_bind (allCalls_extendedStatus (hh _ fun _ _ h => by cases h)) fun _ => trivial
  | leds m => exact allCalls_bind (allCalls_leds (hh _ fun _ _ h => by cases h)) fun _ => trivial
  | macAddrs => exact allCalls_bind (allCalls_macAddrs (hh _ fun _ _ h => by cases h)) fun _ => trivial
  | write m w data =>
    exact allCalls_bind (allCalls_bind (allCalls_identifier fun g _ => hr g _) fun _ =>
      allCalls_bind (allCalls_ofExec _) fun _ =>
        allCalls_bind (allCalls_writeImpl fun _ => .inr ⟨_, _, _, rfl, rfl, rfl⟩) fun _ => trivial) fun _ => trivial
  | read m rd =>
    refine allCalls_bind ?_ fun _ => trivial
    unfold Controller.read
    split
    · exact allCalls_ofExec _
    · exact allCalls_bind (allCalls_identifier fun g _ => hr g _) fun _ => allCalls_bind (allCalls_ofExec _) fun _ =>
        allCalls_bind (allCalls_readImpl fun g _ _ => hr g _) fun _ => trivial
  | _ => exact hn _ fun _ _ h => by cases h

/-- Whatever the SP answers: `write` writes the access and bytes it was given, setting low or high power writes one byte, at
byte 93 or 26 of the lower page, and no other method writes module memory. -/
theorem C86_writes (op : Op) (t : List Exchange) (o : Exec CtlError Unit) (h : Runs op.prog t o) (x : Exchange)
    (hx : x ∈ t) (g : ModuleId) (w : MemoryWrite) (hw : requestOf x = some (.write g w)) :
    ∃ d, x.1.data = some d ∧ ((∃ m data, op = .write m w data ∧ d = data) ∨
      ∃ m s, op = .setPower m s ∧ s ≠ .off ∧ d.length = 1 ∧
        (w = ⟨.sff8636 .lower, 93, 1⟩ ∨ w = ⟨.sff8636 .lower, 26, 1⟩)) := by
  obtain ⟨c, r⟩ := x
  rcases allCalls_runs (writes_op op) h _ hx with ⟨q, h1, rfl⟩ | ⟨m, w', d, rfl, h2⟩
  · cases hw
    exact absurd rfl (h1 _ _)
  · cases hw
    have hlen : d.length = w.len.toNat := by
      rcases allCalls_runs (allCalls_op op) h _ hx with ⟨_, _, _, h3, h4⟩ | ⟨q, h3, h4⟩
      · cases h3; exact h4
      · cases h4
    refine ⟨d, rfl, ?_⟩
    cases op with
    | write m w data => exact .inl ⟨m, data, by rw [h2.1], h2.2⟩
    | setPower m s =>
      have hb : PowerByte w ∧ s ≠ .off := by
        cases s with
        | off => exact absurd h2 id
        | low => exact ⟨h2.1, by decide⟩
        | high => exact ⟨h2.1, by decide⟩
      refine .inr ⟨m, s, rfl, hb.2, ?_, hb.1⟩
      rw [hlen]
      rcases hb.1 with h | h <;> rw [h] <;> rfl
    | _ => exact absurd h2 id

/-! ## C87: setting the power leaves the rest of the control byte alone -/

/-- Module `p` reported `b` as the byte at the write's address. -/
def Spec.Reported (t : List Exchange) (w : MemoryWrite) (p : Nat) (b : U8) : Prop :=
  ∃ x ∈ t, ∃ g, requestOf x = some (.read g ⟨w.page, w.offset, w.len⟩) ∧ okIn x p = some [b]

/-- The property: a byte written to a module agrees with the one it reported in all bits not about power. -/
def Spec.KeepsOtherBits (t : List Exchange) : Prop :=
  ∀ x ∈ t, ∀ g w p b old, requestOf x = some (.write g w) → x.1.data = some [b] → Mem g p → Reported t w p old →
    ∀ i, i < 8 → ¬ PowerBit w i → bit b i = bit old i

/-- A powered SFF-8636 module in high power, enabled for power classes 5 to 7 (bit 2 of byte 93). -/
def classBench : Bench where
  status _ _ := 0x22
  memory _ _ rd _ := if rd.offset = 0 then 0x11 else 0x04

/-- The property is false. Setting a module to high power that is in high power already withdraws the higher power
classes it was enabled for. -/
theorem C87_counterexample :
    ((setPower ⟨0b1⟩ .high).exec classBench.sp []).1.map (fun x => (requestOf x, x.1.data, okIn x 0)) =
      [(some (.status ⟨1⟩), none, some [0x22]), (some (.read ⟨1⟩ identifierByte), none, some [0x11]),
       (some (.read ⟨1⟩ ⟨.sff8636 .lower, 93, 1⟩), none, some [0x04]), (some (.status ⟨1⟩), none, some [0x22]),
       (some (.deassertLpMode ⟨1⟩), none, some []), (some (.read ⟨1⟩ identifierByte), none, some [0x11]),
       (some (.write ⟨0⟩ ⟨.sff8636 .lower, 93, 1⟩), some [0x01], none),
       (some (.write ⟨1⟩ ⟨.sff8636 .lower, 93, 1⟩), some [0x00], some [])] ∧
    ((setPower ⟨0b1⟩ .high).exec classBench.sp []).2 = .ok ⟨⟨0b1⟩, [()], ⟨⟨0⟩, []⟩⟩ := by
  decide +kernel

theorem C87_false : ¬ ∀ (m : ModuleId) (s : PowerState) (t : List Exchange) (res : Res Unit),
    Runs (setPower m s) t (.ok res) → Conforming t → KeepsOtherBits t := by
  intro h
  have hr := Bench.exec_runs classBench (setPower ⟨0b1⟩ .high)
  have hm := C87_counterexample.1
  rw [C87_counterexample.2] at hr
  have hk := h _ _ _ _ hr (setPower_conforming _ _ _)
  generalize ((setPower ⟨0b1⟩ .high).exec classBench.sp []).1 = t at hm hk
  have h2 : (some (.read ⟨1⟩ ⟨.sff8636 .lower, 93, 1⟩), none, some [0x04]) ∈
      t.map (fun x => (requestOf x, x.1.data, okIn x 0)) := by rw [hm]; simp
  have h7 : (some (.write ⟨1⟩ ⟨.sff8636 .lower, 93, 1⟩), some [0x00], some []) ∈
      t.map (fun x => (requestOf x, x.1.data, okIn x 0)) := by rw [hm]; simp
  obtain ⟨x₂, hx₂, e₂⟩ := List.mem_map.1 h2
  obtain ⟨x₇, hx₇, e₇⟩ := List.mem_map.1 h7
  simp only [Prod.mk.injEq] at e₂ e₇
  have := hk x₇ hx₇ _ _ 0 _ 0x04 e₇.1 e₇.2.1 (by decide) ⟨x₂, hx₂, ⟨1⟩, e₂.1, e₂.2.2⟩ 2 (by decide)
    (by unfold PowerBit; decide)
  exact absurd this (by decide)

/-- What holds: whatever the SP answers, every byte that setting the power writes has zeros in all bits not about power.
So nothing is lost exactly if those bits were zero. -/
theorem C87_zeros_partial (m : ModuleId) (s : PowerState) (t : List Exchange) (o : Exec CtlError Unit)
    (h : Runs (Op.prog (.setPower m s)) t o) (x : Exchange) (hx : x ∈ t) (g : ModuleId) (w : MemoryWrite)
    (hw : requestOf x = some (.write g w)) :
    ∃ b, x.1.data = some [b] ∧ (∀ i, i < 8 → ¬ PowerBit w i → bit b i = false) ∧
      ∀ old : U8, (∀ i, i < 8 → ¬ PowerBit w i → bit b i = bit old i) ↔
        ∀ i, i < 8 → ¬ PowerBit w i → bit old i = false := by
  obtain ⟨c, r⟩ := x
  rcases allCalls_runs (writes_op _) h _ hx with ⟨q, h1, rfl⟩ | ⟨m', w', d, rfl, h2⟩
  · cases hw
    exact absurd rfl (h1 _ _)
  · cases hw
    have hb : PowerWrite w d := by
      cases s with
      | off => exact absurd h2 id
      | low => exact h2
      | high => exact h2
    obtain ⟨-, b, rfl, hz⟩ := hb
    refine ⟨b, rfl, hz, fun old => ⟨fun h i hi hp => ?_, fun h i hi hp => ?_⟩⟩
    · rw [← h i hi hp, hz i hi hp]
    · rw [h i hi hp, hz i hi hp]

/-- There are such writes. -/
example : ∃ x ∈ ((setPower ⟨0b1⟩ .low).exec classBench.sp []).1,
    requestOf x = some (.write ⟨1⟩ ⟨.sff8636 .lower, 93, 1⟩) ∧ x.1.data = some [0x02] := by
  have : (some (HostRequest.write ⟨1⟩ ⟨.sff8636 .lower, 93, 1⟩), some [(0x02 : U8)]) ∈
      ((setPower ⟨0b1⟩ .low).exec classBench.sp []).1.map (fun x => (requestOf x, x.1.data)) := by decide +kernel
  obtain ⟨x, hx, e⟩ := List.mem_map.1 this
  simp only [Prod.mk.injEq] at e
  exact ⟨x, hx, e⟩

end Xcvr
