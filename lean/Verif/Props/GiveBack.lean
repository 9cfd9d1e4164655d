import Verif.Model.Args
import Verif.Props.Cli
import Verif.Props.CliPrint
import Verif.Props.FlagText

/-!
# C152: what the tool prints can be given back to it

The names of the columns to `--output`, ports to `--transceivers`, flags to `--with` and `--without`, the states of LEDs to
`set-leds` and power states to `set-power`.
-/

namespace Xcvr

open Spec Cli

theorem takes_back {α : Type} {arg : List Char → Option α} {name : α → List Char} (h : ∀ a, arg (name a) = some a)
    (fields : List α) : (fields.map name).mapM arg = some fields := by
  induction fields with
  | nil => rfl
  | cons f fs ih => simp [h f, ih]

/-- C152: `--output` takes the names in the header of a table back as the same fields, in every command that prints one. -/
theorem C152_fields :
    (∀ fs : List StatusField, (fs.map StatusField.name).mapM statusArg = some fs) ∧
    (∀ fs : List PowerField, (fs.map PowerField.name).mapM powerFieldArg = some fs) ∧
    (∀ fs : List IdentifyField, (fs.map IdentifyField.name).mapM identifyArg = some fs) ∧
    (∀ fs : List VendorField, (fs.map VendorField.name).mapM vendorArg = some fs) ∧
    (∀ fs : List DataField, (fs.map DataField.name).mapM dataArg = some fs) ∧
    (∀ fs : List ModelField, (fs.map ModelField.name).mapM modelArg = some fs) ∧
    (∀ fs : List LedField, (fs.map LedField.name).mapM ledFieldArg = some fs) ∧
    (∀ fs : List MonitorField, (fs.map MonitorField.name).mapM monitorArg = some fs) :=
  ⟨takes_back (fun f => by cases f <;> rfl), takes_back (fun f => by cases f <;> rfl),
    takes_back (fun f => by cases f <;> rfl), takes_back (fun f => by cases f <;> rfl),
    takes_back (fun f => by cases f <;> rfl), takes_back (fun f => by cases f <;> rfl),
    takes_back (fun f => by cases f <;> rfl), takes_back (fun f => by cases f <;> rfl)⟩

/-! ## Ports -/

/-- A port as it stands in a table: alone in the parseable form, in a column in the default form. -/
inductive Spec.PortText : U8 → List Char → Prop
  | alone (x : U8) : PortText x (decimal x)
  | column (x : U8) : PortText x (portColumn x)

theorem Spec.PortText.padded {x : U8} {s : List Char} (h : PortText x s) : PaddedNumber s x := by
  cases h with
  | alone => exact ⟨[], decimal x, [], by simp, nofun, nofun, C74_port x⟩
  | column =>
    refine ⟨List.replicate (4 - (decimal x).length) ' ', decimal x, [], by simp [portColumn, alignRight], ?_, nofun, C74_port x⟩
    intro c hc
    rw [(List.mem_replicate.1 hc).2]
    decide

/-- Ports and their texts. -/
inductive Spec.PortTexts : List U8 → List (List Char) → Prop
  | one {x s} : PortText x s → PortTexts [x] [s]
  | cons {x s xs ss} : PortText x s → PortTexts xs ss → PortTexts (x :: xs) (s :: ss)

theorem Spec.PortTexts.portList {xs : List U8} {ss : List (List Char)} (h : PortTexts xs ss) :
    ∃ P, PortList (join [','] ss) P ∧ ∀ p, P p ↔ ∃ x ∈ xs, x.toNat = p := by
  induction h with
  | @one x s h => exact ⟨_, .one (.single h.padded), fun p => by simp [eq_comm]⟩
  | @cons x s xs ss h hs ih =>
    obtain ⟨P, h1, h2⟩ := ih
    have hj : join [','] (s :: ss) = s ++ ',' :: join [','] ss := by
      cases hs <;> simp [join]
    rw [hj]
    refine ⟨_, .cons (.single h.padded) h1, fun p => ?_⟩
    simp [h2, eq_comm]

theorem Spec.PortTexts.no_word {xs : List U8} {ss : List (List Char)} (h : PortTexts xs ss) :
    ∀ k ∈ keywords, ¬ IsWord (join [','] ss) k.1 := by
  have hf : ∀ {x : U8} {s : List Char}, PortText x s → ∃ c r, s = c :: r ∧ c.toLower ∉ chars!"aplosch" := by
    intro x s hs
    have hx : ∃ c r, decimal x = c :: r ∧ c.toLower ∉ chars!"aplosch" := by
      have : ∀ x : U8, (match decimal x with | c :: _ => !(chars!"aplosch".contains c.toLower) | [] => false) = true := by
        decide +kernel
      have hx := this x
      cases hd : decimal x with
      | nil => rw [hd] at hx; cases hx
      | cons c r =>
        rw [hd] at hx
        exact ⟨c, r, rfl, fun hm => by simp only [List.contains_iff_mem.2 hm] at hx; cases hx⟩
    cases hs with
    | alone => exact hx
    | column =>
      unfold portColumn alignRight
      cases hn : 4 - (decimal x).length with
      | zero => simpa using hx
      | succ n => exact ⟨' ', _, rfl, by decide⟩
  have hh : ∃ c r, join [','] ss = c :: r ∧ c.toLower ∉ chars!"aplosch" := by
    cases h with
    | one h => exact hf h
    | cons h hs =>
      obtain ⟨c, r, rfl, hc⟩ := hf h
      cases hs <;> exact ⟨c, _, rfl, hc⟩
  obtain ⟨c, r, hj, hc⟩ := hh
  intro k hk hw
  unfold IsWord at hw
  rw [hj, List.map_cons] at hw
  have hk2 : ∀ k ∈ keywords, (match k.1 with | d :: _ => chars!"aplosch".contains d | [] => false) = true := by
    decide +kernel
  have hk3 := hk2 k hk
  rw [← hw] at hk3
  exact hc (List.contains_iff_mem.1 hk3)

theorem exists_mask (ports : List U8) (hp : ∀ x ∈ ports, x.toNat < 64) :
    ∃ m : ModuleId, ∀ p, Mem m p ↔ ∃ x ∈ ports, x.toNat = p := by
  induction ports with
  | nil => exact ⟨⟨0⟩, fun p => by simp [Mem]⟩
  | cons x xs ih =>
    obtain ⟨m, hm⟩ := ih fun y hy => hp y (List.mem_cons_of_mem _ hy)
    refine ⟨⟨m.mask ||| BitVec.twoPow 64 x.toNat⟩, fun p => ?_⟩
    have hx := hp x List.mem_cons_self
    have h := hm p
    unfold Mem at h ⊢
    rw [BitVec.getLsbD_or, Bool.or_eq_true, h, BitVec.getLsbD_twoPow]
    simp only [Bool.and_eq_true, decide_eq_true_eq, List.mem_cons, exists_eq_or_imp]
    constructor
    · rintro (h | h)
      · exact .inr h
      · exact .inl h.2
    · rintro (h | h)
      · exact .inr ⟨hx, h⟩
      · exact .inl h

/-- C152: a list of ports, as they stand in either form of a table, selects exactly these ports. -/
theorem C152_ports {lower : List Char → List Char} (hl : ∀ s, Lowered s (lower s)) (ports : List U8)
    (texts : List (List Char)) (h : PortTexts ports texts) (hp : ∀ x ∈ ports, x.toNat < 64) :
    ∃ m, parseTransceivers lower (join [','] texts) = .ok (.index m) ∧ ∀ p, Mem m p ↔ ∃ x ∈ ports, x.toNat = p := by
  obtain ⟨P, h1, h2⟩ := h.portList
  have hP : ∀ p, P p → p < 64 := fun p hp' => by
    obtain ⟨x, hx, rfl⟩ := (h2 p).1 hp'
    exact hp x hx
  obtain ⟨m, hm⟩ : ∃ m : ModuleId, ∀ p, Mem m p ↔ P p := by
    obtain ⟨m, hm⟩ := exists_mask ports hp
    exact ⟨m, fun p => (hm p).trans (h2 p).symm⟩
  exact ⟨m, (C62_lists hl _ h.no_word _).2 ⟨m, P, rfl, h1, hP, hm⟩, fun p => (hm p).trans (h2 p)⟩

/-! ## Values -/

/-- C152: the flags of a status are taken back by `--with` and `--without`, and the state of an LED in the parseable form by
`set-leds`. -/
theorem C152_values : (∀ s : U32, parseStatus (statusText s) = some s) ∧ ∀ s : LedState, ledArg (ledText s) = some s :=
  ⟨fun s => (C120_written s).2, fun s => by cases s <;> rfl⟩

/-- C152 for power states and for LEDs in the default form: what is printed differs from what is taken in the first letter,
which is a capital. -/
theorem C152_capitals_partial :
    (∀ s : PowerState, powerArg (powerText s) = none ∧ powerArg ((powerText s).map Char.toLower) = some s) ∧
    ∀ s : LedState, ledArg (ledDebug s) = none ∧ ledArg ((ledDebug s).map Char.toLower) = some s :=
  ⟨fun s => by cases s <;> exact ⟨by decide +kernel, by decide +kernel⟩,
    fun s => by cases s <;> exact ⟨by decide +kernel, by decide +kernel⟩⟩

/-- C152: and nothing else is taken as a value: a text that is a part of a name, that has more than a name, or that is the
name of a field of another command, is refused. -/
theorem C152_only (s : List Char) :
    (∀ v, powerArg s = some v ↔ s = (powerText v).map Char.toLower) ∧ (∀ v, ledArg s = some v ↔ s = ledText v) ∧
    (∀ f, statusArg s = some f ↔ s = f.name) ∧ (∀ f, powerFieldArg s = some f ↔ s = f.name) ∧
    (∀ f, identifyArg s = some f ↔ s = f.name) ∧ (∀ f, vendorArg s = some f ↔ s = f.name) ∧
    (∀ f, dataArg s = some f ↔ s = f.name) ∧ (∀ f, modelArg s = some f ↔ s = f.name) ∧
    (∀ f, ledFieldArg s = some f ↔ s = f.name) ∧ ∀ f, monitorArg s = some f ↔ s = f.name := by
  have h : ∀ {α : Type} (values : List α) (name text : α → List Char), (∀ v, name v = text v) →
      (∀ v, valueOf values name (text v) = some v) → ∀ v, valueOf values name s = some v ↔ s = text v := by
    intro α values name text hn ht v
    refine ⟨fun hs => ?_, fun hs => hs ▸ ht v⟩
    have := List.find?_some hs
    rw [← hn v]
    exact (beq_iff_eq.1 this).symm
  refine ⟨h _ _ _ ?_ ?_, h _ _ _ ?_ ?_, h _ _ _ ?_ ?_, h _ _ _ ?_ ?_, h _ _ _ ?_ ?_, h _ _ _ ?_ ?_, h _ _ _ ?_ ?_,
    h _ _ _ ?_ ?_, h _ _ _ ?_ ?_, h _ _ _ ?_ ?_⟩ <;> intro v <;> cases v <;> decide +kernel

/-- Texts that are refused. -/
example : powerArg chars!"of" = none ∧ powerArg chars!"offs" = none ∧ ledArg chars!"low" = none ∧
    statusArg chars!"led" = none := by
  decide +kernel

/-- C152 as stated is false. -/
theorem C152_false : ¬ ∀ s : PowerState, powerArg (powerText s) = some s := fun h =>
  absurd (h .low) (by rw [(C152_capitals_partial.1 .low).1]; nofun)

/-- Two ports, one from each form. -/
example : PortTexts [7, 31] [decimal 7, portColumn 31] ∧ join [','] [decimal 7, portColumn 31] = chars!"7,  31" :=
  ⟨.cons (.alone 7) (.one (.column 31)), by decide +kernel⟩

end Xcvr
