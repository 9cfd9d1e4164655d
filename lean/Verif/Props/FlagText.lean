import Verif.Lemmas.FlagText
import Verif.Props.CliReports

/-! # Properties of sets of status flags as text -/

namespace Xcvr

open Xcvr.Spec Cli

/-! ## C120: the texts of status flags -/

/-- **C120**, what is read: the options of the tool take exactly the texts of flags, and give the bits these stand for. -/
theorem C120_read (s : List Char) (x : U32) : parseStatus s = some x ↔ FlagsWritten 32 flagList s x := by
  have h := flagsRead_iff goodNames s x
  rwa [show flagNames.map Prod.fst = flagList by decide +kernel] at h

/-- **C120**, what is written: for any 32 bits the text shown stands for them, and reads back. -/
theorem C120_written (s : U32) : FlagsWritten 32 flagList (statusText s) s ∧ parseStatus (statusText s) = some s := by
  have h := C74_status s
  exact ⟨(C120_read _ _).1 h, h⟩

/-- **C120**, the same for the status with eight flags: what is read, and what is written. -/
theorem C120_short (s : List Char) (x y : U8) :
    (parseShortStatus s = some x ↔ FlagsWritten 8 (flagList.take 8) s x) ∧
    FlagsWritten 8 (flagList.take 8) (shortStatusText y) y ∧ parseShortStatus (shortStatusText y) = some y := by
  have h := flagsRead_iff goodNames_short
  rw [show statusNames.map Prod.fst = flagList.take 8 by decide +kernel] at h
  have hw := flagsText_written goodNames_short y
  rw [show statusNames.map Prod.fst = flagList.take 8 by decide +kernel] at hw
  exact ⟨h s x, hw, (h _ _).2 hw⟩

/-- **C120**: a short status and the extended status it is turned into have the same text. -/
theorem C120_same (y : U8) : shortStatusText y = statusText (y.setWidth 32) := by
  revert y
  decide +kernel

/-- A set of flags has only one text, up to spaces, bars and the order and notation of the bits: different sets have
different texts. -/
theorem C120_distinct (s t : U32) (h : statusText s = statusText t) : s = t := by
  have h1 := C74_status s
  rw [h, C74_status] at h1
  cases h1
  rfl

example : parseStatus chars!" PRESENT|0x+1F0 | RESET" = some 0x1f5 ∧ parseStatus chars!"" = some 0 ∧
    parseStatus chars!"PRESENT |" = none ∧ parseStatus chars!"present" = none ∧ parseStatus chars!"0X1" = none ∧
    parseStatus chars!"0x100000000" = none := by
  decide +kernel

example : shortStatusText 0x81 = chars!"PRESENT | FAULT_POWER_LOST" ∧ statusText 0x80000201 = chars!"PRESENT | 0x80000200" ∧
    parseShortStatus chars!"0x100" = none ∧ parseShortStatus chars!"DISABLED_BY_SP" = none := by
  decide +kernel

/-! ## C121: the options of the tool that select flags -/

theorem pairs_eq_map {α β : Type} {f : α → β} {l : List α} {l' : List β} (h : Pairs (fun a b => b = f a) l l') :
    l' = l.map f := by
  induction h with
  | nil => rfl
  | cons h _ ih => rw [h, ih, List.map_cons]

/-- What an SP can report as status has no bits without a name. -/
theorem told_lt {m : ModuleId} {t : List Exchange} {i : U8} {s : U32} (h : StatusTold m t i s)
    (ht : ∀ x, t.getLast? = some x → Conforms x) : s.toNat < 512 := by
  rcases h with ⟨x, rfl, hx, b, hb, rfl⟩ | ⟨x, y, rfl, hx, hy, b, hb, rfl⟩
  · obtain ⟨q, R, data, hq, hR, ha⟩ := ht x rfl
    have hq' : q = .extendedStatus m := by
      rcases x with ⟨c, r⟩
      cases hx
      cases hq
      rfl
    subst hq'
    have hk := ha.kind
    cases R with
    | extendedStatus s f =>
      unfold okIn at hb
      rw [hR] at hb
      cases data with
      | none => cases hb
      | some d =>
        have := ha.values d rfl _ _ hb
        rw [word, BitVec.toNat_ofNat]
        omega
    | _ => cases hk
  · have := (b.headD 0).isLt
    rw [BitVec.toNat_ofNat]
    omega

/-- **C121** as documented ("any set of valid status bits may be used") is false: other bits are taken as well. -/
theorem C121_counterexample : parseStatus chars!"0x200" = some 512 ∧
    ¬ ∃ fs : List (Fin 9), (512 : U32) = fs.foldr (fun k x => BitVec.twoPow 32 k.val ||| x) 0 := by
  refine ⟨by decide +kernel, ?_⟩
  rintro ⟨fs, h⟩
  have h2 := congrArg (fun x : U32 => x.getLsbD 9) h
  have h3 : ∀ fs : List (Fin 9), (fs.foldr (fun k x => BitVec.twoPow 32 k.val ||| x) (0 : U32)).getLsbD 9 = false := by
    intro fs
    induction fs with
    | nil => rfl
    | cons k fs ih =>
      rw [List.foldr_cons, BitVec.getLsbD_or, ih, BitVec.getLsbD_twoPow]
      have := k.isLt
      simp
      omega
  simp only [h3] at h2
  revert h2
  decide

/-- No part of a text without a number has bits without a name. -/
theorem flagParts_named {s : List Char} {x : U32} (h : FlagParts 32 flagList s x)
    (hn : ∀ a b, s ≠ a ++ '0' :: 'x' :: b) : x.toNat < 512 := by
  have part : ∀ {s : List Char} {x : U32}, FlagPart 32 flagList s x → (∀ a b, s ≠ a ++ '0' :: 'x' :: b) → x.toNat < 512 := by
    rintro s x ⟨a, b, c, rfl, -, -, ⟨k, hk, hx⟩ | ⟨hex, rfl, -⟩⟩ hn
    · have hk : k < 9 := (List.getElem?_eq_some_iff.1 hk).1
      rw [hx]
      exact Nat.pow_lt_pow_right (n := 9) (by decide) hk
    · exact absurd (by simp) (hn a (hex ++ c))
  induction h with
  | one h => exact part h hn
  | @cons s t x y h _ ih =>
    have h1 := part h fun a b he => hn a (b ++ '|' :: t) (by rw [he]; simp)
    have h2 := ih fun a b he => hn (s ++ '|' :: a) b (by rw [he]; simp)
    rw [BitVec.toNat_or]
    exact Nat.or_lt_two_pow (n := 9) h1 h2

/-- **C121**, what holds of the options: a text without a number gives valid status bits only. -/
theorem C121_named_partial (s : List Char) (x : U32) (h : parseStatus s = some x) (hn : ∀ a b, s ≠ a ++ '0' :: 'x' :: b) :
    x.toNat < 512 := by
  rcases (C120_read s x).1 h with ⟨-, rfl⟩ | h
  · decide
  · exact flagParts_named h hn

/-- **C121**, what follows from other bits: given with `--with`, no module is marked; given with `--without` alone, all
are. -/
theorem C121_unknown_partial (fmt : Fmt) (m : ModuleId) (w wo : Option U32) (hw : w ≠ none ∨ wo ≠ none) (output : List StatusField)
    (sep : Option (List Char)) (omitHeader : Bool) (t : List Exchange) (out : Lines) (fails : List (U8 × TransceiverError))
    (h : Prog.Runs (dispatch fmt false m (.status w wo false false output sep omitHeader)) t (.ok (.done out fails)))
    (ht : ∀ x, t.getLast? = some x → Conforms x) :
    ∃ ports lines, Shown m ports fails ∧ out = (chars!"Port " ++ filterShown (w.getD 0) (wo.getD 0)) :: lines ∧
      (512 ≤ (w.getD 0).toNat → lines = ports.map fun i => portFour i ++ chars!" 0") ∧
      (w.getD 0 = 0 → 512 ≤ (wo.getD 0).toNat → lines = ports.map fun i => portFour i ++ chars!" 1") := by
  obtain ⟨ports, lines, h1, h2, h3⟩ := C97_status_filter fmt m w wo hw output sep omitHeader t out fails h ht
  have hset : ∀ {f s : U32}, 512 ≤ f.toNat → s.toNat < 512 → ¬ AllSet f s := by
    intro f s hf hs ha
    have hle : f.toNat ≤ s.toNat := by
      have : f.toNat &&& s.toNat = f.toNat := by
        apply Nat.eq_of_testBit_eq
        intro i
        rw [Nat.testBit_and]
        cases hb : f.toNat.testBit i with
        | false => rfl
        | true => rw [ha i hb]; rfl
      rw [← this]
      exact Nat.and_le_right
    omega
  refine ⟨ports, lines, h1, h2, fun hw => ?_, fun hz hwo => ?_⟩
  · refine pairs_eq_map (Pairs.imp (fun i l => ?_) h3)
    rintro ⟨s, bit, hs, rfl, hb, hm⟩
    have h1 : bit ≠ '1' := fun h => hset hw (told_lt hs ht) (hm.1 h).1
    rw [hb.resolve_right h1]
  · refine pairs_eq_map (Pairs.imp (fun i l => ?_) h3)
    rintro ⟨s, bit, hs, rfl, hb, hm⟩
    have h1 : bit = '1' := hm.2 ⟨by rw [hz]; exact allSet_zero s, .inr (hset hwo (told_lt hs ht))⟩
    rw [h1]

/-- The tool and three modules, of which one fails: with a bit that does not exist. -/
example : ∃ t fails, Prog.Runs (dispatch plainFmt false ⟨0b1110⟩ (.status (some 0x201) none false false [] none true)) t (.ok (.done
    [chars!"Port PRESENT | 0x200", chars!"   1 0", chars!"   2 0"] fails)) ∧ Conforming t ∧ Faithful pathMemory t ∧
    fails.map Prod.fst = [3] :=
  run_report _ _ _ _ ⟨0b1000⟩ reportStatus (fun _ => 0) (by decide +kernel)

end Xcvr
