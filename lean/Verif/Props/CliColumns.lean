import Verif.Lemmas.Columns
import Verif.Props.CliLines

/-! # C92: columns line up -/

namespace Xcvr

open Spec Prog Cli Controller

theorem pairs_map {α β : Type} {R : β → α → Prop} (f : α → β) {l : List α} (h : ∀ a ∈ l, R (f a) a) :
    Pairs R (l.map f) l := by
  induction l with
  | nil => exact .nil
  | cons a l ih => exact .cons (h a List.mem_cons_self) (ih fun b hb => h b (List.mem_cons_of_mem _ hb))

/-- The table of vendors in the default form, whatever is stored in the modules: the header, unless omitted, and one line
for each module, all 106 characters long, each text whole and in its own column. A date that is not UTF-8 is `Unknown`. -/
theorem C92_vendor (fmt : Fmt) (m : ModuleId) (ign : Bool) (a : TableArgs VendorField) (ha : a.parseable = false)
    (t : List Exchange) (out : Lines) (fails : List (U8 × TransceiverError))
    (h : Runs (dispatch fmt ign m (.vendorInfo a)) t (.ok (.done out fails))) (ht : Conforming t) :
    ∃ r : Res VendorInfo, Runs (Controller.vendorInfo m) t (.ok r) ∧ ∃ head lines,
      out = head ++ lines ∧
      (a.omitHeader = true → head = []) ∧
      (a.omitHeader = false → ∃ l, head = [l] ∧
        VendorLine l chars!"Port" chars!"Identifier" chars!"Vendor" chars!"Part" chars!"Rev" chars!"Serial"
          chars!"Mfg date") ∧
      Pairs (fun line x => VendorLine line (decimal x.1) (identText x.2.identifier) x.2.vendor.name x.2.vendor.part
        x.2.vendor.revision x.2.vendor.serial (x.2.vendor.date.getD chars!"Unknown")) lines r.iter := by
  obtain ⟨r, ls, h1, h2, h3⟩ := showing_ok h
  cases h3
  refine ⟨r, h1, ?_⟩
  rw [kind_default ha] at h2
  have h4 : out = (if !a.omitHeader then [chars!"Port " ++ vendorColumns chars!"Identifier" chars!"Vendor" chars!"Part"
      chars!"Rev" chars!"Serial" chars!"Mfg date"] else []) ++ r.iter.map fun x => vendorRow x.1 x.2 := by
    unfold vendorTable table at h2
    dsimp only at h2
    rw [mapM_ok (g := fun x : U8 × VendorInfo => vendorRow x.1 x.2) fun _ _ => rfl] at h2
    cases h2
    rfl
  refine ⟨_, _, h4, ?_, ?_, pairs_map _ fun x hx => ?_⟩
  · intro ho
    rw [ho]
    rfl
  · intro ho
    rw [ho]
    exact ⟨_, rfl, vendorLine_of (port := chars!"Port") (by decide) (by decide) (by decide) (by decide) (by decide)
      (by decide) (by decide)⟩
  · obtain ⟨t₁, t₂, -, -, h5⟩ := C41_attributed _ C41_decoders.2.1 m t _ h1 ht
    obtain ⟨b, -, rds, ds, -, -, h6⟩ := h5.ok _ _ (((C20_iter r).2.1 x.1 x.2).1 hx)
    have hf := parse_fits h6
    exact vendorLine_of (decimal_length x.1) hf.ident hf.name hf.part hf.revision hf.serial hf.date

/-- Modules 1 (SFF-8636) and 2 (CMIS) that store the letters from A on. Module 3 fails. -/
def vendorBench : Bench where
  failing _ _ := ⟨0b1000⟩
  memory _ i rd k := if rd.offset = 0 then (if i = 1 then 0x11 else 0x1e) else if rd.offset.toNat = 148 ∧ k = 71 then 0xff
    else BitVec.ofNat 8 (65 + (rd.offset.toNat - 128 + k) % 26)

example : ((dispatch plainFmt false ⟨0b1110⟩ (.vendorInfo ⟨false, [], none, false⟩)).exec vendorBench.sp []).2 =
    .ok (.done
      [chars!"Port Identifier               Vendor           Part             Rev  Serial           Mfg date            ",
       chars!"   1 Qsfp28 (0x11)            UVWXYZABCDEFGHIJ OPQRSTUVWXYZABCD EF   QRSTUVWXYZABCDEF Unknown             ",
       chars!"   2 QsfpPlusCmis (0x1e)      BCDEFGHIJKLMNOPQ UVWXYZABCDEFGHIJ KL   MNOPQRSTUVWXYZAB CDEFGHIJ            "]
      [(3, .hardware 3 .disabledBySp none)]) := by
  decide +kernel

end Xcvr
