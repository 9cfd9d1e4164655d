import Verif.Model.Message

namespace Xcvr

/-! Round-trip, canonicity and size of every wire type, built up type by type. -/

/-- The laws of a wire type. -/
class LawfulCodec (α : Type) [Codec α] : Prop where
  dec_enc : ∀ (a : α) (t : Bytes), dec (enc a ++ t) = some (a, t)
  enc_dec : ∀ (bs : Bytes) (a : α) (t : Bytes), dec bs = some (a, t) → bs = enc a ++ t
  size : ∀ a : α, (enc a).length ≤ maxSize α

export LawfulCodec (dec_enc enc_dec)

attribute [simp] LawfulCodec.dec_enc

theorem leEnc_length (n x : Nat) : (leEnc n x).length = n := by
  induction n generalizing x with
  | zero => rfl
  | succ n ih => simp [leEnc, ih]

theorem leDec_leEnc (n x : Nat) (h : x < 256 ^ n) (t : Bytes) : leDec n (leEnc n x ++ t) = some (x, t) := by
  induction n generalizing x with
  | zero => simp at h; subst h; rfl
  | succ n ih =>
    have : x / 256 < 256 ^ n := by
      rw [Nat.pow_succ] at h
      exact Nat.div_lt_of_lt_mul (by rwa [Nat.mul_comm])
    simp only [leEnc, List.cons_append, leDec, ih _ this]
    simp only [BitVec.toNat_ofNat]
    congr 2
    omega

theorem leDec_spec (n : Nat) (bs : Bytes) (x : Nat) (t : Bytes) (h : leDec n bs = some (x, t)) :
    x < 256 ^ n ∧ bs = leEnc n x ++ t := by
  induction n generalizing bs x with
  | zero => simp only [leDec, Option.some.injEq, Prod.mk.injEq] at h; obtain ⟨rfl, rfl⟩ := h; simp [leEnc]
  | succ n ih =>
    cases bs with
    | nil => cases h
    | cons b bs =>
      simp only [leDec] at h
      split at h
      · rename_i y t' hy
        simp only [Option.some.injEq, Prod.mk.injEq] at h
        obtain ⟨rfl, rfl⟩ := h
        obtain ⟨h1, h2⟩ := ih _ _ hy
        have hb := b.isLt
        constructor
        · rw [Nat.pow_succ]; omega
        · have e1 : BitVec.ofNat 8 (b.toNat + 256 * y) = b := by
            apply BitVec.eq_of_toNat_eq; simp; omega
          have e2 : (b.toNat + 256 * y) / 256 = y := by omega
          simp [leEnc, e1, e2, h2]
      · cases h

theorem Decoder.map_some {α β : Type} {f : α → β} {d : Decoder α} {bs : Bytes} {b : β} {t : Bytes}
    (h : d.map f bs = some (b, t)) : ∃ a, d bs = some (a, t) ∧ b = f a := by
  unfold Decoder.map at h
  split at h
  · rename_i a t' ha
    simp only [Option.some.injEq, Prod.mk.injEq] at h
    exact ⟨a, by rw [ha, h.2], h.1.symm⟩
  · cases h

theorem Decoder.map_eq {α β : Type} (f : α → β) (d : Decoder α) (bs : Bytes) {a : α} {t : Bytes}
    (h : d bs = some (a, t)) : d.map f bs = some (f a, t) := by
  simp [Decoder.map, h]

@[simp] theorem map_dec_enc {α β : Type} [Codec α] [LawfulCodec α] (f : α → β) (a : α) (t : Bytes) :
    Decoder.map f dec (enc a ++ t) = some (f a, t) := Decoder.map_eq f dec _ (dec_enc a t)

theorem map_enc_dec {α β : Type} [Codec α] [LawfulCodec α] (f : α → β) (bs : Bytes) (b : β) (t : Bytes)
    (h : Decoder.map f dec bs = some (b, t)) : ∃ a, bs = enc a ++ t ∧ b = f a := by
  obtain ⟨a, ha, hb⟩ := Decoder.map_some h
  exact ⟨a, enc_dec _ _ _ ha, hb⟩

@[simp] theorem unitVariant_apply {α : Type} (a : α) (t : Bytes) : unitVariant a t = some (a, t) := rfl

theorem lawful_le {w : Nat} (n : Nat) (hw : 2 ^ w = 256 ^ n) :
    (∀ (a : BitVec w) (t : Bytes), (leDec n : Decoder Nat).map (BitVec.ofNat w) (leEnc n a.toNat ++ t) = some (a, t)) ∧
    (∀ (bs : Bytes) (a : BitVec w) (t : Bytes), (leDec n : Decoder Nat).map (BitVec.ofNat w) bs = some (a, t) →
      bs = leEnc n a.toNat ++ t) := by
  constructor
  · intro a t
    have h := leDec_leEnc n a.toNat (by rw [← hw]; exact a.isLt) t
    rw [Decoder.map_eq _ _ _ h]
    simp
  · intro bs a t h
    obtain ⟨x, hx, rfl⟩ := Decoder.map_some h
    obtain ⟨h1, h2⟩ := leDec_spec n bs x t hx
    rw [h2, BitVec.toNat_ofNat, hw, Nat.mod_eq_of_lt h1]

instance : LawfulCodec U8 where
  dec_enc a t := rfl
  enc_dec bs a t h := by
    cases bs with
    | nil => cases h
    | cons b bs =>
      have h : (some (b, bs) : Option (U8 × Bytes)) = some (a, t) := h
      simp only [Option.some.injEq, Prod.mk.injEq] at h
      obtain ⟨rfl, rfl⟩ := h; rfl
  size a := Nat.le_refl _

instance : LawfulCodec U16 where
  dec_enc := (lawful_le 2 (by decide)).1
  enc_dec := (lawful_le 2 (by decide)).2
  size a := Nat.le_of_eq (leEnc_length _ _)

instance : LawfulCodec U32 where
  dec_enc := (lawful_le 4 (by decide)).1
  enc_dec := (lawful_le 4 (by decide)).2
  size a := Nat.le_of_eq (leEnc_length _ _)

instance : LawfulCodec U64 where
  dec_enc := (lawful_le 8 (by decide)).1
  enc_dec := (lawful_le 8 (by decide)).2
  size a := Nat.le_of_eq (leEnc_length _ _)

theorem dec_pair_some {α β : Type} [Codec α] [Codec β] {bs : Bytes} {p : α × β} {t : Bytes}
    (h : (dec bs : Option ((α × β) × Bytes)) = some (p, t)) :
    ∃ t', dec bs = some (p.1, t') ∧ dec t' = some (p.2, t) := by
  simp only [dec] at h
  split at h
  · cases h
  · rename_i a t' ha
    split at h
    · cases h
    · rename_i b t'' hb
      simp only [Option.some.injEq, Prod.mk.injEq] at h
      obtain ⟨rfl, rfl⟩ := h
      exact ⟨t', ha, hb⟩

instance {α β : Type} [Codec α] [Codec β] [LawfulCodec α] [LawfulCodec β] : LawfulCodec (α × β) where
  dec_enc p t := by
    have h1 := dec_enc p.1 (enc p.2 ++ t)
    have h2 := dec_enc p.2 t
    show (match (dec ((enc p.1 ++ enc p.2) ++ t) : Option (α × Bytes)) with
      | none => none
      | some (a, t) =>
        match (dec t : Option (β × Bytes)) with
        | none => none
        | some (b, t) => some ((a, b), t)) = some (p, t)
    rw [List.append_assoc, h1]
    simp only [h2]
  enc_dec bs p t h := by
    obtain ⟨t', h1, h2⟩ := dec_pair_some h
    have e1 := enc_dec _ _ _ h1
    have e2 := enc_dec _ _ _ h2
    show bs = (enc p.1 ++ enc p.2) ++ t
    rw [e1, e2, List.append_assoc]
  size p := by
    have h1 := LawfulCodec.size p.1
    have h2 := LawfulCodec.size p.2
    show (enc p.1 ++ enc p.2).length ≤ maxSize α + maxSize β
    rw [List.length_append]; omega

/-- Types that are a record of an already lawful tuple. -/
theorem lawful_iso {α β : Type} [Codec α] [LawfulCodec α] [Codec β] (f : α → β) (g : β → α) (hfg : ∀ b, f (g b) = b)
    (hgf : ∀ a, g (f a) = a)
    (henc : ∀ b : β, enc b = enc (g b)) (hdec : (dec : Decoder β) = Decoder.map f dec)
    (hsize : maxSize β = maxSize α) : LawfulCodec β where
  dec_enc b t := by rw [henc, hdec, map_dec_enc, hfg]
  enc_dec bs b t h := by
    rw [hdec] at h
    obtain ⟨a, ha, rfl⟩ := map_enc_dec f bs b t h
    rw [henc, hgf, ha]
  size b := by rw [henc, hsize]; exact LawfulCodec.size _

theorem enumDec_some {α : Type} {vs : List (Decoder α)} {bs : Bytes} {a : α} {t : Bytes}
    (h : enumDec vs bs = some (a, t)) :
    ∃ tag rest d, bs = tag :: rest ∧ vs[tag.toNat]? = some d ∧ d rest = some (a, t) := by
  cases bs with
  | nil => cases h
  | cons tag rest =>
    simp only [enumDec] at h
    split at h
    · rename_i d hd; exact ⟨tag, rest, d, rfl, hd, h⟩
    · cases h

/-- A variant decoder is right for tag `i` when what it decodes re-encodes to the tag and the bytes consumed. -/
def VariantOk {α : Type} (encode : α → Bytes) (i : Nat) (d : Decoder α) : Prop :=
  ∀ rest a t, d rest = some (a, t) → encode a ++ t = BitVec.ofNat 8 i :: rest

/-- All variants of a list, from tag `i` on. -/
def VariantsOk {α : Type} (encode : α → Bytes) : Nat → List (Decoder α) → Prop
  | _, [] => True
  | i, d :: ds => VariantOk encode i d ∧ VariantsOk encode (i + 1) ds

theorem VariantsOk.get {α : Type} {encode : α → Bytes} {ds : List (Decoder α)} {i : Nat}
    (h : VariantsOk encode i ds) {k : Nat} {d : Decoder α} (hd : ds[k]? = some d) : VariantOk encode (i + k) d := by
  induction ds generalizing i k with
  | nil => simp at hd
  | cons e ds ih =>
    cases k with
    | zero => simp at hd; subst hd; exact h.1
    | succ k =>
      have := ih h.2 (by simpa using hd)
      have e : i + 1 + k = i + (k + 1) := by omega
      rwa [e] at this

theorem enum_enc_dec {α : Type} (encode : α → Bytes) (vs : List (Decoder α)) (h : VariantsOk encode 0 vs)
    (bs : Bytes) (a : α) (t : Bytes) (hd : enumDec vs bs = some (a, t)) : bs = encode a ++ t := by
  obtain ⟨tag, rest, d, rfl, hv, hr⟩ := enumDec_some hd
  have := h.get hv rest a t hr
  rw [this]; simp

theorem variantOk_unit {α : Type} (encode : α → Bytes) (i : Nat) (a : α) (h : encode a = [BitVec.ofNat 8 i]) :
    VariantOk encode i (unitVariant a) := by
  intro rest b t hd
  simp only [unitVariant, Option.some.injEq, Prod.mk.injEq] at hd
  obtain ⟨rfl, rfl⟩ := hd
  rw [h]; rfl

theorem variantOk_map {α β : Type} [Codec β] [LawfulCodec β] (encode : α → Bytes) (i : Nat) (f : β → α)
    (h : ∀ b, encode (f b) = BitVec.ofNat 8 i :: enc b) : VariantOk encode i (Decoder.map f dec) := by
  intro rest a t hd
  obtain ⟨b, rfl, rfl⟩ := map_enc_dec f rest a t hd
  rw [h]; rfl

instance {α : Type} [Codec α] [LawfulCodec α] : LawfulCodec (Option α) where
  dec_enc a t := by cases a <;> simp [dec, enc, enumDec]
  enc_dec := enum_enc_dec _ _ ⟨variantOk_unit _ _ _ rfl, variantOk_map _ _ _ (fun _ => rfl), trivial⟩
  size a := by
    cases a with
    | none => simp [enc, maxSize]
    | some a => have := LawfulCodec.size a; simp only [enc, maxSize, List.length_cons] at *; omega

instance : LawfulCodec Empty where
  dec_enc a := nomatch a
  enc_dec _ a := nomatch a
  size a := nomatch a

instance : LawfulCodec ModuleId :=
  lawful_iso ModuleId.mk ModuleId.mask (fun _ => rfl) (fun _ => rfl) (fun _ => rfl) rfl rfl

instance : LawfulCodec Mac where
  dec_enc a t := rfl
  enc_dec bs a t h := by
    match bs, h with
    | b0 :: b1 :: b2 :: b3 :: b4 :: b5 :: r, h =>
      have h : (some (⟨b0, b1, b2, b3, b4, b5⟩, r) : Option (Mac × Bytes)) = some (a, t) := h
      simp only [Option.some.injEq, Prod.mk.injEq] at h
      obtain ⟨rfl, rfl⟩ := h; rfl
  size a := Nat.le_refl _

instance : LawfulCodec MacAddrs :=
  lawful_iso (fun p : Mac × U16 × U8 => ⟨p.1, p.2.1, p.2.2⟩) (fun m => (m.baseMac, m.count, m.stride))
    (fun _ => rfl) (fun _ => rfl) (fun _ => rfl) rfl rfl

instance : LawfulCodec BadMacAddrReason where
  dec_enc a t := by cases a <;> rfl
  enc_dec := enum_enc_dec _ _ ⟨variantOk_unit _ _ _ rfl, variantOk_unit _ _ _ rfl, variantOk_unit _ _ _ rfl, trivial⟩
  size a := by cases a <;> decide

instance : LawfulCodec BadMacAddrRange :=
  lawful_iso (fun p : BadMacAddrReason × Mac × U16 × U8 => ⟨p.1, p.2.1, p.2.2.1, p.2.2.2⟩)
    (fun m => (m.reason, m.baseMac, m.count, m.stride)) (fun _ => rfl) (fun _ => rfl) (fun _ => rfl) rfl rfl

instance : LawfulCodec ManagementInterface where
  dec_enc a t := by cases a <;> rfl
  enc_dec := enum_enc_dec _ _ ⟨variantOk_unit _ _ _ rfl, variantOk_unit _ _ _ rfl,
    variantOk_map _ _ _ (fun _ => rfl), trivial⟩
  size a := by cases a <;> simp [enc, maxSize, maxOf]

instance : LawfulCodec SffPage where
  dec_enc a t := by cases a <;> rfl
  enc_dec := enum_enc_dec _ _ ⟨variantOk_unit _ _ _ rfl, variantOk_map _ _ _ (fun _ => rfl), trivial⟩
  size a := by cases a <;> simp [enc, maxSize, maxOf]

instance : LawfulCodec CmisUpperPage :=
  lawful_iso (fun p : Option U8 × U8 => ⟨p.1, p.2⟩) (fun p => (p.bank, p.page))
    (fun _ => rfl) (fun _ => rfl) (fun _ => rfl) rfl rfl

instance : LawfulCodec CmisPage where
  dec_enc a t := by
    cases a with
    | lower => rfl
    | upper p => exact map_dec_enc CmisPage.upper p t
  enc_dec := enum_enc_dec _ _ ⟨variantOk_unit _ _ _ rfl, variantOk_map _ _ _ (fun _ => rfl), trivial⟩
  size a := by
    cases a with
    | lower => decide
    | upper p =>
      have := LawfulCodec.size p
      have e : maxSize CmisPage = 1 + maxSize CmisUpperPage := rfl
      rw [e]; simp only [enc, List.length_cons] at *; omega

instance : LawfulCodec Page where
  dec_enc a t := by
    cases a with
    | sff8636 p => exact map_dec_enc Page.sff8636 p t
    | cmis p => exact map_dec_enc Page.cmis p t
  enc_dec := enum_enc_dec _ _ ⟨variantOk_map _ _ _ (fun _ => rfl), variantOk_map _ _ _ (fun _ => rfl), trivial⟩
  size a := by
    have e : maxSize Page = 5 := rfl
    have e1 : maxSize SffPage = 2 := rfl
    have e2 : maxSize CmisPage = 4 := rfl
    cases a with
    | sff8636 p => have := LawfulCodec.size p; show (0 :: enc p).length ≤ _; simp only [List.length_cons] at *; omega
    | cmis p => have := LawfulCodec.size p; show (1 :: enc p).length ≤ _; simp only [List.length_cons] at *; omega

instance : LawfulCodec MemAccess :=
  lawful_iso (fun p : Page × U8 × U8 => ⟨p.1, p.2.1, p.2.2⟩) (fun a => (a.page, a.offset, a.len))
    (fun _ => rfl) (fun _ => rfl) (fun _ => rfl) rfl rfl

instance : LawfulCodec ProtocolError where
  dec_enc a t := by
    cases a with
    | wrongDataSize e a => exact map_dec_enc (fun p : U32 × U32 => ProtocolError.wrongDataSize p.1 p.2) (e, a) t
    | versionMismatch e a => exact map_dec_enc (fun p : U8 × U8 => ProtocolError.versionMismatch p.1 p.2) (e, a) t
    | _ => rfl
  enc_dec := enum_enc_dec _ _ ⟨variantOk_unit _ _ _ rfl, variantOk_unit _ _ _ rfl, variantOk_unit _ _ _ rfl,
    variantOk_map _ _ _ (fun _ => rfl), variantOk_map _ _ _ (fun _ => rfl), variantOk_unit _ _ _ rfl, trivial⟩
  size a := by
    have e : maxSize ProtocolError = 9 := rfl
    cases a with
    | wrongDataSize e a =>
      have := LawfulCodec.size (e, a)
      have e2 : maxSize (U32 × U32) = 8 := rfl
      show (3 :: enc (e, a)).length ≤ _; simp only [List.length_cons] at *; omega
    | versionMismatch e a =>
      have := LawfulCodec.size (e, a)
      have e2 : maxSize (U8 × U8) = 2 := rfl
      show (4 :: enc (e, a)).length ≤ _; simp only [List.length_cons] at *; omega
    | _ => decide

instance : LawfulCodec HwError where
  dec_enc a t := by cases a <;> rfl
  enc_dec := enum_enc_dec _ _ ⟨variantOk_unit _ _ _ rfl, variantOk_unit _ _ _ rfl, variantOk_unit _ _ _ rfl,
    variantOk_unit _ _ _ rfl, variantOk_unit _ _ _ rfl, variantOk_unit _ _ _ rfl, variantOk_unit _ _ _ rfl,
    variantOk_unit _ _ _ rfl, variantOk_unit _ _ _ rfl, variantOk_unit _ _ _ rfl, variantOk_unit _ _ _ rfl,
    variantOk_unit _ _ _ rfl, variantOk_unit _ _ _ rfl, variantOk_unit _ _ _ rfl, variantOk_unit _ _ _ rfl, trivial⟩
  size a := by cases a <;> decide

instance : LawfulCodec LedState where
  dec_enc a t := by cases a <;> rfl
  enc_dec := enum_enc_dec _ _ ⟨variantOk_unit _ _ _ rfl, variantOk_unit _ _ _ rfl, variantOk_unit _ _ _ rfl, trivial⟩
  size a := by cases a <;> decide

instance : LawfulCodec MessageKind where
  dec_enc a t := by cases a <;> rfl
  enc_dec := enum_enc_dec _ _ ⟨variantOk_unit _ _ _ rfl, variantOk_unit _ _ _ rfl, variantOk_unit _ _ _ rfl,
    variantOk_unit _ _ _ rfl, variantOk_unit _ _ _ rfl, trivial⟩
  size a := by cases a <;> decide

instance : LawfulCodec Header :=
  lawful_iso (fun p : U8 × U64 × MessageKind => ⟨p.1, p.2.1, p.2.2⟩) (fun h => (h.version, h.messageId, h.messageKind))
    (fun _ => rfl) (fun _ => rfl) (fun _ => rfl) rfl rfl

instance : LawfulCodec HostRequest where
  dec_enc a t := by
    cases a with
    | read m r => exact map_dec_enc (fun p : ModuleId × MemAccess => HostRequest.read p.1 p.2) (m, r) t
    | write m r => exact map_dec_enc (fun p : ModuleId × MemAccess => HostRequest.write p.1 p.2) (m, r) t
    | status m => exact map_dec_enc HostRequest.status m t
    | assertReset m => exact map_dec_enc HostRequest.assertReset m t
    | deassertReset m => exact map_dec_enc HostRequest.deassertReset m t
    | assertLpMode m => exact map_dec_enc HostRequest.assertLpMode m t
    | deassertLpMode m => exact map_dec_enc HostRequest.deassertLpMode m t
    | enablePower m => exact map_dec_enc HostRequest.enablePower m t
    | disablePower m => exact map_dec_enc HostRequest.disablePower m t
    | managementInterface m i =>
      exact map_dec_enc (fun p : ModuleId × ManagementInterface => HostRequest.managementInterface p.1 p.2) (m, i) t
    | macAddrs => rfl
    | clearPowerFault m => exact map_dec_enc HostRequest.clearPowerFault m t
    | ledState m => exact map_dec_enc HostRequest.ledState m t
    | setLedState m s => exact map_dec_enc (fun p : ModuleId × LedState => HostRequest.setLedState p.1 p.2) (m, s) t
    | extendedStatus m => exact map_dec_enc HostRequest.extendedStatus m t
    | clearDisableLatch m => exact map_dec_enc HostRequest.clearDisableLatch m t
  enc_dec := enum_enc_dec _ _ ⟨variantOk_map _ _ _ (fun _ => rfl), variantOk_map _ _ _ (fun _ => rfl),
    variantOk_map _ _ _ (fun _ => rfl), variantOk_map _ _ _ (fun _ => rfl), variantOk_map _ _ _ (fun _ => rfl),
    variantOk_map _ _ _ (fun _ => rfl), variantOk_map _ _ _ (fun _ => rfl), variantOk_map _ _ _ (fun _ => rfl),
    variantOk_map _ _ _ (fun _ => rfl), variantOk_map _ _ _ (fun _ => rfl), variantOk_unit _ _ _ rfl,
    variantOk_map _ _ _ (fun _ => rfl), variantOk_map _ _ _ (fun _ => rfl), variantOk_map _ _ _ (fun _ => rfl),
    variantOk_map _ _ _ (fun _ => rfl), variantOk_map _ _ _ (fun _ => rfl), trivial⟩
  size a := by
    have e : maxSize HostRequest = 16 := rfl
    have e1 : maxSize (ModuleId × MemAccess) = 15 := rfl
    have e2 : maxSize ModuleId = 8 := rfl
    have e3 : maxSize (ModuleId × ManagementInterface) = 10 := rfl
    have e4 : maxSize (ModuleId × LedState) = 9 := rfl
    cases a with
    | read m r => have := LawfulCodec.size (α := ModuleId × MemAccess) (m, r); show (0 :: enc (m, r)).length ≤ _; simp only [List.length_cons] at *; omega
    | write m r => have := LawfulCodec.size (α := ModuleId × MemAccess) (m, r); show (1 :: enc (m, r)).length ≤ _; simp only [List.length_cons] at *; omega
    | managementInterface m r =>
      have := LawfulCodec.size (m, r); show (9 :: enc (m, r)).length ≤ _; simp only [List.length_cons] at *; omega
    | macAddrs => decide
    | setLedState m r =>
      have := LawfulCodec.size (m, r); show (13 :: enc (m, r)).length ≤ _; simp only [List.length_cons] at *; omega
    | status m | assertReset m | deassertReset m | assertLpMode m | deassertLpMode m | enablePower m | disablePower m
    | clearPowerFault m | ledState m | extendedStatus m | clearDisableLatch m =>
      have := LawfulCodec.size m
      show (enc m).length + 1 ≤ _
      omega

instance : LawfulCodec MacAddrResponse where
  dec_enc a t := by
    cases a with
    | ok a => exact map_dec_enc MacAddrResponse.ok a t
    | error a => exact map_dec_enc MacAddrResponse.error a t
  enc_dec := enum_enc_dec _ _ ⟨variantOk_map _ _ _ (fun _ => rfl), variantOk_map _ _ _ (fun _ => rfl), trivial⟩
  size a := by
    have e : maxSize MacAddrResponse = 11 := rfl
    have e1 : maxSize MacAddrs = 9 := rfl
    have e2 : maxSize BadMacAddrRange = 10 := rfl
    cases a with
    | ok p => have := LawfulCodec.size p; show (0 :: enc p).length ≤ _; simp only [List.length_cons] at *; omega
    | error p => have := LawfulCodec.size p; show (1 :: enc p).length ≤ _; simp only [List.length_cons] at *; omega

instance : LawfulCodec SpResponse where
  dec_enc a t := by
    cases a with
    | read m f r =>
      exact map_dec_enc (fun p : ModuleId × ModuleId × MemAccess => SpResponse.read p.1 p.2.1 p.2.2) (m, f, r) t
    | write m f r =>
      exact map_dec_enc (fun p : ModuleId × ModuleId × MemAccess => SpResponse.write p.1 p.2.1 p.2.2) (m, f, r) t
    | status m f => exact map_dec_enc (fun p : ModuleId × ModuleId => SpResponse.status p.1 p.2) (m, f) t
    | ack m f => exact map_dec_enc (fun p : ModuleId × ModuleId => SpResponse.ack p.1 p.2) (m, f) t
    | macAddrs r => exact map_dec_enc SpResponse.macAddrs r t
    | ledState m f => exact map_dec_enc (fun p : ModuleId × ModuleId => SpResponse.ledState p.1 p.2) (m, f) t
    | extendedStatus m f => exact map_dec_enc (fun p : ModuleId × ModuleId => SpResponse.extendedStatus p.1 p.2) (m, f) t
  enc_dec := enum_enc_dec _ _ ⟨variantOk_map _ _ _ (fun _ => rfl), variantOk_map _ _ _ (fun _ => rfl),
    variantOk_map _ _ _ (fun _ => rfl), variantOk_map _ _ _ (fun _ => rfl), variantOk_map _ _ _ (fun _ => rfl),
    variantOk_map _ _ _ (fun _ => rfl), variantOk_map _ _ _ (fun _ => rfl), trivial⟩
  size a := by
    have e : maxSize SpResponse = 24 := rfl
    have e1 : maxSize (ModuleId × ModuleId × MemAccess) = 23 := rfl
    have e2 : maxSize (ModuleId × ModuleId) = 16 := rfl
    have e3 : maxSize MacAddrResponse = 11 := rfl
    cases a with
    | read m f r | write m f r =>
      have := LawfulCodec.size (α := ModuleId × ModuleId × MemAccess) (m, f, r); show (enc (m, f, r)).length + 1 ≤ _; omega
    | macAddrs r => have := LawfulCodec.size r; show (enc r).length + 1 ≤ _; omega
    | status m f | ack m f | ledState m f | extendedStatus m f =>
      have := LawfulCodec.size (m, f); show (enc (m, f)).length + 1 ≤ _; omega

instance : LawfulCodec MessageBody where
  dec_enc a t := by
    cases a with
    | error e => exact map_dec_enc MessageBody.error e t
    | hostRequest r => exact map_dec_enc MessageBody.hostRequest r t
    | spResponse r => exact map_dec_enc MessageBody.spResponse r t
    | spRequest r => exact nomatch r
    | hostResponse r => exact nomatch r
  enc_dec := enum_enc_dec _ _ ⟨variantOk_map _ _ _ (fun _ => rfl), variantOk_map _ _ _ (fun _ => rfl),
    variantOk_map _ _ _ (fun _ => rfl), variantOk_map _ _ _ (fun _ => rfl), variantOk_map _ _ _ (fun _ => rfl), trivial⟩
  size a := by
    have e : maxSize MessageBody = 25 := rfl
    have e1 : maxSize ProtocolError = 9 := rfl
    have e2 : maxSize HostRequest = 16 := rfl
    have e3 : maxSize SpResponse = 24 := rfl
    cases a with
    | error r => have := LawfulCodec.size r; show (enc r).length + 1 ≤ _; omega
    | hostRequest r => have := LawfulCodec.size r; show (enc r).length + 1 ≤ _; omega
    | spResponse r => have := LawfulCodec.size r; show (enc r).length + 1 ≤ _; omega
    | spRequest r => exact nomatch r
    | hostResponse r => exact nomatch r

instance : LawfulCodec Message :=
  lawful_iso (fun p : U8 × MessageBody => ⟨p.1, p.2⟩) (fun m => (m.version, m.body))
    (fun _ => rfl) (fun _ => rfl) (fun _ => rfl) rfl rfl

end Xcvr
