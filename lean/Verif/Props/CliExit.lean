import Verif.Props.CliReports
import Verif.Props.CliAbort

/-! # C103: refusals and the exit status -/

namespace Xcvr

open Spec Prog Cli Controller

/-! ## Pages and accesses -/

theorem upperPage_taken (cmis : Bool) (page : U8) (bank : Option U8) :
    (∃ p, upperPage cmis page bank = .ok p) ↔ PageTaken cmis page bank := by
  unfold upperPage PageTaken
  cases cmis with
  | false =>
    rw [if_neg (by decide), if_neg (by decide), C10_sff]
    unfold SffDefined
    by_cases h : page.toNat ≤ 0x21 ∨ 0x80 ≤ page.toNat
    · rw [if_pos h]; exact ⟨fun _ => h, fun _ => ⟨_, rfl⟩⟩
    · rw [if_neg h]; exact ⟨fun ⟨_, h'⟩ => (by cases h'), fun h' => absurd h' h⟩
  | true =>
    rw [if_pos rfl, if_pos rfl]
    cases bank with
    | none =>
      dsimp only
      rw [C10_cmis_unbanked_partial]
      by_cases h : CmisBanked page.toNat
      · rw [if_pos h]; exact ⟨fun ⟨_, h'⟩ => (by cases h'), fun h' => absurd h h'⟩
      · rw [if_neg h]; exact ⟨fun _ => h, fun _ => ⟨_, rfl⟩⟩
    | some b =>
      dsimp only
      rw [C10_cmis_banked]
      by_cases h1 : CmisDefined page.toNat
      · rw [if_neg (Classical.not_not.2 h1)]
        by_cases h2 : 3 < b.toNat
        · rw [if_pos h2]; exact ⟨fun ⟨_, h'⟩ => (by cases h'), fun h' => absurd h'.2 (by omega)⟩
        · rw [if_neg h2]
          by_cases h3 : CmisBanked page.toNat
          · rw [if_neg (Classical.not_not.2 h3)]
            exact ⟨fun _ => ⟨h3, by omega⟩, fun _ => ⟨_, rfl⟩⟩
          · rw [if_pos h3]; exact ⟨fun ⟨_, h'⟩ => (by cases h'), fun h' => absurd h'.1 h3⟩
      · rw [if_pos h1]
        exact ⟨fun ⟨_, h'⟩ => (by cases h'), fun h' => absurd (Or.inr (Or.inl h'.1)) h1⟩

theorem buildReads_range (page : Page) (offset len : U8) (hl : len ≠ 0) :
    (∃ e, buildReads page offset len = .err e) ↔ ¬ InHalf page offset.toNat len.toNat := by
  have h0 : len.toNat ≠ 0 := fun h => hl (BitVec.eq_of_toNat_eq h)
  have h1 : buildReads page offset len ≠ .panic ∧
      ((∃ cs, buildReads page offset len = .ok cs) ↔ len.toNat = 0 ∨ InHalf page offset.toNat len.toNat) := by
    cases page with
    | sff8636 p => exact ⟨(C11_sff_read p offset len).1, (C11_sff_read p offset len).2.2⟩
    | cmis p => exact ⟨(C11_cmis_read p offset len).1, (C11_cmis_read p offset len).2.2⟩
  cases hb : buildReads page offset len with
  | ok cs =>
    rcases h1.2.1 ⟨cs, hb⟩ with h | h
    · exact absurd h h0
    · exact ⟨fun ⟨_, h'⟩ => (by cases h'), fun h' => absurd h h'⟩
  | err e =>
    refine ⟨fun _ h => ?_, fun _ => ⟨e, rfl⟩⟩
    obtain ⟨cs, h2⟩ := h1.2.2 (.inr h)
    rw [hb] at h2
    cases h2
  | panic => exact absurd hb h1.1

theorem buildWrite_legal (page : Page) (offset : U8) (d : Bytes) :
    (∃ e, buildWrite page offset d = .error e) ↔ ¬ LegalWrite page offset.toNat d.length := by
  cases hb : buildWrite page offset d with
  | ok w =>
    have := ((C71_accepted page offset d w).1 hb).1
    exact ⟨fun ⟨_, h'⟩ => (by cases h'), fun h' => absurd this h'⟩
  | error e =>
    refine ⟨fun _ h => ?_, fun _ => ⟨e, rfl⟩⟩
    have hlen : d.length < 256 := by
      have h2 : maxWrite page ≤ 8 := by cases page <;> simp [maxWrite]
      have := h.2.1
      omega
    have := (C71_accepted page offset d ⟨page, offset, BitVec.ofNat 8 d.length⟩).2
      ⟨h, rfl, rfl, by rw [BitVec.toNat_ofNat]; exact Nat.mod_eq_of_lt hlen⟩
    rw [hb] at this
    cases this

/-! ## Commands -/

theorem load_err {i : Input} {e : SetupError} :
    i.load = .err e ↔ (e = .noInput ∧ i.content = none) ∨
      ∃ e' c, e = .input e' ∧ i.content = some c ∧ loadWriteData i.kind c i.nread = .err e' := by
  unfold Input.load
  cases hc : i.content with
  | none => simp [eq_comm]
  | some c =>
    cases hw : loadWriteData i.kind c i.nread with
    | ok d => simp [hw]
    | err e' => simp [hw, eq_comm]
    | panic => simp [hw]

theorem readCmd_refusal {ign : Bool} {m : ModuleId} {binary : Bool} {page : Except MgmtError Page} {offset len : U8}
    {a : TableArgs DataField} {t : List Exchange} {e : SetupError} :
    Runs (readCmd ign m binary page offset len a) t (.ok (.refused e)) ↔ t = [] ∧ len ≠ 0 ∧
      ((∃ e', page = .error e' ∧ e = .page e') ∨
        ∃ p e', page = .ok p ∧ buildReads p offset len = .err e' ∧ e = .read e') := by
  unfold readCmd
  by_cases h0 : len = 0
  · rw [if_pos h0]
    exact ⟨fun h => (by cases (runs_ret.1 h).2), fun h => absurd h0 h.2.1⟩
  · rw [if_neg h0]
    cases page with
    | error x =>
      refine ⟨fun h => ?_, ?_⟩
      · obtain ⟨h1, h2⟩ := runs_ret.1 h
        cases h2
        exact ⟨h1, h0, .inl ⟨x, rfl, rfl⟩⟩
      · rintro ⟨rfl, -, ⟨e', h1, rfl⟩ | ⟨p, e', h1, -⟩⟩
        · cases h1
          exact runs_ret.2 ⟨rfl, rfl⟩
        · cases h1
    | ok p =>
      dsimp only
      cases hb : buildReads p offset len with
      | err x =>
        refine ⟨fun h => ?_, ?_⟩
        · obtain ⟨h1, h2⟩ := runs_ret.1 h
          cases h2
          exact ⟨h1, h0, .inr ⟨p, x, rfl, hb, rfl⟩⟩
        · rintro ⟨rfl, -, ⟨e', h1, -⟩ | ⟨p', e', h1, h2, rfl⟩⟩
          · cases h1
          · cases h1
            rw [hb] at h2
            cases h2
            exact runs_ret.2 ⟨rfl, rfl⟩
      | panic => exact absurd hb (buildReads_no_panic _ _ _)
      | ok rds =>
        refine ⟨fun h => (showing_refused h).elim, ?_⟩
        rintro ⟨-, -, ⟨e', h1, -⟩ | ⟨p', e', h1, h2, -⟩⟩
        · cases h1
        · cases h1
          rw [hb] at h2
          cases h2

theorem writeCmd_refusal {ign : Bool} {m : ModuleId} {page : Except MgmtError Page} {input : Input} {offset : U8}
    {t : List Exchange} {e : SetupError} :
    Runs (writeCmd ign m page input offset) t (.ok (.refused e)) ↔ t = [] ∧
      (input.load = .err e ∨ ∃ d, input.load = .ok d ∧
        ((256 ≤ d.length ∧ e = .write .tooLong) ∨ (d.length < 256 ∧ ∃ e', page = .error e' ∧ e = .page e') ∨
          (d.length < 256 ∧ ∃ p e', page = .ok p ∧ buildWrite p offset d = .error e' ∧ e = .write e'))) := by
  unfold writeCmd
  cases hl : input.load with
  | err x =>
    refine ⟨fun h => ?_, ?_⟩
    · obtain ⟨h1, h2⟩ := runs_ret.1 h
      cases h2
      exact ⟨h1, .inl rfl⟩
    · rintro ⟨rfl, h | ⟨d, h, -⟩⟩
      · cases h
        exact runs_ret.2 ⟨rfl, rfl⟩
      · cases h
  | panic =>
    refine ⟨fun h => (by cases (runs_panic.1 h).2), ?_⟩
    rintro ⟨-, h | ⟨d, h, -⟩⟩ <;> cases h
  | ok d =>
    dsimp only
    by_cases hd : 256 ≤ d.length
    · rw [if_pos hd]
      refine ⟨fun h => ?_, ?_⟩
      · obtain ⟨h1, h2⟩ := runs_ret.1 h
        cases h2
        exact ⟨h1, .inr ⟨d, rfl, .inl ⟨hd, rfl⟩⟩⟩
      · rintro ⟨rfl, h | ⟨d, h, ⟨-, rfl⟩ | ⟨h1, -⟩ | ⟨h1, -⟩⟩⟩
        · cases h
        · exact runs_ret.2 ⟨rfl, rfl⟩
        · cases h; omega
        · cases h; omega
    · rw [if_neg hd]
      have hd' : d.length < 256 := by omega
      cases page with
      | error x =>
        refine ⟨fun h => ?_, ?_⟩
        · obtain ⟨h1, h2⟩ := runs_ret.1 h
          cases h2
          exact ⟨h1, .inr ⟨d, rfl, .inr (.inl ⟨hd', x, rfl, rfl⟩)⟩⟩
        · rintro ⟨rfl, h | ⟨d, h, ⟨h1, -⟩ | ⟨-, e', h1, rfl⟩ | ⟨-, p, e', h1, -⟩⟩⟩
          · cases h
          · cases h; omega
          · cases h1
            exact runs_ret.2 ⟨rfl, rfl⟩
          · cases h1
      | ok p =>
        dsimp only
        cases hb : buildWrite p offset d with
        | error x =>
          refine ⟨fun h => ?_, ?_⟩
          · obtain ⟨h1, h2⟩ := runs_ret.1 h
            cases h2
            exact ⟨h1, .inr ⟨d, rfl, .inr (.inr ⟨hd', p, x, rfl, hb, rfl⟩)⟩⟩
          · rintro ⟨rfl, h | ⟨d', h, ⟨h1, -⟩ | ⟨-, e', h1, -⟩ | ⟨-, p', e', h1, h2, rfl⟩⟩⟩
            · cases h
            · cases h; omega
            · cases h1
            · cases h; cases h1
              rw [hb] at h2
              cases h2
              exact runs_ret.2 ⟨rfl, rfl⟩
        | ok w =>
          refine ⟨fun h => (acting_refused h).elim, ?_⟩
          rintro ⟨-, h | ⟨d', h, ⟨h1, -⟩ | ⟨-, e', h1, -⟩ | ⟨-, p', e', h1, h2, -⟩⟩⟩
          · cases h
          · cases h; omega
          · cases h1
          · cases h; cases h1
            rw [hb] at h2
            cases h2

theorem inHalf_lower (cmis : Bool) (o l : Nat) (hl : l ≠ 0) : InHalf (lowerPage cmis) o l ↔ o + l ≤ 128 := by
  cases cmis <;> simp [InHalf, pageStart, isLower, lowerPage] <;> omega

theorem inHalf_upper {cmis : Bool} {page : U8} {bank : Option U8} {p : Page} (h : upperPage cmis page bank = .ok p) (o l : Nat)
    (hl : l ≠ 0) : InHalf p o l ↔ 128 ≤ o ∧ o + l ≤ 256 := by
  simp only [InHalf, pageStart, (C71_page cmis page bank p h).2.2.1]
  simp
  omega

theorem legal_lower (cmis : Bool) (o : Nat) (d : Bytes) :
    LegalWrite (lowerPage cmis) o d.length ↔ FitsWrite cmis d ∧ o + d.length ≤ 128 := by
  cases cmis <;> simp [LegalWrite, FitsWrite, InHalf, pageStart, isLower, lowerPage, maxWrite] <;> omega

theorem legal_upper {cmis : Bool} {page : U8} {bank : Option U8} {p : Page} (h : upperPage cmis page bank = .ok p) (o : Nat)
    (d : Bytes) : LegalWrite p o d.length ↔ FitsWrite cmis d ∧ 128 ≤ o ∧ o + d.length ≤ 256 := by
  obtain ⟨-, -, h1, h2⟩ := C71_page cmis page bank p h
  have h3 : maxWrite p = if cmis then 8 else 4 := by
    cases p <;> cases cmis <;> simp [Page.managementInterface] at h2 <;> rfl
  simp only [LegalWrite, FitsWrite, InHalf, pageStart, h1, h3]
  simp
  omega

/-- A program that ends without a request ends so in every run. -/
theorem runs_none {α : Type} {p : Prog α} {t : List Exchange} {o o' : Exec CtlError α} (h : Runs p [] o) (h' : Runs p t o') :
    o = o' := by
  cases p with
  | ret a => rw [(runs_ret.1 h).2, (runs_ret.1 h').2]
  | fail e => rw [(runs_fail.1 h).2, (runs_fail.1 h').2]
  | panic => rw [(runs_panic.1 h).2, (runs_panic.1 h').2]
  | rpc c k =>
    obtain ⟨r, t₁, h1, -⟩ := runs_rpc.1 h
    cases h1

/-- A command is refused without any request exactly if its arguments say so, and for the reason they give. -/
theorem dispatch_refusal (fmt : Fmt) (ign : Bool) (m : ModuleId) (cmd : Cmd) :
    ((∃ e, Runs (dispatch fmt ign m cmd) [] (.ok (.refused e))) ↔ ∃ e, Refusal cmd e) ∧
    ∀ t e, Runs (dispatch fmt ign m cmd) t (.ok (.refused e)) → t = [] ∧ Refusal cmd e := by
  have none (hr : ∀ t e, ¬ Runs (dispatch fmt ign m cmd) t (.ok (.refused e))) (hf : ∀ e, ¬ Refusal cmd e) :
      ((∃ e, Runs (dispatch fmt ign m cmd) [] (.ok (.refused e))) ↔ ∃ e, Refusal cmd e) ∧
      ∀ t e, Runs (dispatch fmt ign m cmd) t (.ok (.refused e)) → t = [] ∧ Refusal cmd e :=
    ⟨⟨fun ⟨e, h⟩ => absurd h (hr _ e), fun ⟨e, h⟩ => absurd h (hf e)⟩, fun t e h => absurd h (hr t e)⟩
  cases cmd with
  | status w wo all parseable output sep omitHeader =>
    refine none (fun t e h => ?_) fun e => by cases e <;> exact id
    rw [dispatch] at h
    split at h
    · exact (showing_refused h).elim
    · cases (runs_panic.1 h).2
  | readLower cmis binary offset len a =>
    have key (t e) : Runs (dispatch fmt ign m (.readLower cmis binary offset len a)) t (.ok (.refused e)) ↔ _ :=
      readCmd_refusal (page := .ok (lowerPage cmis))
    have hr (hl : len ≠ 0) := buildReads_range (lowerPage cmis) offset len hl
    have hi (hl : len ≠ 0) := inHalf_lower cmis offset.toNat len.toNat (fun h => hl (BitVec.eq_of_toNat_eq h))
    refine ⟨⟨?_, ?_⟩, ?_⟩
    · rintro ⟨e, h⟩
      obtain ⟨-, h0, ⟨e', h1, -⟩ | ⟨p, e', h1, h2, rfl⟩⟩ := (key _ _).1 h
      · cases h1
      · cases h1
        have := (hr h0).1 ⟨e', h2⟩
        rw [hi h0] at this
        exact ⟨.read e', h0, by omega⟩
    · rintro ⟨e, h⟩
      cases e with
      | read e =>
        obtain ⟨h0, h1⟩ := h
        obtain ⟨e', h2⟩ := (hr h0).2 (by rw [hi h0]; omega)
        exact ⟨_, (key _ _).2 ⟨rfl, h0, .inr ⟨_, e', rfl, h2, rfl⟩⟩⟩
      | noInput | input | page | write => exact h.elim
    · intro t e h
      obtain ⟨h3, h0, ⟨e', h1, -⟩ | ⟨p, e', h1, h2, rfl⟩⟩ := (key _ _).1 h
      · cases h1
      · cases h1
        have := (hr h0).1 ⟨e', h2⟩
        rw [hi h0] at this
        exact ⟨h3, h0, by omega⟩
  | readUpper cmis binary page bank offset len a =>
    have key (t e) : Runs (dispatch fmt ign m (.readUpper cmis binary page bank offset len a)) t (.ok (.refused e)) ↔ _ :=
      readCmd_refusal (page := upperPage cmis page bank)
    have ht := upperPage_taken cmis page bank
    have back (t e) (h : Runs (dispatch fmt ign m (.readUpper cmis binary page bank offset len a)) t (.ok (.refused e))) :
        t = [] ∧ Refusal (.readUpper cmis binary page bank offset len a) e := by
      obtain ⟨h3, h0, ⟨e', h1, rfl⟩ | ⟨p, e', h1, h2, rfl⟩⟩ := (key _ _).1 h
      · refine ⟨h3, h0, fun h4 => ?_⟩
        obtain ⟨p, h5⟩ := ht.2 h4
        rw [h1] at h5
        cases h5
      · have h4 := (buildReads_range p offset len h0).1 ⟨e', h2⟩
        rw [inHalf_upper h1 _ _ (fun h => h0 (BitVec.eq_of_toNat_eq h))] at h4
        exact ⟨h3, h0, ht.1 ⟨p, h1⟩, by omega⟩
    refine ⟨⟨fun ⟨e, h⟩ => ⟨e, (back _ e h).2⟩, ?_⟩, back⟩
    rintro ⟨e, h⟩
    cases e with
    | page e =>
      obtain ⟨h0, h1⟩ := h
      cases hp : upperPage cmis page bank with
      | ok p => exact absurd (ht.1 ⟨p, hp⟩) h1
      | error e' => exact ⟨_, (key _ _).2 ⟨rfl, h0, .inl ⟨e', hp, rfl⟩⟩⟩
    | read e =>
      obtain ⟨h0, h1, h2⟩ := h
      obtain ⟨p, hp⟩ := ht.2 h1
      obtain ⟨e', h3⟩ := (buildReads_range p offset len h0).2
        (by rw [inHalf_upper hp _ _ (fun h => h0 (BitVec.eq_of_toNat_eq h))]; omega)
      exact ⟨_, (key _ _).2 ⟨rfl, h0, .inr ⟨p, e', hp, h3, rfl⟩⟩⟩
    | noInput | input | write => exact h.elim
  | writeLower cmis input offset =>
    have key (t e) : Runs (dispatch fmt ign m (.writeLower cmis input offset)) t (.ok (.refused e)) ↔ _ :=
      writeCmd_refusal (page := .ok (lowerPage cmis))
    have back (t e) (h : Runs (dispatch fmt ign m (.writeLower cmis input offset)) t (.ok (.refused e))) :
        t = [] ∧ Refusal (.writeLower cmis input offset) e := by
      obtain ⟨h3, h1 | ⟨d, h1, ⟨h2, rfl⟩ | ⟨-, e', h2, -⟩ | ⟨h2, p, e', h4, h5, rfl⟩⟩⟩ := (key _ _).1 h
      · obtain ⟨rfl, h2⟩ | ⟨e', c, rfl, h2, h4⟩ := load_err.1 h1
        · exact ⟨h3, h2⟩
        · exact ⟨h3, c, h2, h4⟩
      · exact ⟨h3, d, h1, fun h4 => by omega⟩
      · cases h2
      · cases h4
        exact ⟨h3, d, h1, fun h6 => (buildWrite_legal _ offset d).1 ⟨e', h5⟩ ((legal_lower cmis _ d).2 h6)⟩
    refine ⟨⟨fun ⟨e, h⟩ => ⟨e, (back _ e h).2⟩, ?_⟩, back⟩
    rintro ⟨e, h⟩
    cases e with
    | noInput => exact ⟨_, (key _ _).2 ⟨rfl, .inl (load_err.2 (.inl ⟨rfl, h⟩))⟩⟩
    | input e =>
      obtain ⟨c, h1, h2⟩ := h
      exact ⟨_, (key _ _).2 ⟨rfl, .inl (load_err.2 (.inr ⟨e, c, rfl, h1, h2⟩))⟩⟩
    | write e =>
      obtain ⟨d, h1, h2⟩ := h
      by_cases hd : 256 ≤ d.length
      · exact ⟨_, (key _ _).2 ⟨rfl, .inr ⟨d, h1, .inl ⟨hd, rfl⟩⟩⟩⟩
      · obtain ⟨e', h3⟩ := (buildWrite_legal (lowerPage cmis) offset d).2 (fun h4 => h2 ((legal_lower cmis _ d).1 h4))
        exact ⟨_, (key _ _).2 ⟨rfl, .inr ⟨d, h1, .inr (.inr ⟨by omega, _, e', rfl, h3, rfl⟩)⟩⟩⟩
    | page | read => exact h.elim
  | writeUpper cmis input page bank offset =>
    have key (t e) : Runs (dispatch fmt ign m (.writeUpper cmis input page bank offset)) t (.ok (.refused e)) ↔ _ :=
      writeCmd_refusal (page := upperPage cmis page bank)
    have ht := upperPage_taken cmis page bank
    have back (t e) (h : Runs (dispatch fmt ign m (.writeUpper cmis input page bank offset)) t (.ok (.refused e))) :
        t = [] ∧ Refusal (.writeUpper cmis input page bank offset) e := by
      obtain ⟨h3, h1 | ⟨d, h1, ⟨h2, rfl⟩ | ⟨h6, e', h2, rfl⟩ | ⟨h2, p, e', h4, h5, rfl⟩⟩⟩ := (key _ _).1 h
      · obtain ⟨rfl, h2⟩ | ⟨e', c, rfl, h2, h4⟩ := load_err.1 h1
        · exact ⟨h3, h2⟩
        · exact ⟨h3, c, h2, h4⟩
      · exact ⟨h3, d, h1, .inl h2⟩
      · refine ⟨h3, d, h1, h6, fun h4 => ?_⟩
        obtain ⟨p, h5⟩ := ht.2 h4
        rw [h2] at h5
        cases h5
      · exact ⟨h3, d, h1, .inr ⟨ht.1 ⟨p, h4⟩, fun h6 => (buildWrite_legal _ offset d).1 ⟨e', h5⟩ ((legal_upper h4 _ d).2 h6)⟩⟩
    refine ⟨⟨fun ⟨e, h⟩ => ⟨e, (back _ e h).2⟩, ?_⟩, back⟩
    rintro ⟨e, h⟩
    cases e with
    | noInput => exact ⟨_, (key _ _).2 ⟨rfl, .inl (load_err.2 (.inl ⟨rfl, h⟩))⟩⟩
    | input e =>
      obtain ⟨c, h1, h2⟩ := h
      exact ⟨_, (key _ _).2 ⟨rfl, .inl (load_err.2 (.inr ⟨e, c, rfl, h1, h2⟩))⟩⟩
    | page e =>
      obtain ⟨d, h1, h2, h3⟩ := h
      cases hp : upperPage cmis page bank with
      | ok p => exact absurd (ht.1 ⟨p, hp⟩) h3
      | error e' => exact ⟨_, (key _ _).2 ⟨rfl, .inr ⟨d, h1, .inr (.inl ⟨h2, e', hp, rfl⟩)⟩⟩⟩
    | write e =>
      obtain ⟨d, h1, h2⟩ := h
      by_cases hd : 256 ≤ d.length
      · exact ⟨_, (key _ _).2 ⟨rfl, .inr ⟨d, h1, .inl ⟨hd, rfl⟩⟩⟩⟩
      · obtain ⟨h3, h4⟩ := h2.resolve_left hd
        obtain ⟨p, hp⟩ := ht.2 h3
        obtain ⟨e', h5⟩ := (buildWrite_legal p offset d).2 (fun h6 => h4 ((legal_upper hp _ d).1 h6))
        exact ⟨_, (key _ _).2 ⟨rfl, .inr ⟨d, h1, .inr (.inr ⟨by omega, p, e', hp, h5, rfl⟩)⟩⟩⟩
    | read => exact h.elim
  | macs summary =>
    refine none (fun t e h => ?_) fun e => by cases e <;> exact id
    rcases runs_bind.1 h with ⟨t₁, t₂, r, rfl, h1, h2⟩ | ⟨e, -, h2⟩ | ⟨-, h2⟩
    · rcases runs_bind.1 h2 with ⟨t₃, t₄, ls, rfl, h3, h4⟩ | ⟨e, -, h4⟩ | ⟨-, h4⟩
      · cases (runs_ret.1 h4).2
      · cases h4
      · cases h4
    · cases h2
    · cases h2
  | power a => exact none (fun t e h => showing_refused h) fun e => by cases e <;> exact id
  | identify a => exact none (fun t e h => showing_refused h) fun e => by cases e <;> exact id
  | vendorInfo a => exact none (fun t e h => showing_refused h) fun e => by cases e <;> exact id
  | memoryModel a => exact none (fun t e h => showing_refused h) fun e => by cases e <;> exact id
  | leds a => exact none (fun t e h => showing_refused h) fun e => by cases e <;> exact id
  | monitors a => exact none (fun t e h => showing_refused h) fun e => by cases e <;> exact id
  | datapath => exact none (fun t e h => showing_refused h) fun e => by cases e <;> exact id
  | reset | enablePower | disablePower | assertReset | deassertReset | assertLpMode | deassertLpMode | clearPowerFault
  | clearDisableLatch | setPower _ | setLeds _ =>
    exact none (fun t e h => acting_refused h) fun e => by cases e <;> exact id

/-! ## C103 -/

/-- **C103**: whatever the SP does, a command is refused exactly if its arguments are at fault, and for a reason that they give;
nothing but the selection of modules has been requested then. -/
theorem C103_refused (fmt : Fmt) (sel : Option Transceivers) (ign : Bool) (cmd : Cmd) (t : List Exchange) :
    ((∃ e, Runs (main fmt sel ign cmd) t (.ok (.refused e))) ↔
      (∃ m, Runs (addressTransceivers (sel.getD .all)) t (.ok m)) ∧ ∃ e, Refusal cmd e) ∧
    ∀ e, Runs (main fmt sel ign cmd) t (.ok (.refused e)) → Refusal cmd e := by
  have key : ∀ e, Runs (main fmt sel ign cmd) t (.ok (.refused e)) →
      (∃ m, Runs (addressTransceivers (sel.getD .all)) t (.ok m)) ∧ Refusal cmd e := by
    intro e h
    rcases runs_bind.1 h with ⟨t₁, t₂, m, rfl, h1, h2⟩ | ⟨e, -, h2⟩ | ⟨-, h2⟩
    · obtain ⟨rfl, h3⟩ := (dispatch_refusal fmt ign m cmd).2 _ _ h2
      rw [List.append_nil]
      exact ⟨⟨m, h1⟩, h3⟩
    · cases h2
    · cases h2
  refine ⟨⟨fun ⟨e, h⟩ => ⟨(key e h).1, e, (key e h).2⟩, ?_⟩, fun e h => (key e h).2⟩
  rintro ⟨⟨m, h1⟩, h2⟩
  obtain ⟨e, h3⟩ := (dispatch_refusal fmt ign m cmd).1.2 h2
  exact ⟨e, runs_bind.2 (.inl ⟨t, [], m, (List.append_nil t).symm, h1, h3⟩)⟩

/-- **C103**: the exit status is 0 if and only if modules were selected and the command ran to its end on them; it is 101 for an
abort and 1 for an error or a refusal. A command that should be refused never exits with 0. -/
theorem C103_status (fmt : Fmt) (sel : Option Transceivers) (ign : Bool) (cmd : Cmd) (t : List Exchange)
    (o : Exec CtlError Exit) (h : Runs (main fmt sel ign cmd) t o) :
    (exitStatus o = 0 ↔ ∃ m t₁ t₂ ls fs, t = t₁ ++ t₂ ∧ Runs (addressTransceivers (sel.getD .all)) t₁ (.ok m) ∧
      Runs (dispatch fmt ign m cmd) t₂ (.ok (.done ls fs)) ∧ o = .ok (.done ls fs)) ∧
    (exitStatus o = 1 ↔ (∃ e, o = .err e) ∨ ∃ e, o = .ok (.refused e)) ∧
    (exitStatus o = 101 ↔ o = .panic) ∧
    ((∃ e, Refusal cmd e) → exitStatus o ≠ 0) := by
  have h0 : exitStatus o = 0 ↔ ∃ ls fs, o = .ok (.done ls fs) := by
    match o with
    | .ok (.done ls fs) => exact ⟨fun _ => ⟨ls, fs, rfl⟩, fun _ => rfl⟩
    | .ok (.refused _) | .err _ | .panic => exact ⟨fun h => (by cases h), fun ⟨_, _, h⟩ => (by cases h)⟩
  have h1 : exitStatus o = 0 ↔ ∃ m t₁ t₂ ls fs, t = t₁ ++ t₂ ∧ Runs (addressTransceivers (sel.getD .all)) t₁ (.ok m) ∧
      Runs (dispatch fmt ign m cmd) t₂ (.ok (.done ls fs)) ∧ o = .ok (.done ls fs) := by
    rw [h0]
    constructor
    · rintro ⟨ls, fs, rfl⟩
      rcases runs_bind.1 h with ⟨t₁, t₂, m, rfl, h1, h2⟩ | ⟨e, -, h2⟩ | ⟨-, h2⟩
      · exact ⟨m, t₁, t₂, ls, fs, rfl, h1, h2, rfl⟩
      · cases h2
      · cases h2
    · rintro ⟨m, t₁, t₂, ls, fs, -, -, -, h⟩
      exact ⟨ls, fs, h⟩
  refine ⟨h1, ?_, ?_, ?_⟩
  · match o with
    | .ok (.done _ _) => exact ⟨fun h => (by cases h), fun h => (by rcases h with ⟨_, h⟩ | ⟨_, h⟩ <;> cases h)⟩
    | .ok (.refused e) => exact ⟨fun _ => .inr ⟨e, rfl⟩, fun _ => rfl⟩
    | .err e => exact ⟨fun _ => .inl ⟨e, rfl⟩, fun _ => rfl⟩
    | .panic => exact ⟨fun h => (by cases h), fun h => (by rcases h with ⟨_, h⟩ | ⟨_, h⟩ <;> cases h)⟩
  · match o with
    | .ok (.done _ _) | .ok (.refused _) | .err _ => exact ⟨fun h => (by cases h), fun h => (by cases h)⟩
    | .panic => exact ⟨fun _ => rfl, fun _ => rfl⟩
  · intro hr hz
    obtain ⟨m, t₁, t₂, ls, fs, rfl, h2, h3, rfl⟩ := h1.1 hz
    obtain ⟨e, h4⟩ := (dispatch_refusal fmt ign m cmd).1.2 hr
    cases runs_none h4 h3

/-- A read past the end of the lower page is refused after the modules were selected; a read up to the end is not. -/
example : Refusal (.readLower false false 120 9 ⟨false, [], none, true⟩) (.read (.mgmt (.invalidMemoryAccess 120 9))) ∧
    (∀ e, ¬ Refusal (.readLower false false 120 8 ⟨false, [], none, true⟩) e) ∧
    exitStatus ((main plainFmt (some .present) false (.readLower false false 120 9 ⟨false, [], none, true⟩)).exec
      toolBench.sp []).2 = 1 ∧
    exitStatus ((main plainFmt (some (.index ⟨0b10⟩)) false (.readLower false false 120 8 ⟨false, [], none, true⟩)).exec
      toolBench.sp []).2 = 0 := by
  refine ⟨⟨by decide, by decide⟩, fun e => ?_, by decide +kernel, by decide +kernel⟩
  cases e with
  | read e => exact fun h => absurd h.2 (by decide)
  | _ => exact id

end Xcvr
