import Verif.Props.CliBoard
import Verif.Props.CliReports

/-! # C143: what the tool shows is what is there, and what it set before -/

namespace Xcvr

open Spec Prog Cli Controller

/-! ## Looking -/

theorem pairs_mono {α β : Type} {R R' : α → β → Prop} (h : ∀ a b, R a b → R' a b) {l : List α} {l' : List β}
    (hp : Pairs R l l') : Pairs R' l l' := by
  induction hp with
  | nil => exact .nil
  | cons hr _ ih => exact .cons (h _ _ hr) ih

theorem tableShows_mono {F P : Type} {a : TableArgs F} {head : List Char} {name : F → List Char}
    {line : U8 → P → List Char} {field : U8 → P → F → List Char} {ports : List U8} {says says' : U8 → P → Prop}
    {out : Lines} (h : ∀ i v, says i v → says' i v) (ht : TableShows a head name line field ports says out) :
    TableShows a head name line field ports says' out := by
  obtain ⟨h1, h2⟩ := ht
  refine ⟨fun ha => ?_, fun ha ho => ?_⟩
  · obtain ⟨ls, h3, h4⟩ := h1 ha
    exact ⟨ls, h3, pairs_mono (fun _ _ ⟨v, h5, h6⟩ => ⟨v, h _ _ h5, h6⟩) h4⟩
  · obtain ⟨ls, h3, h4⟩ := h2 ha ho
    exact ⟨ls, h3, pairs_mono (fun _ _ ⟨v, h5, h6⟩ => ⟨v, h _ _ h5, h6⟩) h4⟩

/-- A command that only looks leaves the board as it is; its modules are those selected. -/
theorem looked {fmt : Fmt} {sel : Option Transceivers} {cmd : Cmd} {t : List Exchange} {out : Lines}
    {fails : List (U8 × TransceiverError)} (h : Runs (main fmt sel false cmd) t (.ok (.done out fails)))
    (ht : ∀ x ∈ t, OnTopic x) (hl : ∀ q d, ¬ Changes cmd q d) {b b' : BoardState} (he : Evolves b t b') :
    b' = b ∧ ∃ t₁ t₂ m, t = t₁ ++ t₂ ∧ Runs (addressTransceivers (sel.getD .all)) t₁ (.ok m) ∧
      Runs (dispatch fmt false m cmd) t₂ (.ok (.done out fails)) ∧ Evolves b t₂ b ∧
      ∀ x ∈ t₂, ∃ q, requestOf x = some q ∧ IsQuery q := by
  have hq : ∀ x ∈ t, ∃ q, requestOf x = some q ∧ IsQuery q := by
    intro x hx
    obtain ⟨q, h1, ⟨h2, -⟩ | h2⟩ := C88_changes fmt sel false cmd t _ h x hx
    · exact ⟨q, h1, h2⟩
    · exact absurd h2 (hl _ _)
  obtain ⟨t₁, t₂, rfl, -, (⟨-, _, h1⟩ | ⟨-, h1⟩) | ⟨m, h1, h2, -⟩⟩ := C89_selected fmt sel false cmd t _ h ht
  · cases h1
  · cases h1
  obtain rfl := (evolves_queries he hq).1
  obtain ⟨c, he1, he2⟩ := evolves_append.1 he
  obtain rfl := (evolves_queries he1 fun x hx => hq x (List.mem_append_left _ hx)).1
  exact ⟨rfl, t₁, t₂, m, rfl, h1, h2, he2, fun x hx => hq x (List.mem_append_right _ hx)⟩

/-- **C143**, power: the state shown for a port is the power state it is in. -/
theorem C143_power (fmt : Fmt) (sel : Option Transceivers) (a : TableArgs PowerField) (t : List Exchange) (out : Lines)
    (fails : List (U8 × TransceiverError)) (h : Runs (main fmt sel false (.power a)) t (.ok (.done out fails)))
    (hc : Conforming t) (b b' : BoardState) (he : Evolves b t b') :
    b' = b ∧ ∃ t₁ t₂ m ports, t = t₁ ++ t₂ ∧ Runs (addressTransceivers (sel.getD .all)) t₁ (.ok m) ∧
      Shown m ports fails ∧
      TableShows a chars!"Port  Power  Software-override" PowerField.name powerShown powerField ports
        (fun i mode => mode.state = (b i.toNat).power) out := by
  obtain ⟨h0, t₁, t₂, m, rfl, h1, h2, h3, h4⟩ := looked h (fun x hx => onTopic_conforms (hc x hx)) (fun _ _ h => h) he
  obtain ⟨x, t', ports, rfl, h5, h6, h7⟩ := C97_power fmt m a t₂ out fails h2
    (fun x hx => hc x (List.mem_append_right _ hx)) _ (faithful_board h3 h4)
  refine ⟨h0, t₁, _, m, ports, rfl, h1, h6, tableShows_mono ?_ h7⟩
  rintro i mode ⟨v, h8, h9⟩
  obtain ⟨s1, s5, s2, s3⟩ := (evolves_queries h3 h4).2 x (List.mem_cons_self ..) _ _ _ (requestOf_host h5) h8 v rfl
  exact mode_state s1 s5 s2 s3 h9

/-- **C143**, LEDs. -/
theorem C143_leds (fmt : Fmt) (sel : Option Transceivers) (a : TableArgs LedField) (t : List Exchange) (out : Lines)
    (fails : List (U8 × TransceiverError)) (h : Runs (main fmt sel false (.leds a)) t (.ok (.done out fails)))
    (hc : Conforming t) (b b' : BoardState) (he : Evolves b t b') :
    b' = b ∧ ∃ t₁ t₂ m ports, t = t₁ ++ t₂ ∧ Runs (addressTransceivers (sel.getD .all)) t₁ (.ok m) ∧
      Shown m ports fails ∧
      TableShows a chars!"Port LED" LedField.name (fun i s => portFour i ++ chars!" " ++ ledWord true s) ledField ports
        (fun i l => l = (b i.toNat).led) out := by
  obtain ⟨h0, t₁, t₂, m, rfl, h1, h2, h3, h4⟩ := looked h (fun x hx => onTopic_conforms (hc x hx)) (fun _ _ h => h) he
  have hc2 : Conforming t₂ := fun x hx => hc x (List.mem_append_right _ hx)
  obtain ⟨ports, h6, h7⟩ := C97_leds fmt m a t₂ out fails h2 hc2
  refine ⟨h0, t₁, t₂, m, ports, rfl, h1, h6, tableShows_mono ?_ h7⟩
  rintro i l ⟨v, h8, h9⟩
  obtain ⟨r, ls, h10, -, -⟩ := showing_ok h2
  obtain ⟨rp, -, rfl, -⟩ := leds_spec h10 hc2
  rw [okAmong_one] at h8
  have h11 := (evolves_queries h3 h4).2 _ (List.mem_cons_self ..) _ _ _ rfl h8
  rw [show ledOfCode v = some (b i.toNat).led from h11] at h9
  exact (Option.some.inj h9).symm

theorem fromMemory_board {t : List Exchange} {b b' : BoardState} (h : Evolves b t b')
    (hq : ∀ x ∈ t, ∃ q, requestOf x = some q ∧ IsQuery q) : FromMemory (fun p page a => (b p).memory page a) t :=
  fun x hx _ _ p v h1 h2 => (evolves_queries h hq).2 x hx p _ v h1 h2

/-- **C143**, the lower page. -/
theorem C143_lower (fmt : Fmt) (sel : Option Transceivers) (cmis binary : Bool) (offset len : U8) (hl : len ≠ 0)
    (a : TableArgs DataField) (t : List Exchange) (out : Lines) (fails : List (U8 × TransceiverError))
    (h : Runs (main fmt sel false (.readLower cmis binary offset len a)) t (.ok (.done out fails)))
    (hc : Conforming t) (b b' : BoardState) (he : Evolves b t b') :
    b' = b ∧ ∃ t₁ t₂ m ports, t = t₁ ++ t₂ ∧ Runs (addressTransceivers (sel.getD .all)) t₁ (.ok m) ∧
      Shown m ports fails ∧
      TableShows a chars!"Port Data" DataField.name
        (fun i d => portFour i ++ chars!" [" ++ bytesShown binary d ++ chars!"]") (dataFieldText binary) ports
        (fun i d => d = (List.range len.toNat).map fun k => (b i.toNat).lower (offset.toNat + k)) out := by
  obtain ⟨h0, t₁, t₂, m, rfl, h1, h2, h3, h4⟩ := looked h (fun x hx => onTopic_conforms (hc x hx)) (fun _ _ h => h) he
  obtain ⟨ports, h6, h7⟩ := C97_read_lower fmt _ m cmis binary offset len hl a t₂ out fails h2
    (fun x hx => hc x (List.mem_append_right _ hx)) (fromMemory_board h3 h4)
  refine ⟨h0, t₁, t₂, m, ports, rfl, h1, h6, tableShows_mono (fun i d h8 => ?_) h7⟩
  rw [h8]
  cases cmis <;> rfl

/-- **C143**, an upper page. -/
theorem C143_upper (fmt : Fmt) (sel : Option Transceivers) (cmis binary : Bool) (page : U8) (bank : Option U8)
    (offset len : U8) (hl : len ≠ 0) (a : TableArgs DataField) (t : List Exchange) (out : Lines)
    (fails : List (U8 × TransceiverError))
    (h : Runs (main fmt sel false (.readUpper cmis binary page bank offset len a)) t (.ok (.done out fails)))
    (hc : Conforming t) (b b' : BoardState) (he : Evolves b t b') :
    b' = b ∧ ∃ t₁ t₂ m ports, t = t₁ ++ t₂ ∧ Runs (addressTransceivers (sel.getD .all)) t₁ (.ok m) ∧
      Shown m ports fails ∧
      TableShows a chars!"Port Data" DataField.name
        (fun i d => portFour i ++ chars!" [" ++ bytesShown binary d ++ chars!"]") (dataFieldText binary) ports
        (fun i d => d = (List.range len.toNat).map fun k =>
          (b i.toNat).upper (if cmis then .cmis (.upper ⟨bank, page⟩) else .sff8636 (.upper page)) (offset.toNat + k))
        out := by
  obtain ⟨h0, t₁, t₂, m, rfl, h1, h2, h3, h4⟩ := looked h (fun x hx => onTopic_conforms (hc x hx)) (fun _ _ h => h) he
  obtain ⟨ports, h6, h7⟩ := C97_read_upper fmt _ m cmis binary page bank offset len hl a t₂ out fails h2
    (fun x hx => hc x (List.mem_append_right _ hx)) (fromMemory_board h3 h4)
  refine ⟨h0, t₁, t₂, m, ports, rfl, h1, h6, tableShows_mono (fun i d h8 => ?_) h7⟩
  rw [h8]
  cases cmis <;> rfl

/-- The flags `s` show the pins of a port. -/
def Spec.PinsShown (s : U32) (st : PortState) : Prop :=
  s.getLsbD 1 = st.enabled ∧ s.getLsbD 5 = st.enabled ∧ s.getLsbD 2 = st.reset ∧ s.getLsbD 3 = st.lowPin

theorem told_pins {m : ModuleId} {t : List Exchange} (ht : ∀ x, t.getLast? = some x → Conforms x) {b b' : BoardState}
    (he : Evolves b t b') (hq : ∀ x ∈ t, ∃ q, requestOf x = some q ∧ IsQuery q) {i : U8} {s : U32}
    (h : StatusTold m t i s) : PinsShown s (b i.toNat) := by
  obtain ⟨-, hs⟩ := evolves_queries he hq
  rcases h with ⟨x, rfl, h1, v, h2, rfl⟩ | ⟨x, y, rfl, -, h1, v, h2, rfl⟩
  · exact hs x (List.mem_cons_self ..) _ _ _ (requestOf_host h1) h2
  · have h3 := hs y (by simp) _ _ _ (requestOf_host h1) h2
    have hcy := ht y rfl
    obtain ⟨w, rfl⟩ := status_record h1 (ht y rfl) h2
    have hb : ∀ k, k < 8 → (BitVec.ofNat 32 ([w].headD 0).toNat).getLsbD k = bit w k := by
      intro k hk
      simp only [List.headD_cons, bit, BitVec.getLsbD, BitVec.toNat_ofNat]
      rw [Nat.mod_eq_of_lt (by omega), Nat.testBit_eq_decide_div_mod_eq]
      rfl
    obtain ⟨s1, s5, s2, s3⟩ := h3 w rfl
    unfold PinsShown
    rw [hb 1 (by omega), hb 5 (by omega), hb 2 (by omega), hb 3 (by omega)]
    exact ⟨s1, s5, s2, s3⟩

/-- **C143**, status: the flags shown for a port include its pins as they are, also if the SP does not know the extended
status. -/
theorem C143_status (fmt : Fmt) (sel : Option Transceivers) (parseable : Bool) (output : List StatusField)
    (sep : Option (List Char)) (omitHeader : Bool) (t : List Exchange) (out : Lines)
    (fails : List (U8 × TransceiverError))
    (h : Runs (main fmt sel false (.status none none false parseable output sep omitHeader)) t (.ok (.done out fails)))
    (ht : ∀ x ∈ t, OnTopic x) (hl : ∀ x, t.getLast? = some x → Conforms x) (b b' : BoardState) (he : Evolves b t b') :
    b' = b ∧ ∃ t₁ t₂ m ports lines, t = t₁ ++ t₂ ∧ Runs (addressTransceivers (sel.getD .all)) t₁ (.ok m) ∧
      Shown m ports fails ∧
      out = (if omitHeader then [] else
        [if parseable then (separator sep).intercalate (output.map StatusField.name) else chars!"Port Status"]) ++ lines ∧
      Pairs (fun i l => ∃ s, PinsShown s (b i.toNat) ∧ l =
        if parseable then (separator sep).intercalate (output.map (statusFieldText i s))
        else portFour i ++ chars!" " ++ flagsShown s) ports lines := by
  obtain ⟨h0, t₁, t₂, m, rfl, h1, h2, h3, h4⟩ := looked h ht (fun _ _ h => h) he
  have hl2 : ∀ x, t₂.getLast? = some x → Conforms x := fun x hx => hl x (by rw [List.getLast?_append, hx]; rfl)
  obtain ⟨ports, lines, h5, h6, h7⟩ := C97_status fmt m parseable output sep omitHeader t₂ out fails h2 hl2
  exact ⟨h0, t₁, t₂, m, ports, lines, rfl, h1, h5, h6,
    pairs_mono (fun _ _ ⟨s, h8, h9⟩ => ⟨s, told_pins hl2 h3 h4 h8, h9⟩) h7⟩

/-- **C143**, status of all flags: the marks under the labels of the flags tell the pins. -/
theorem C143_status_all (fmt : Fmt) (sel : Option Transceivers) (output : List StatusField) (sep : Option (List Char))
    (omitHeader : Bool) (t : List Exchange) (out : Lines) (fails : List (U8 × TransceiverError))
    (h : Runs (main fmt sel false (.status none none true false output sep omitHeader)) t (.ok (.done out fails)))
    (ht : ∀ x ∈ t, OnTopic x) (hl : ∀ x, t.getLast? = some x → Conforms x) (b b' : BoardState) (he : Evolves b t b') :
    b' = b ∧ ∃ t₁ t₂ m ports head lines, t = t₁ ++ t₂ ∧ Runs (addressTransceivers (sel.getD .all)) t₁ (.ok m) ∧
      Shown m ports fails ∧ out = head ++ lines ∧ AllHeader head ∧
      Pairs (fun i l => ∃ s, PinsShown s (b i.toNat) ∧ AllShown i s l) ports lines := by
  obtain ⟨h0, t₁, t₂, m, rfl, h1, h2, h3, h4⟩ := looked h ht (fun _ _ h => h) he
  have hl2 : ∀ x, t₂.getLast? = some x → Conforms x := fun x hx => hl x (by rw [List.getLast?_append, hx]; rfl)
  obtain ⟨ports, head, lines, h5, h6, h7, h8⟩ := C97_status_all fmt m output sep omitHeader t₂ out fails h2 hl2
  exact ⟨h0, t₁, t₂, m, ports, head, lines, rfl, h1, h5, h6, h7,
    pairs_mono (fun _ _ ⟨s, h8, h9⟩ => ⟨s, told_pins hl2 h3 h4 h8, h9⟩) h8⟩

/-- **C143**, status of some flags: 1 for the modules whose flags, which tell the pins, include all of the first set and,
if flags of the second kind are given, not all of these. -/
theorem C143_status_filter (fmt : Fmt) (sel : Option Transceivers) (w wo : Option U32) (hw : w ≠ none ∨ wo ≠ none)
    (output : List StatusField) (sep : Option (List Char)) (omitHeader : Bool) (t : List Exchange) (out : Lines)
    (fails : List (U8 × TransceiverError))
    (h : Runs (main fmt sel false (.status w wo false false output sep omitHeader)) t (.ok (.done out fails)))
    (ht : ∀ x ∈ t, OnTopic x) (hl : ∀ x, t.getLast? = some x → Conforms x) (b b' : BoardState) (he : Evolves b t b') :
    b' = b ∧ ∃ t₁ t₂ m ports lines, t = t₁ ++ t₂ ∧ Runs (addressTransceivers (sel.getD .all)) t₁ (.ok m) ∧
      Shown m ports fails ∧ out = (chars!"Port " ++ filterShown (w.getD 0) (wo.getD 0)) :: lines ∧
      Pairs (fun i l => ∃ s bit, PinsShown s (b i.toNat) ∧ l = portFour i ++ [' ', bit] ∧ (bit = '0' ∨ bit = '1') ∧
        (bit = '1' ↔ AllSet (w.getD 0) s ∧ (wo.getD 0 = 0 ∨ ¬ AllSet (wo.getD 0) s))) ports lines := by
  obtain ⟨h0, t₁, t₂, m, rfl, h1, h2, h3, h4⟩ := looked h ht (fun _ _ h => h) he
  have hl2 : ∀ x, t₂.getLast? = some x → Conforms x := fun x hx => hl x (by rw [List.getLast?_append, hx]; rfl)
  obtain ⟨ports, lines, h5, h6, h7⟩ := C97_status_filter fmt m w wo hw output sep omitHeader t₂ out fails h2 hl2
  exact ⟨h0, t₁, t₂, m, ports, lines, rfl, h1, h5, h6,
    pairs_mono (fun _ _ ⟨s, bit, h8, h9⟩ => ⟨s, bit, told_pins hl2 h3 h4 h8, h9⟩) h7⟩

/-! ## Setting, then looking -/

/-- What a command that acts on pins is to be seen to have done. -/
def Spec.PinsSet (cmd : Cmd) (s : U32) : Prop :=
  match cmd with
  | .enablePower => s.getLsbD 1 = true ∧ s.getLsbD 5 = true
  | .disablePower => s.getLsbD 1 = false ∧ s.getLsbD 5 = false
  | .assertReset => s.getLsbD 2 = true
  | .deassertReset | .reset => s.getLsbD 2 = false
  | .assertLpMode => s.getLsbD 3 = true
  | .deassertLpMode => s.getLsbD 3 = false
  | _ => True

theorem pins_set {cmd : Cmd} {s s' : PortState} (h : Settled cmd s s') {v : U32} (hv : PinsShown v s') : PinsSet cmd v := by
  obtain ⟨h1, h5, h2, h3⟩ := hv
  cases cmd with
  | reset => exact h2.trans h.2.1
  | enablePower =>
    obtain ⟨q, d, hq, hE⟩ := h
    cases q <;> first | exact hq.elim | exact ⟨h1.trans hE.1, h5.trans hE.1⟩
  | disablePower =>
    obtain ⟨q, d, hq, hE⟩ := h
    cases q <;> first | exact hq.elim | exact ⟨h1.trans hE.1, h5.trans hE.1⟩
  | assertReset =>
    obtain ⟨q, d, hq, hE⟩ := h
    cases q <;> first | exact hq.elim | exact h2.trans hE.2.1
  | deassertReset =>
    obtain ⟨q, d, hq, hE⟩ := h
    cases q <;> first | exact hq.elim | exact h2.trans hE.2.1
  | assertLpMode =>
    obtain ⟨q, d, hq, hE⟩ := h
    cases q <;> first | exact hq.elim | (cases hE; exact h3)
  | deassertLpMode =>
    obtain ⟨q, d, hq, hE⟩ := h
    cases q <;> first | exact hq.elim | (cases hE; exact h3)
  | _ => trivial

/-- **C143**, power set and then shown: for a port that both runs selected and that neither lists as failed, the state shown
is the one set, for off without conditions and for low and high under those of C142. -/
theorem C143_power_set (fmt fmt' : Fmt) (sel sel' : Option Transceivers) (st : PowerState) (a : TableArgs PowerField)
    (t t' : List Exchange) (out out' : Lines) (fails fails' : List (U8 × TransceiverError))
    (h : Runs (main fmt sel false (.setPower st)) t (.ok (.done out fails)))
    (h' : Runs (main fmt' sel' false (.power a)) t' (.ok (.done out' fails'))) (hc : Conforming (t ++ t'))
    (b b' : BoardState) (he : Evolves b (t ++ t') b') :
    ∃ t₁ t₂ m t₁' t₂' m' ports, t = t₁ ++ t₂ ∧ Runs (addressTransceivers (sel.getD .all)) t₁ (.ok m) ∧
      t' = t₁' ++ t₂' ∧ Runs (addressTransceivers (sel'.getD .all)) t₁' (.ok m') ∧ Shown m' ports fails' ∧
      TableShows a chars!"Port  Power  Software-override" PowerField.name powerShown powerField ports
        (fun i mode => (Mem m i.toNat → ¬ Lined fails i.toNat → Steady (.setPower st) m t₂ → mode.state = st) ∧
          (¬ Mem m i.toNat → mode.state = (b i.toNat).power)) out' := by
  obtain ⟨c, he1, he2⟩ := evolves_append.1 he
  have hc1 : Conforming t := fun x hx => hc x (List.mem_append_left _ hx)
  obtain ⟨-, t₁', t₂', m', ports, h1, h2, h3, h4⟩ := C143_power fmt' sel' a t' out' fails' h'
    (fun x hx => hc x (List.mem_append_right _ hx)) c b' he2
  obtain ⟨t₁, t₂, m, h5, h6, h8⟩ := C142_board_partial fmt sel _ t out fails h hc1
  refine ⟨t₁, t₂, m, t₁', t₂', m', ports, h5, h6, h1, h2, h3, tableShows_mono (fun i mode h7 => ⟨fun hm hf hs => ?_, fun hm => ?_⟩) h4⟩
  · exact h7.trans ((h8 _ _ _ (evolves_at.1 he1 i.toNat)).2 hs hm hf)
  · rw [h7, (h8 _ _ _ (evolves_at.1 he1 i.toNat)).1 hm]

/-- **C143**, LEDs set and then shown. -/
theorem C143_leds_set (fmt fmt' : Fmt) (sel sel' : Option Transceivers) (led : LedState) (a : TableArgs LedField)
    (t t' : List Exchange) (out out' : Lines) (fails fails' : List (U8 × TransceiverError))
    (h : Runs (main fmt sel false (.setLeds led)) t (.ok (.done out fails)))
    (h' : Runs (main fmt' sel' false (.leds a)) t' (.ok (.done out' fails'))) (hc : Conforming (t ++ t'))
    (b b' : BoardState) (he : Evolves b (t ++ t') b') :
    ∃ t₁ t₂ m t₁' t₂' m' ports, t = t₁ ++ t₂ ∧ Runs (addressTransceivers (sel.getD .all)) t₁ (.ok m) ∧
      t' = t₁' ++ t₂' ∧ Runs (addressTransceivers (sel'.getD .all)) t₁' (.ok m') ∧ Shown m' ports fails' ∧
      TableShows a chars!"Port LED" LedField.name (fun i s => portFour i ++ chars!" " ++ ledWord true s) ledField ports
        (fun i l => (Mem m i.toNat → ¬ Lined fails i.toNat → l = led) ∧ (¬ Mem m i.toNat → l = (b i.toNat).led)) out' := by
  obtain ⟨c, he1, he2⟩ := evolves_append.1 he
  have hc1 : Conforming t := fun x hx => hc x (List.mem_append_left _ hx)
  obtain ⟨-, t₁', t₂', m', ports, h1, h2, h3, h4⟩ := C143_leds fmt' sel' a t' out' fails' h'
    (fun x hx => hc x (List.mem_append_right _ hx)) c b' he2
  obtain ⟨t₁, t₂, m, h5, h6, h8⟩ := C142_board_partial fmt sel _ t out fails h hc1
  refine ⟨t₁, t₂, m, t₁', t₂', m', ports, h5, h6, h1, h2, h3, tableShows_mono (fun i l h7 => ⟨fun hm hf => ?_, fun hm => ?_⟩) h4⟩
  · obtain ⟨q, d, hq, hE⟩ := (h8 _ _ _ (evolves_at.1 he1 i.toNat)).2 (.inl trivial) hm hf
    cases q <;> first
      | exact hq.elim
      | (cases d <;> first
          | exact hq.elim
          | (cases hq
             rw [h7, show c i.toNat = _ from hE]))
  · rw [h7, (h8 _ _ _ (evolves_at.1 he1 i.toNat)).1 hm]

/-- **C143**, pins set and then shown. -/
theorem C143_pins_set (fmt fmt' : Fmt) (sel sel' : Option Transceivers) (cmd : Cmd) (ha : Acts cmd) (parseable : Bool)
    (output : List StatusField) (sep : Option (List Char)) (omitHeader : Bool) (t t' : List Exchange) (out out' : Lines)
    (fails fails' : List (U8 × TransceiverError)) (h : Runs (main fmt sel false cmd) t (.ok (.done out fails)))
    (h' : Runs (main fmt' sel' false (.status none none false parseable output sep omitHeader)) t'
      (.ok (.done out' fails'))) (hc : Conforming t) (ht : ∀ x ∈ t', OnTopic x)
    (hl : ∀ x, t'.getLast? = some x → Conforms x) (b b' : BoardState) (he : Evolves b (t ++ t') b') :
    ∃ t₁ t₂ m t₁' t₂' m' ports lines, t = t₁ ++ t₂ ∧ Runs (addressTransceivers (sel.getD .all)) t₁ (.ok m) ∧
      t' = t₁' ++ t₂' ∧ Runs (addressTransceivers (sel'.getD .all)) t₁' (.ok m') ∧ Shown m' ports fails' ∧
      out' = (if omitHeader then [] else
        [if parseable then (separator sep).intercalate (output.map StatusField.name) else chars!"Port Status"]) ++ lines ∧
      Pairs (fun i l => ∃ s, (Mem m i.toNat → ¬ Lined fails i.toNat → PinsSet cmd s) ∧
        (¬ Mem m i.toNat → PinsShown s (b i.toNat)) ∧ l =
        if parseable then (separator sep).intercalate (output.map (statusFieldText i s))
        else portFour i ++ chars!" " ++ flagsShown s) ports lines := by
  obtain ⟨c, he1, he2⟩ := evolves_append.1 he
  obtain ⟨-, t₁', t₂', m', ports, lines, h1, h2, h3, h9, h4⟩ := C143_status fmt' sel' parseable output sep omitHeader t' out'
    fails' h' ht hl c b' he2
  obtain ⟨t₁, t₂, m, h5, h6, h8⟩ := C142_board_partial fmt sel _ t out fails h hc
  refine ⟨t₁, t₂, m, t₁', t₂', m', ports, lines, h5, h6, h1, h2, h3, h9, pairs_mono ?_ h4⟩
  rintro i l ⟨s, h10, h11⟩
  refine ⟨s, fun hm hf => pins_set ((h8 _ _ _ (evolves_at.1 he1 i.toNat)).2 (.inl ha) hm hf) h10, fun hm => ?_, h11⟩
  rw [← (h8 _ _ _ (evolves_at.1 he1 i.toNat)).1 hm]
  exact h10

/-- **C143**, pins set and then shown by the status of all flags. -/
theorem C143_pins_set_all (fmt fmt' : Fmt) (sel sel' : Option Transceivers) (cmd : Cmd) (ha : Acts cmd)
    (output : List StatusField) (sep : Option (List Char)) (omitHeader : Bool) (t t' : List Exchange) (out out' : Lines)
    (fails fails' : List (U8 × TransceiverError)) (h : Runs (main fmt sel false cmd) t (.ok (.done out fails)))
    (h' : Runs (main fmt' sel' false (.status none none true false output sep omitHeader)) t' (.ok (.done out' fails')))
    (hc : Conforming t) (ht : ∀ x ∈ t', OnTopic x) (hl : ∀ x, t'.getLast? = some x → Conforms x) (b b' : BoardState)
    (he : Evolves b (t ++ t') b') :
    ∃ t₁ t₂ m t₁' t₂' m' ports head lines, t = t₁ ++ t₂ ∧ Runs (addressTransceivers (sel.getD .all)) t₁ (.ok m) ∧
      t' = t₁' ++ t₂' ∧ Runs (addressTransceivers (sel'.getD .all)) t₁' (.ok m') ∧ Shown m' ports fails' ∧
      out' = head ++ lines ∧ AllHeader head ∧
      Pairs (fun i l => ∃ s, (Mem m i.toNat → ¬ Lined fails i.toNat → PinsSet cmd s) ∧
        (¬ Mem m i.toNat → PinsShown s (b i.toNat)) ∧ AllShown i s l) ports lines := by
  obtain ⟨c, he1, he2⟩ := evolves_append.1 he
  obtain ⟨-, t₁', t₂', m', ports, head, lines, h1, h2, h3, h9, h9', h4⟩ := C143_status_all fmt' sel' output sep omitHeader t'
    out' fails' h' ht hl c b' he2
  obtain ⟨t₁, t₂, m, h5, h6, h8⟩ := C142_board_partial fmt sel _ t out fails h hc
  refine ⟨t₁, t₂, m, t₁', t₂', m', ports, head, lines, h5, h6, h1, h2, h3, h9, h9', pairs_mono ?_ h4⟩
  rintro i l ⟨s, h10, h11⟩
  refine ⟨s, fun hm hf => pins_set ((h8 _ _ _ (evolves_at.1 he1 i.toNat)).2 (.inl ha) hm hf) h10, fun hm => ?_, h11⟩
  rw [← (h8 _ _ _ (evolves_at.1 he1 i.toNat)).1 hm]
  exact h10

/-- **C143**, pins set and then shown by the status of some flags. -/
theorem C143_pins_set_filter (fmt fmt' : Fmt) (sel sel' : Option Transceivers) (cmd : Cmd) (ha : Acts cmd)
    (w wo : Option U32) (hw : w ≠ none ∨ wo ≠ none) (output : List StatusField) (sep : Option (List Char))
    (omitHeader : Bool) (t t' : List Exchange) (out out' : Lines) (fails fails' : List (U8 × TransceiverError))
    (h : Runs (main fmt sel false cmd) t (.ok (.done out fails)))
    (h' : Runs (main fmt' sel' false (.status w wo false false output sep omitHeader)) t' (.ok (.done out' fails')))
    (hc : Conforming t) (ht : ∀ x ∈ t', OnTopic x) (hl : ∀ x, t'.getLast? = some x → Conforms x) (b b' : BoardState)
    (he : Evolves b (t ++ t') b') :
    ∃ t₁ t₂ m t₁' t₂' m' ports lines, t = t₁ ++ t₂ ∧ Runs (addressTransceivers (sel.getD .all)) t₁ (.ok m) ∧
      t' = t₁' ++ t₂' ∧ Runs (addressTransceivers (sel'.getD .all)) t₁' (.ok m') ∧ Shown m' ports fails' ∧
      out' = (chars!"Port " ++ filterShown (w.getD 0) (wo.getD 0)) :: lines ∧
      Pairs (fun i l => ∃ s bit, (Mem m i.toNat → ¬ Lined fails i.toNat → PinsSet cmd s) ∧
        (¬ Mem m i.toNat → PinsShown s (b i.toNat)) ∧ l = portFour i ++ [' ', bit] ∧ (bit = '0' ∨ bit = '1') ∧
        (bit = '1' ↔ AllSet (w.getD 0) s ∧ (wo.getD 0 = 0 ∨ ¬ AllSet (wo.getD 0) s))) ports lines := by
  obtain ⟨c, he1, he2⟩ := evolves_append.1 he
  obtain ⟨-, t₁', t₂', m', ports, lines, h1, h2, h3, h9, h4⟩ := C143_status_filter fmt' sel' w wo hw output sep omitHeader t'
    out' fails' h' ht hl c b' he2
  obtain ⟨t₁, t₂, m, h5, h6, h8⟩ := C142_board_partial fmt sel _ t out fails h hc
  refine ⟨t₁, t₂, m, t₁', t₂', m', ports, lines, h5, h6, h1, h2, h3, h9, pairs_mono ?_ h4⟩
  rintro i l ⟨s, bit, h10, h11⟩
  refine ⟨s, bit, fun hm hf => pins_set ((h8 _ _ _ (evolves_at.1 he1 i.toNat)).2 (.inl ha) hm hf) h10, fun hm => ?_, h11⟩
  rw [← (h8 _ _ _ (evolves_at.1 he1 i.toNat)).1 hm]
  exact h10

theorem lower_store {s : PortState} {w : MemoryWrite} {d : Bytes} (h : isLower w.page = true) :
    (s.store w d).lower = overwrite s.lower w.offset.toNat d := by
  unfold PortState.store
  rw [if_pos h]

theorem upper_store {s : PortState} {w : MemoryWrite} {d : Bytes} (h : isLower w.page = false) :
    (s.store w d).upper w.page = overwrite (s.upper w.page) w.offset.toNat d := by
  unfold PortState.store
  rw [if_neg (by rw [h]; exact Bool.false_ne_true)]
  dsimp only
  rw [if_pos rfl]

/-- **C143**, bytes written to the lower page and then shown, whichever standard the page is named by and whichever of its
bytes are read. -/
theorem C143_lower_set (fmt fmt' : Fmt) (sel sel' : Option Transceivers) (cmis cmis' binary : Bool) (input : Input)
    (data : Bytes) (hd : input.load = .ok data) (offset offset' len : U8) (hlen : len ≠ 0) (a : TableArgs DataField)
    (t t' : List Exchange) (out out' : Lines) (fails fails' : List (U8 × TransceiverError))
    (h : Runs (main fmt sel false (.writeLower cmis input offset)) t (.ok (.done out fails)))
    (h' : Runs (main fmt' sel' false (.readLower cmis' binary offset' len a)) t' (.ok (.done out' fails')))
    (hc : Conforming (t ++ t')) (b b' : BoardState) (he : Evolves b (t ++ t') b') :
    ∃ t₁ t₂ m t₁' t₂' m' ports, t = t₁ ++ t₂ ∧ Runs (addressTransceivers (sel.getD .all)) t₁ (.ok m) ∧
      t' = t₁' ++ t₂' ∧ Runs (addressTransceivers (sel'.getD .all)) t₁' (.ok m') ∧ Shown m' ports fails' ∧
      TableShows a chars!"Port Data" DataField.name
        (fun i d => portFour i ++ chars!" [" ++ bytesShown binary d ++ chars!"]") (dataFieldText binary) ports
        (fun i d => (Mem m i.toNat → ¬ Lined fails i.toNat → d = (List.range len.toNat).map fun k =>
            overwrite (b i.toNat).lower offset.toNat data (offset'.toNat + k)) ∧
          (¬ Mem m i.toNat → d = (List.range len.toNat).map fun k => (b i.toNat).lower (offset'.toNat + k))) out' := by
  obtain ⟨c, he1, he2⟩ := evolves_append.1 he
  have hc1 : Conforming t := fun x hx => hc x (List.mem_append_left _ hx)
  obtain ⟨-, t₁', t₂', m', ports, h1, h2, h3, h4⟩ := C143_lower fmt' sel' cmis' binary offset' len hlen a t' out' fails' h'
    (fun x hx => hc x (List.mem_append_right _ hx)) c b' he2
  obtain ⟨t₁, t₂, m, h5, h6, h8⟩ := C142_board_partial fmt sel _ t out fails h hc1
  refine ⟨t₁, t₂, m, t₁', t₂', m', ports, h5, h6, h1, h2, h3, tableShows_mono (fun i l h7 => ⟨fun hm hf => ?_, fun hm => ?_⟩) h4⟩
  · obtain ⟨q, d, hq, hE⟩ := (h8 _ _ _ (evolves_at.1 he1 i.toNat)).2 (.inl trivial) hm hf
    cases q with
    | write g w =>
      cases d with
      | none => exact hq.elim
      | some d =>
        obtain ⟨h9, h10, h11, -⟩ := hq
        rw [hd] at h9
        cases h9
        rw [h7, show c i.toNat = _ from hE, lower_store (by rw [h10]; cases cmis <;> rfl), h11]
        rfl
    | _ => exact hq.elim
  · rw [h7, (h8 _ _ _ (evolves_at.1 he1 i.toNat)).1 hm]

theorem page_named {p : Page} {cmis : Bool} {page : U8} {bank : Option U8} (hl : isLower p = false)
    (hp : p.page = some page) (hb : p.bank = if cmis then bank else none)
    (hm : p.managementInterface = if cmis then .cmis else .sff8636) :
    p = if cmis then .cmis (.upper ⟨bank, page⟩) else .sff8636 (.upper page) := by
  cases cmis with
  | true =>
    simp only [if_true] at hb hm ⊢
    rcases p with _ | _ | ⟨b, g⟩
    · cases hm
    · cases hl
    · cases hp
      cases hb
      rfl
  | false =>
    simp only [Bool.false_eq_true, if_false] at hm ⊢
    rcases p with (_ | g) | _
    · cases hl
    · cases hp
      rfl
    · cases hm

/-- **C143**, bytes written to an upper page and then shown. -/
theorem C143_upper_set (fmt fmt' : Fmt) (sel sel' : Option Transceivers) (cmis binary : Bool) (input : Input)
    (data : Bytes) (hd : input.load = .ok data) (page : U8) (bank : Option U8) (offset offset' len : U8) (hlen : len ≠ 0)
    (a : TableArgs DataField) (t t' : List Exchange) (out out' : Lines) (fails fails' : List (U8 × TransceiverError))
    (h : Runs (main fmt sel false (.writeUpper cmis input page bank offset)) t (.ok (.done out fails)))
    (h' : Runs (main fmt' sel' false (.readUpper cmis binary page bank offset' len a)) t' (.ok (.done out' fails')))
    (hc : Conforming (t ++ t')) (b b' : BoardState) (he : Evolves b (t ++ t') b') :
    ∃ t₁ t₂ m t₁' t₂' m' ports, t = t₁ ++ t₂ ∧ Runs (addressTransceivers (sel.getD .all)) t₁ (.ok m) ∧
      t' = t₁' ++ t₂' ∧ Runs (addressTransceivers (sel'.getD .all)) t₁' (.ok m') ∧ Shown m' ports fails' ∧
      TableShows a chars!"Port Data" DataField.name
        (fun i d => portFour i ++ chars!" [" ++ bytesShown binary d ++ chars!"]") (dataFieldText binary) ports
        (fun i d => (Mem m i.toNat → ¬ Lined fails i.toNat → d = (List.range len.toNat).map fun k =>
            overwrite ((b i.toNat).upper (if cmis then .cmis (.upper ⟨bank, page⟩) else .sff8636 (.upper page)))
              offset.toNat data (offset'.toNat + k)) ∧
          (¬ Mem m i.toNat → d = (List.range len.toNat).map fun k =>
            (b i.toNat).upper (if cmis then .cmis (.upper ⟨bank, page⟩) else .sff8636 (.upper page)) (offset'.toNat + k)))
        out' := by
  obtain ⟨c, he1, he2⟩ := evolves_append.1 he
  have hc1 : Conforming t := fun x hx => hc x (List.mem_append_left _ hx)
  obtain ⟨-, t₁', t₂', m', ports, h1, h2, h3, h4⟩ := C143_upper fmt' sel' cmis binary page bank offset' len hlen a t' out'
    fails' h' (fun x hx => hc x (List.mem_append_right _ hx)) c b' he2
  obtain ⟨t₁, t₂, m, h5, h6, h8⟩ := C142_board_partial fmt sel _ t out fails h hc1
  refine ⟨t₁, t₂, m, t₁', t₂', m', ports, h5, h6, h1, h2, h3, tableShows_mono (fun i l h7 => ⟨fun hm hf => ?_, fun hm => ?_⟩) h4⟩
  · obtain ⟨q, d, hq, hE⟩ := (h8 _ _ _ (evolves_at.1 he1 i.toNat)).2 (.inl trivial) hm hf
    cases q with
    | write g w =>
      cases d with
      | none => exact hq.elim
      | some d =>
        obtain ⟨h9, h10, h11, h12, h13, h14, -⟩ := hq
        rw [hd] at h9
        cases h9
        have hpg := page_named h10 h11 h12 h13
        rw [h7, show c i.toNat = _ from hE, ← hpg, Option.getD_some, upper_store h10, h14]
    | _ => exact hq.elim
  · rw [h7, (h8 _ _ _ (evolves_at.1 he1 i.toNat)).1 hm]

/-! ### Examples -/

/-- Every program that sends only requests has a run against the board. -/
theorem board_evolves_only {α : Type} (b : BoardState) (F : List Exchange → HostRequest → ModuleId) {P : Prog α}
    (hp : Only Bench.IsHost P) (h : List Exchange) :
    Evolves (after b h) (P.exec (boardBench b F).sp h).1 (after b (h ++ (P.exec (boardBench b F).sp h).1)) := by
  induction P generalizing h with
  | ret a => simp [Prog.exec, Evolves]
  | fail e => simp [Prog.exec, Evolves]
  | panic => simp [Prog.exec, Evolves]
  | rpc c k ih =>
    obtain ⟨⟨q, D, rfl⟩, hk⟩ := hp
    simp only [Prog.exec]
    refine ⟨after b (h ++ [(Call.host q D, (boardBench b F).answer h q)]), board_steps b F h q D, ?_⟩
    have := ih ((boardBench b F).answer h q) (hk _) (h ++ [(Call.host q D, (boardBench b F).answer h q)])
    rw [List.append_assoc] at this
    exact this

theorem main_only (fmt : Fmt) (sel : Option Transceivers) (ign : Bool) (cmd : Cmd) :
    Only Bench.IsHost (main fmt sel ign cmd) :=
  only_bind (only_mono (fun _ ⟨q, h, _⟩ => ⟨q, none, h⟩) (only_select _)) fun m =>
    only_mono isHost_of_callOf (only_dispatch fmt ign m cmd)

/-- Two runs of the tool against a made-up board, one after the other. -/
theorem two_runs (b : BoardState) (m m' : ModuleId) (cmd cmd' : Cmd) (ls ls' : Lines)
    (e : ((main plainFmt (some (.index m)) false cmd).exec (boardBench b).sp []).2 = .ok (.done ls []))
    (e' : ((main plainFmt (some (.index m')) false cmd').exec
      (boardBench (after b ((main plainFmt (some (.index m)) false cmd).exec (boardBench b).sp []).1)).sp []).2 =
      .ok (.done ls' [])) :
    ∃ t t' b', Runs (main plainFmt (some (.index m)) false cmd) t (.ok (.done ls [])) ∧
      Runs (main plainFmt (some (.index m')) false cmd') t' (.ok (.done ls' [])) ∧ Conforming (t ++ t') ∧
      Evolves b (t ++ t') b' := by
  obtain ⟨h1, h2⟩ := main_bench (boardBench b) plainFmt (some (.index m)) false cmd
  have h3 := board_evolves_only b (fun _ _ => ⟨0⟩) (main_only plainFmt (some (.index m)) false cmd) []
  rw [e] at h1
  obtain ⟨h4, h5⟩ := main_bench (boardBench (after b ((main plainFmt (some (.index m)) false cmd).exec (boardBench b).sp
    []).1)) plainFmt (some (.index m')) false cmd'
  have h6 := board_evolves_only (after b ((main plainFmt (some (.index m)) false cmd).exec (boardBench b).sp []).1)
    (fun _ _ => ⟨0⟩) (main_only plainFmt (some (.index m')) false cmd') []
  rw [e'] at h4
  refine ⟨_, _, _, h1, h4, fun x hx => ?_, evolves_append.2 ⟨_, h3, h6⟩⟩
  rcases List.mem_append.1 hx with hx | hx
  · exact h2 x hx
  · exact h5 x hx

/-- `C143_leds_set`: the LED of port 1 is made to blink, and is then shown to, beside another. -/
example : ∃ t t' b', Runs (main plainFmt (some (.index ⟨0b10⟩)) false (.setLeds .blink)) t (.ok (.done [] [])) ∧
    Runs (main plainFmt (some (.index ⟨0b11⟩)) false (.leds ⟨false, [], none, false⟩)) t'
      (.ok (.done [chars!"Port LED", chars!"   0 Off", chars!"   1 Blink"] [])) ∧ Conforming (t ++ t') ∧
    Evolves unevenBoard (t ++ t') b' :=
  two_runs _ _ _ _ _ _ _ (by decide +kernel)
    (by decide +kernel)

/-- `C143_power_set`: port 1, in high power, is set to low power. -/
example : ∃ t t' b', Runs (main plainFmt (some (.index ⟨0b10⟩)) false (.setPower .low)) t (.ok (.done [] [])) ∧
    Runs (main plainFmt (some (.index ⟨0b11⟩)) false (.power ⟨false, [], none, false⟩)) t'
      (.ok (.done [chars!"Port  Power  Software-override", chars!"   0  Off    -", chars!"   1  Low    Yes"] [])) ∧
    Conforming (t ++ t') ∧ Evolves unevenBoard (t ++ t') b' :=
  two_runs _ _ _ _ _ _ _ (by decide +kernel)
    (by decide +kernel)

/-- `C143_lower_set`: two bytes are written, and four around them read. -/
example : ∃ t t' b', Runs (main plainFmt (some (.index ⟨0b1⟩)) false (.writeLower false ⟨some .binary, some [0xab, 0xcd], 2⟩ 100)) t
      (.ok (.done [] [])) ∧
    Runs (main plainFmt (some (.index ⟨0b1⟩)) false (.readLower false false 99 4 ⟨false, [], none, true⟩)) t'
      (.ok (.done [chars!"   0 [0x00,0xab,0xcd,0x00]"] [])) ∧ Conforming (t ++ t') ∧
    Evolves unevenBoard (t ++ t') b' :=
  two_runs _ _ _ _ _ _ _ (by decide +kernel)
    (by decide +kernel)

/-- `C143_pins_set_filter`: port 1 is put in reset, and the ports in reset are shown. -/
example : ∃ t t' b', Runs (main plainFmt (some (.index ⟨0b10⟩)) false .assertReset) t (.ok (.done [] [])) ∧
    Runs (main plainFmt (some (.index ⟨0b11⟩)) false (.status (some 4) none false false [] none false)) t'
      (.ok (.done [chars!"Port RESET", chars!"   0 0", chars!"   1 1"] [])) ∧
    Conforming (t ++ t') ∧ Evolves unevenBoard (t ++ t') b' :=
  two_runs _ _ _ _ _ _ _ (by decide +kernel)
    (by decide +kernel)

end Xcvr
