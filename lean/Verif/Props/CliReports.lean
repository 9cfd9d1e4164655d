import Verif.Spec.ReportText
import Verif.Props.CliMonitors

/-! # C97: what the status, power, LED, read and MAC commands show is what the SP reports -/

namespace Xcvr

open Spec Prog Cli Controller

theorem flag_contains (s : U32) (i : Nat) (hi : i < 32) (f : U32) (hf : f = BitVec.twoPow 32 i) :
    containsFlags s f = s.getLsbD i := by
  rw [hf]
  exact containsFlags_twoPow s i hi

/-- The bits without a name. -/
theorem unnamed_bits (s : U32) :
    (s &&& ~~~ flagNames.foldl (fun a f => a ||| f.2) 0).toNat = 512 * (s.toNat / 512) := by
  rw [show flagNames.foldl (fun a f => a ||| f.2) 0 = (511 : U32) by decide +kernel]
  have h : s &&& ~~~ (511 : U32) = (s >>> 9) <<< 9 := by
    apply BitVec.eq_of_getLsbD_eq
    intro i hi
    have h5 : (511 : U32).getLsbD i = decide (i < 9) := by
      have : ∀ i : Fin 32, (511 : U32).getLsbD i.val = decide (i.val < 9) := by decide +kernel
      exact this ⟨i, hi⟩
    simp only [BitVec.getLsbD_and, BitVec.getLsbD_not, hi, decide_true, Bool.true_and, BitVec.getLsbD_shiftLeft,
      BitVec.getLsbD_ushiftRight, h5]
    by_cases h9 : i < 9
    · simp [h9]
    · simp [h9, show 9 + (i - 9) = i by omega]
  rw [h, BitVec.toNat_shiftLeft, BitVec.toNat_ushiftRight, Nat.shiftLeft_eq, Nat.shiftRight_eq_div_pow]
  have := s.isLt
  omega

theorem statusText_eq (s : U32) : statusText s = flagsShown s := by
  have he : flagNames = flagList.zipIdx.map fun f => (f.1, BitVec.twoPow 32 f.2) := by decide +kernel
  have hi : ∀ f ∈ flagList.zipIdx, f.2 < 32 := by decide +kernel
  have hr := unnamed_bits s
  unfold statusText flagsText flagsShown
  rw [join_eq]
  generalize s &&& ~~~ flagNames.foldl (fun a f => a ||| f.2) 0 = rest at hr
  congr 1
  congr 1
  · rw [he, List.filter_map, List.map_map]
    rw [List.filter_congr (p := (fun f : List Char × U32 => s &&& f.2 == f.2) ∘ fun f : List Char × Nat => (f.1, BitVec.twoPow 32 f.2))
      (q := fun f => s.getLsbD f.2) fun f hf => flag_contains s f.2 (hi f hf) _ rfl]
    rfl
  · have h0 : rest = 0 ↔ s.toNat < 512 := by
      constructor
      · rintro rfl
        simp only [show (0 : U32).toNat = 0 from rfl] at hr
        omega
      · intro h
        apply BitVec.eq_of_toNat_eq
        rw [hr, show (0 : U32).toNat = 0 from rfl]
        omega
    rw [hr]
    by_cases h : s.toNat < 512
    · rw [if_pos (h0.2 h), if_pos h]
    · rw [if_neg (fun hz => h (h0.1 hz)), if_neg h]

theorem allHeader_spec : AllHeader allHeader := by
  refine ⟨by decide, fun k hk => ?_, fun k hk => ?_⟩
  · have h : ∀ k : Fin 9, (allHeader.getD (k + 1) []).drop 40 = flagList.getD k [] ∧
        (allHeader.getD (k + 1) [])[5 + 4 * k.val]? = some '+' ∧
        ∀ j : Fin 9, k < j → (allHeader.getD (j + 1) [])[5 + 4 * k.val]? = some '|' := by decide +kernel
    have hget (n : Nat) (hn : n < 11) : allHeader[n]? = some (allHeader.getD n []) := by
      rw [List.getD_eq_getElem?_getD, List.getElem?_eq_getElem (by simpa [allHeader] using hn)]
      rfl
    obtain ⟨h1, h2, h3⟩ := h ⟨k, hk⟩
    exact ⟨_, hget _ (by omega), h1, h2, fun j hj hj' => ⟨_, hget _ (by omega), h3 ⟨j, hj'⟩ hj⟩⟩
  · have h : ∀ k : Fin 9, (allHeader.getD 10 [])[5 + 4 * k.val]? = some 'v' := by decide +kernel
    exact ⟨_, rfl, h ⟨k, hk⟩⟩

theorem decimal_short (i : U8) (hi : i.toNat < 64) : (decimal i).length = 1 ∨ (decimal i).length = 2 := by
  revert i; decide +kernel

theorem allRow_spec (i : U8) (hi : i.toNat < 64) (s : U32) : AllShown i s (allRow i s) := by
  have hm : (statusMarks s).map Prod.snd = (List.range 9).map fun i => s.getLsbD i := C74_all s
  have he : allRow i s = alignRight 2 (decimal i) ++ chars!"   " ++
      (((List.range 9).map fun i => s.getLsbD i).map fun b => alignLeft 4 (if b then chars!"1" else chars!"0")).flatten := by
    unfold allRow
    rw [← hm, List.map_map]
    rfl
  have hp : ∃ a b, alignRight 2 (decimal i) = [a, b] := by
    have h := decimal_short i hi
    unfold alignRight
    match hd : decimal i, h with
    | [a], _ => exact ⟨' ', a, rfl⟩
    | [a, b], _ => exact ⟨a, b, rfl⟩
    | [], h => simp at h
    | _ :: _ :: _ :: _, h => simp at h
  obtain ⟨a, b, hp⟩ := hp
  have hp' : List.replicate (2 - (decimal i).length) ' ' ++ decimal i = [a, b] := hp
  have hb (b : Bool) : alignLeft 4 (if b then chars!"1" else chars!"0") = [if b then '1' else '0', ' ', ' ', ' '] := by
    cases b <;> rfl
  have hr : List.range 9 = [0, 1, 2, 3, 4, 5, 6, 7, 8] := by decide
  rw [he, hp, hr]
  simp only [List.map_cons, List.map_nil, hb]
  refine ⟨rfl, by rw [hp']; rfl, fun k hk => ?_, fun c h2 h41 hn => ?_⟩
  · match k, hk with
    | 0, _ => rfl
    | 1, _ => rfl
    | 2, _ => rfl
    | 3, _ => rfl
    | 4, _ => rfl
    | 5, _ => rfl
    | 6, _ => rfl
    | 7, _ => rfl
    | 8, _ => rfl
  · have := hn 0 (by omega)
    have := hn 1 (by omega)
    have := hn 2 (by omega)
    have := hn 3 (by omega)
    have := hn 4 (by omega)
    have := hn 5 (by omega)
    have := hn 6 (by omega)
    have := hn 7 (by omega)
    have := hn 8 (by omega)
    obtain (rfl | rfl | rfl | rfl | rfl | rfl | rfl | rfl | rfl | rfl | rfl | rfl | rfl | rfl | rfl | rfl | rfl | rfl
      | rfl | rfl | rfl | rfl | rfl | rfl | rfl | rfl | rfl | rfl | rfl | rfl) : c = 2 ∨ c = 3 ∨ c = 4 ∨ c = 6 ∨ c = 7
      ∨ c = 8 ∨ c = 10 ∨ c = 11 ∨ c = 12 ∨ c = 14 ∨ c = 15 ∨ c = 16 ∨ c = 18 ∨ c = 19 ∨ c = 20 ∨ c = 22 ∨ c = 23 ∨ c =
      24 ∨ c = 26 ∨ c = 27 ∨ c = 28 ∨ c = 30 ∨ c = 31 ∨ c = 32 ∨ c = 34 ∨ c = 35 ∨ c = 36 ∨ c = 38 ∨ c = 39 ∨ c = 40
      := by omega
    all_goals rfl

/-! ## Tables -/

/-- What the lines of a table in the default form are. -/
theorem default_lines {F P : Type} {head : List Char} {row : U8 → P → Exec Unit (List Char)} {name : F → List Char}
    {cell : F → U8 → P → Exec Unit (List Char)} {line : U8 → P → List Char} {a : TableArgs F} (ha : a.parseable = false)
    {rows : List (U8 × P)} {out : Lines} (hv : ∀ x ∈ rows, row x.1 x.2 = .ok (line x.1 x.2))
    (h : table head row name cell a.kind rows = .ok out) :
    out = (if a.omitHeader then [] else [head]) ++ rows.map fun x => line x.1 x.2 := by
  rw [kind_default ha] at h
  unfold table at h
  dsimp only at h
  rw [mapM_ok (g := fun x : U8 × P => line x.1 x.2) hv] at h
  cases h
  cases a.omitHeader <;> rfl

/-- The two forms of a table that has a line for each module. -/
def Spec.TableShows {F P : Type} (a : TableArgs F) (head : List Char) (name : F → List Char) (line : U8 → P → List Char)
    (field : U8 → P → F → List Char) (ports : List U8) (says : U8 → P → Prop) (out : Lines) : Prop :=
  (a.parseable = false → ∃ lines, out = (if a.omitHeader then [] else [head]) ++ lines ∧
    Pairs (fun i l => ∃ v, says i v ∧ l = line i v) ports lines) ∧
  (a.parseable = true → a.output ≠ [] → ∃ lines,
    out = (if a.omitHeader then [] else [(separator a.outputSeparator).intercalate (a.output.map name)]) ++ lines ∧
    Pairs (fun i l => ∃ v, says i v ∧ l = (separator a.outputSeparator).intercalate (a.output.map (field i v))) ports lines)

theorem table_shows {F P : Type} {head : List Char} {row : U8 → P → Exec Unit (List Char)} {name : F → List Char}
    {cell : F → U8 → P → Exec Unit (List Char)} {line : U8 → P → List Char} {field : U8 → P → F → List Char}
    {a : TableArgs F} {rows : List (U8 × P)} {out : Lines} {says : U8 → P → Prop}
    (hrow : ∀ x ∈ rows, row x.1 x.2 = .ok (line x.1 x.2)) (hcell : ∀ f, ∀ x ∈ rows, cell f x.1 x.2 = .ok (field x.1 x.2 f))
    (hsays : ∀ x ∈ rows, says x.1 x.2) (h : table head row name cell a.kind rows = .ok out) :
    TableShows a head name line field (rows.map Prod.fst) says out := by
  refine ⟨fun ha => ?_, fun ha hfs => ?_⟩
  · exact ⟨_, default_lines ha hrow h, pairs_of_map _ _ fun x hx => ⟨x.2, hsays x hx, rfl⟩⟩
  · exact ⟨_, parseable_lines (value := fun f i v => field i v f) ha hfs hcell h,
      pairs_of_map _ _ fun x hx => ⟨x.2, hsays x hx, rfl⟩⟩

theorem mem_iter_ok {P : Type} {r : Res P} {x : U8 × P} (hx : x ∈ r.iter) : okAt r x.1.toNat = some x.2 :=
  ((C20_iter r).2.1 x.1 x.2).1 hx

theorem stateWord_eq : powerText = stateWord := by
  funext s
  cases s <;> rfl

theorem overrideWord_eq : overrideText = overrideWord := by
  funext o
  rcases o with _ | _ | _ <;> rfl

/-- **C97**, power: every module is shown or a failure; its line gives the state that its status and its software control
amount to, and the override. -/
theorem C97_power (fmt : Fmt) (m : ModuleId) (a : TableArgs PowerField) (t : List Exchange) (out : Lines)
    (fails : List (U8 × TransceiverError)) (h : Runs (dispatch fmt false m (.power a)) t (.ok (.done out fails)))
    (ht : Conforming t) (mem : Nat → ModuleMemory) (hf : Faithful mem t) :
    ∃ x t' ports, t = x :: t' ∧ x.1 = Call.host (.status m) ∧ Shown m ports fails ∧
      TableShows a chars!"Port  Power  Software-override" PowerField.name powerShown powerField ports
        (fun i mode => ∃ s, okIn x i.toNat = some [s] ∧ modeIn (mem i.toNat) s mode) out := by
  obtain ⟨r, ls, h1, h2, h3⟩ := showing_ok h
  cases h3
  obtain ⟨-, -, -, -, -, -, -, -, -, hw, -⟩ := power_spec h1 ht
  obtain ⟨x, t', rfl, h4, h5, h6⟩ := C48_memory m t r h1 ht mem hf
  refine ⟨x, t', _, rfl, h4, shown_of hw h5, table_shows (fun y _ => ?_) (fun f y _ => ?_) (fun y hy => ?_) h2⟩
  · rw [stateWord_eq, overrideWord_eq]
    simp [powerShown, portFour, portColumn, alignRight, alignLeft]
  · cases f <;> simp [PowerField.cell, powerField, stateWord_eq, overrideWord_eq]
  · have hy' := mem_iter_ok hy
    obtain ⟨s, mode, h7, h8, h9⟩ := h6 y.1.toNat ((datum_isSome hw.1).1
      (by rw [show datum r.modules r.data y.1.toNat = some y.2 from hy']; rfl))
    rw [hy'] at h8
    cases h8
    exact ⟨s, h7, h9⟩

theorem led_known {m : ModuleId} {r : Reply} (hc : Conforming [(Call.host (.ledState m), r)]) {p : Nat} {b : Bytes}
    (h : okAmong [(Call.host (.ledState m), r)] p = some b) : (ledOfCode b).isSome := by
  unfold okAmong at h
  obtain ⟨x, hx, h⟩ := List.exists_of_findSome?_eq_some h
  obtain ⟨q, R, data, h1, h2, h3⟩ := hc x hx
  cases List.mem_singleton.1 hx
  cases h1
  unfold okIn at h
  rw [h2] at h
  cases data with
  | none => cases h
  | some d =>
    have hk := h3.kind
    have hv := h3.values d rfl
    cases R <;> first | exact hk.elim | exact hv p b h

/-- **C97**, LEDs. -/
theorem C97_leds (fmt : Fmt) (m : ModuleId) (a : TableArgs LedField) (t : List Exchange) (out : Lines)
    (fails : List (U8 × TransceiverError)) (h : Runs (dispatch fmt false m (.leds a)) t (.ok (.done out fails)))
    (ht : Conforming t) :
    ∃ ports, Shown m ports fails ∧ TableShows a chars!"Port LED" LedField.name
      (fun i s => portFour i ++ chars!" " ++ ledWord true s) ledField ports
      (fun i s => ∃ b, okAmong t i.toNat = some b ∧ ledOfCode b = some s) out := by
  obtain ⟨r, ls, h1, h2, h3⟩ := showing_ok h
  cases h3
  obtain ⟨res, h4, h5⟩ := C39_leds m t _ h1 ht
  cases h4
  refine ⟨_, shown_of h5.wf h5.split, table_shows (fun y _ => ?_) (fun f y _ => ?_) (fun y hy => ?_) h2⟩
  · cases hs : y.2 <;> simp [ledDebug, ledWord, portFour, portColumn, alignRight]
  · cases f
    · rfl
    · cases hs : y.2 <;> rfl
  · have hy' := mem_iter_ok hy
    rw [h5.ok] at hy'
    obtain ⟨b, h6, h7⟩ := Option.map_eq_some_iff.1 hy'
    obtain ⟨r', -, rfl, -⟩ := leds_spec h1 ht
    have h8 := led_known ht h6
    cases hl : ledOfCode b with
    | none => rw [hl] at h8; cases h8
    | some s =>
      rw [hl] at h7
      cases h7
      exact ⟨b, h6, hl⟩

/-! ## Status -/

/-- The flags the SP reported for a port: the extended status if it knows that request, else the eight flags of the status. -/
def Spec.StatusTold (m : ModuleId) (t : List Exchange) (i : U8) (s : U32) : Prop :=
  (∃ x, t = [x] ∧ x.1 = Call.host (.extendedStatus m) ∧ ∃ b, okIn x i.toNat = some b ∧ s = word b) ∨
  (∃ x y, t = [x, y] ∧ x.1 = Call.host (.extendedStatus m) ∧ y.1 = Call.host (.status m) ∧
    ∃ b, okIn y i.toNat = some b ∧ s = BitVec.ofNat 32 (b.headD 0).toNat)

theorem okAmong_one {x : Exchange} {p : Nat} : okAmong [x] p = okIn x p := by
  unfold okAmong
  rw [List.findSome?_cons, List.findSome?_nil]
  cases okIn x p <;> rfl

theorem status_shown {m : ModuleId} {t : List Exchange} {text : Res U32 → Exec Unit Lines} {out : Lines}
    {fails : List (U8 × TransceiverError)} (h : Runs (showing false (statusCmd m) text) t (.ok (.done out fails)))
    (ht : ∀ x, t.getLast? = some x → Conforms x) :
    ∃ r, text r = .ok out ∧ Shown m (r.iter.map Prod.fst) fails ∧ ∀ x ∈ r.iter, StatusTold m t x.1 x.2 := by
  obtain ⟨r, ls, h1, h2, h3⟩ := showing_ok h
  cases h3
  obtain ⟨rep, ⟨rfl, -, -⟩ | ⟨rep', e, rfl, h4, -⟩⟩ := runs_statusCmd h1
  · obtain ⟨-, -, res, h5, h6⟩ := C68_extended m _ _ _ h1 (ht _ rfl)
    cases h5
    refine ⟨r, h2, shown_of h6.wf h6.split, fun x hx => .inl ⟨_, rfl, rfl, ?_⟩⟩
    have hx' := mem_iter_ok hx
    rw [h6.ok, okAmong_one] at hx'
    obtain ⟨b, h7, h8⟩ := Option.map_eq_some_iff.1 hx'
    exact ⟨b, h7, h8.symm⟩
  · obtain ⟨x, h5, h6, h7⟩ := C68_fallback m rep _ _ e h1 h4
    cases h5
    obtain ⟨res, h8, h9⟩ := h7 (ht _ rfl)
    cases h8
    refine ⟨r, h2, shown_of h9.wf h9.split, fun x hx => .inr ⟨_, _, rfl, rfl, rfl, ?_⟩⟩
    have hx' := mem_iter_ok hx
    rw [h9.ok, okAmong_one] at hx'
    obtain ⟨b, h7, h8⟩ := Option.map_eq_some_iff.1 hx'
    exact ⟨b, h7, h8.symm⟩

/-- **C97**, status: the names of the flags that the SP reported, in the default and in the parseable form. -/
theorem C97_status (fmt : Fmt) (m : ModuleId) (parseable : Bool) (output : List StatusField) (sep : Option (List Char))
    (omitHeader : Bool) (t : List Exchange) (out : Lines) (fails : List (U8 × TransceiverError))
    (h : Runs (dispatch fmt false m (.status none none false parseable output sep omitHeader)) t (.ok (.done out fails)))
    (ht : ∀ x, t.getLast? = some x → Conforms x) :
    ∃ ports lines, Shown m ports fails ∧
      out = (if omitHeader then [] else
        [if parseable then (separator sep).intercalate (output.map StatusField.name) else chars!"Port Status"]) ++ lines ∧
      Pairs (fun i l => ∃ s, StatusTold m t i s ∧ l =
        if parseable then (separator sep).intercalate (output.map (statusFieldText i s))
        else portFour i ++ chars!" " ++ flagsShown s) ports lines := by
  have hk : statusKind none none false parseable = .ok (if parseable then .parseable else .normal) := by
    cases parseable <;> rfl
  rw [dispatch] at h
  rw [hk] at h
  obtain ⟨r, h1, h2, h3⟩ := status_shown h ht
  have hc (i : U8) (s : U32) : (fun f : StatusField => f.cell i s) = statusFieldText i s := by
    funext f
    cases f
    · rfl
    · exact statusText_eq s
  cases parseable with
  | true =>
    unfold statusTable statusLines at h1
    simp only [if_true, join_eq, hc] at h1
    cases h1
    exact ⟨_, _, h2, rfl, pairs_of_map _ _ fun x hx => ⟨x.2, h3 x hx, rfl⟩⟩
  | false =>
    unfold statusTable at h1
    simp only [Bool.false_eq_true, if_false, statusText_eq] at h1
    cases h1
    exact ⟨_, _, h2, rfl, pairs_of_map _ _ fun x hx => ⟨x.2, h3 x hx, rfl⟩⟩

/-- **C97**, status of all flags: marks under the labels of their flags. -/
theorem C97_status_all (fmt : Fmt) (m : ModuleId) (output : List StatusField) (sep : Option (List Char))
    (omitHeader : Bool) (t : List Exchange) (out : Lines) (fails : List (U8 × TransceiverError))
    (h : Runs (dispatch fmt false m (.status none none true false output sep omitHeader)) t (.ok (.done out fails)))
    (ht : ∀ x, t.getLast? = some x → Conforms x) :
    ∃ ports head lines, Shown m ports fails ∧ out = head ++ lines ∧ AllHeader head ∧
      Pairs (fun i l => ∃ s, StatusTold m t i s ∧ AllShown i s l) ports lines := by
  rw [dispatch] at h
  obtain ⟨r, h1, h2, h3⟩ := status_shown h ht
  cases h1
  refine ⟨_, _, _, h2, rfl, allHeader_spec, pairs_of_map _ _ fun x hx => ⟨x.2, h3 x hx, allRow_spec _ ?_ _⟩⟩
  exact mem_lt ((h2.once x.1).1.2 (.inl (List.mem_map_of_mem hx)))

theorem bit_row (i : U8) (b : Bool) {p : Prop} (h : b = true ↔ p) :
    (portColumn i ++ [' '] ++ if b = true then ['1'] else ['0']) = portFour i ++ [' ', if b = true then '1' else '0'] ∧
    ((if b = true then '1' else '0') = '0' ∨ (if b = true then '1' else '0') = '1') ∧
    ((if b = true then '1' else '0') = '1' ↔ p) := by
  rw [← h]
  cases b with
  | true => exact ⟨by simp [portColumn, alignRight, portFour], .inr rfl, by simp⟩
  | false => exact ⟨by simp [portColumn, alignRight, portFour], .inl rfl, by simp⟩

/-- **C97**, status of some flags: 1 for the modules that have all of the first set, and, if flags of the second kind are
given, not all of these (see C69). -/
theorem C97_status_filter (fmt : Fmt) (m : ModuleId) (w wo : Option U32) (hw : w ≠ none ∨ wo ≠ none) (output : List StatusField)
    (sep : Option (List Char)) (omitHeader : Bool) (t : List Exchange) (out : Lines) (fails : List (U8 × TransceiverError))
    (h : Runs (dispatch fmt false m (.status w wo false false output sep omitHeader)) t (.ok (.done out fails)))
    (ht : ∀ x, t.getLast? = some x → Conforms x) :
    ∃ ports lines, Shown m ports fails ∧ out = (chars!"Port " ++ filterShown (w.getD 0) (wo.getD 0)) :: lines ∧
      Pairs (fun i l => ∃ s bit, StatusTold m t i s ∧ l = portFour i ++ [' ', bit] ∧ (bit = '0' ∨ bit = '1') ∧
        (bit = '1' ↔ AllSet (w.getD 0) s ∧ (wo.getD 0 = 0 ∨ ¬ AllSet (wo.getD 0) s))) ports lines := by
  have hk : statusKind w wo false false = .ok (.limited (w.getD 0) (wo.getD 0)) := by
    cases w with
    | none =>
      cases wo with
      | none => rcases hw with h | h <;> exact absurd rfl h
      | some wo => rfl
    | some w => cases wo <;> rfl
  rw [dispatch] at h
  rw [hk] at h
  obtain ⟨r, h1, h2, h3⟩ := status_shown h ht
  unfold statusTable at h1
  dsimp only at h1
  generalize w.getD 0 = w at *
  generalize wo.getD 0 = wo at *
  unfold limitedColumn at h1
  by_cases hz : w = 0 ∧ wo = 0
  · rw [if_pos hz] at h1
    cases h1
  · rw [if_neg hz] at h1
    cases h1
    have hl : limitedText w wo = filterShown w wo := by
      unfold limitedText filterShown
      simp only [statusText_eq]
      by_cases h1 : w = 0
      · rw [if_pos h1, if_neg (fun h => hz ⟨h1, h⟩), if_pos h1]
      · rw [if_neg h1, if_neg h1]
    refine ⟨_, _, h2, by rw [hl], ?_⟩
    rw [List.map_map]
    refine pairs_of_map _ _ fun x hx => ⟨x.2, if (if wo = 0 then containsFlags x.2 w
      else if w = 0 then !containsFlags x.2 wo else containsFlags x.2 w && !containsFlags x.2 wo) then '1' else '0',
      h3 x hx, ?_⟩
    dsimp only [Function.comp]
    exact bit_row _ _ (limited_value w wo x.2)

/-! ## Reads of memory -/

/-- Reads: the table shows the bytes of the modules' memory that were asked for. -/
theorem read_shown {mem : Nat → Page → Nat → U8} {m : ModuleId} {binary : Bool} {page : Page} {offset len : U8}
    (hl : len ≠ 0) {a : TableArgs DataField} {t : List Exchange} {out : Lines} {fails : List (U8 × TransceiverError)}
    (h : Runs (readCmd false m binary (.ok page) offset len a) t (.ok (.done out fails)))
    (ht : Conforming t) (hf : FromMemory mem t) :
    ∃ ports, Shown m ports fails ∧ TableShows a chars!"Port Data" DataField.name
      (fun i d => portFour i ++ chars!" [" ++ bytesShown binary d ++ chars!"]") (dataFieldText binary) ports
      (fun i d => d = (List.range len.toNat).map fun k => mem i.toNat page (offset.toNat + k)) out := by
  unfold readCmd at h
  rw [if_neg hl] at h
  dsimp only at h
  split at h
  · cases (runs_ret.1 h).2
  · cases (runs_panic.1 h).2
  · rename_i reads hr
    obtain ⟨r, ls, h1, h2, h3⟩ := showing_ok h
    cases h3
    obtain ⟨h4, h5, h6⟩ := C63_data mem m page offset len reads hr t r h1 ht hf
    have hd : dataText binary = bytesShown binary := by
      funext d
      unfold dataText bytesShown
      rw [join_eq]
      cases binary <;> rfl
    refine ⟨_, shown_of h4 h5, table_shows (fun y _ => ?_) (fun f y _ => ?_) (fun y hy => ?_) h2⟩
    · rw [hd]
      rfl
    · cases f
      · rfl
      · unfold DataField.cell
        rw [hd]
        rfl
    · have hy' := mem_iter_ok hy
      rw [h6 y.1.toNat ((datum_isSome h4.1).1
        (by rw [show datum r.modules r.data y.1.toNat = some y.2 from hy']; rfl))] at hy'
      exact (Option.some.inj hy').symm

/-- **C97**, reads of the lower page. -/
theorem C97_read_lower (fmt : Fmt) (mem : Nat → Page → Nat → U8) (m : ModuleId) (cmis binary : Bool) (offset len : U8)
    (hl : len ≠ 0) (a : TableArgs DataField) (t : List Exchange) (out : Lines) (fails : List (U8 × TransceiverError))
    (h : Runs (dispatch fmt false m (.readLower cmis binary offset len a)) t (.ok (.done out fails)))
    (ht : Conforming t) (hf : FromMemory mem t) :
    ∃ ports, Shown m ports fails ∧ TableShows a chars!"Port Data" DataField.name
      (fun i d => portFour i ++ chars!" [" ++ bytesShown binary d ++ chars!"]") (dataFieldText binary) ports
      (fun i d => d = (List.range len.toNat).map fun k =>
        mem i.toNat (if cmis then .cmis .lower else .sff8636 .lower) (offset.toNat + k)) out := by
  have h' := read_shown hl (page := lowerPage cmis) h ht hf
  cases cmis <;> exact h'

theorem upperPage_ok {cmis : Bool} {page : U8} {bank : Option U8} {p : Page} (h : upperPage cmis page bank = .ok p) :
    p = if cmis then .cmis (.upper ⟨bank, page⟩) else .sff8636 (.upper page) := by
  unfold upperPage at h
  cases cmis with
  | false =>
    simp only [Bool.false_eq_true, if_false] at h ⊢
    unfold sffUpperPageNew at h
    split at h <;> cases h
    rfl
  | true =>
    simp only [if_true] at h ⊢
    cases bank with
    | none =>
      simp only [cmisNewUnbanked] at h
      split at h <;> cases h
      rfl
    | some b =>
      simp only [cmisNewBanked] at h
      by_cases h1 : b > cmisMaxBank <;> by_cases h2 : (!cmisPageAcceptsBank page) = true <;>
        by_cases h3 : (!cmisIsValidPage page) = true <;>
        simp only [h1, h2, h3, if_true, if_false, Bool.false_eq_true] at h <;> cases h
      rfl

/-- **C97**, reads of an upper page. -/
theorem C97_read_upper (fmt : Fmt) (mem : Nat → Page → Nat → U8) (m : ModuleId) (cmis binary : Bool) (page : U8)
    (bank : Option U8) (offset len : U8) (hl : len ≠ 0) (a : TableArgs DataField) (t : List Exchange) (out : Lines)
    (fails : List (U8 × TransceiverError))
    (h : Runs (dispatch fmt false m (.readUpper cmis binary page bank offset len a)) t (.ok (.done out fails)))
    (ht : Conforming t) (hf : FromMemory mem t) :
    ∃ ports, Shown m ports fails ∧ TableShows a chars!"Port Data" DataField.name
      (fun i d => portFour i ++ chars!" [" ++ bytesShown binary d ++ chars!"]") (dataFieldText binary) ports
      (fun i d => d = (List.range len.toNat).map fun k => mem i.toNat
        (if cmis then .cmis (.upper ⟨bank, page⟩) else .sff8636 (.upper page)) (offset.toNat + k)) out := by
  rw [dispatch] at h
  cases hp : upperPage cmis page bank with
  | error e =>
    rw [hp] at h
    unfold readCmd at h
    rw [if_neg hl] at h
    cases (runs_ret.1 h).2
  | ok p =>
    rw [hp] at h
    rw [← upperPage_ok hp]
    exact read_shown hl h ht hf

/-! ## MAC addresses -/

/-- **C97**, MAC addresses: what the SP reports of its range, or the addresses of the range in order. -/
theorem C97_macs (fmt : Fmt) (m : ModuleId) (summary : Bool) (t : List Exchange) (out : Lines)
    (fails : List (U8 × TransceiverError)) (h : Runs (dispatch fmt false m (.macs summary)) t (.ok (.done out fails))) :
    ∃ x macs data, t = [x] ∧ x.1 = Call.host .macAddrs ∧ responseOf x = some (.macAddrs (.ok macs), data) ∧ fails = [] ∧
      (summary = true → out = [chars!"Base:   " ++ macText macs.baseMac,
        chars!"Count:  " ++ Nat.toDigits 10 macs.count.toNat, chars!"Stride: " ++ Nat.toDigits 10 macs.stride.toNat]) ∧
      (summary = false → MacAddrs.new macs.baseMac macs.count macs.stride = .ok macs → out.length = macs.count.toNat ∧
        ∀ i, i < macs.count.toNat → ∃ a, out[i]? = some (macText a) ∧
          macVal a = macVal macs.baseMac + i * macs.stride.toNat) := by
  rw [dispatch] at h
  rcases runs_bind.1 h with ⟨t1, t2, macs, rfl, h1, h2⟩ | ⟨e, h1, h2⟩ | ⟨h1, h2⟩
  · unfold Controller.macAddrs at h1
    rcases runs_call_bind.1 h1 with ⟨-, h3⟩ | ⟨resp, t', rfl, h'⟩ | ⟨e, -, h3⟩
    · cases h3
    · have hb : resp.message.body = .spResponse (.macAddrs (.ok macs)) ∧ t' = [] := by
        split at h'
        · rename_i macs' hb
          obtain ⟨h4, h5⟩ := runs_ret.1 h'
          cases h5
          exact ⟨hb, h4⟩
        · cases (runs_fail.1 h').2
        · cases (runs_fail.1 h').2
      obtain ⟨hb, rfl⟩ := hb
      cases hp : macTable macs summary with
      | ok ls =>
        rw [hp] at h2
        obtain ⟨rfl, h4⟩ := runs_ret.1 h2
        cases h4
        refine ⟨_, macs, resp.data, rfl, rfl, ?_, rfl, ?_, ?_⟩
        · unfold responseOf
          simp only [hb]
        · rintro rfl
          cases hp
          rfl
        · rintro rfl hn
          obtain ⟨lines, h5, h6, h7⟩ := C78_range _ _ _ _ hn
          unfold macTable at hp
          rw [if_neg (by decide), h5] at hp
          cases hp
          exact ⟨h6, h7⟩
      | err e =>
        rw [hp] at h2
        cases (runs_panic.1 h2).2
      | panic =>
        rw [hp] at h2
        cases (runs_panic.1 h2).2
    · cases h3
  · cases h2
  · cases h2

/-! ## Runs that meet the hypotheses -/

theorem run_report (fmt : Fmt) (m : ModuleId) (cmd : Cmd) (mem : Nat → ModuleMemory) (bad : ModuleId) (status : U8 → U8)
    (led : U8 → Fin 3) {out : Lines} {q : List U8}
    (h : (match ((dispatch fmt false m cmd).exec (Bench.ofMemory mem bad status led).sp []).2 with
      | .ok (.done o f) => decide (o = out ∧ f.map Prod.fst = q)
      | _ => false) = true) :
    ∃ t fails, Runs (dispatch fmt false m cmd) t (.ok (.done out fails)) ∧ Conforming t ∧ Faithful mem t ∧
      fails.map Prod.fst = q := by
  have h1 := dispatch_bench (Bench.ofMemory mem bad status led) fmt m false cmd
  have hf := Bench.exec_faithful mem bad (dispatch fmt false m cmd) status led
  split at h
  · rename_i o f h2
    obtain ⟨rfl, h3⟩ := of_decide_eq_true h
    rw [h2] at h1
    exact ⟨_, f, h1.1, h1.2, hf, h3⟩
  · cases h

/-- Module 1 has power and is in reset, module 2 has good power; module 3 does not answer. -/
abbrev reportStatus (i : U8) : U8 := if i = 1 then 0x07 else 0x23

example : ∃ t fails, Runs (dispatch plainFmt false ⟨0b1110⟩ (.power ⟨false, [], none, false⟩)) t (.ok (.done
    [chars!"Port  Power  Software-override", chars!"   1  Off    -", chars!"   2  High   Yes"] fails)) ∧ Conforming t ∧
    Faithful pathMemory t ∧ fails.map Prod.fst = [3] :=
  run_report _ _ _ _ ⟨0b1000⟩ reportStatus (fun _ => 0) (by decide +kernel)

example : ∃ t fails, Runs (dispatch plainFmt false ⟨0b1110⟩ (.leds ⟨false, [], none, true⟩)) t (.ok (.done
    [chars!"   1 On", chars!"   2 Blink"] fails)) ∧ Conforming t ∧ Faithful pathMemory t ∧ fails.map Prod.fst = [3] :=
  run_report _ _ _ _ ⟨0b1000⟩ reportStatus (fun i => if i = 1 then 1 else 2) (by decide +kernel)

example : ∃ t fails, Runs (dispatch plainFmt false ⟨0b1110⟩ (.status none none false true [.status] none true)) t (.ok (.done
    [chars!"PRESENT | ENABLED | RESET", chars!"PRESENT | ENABLED | POWER_GOOD"] fails)) ∧ Conforming t ∧
    Faithful pathMemory t ∧ fails.map Prod.fst = [3] :=
  run_report _ _ _ _ ⟨0b1000⟩ reportStatus (fun _ => 0) (by decide +kernel)

example : ∃ t fails, Runs (dispatch plainFmt false ⟨0b1110⟩ (.status none none true false [] none true)) t (.ok (.done
    (allHeader ++ [chars!" 1   1   1   1   0   0   0   0   0   0   ", chars!" 2   1   1   0   0   0   1   0   0   0   "])
    fails)) ∧ Conforming t ∧ Faithful pathMemory t ∧ fails.map Prod.fst = [3] :=
  run_report _ _ _ _ ⟨0b1000⟩ reportStatus (fun _ => 0) (by decide +kernel)

example : ∃ t fails, Runs (dispatch plainFmt false ⟨0b1110⟩ (.status (some 3) (some 4) false false [] none true)) t (.ok (.done
    [chars!"Port PRESENT | ENABLED && !(RESET)", chars!"   1 0", chars!"   2 1"] fails)) ∧ Conforming t ∧
    Faithful pathMemory t ∧ fails.map Prod.fst = [3] :=
  run_report _ _ _ _ ⟨0b1000⟩ reportStatus (fun _ => 0) (by decide +kernel)

example : ∃ t fails, Runs (dispatch plainFmt false ⟨0b1010⟩ (.readLower false false 85 3 ⟨false, [], none, true⟩)) t (.ok (.done
    [chars!"   1 [0x00,0x04,0x00]"] fails)) ∧ Conforming t ∧ Faithful pathMemory t ∧
    fails.map Prod.fst = [3] :=
  run_report _ _ _ _ ⟨0b1000⟩ reportStatus (fun _ => 0) (by decide +kernel)

example : ∃ t fails, Runs (dispatch plainFmt false ⟨0b1100⟩ (.readUpper true true 0x11 (some 0) 206 2 ⟨false, [], none, true⟩)) t
    (.ok (.done [chars!"   2 [0b00010000,0b00000000]"] fails)) ∧ Conforming t ∧ Faithful pathMemory t ∧
    fails.map Prod.fst = [3] :=
  run_report _ _ _ _ ⟨0b1000⟩ reportStatus (fun _ => 0) (by decide +kernel)

example : ∃ t fails, Runs (dispatch plainFmt false ⟨0b1110⟩ (.macs true)) t (.ok (.done
    [chars!"Base:   a8:40:25:00:00:00", chars!"Count:  32", chars!"Stride: 1"] fails)) ∧ Conforming t ∧ Faithful pathMemory t ∧
    fails.map Prod.fst = [] :=
  run_report _ _ _ _ ⟨0b1000⟩ reportStatus (fun _ => 0) (by decide +kernel)

end Xcvr
