import Verif.Spec.CliMain
import Verif.Lemmas.Print
import Verif.Lemmas.ModuleId

/-! # Lemmas about the lines of the default tables -/

namespace Xcvr

open Spec Cli

theorem decimal_spec (x : U8) : (decimal x).all isDigit = true ∧ decimal x ≠ [] ∧ valueOf (decimal x) = x.toNat ∧
    (decimal x).length ≤ 3 := by
  revert x
  decide +kernel

theorem dropWhile_spaces (k : Nat) (l : List Char) (h : l.head? ≠ some ' ') :
    (List.replicate k ' ' ++ l).dropWhile (· = ' ') = l := by
  induction k with
  | zero =>
    cases l with
    | nil => rfl
    | cons c l =>
      have : c ≠ ' ' := fun hc => h (by simp [hc])
      simp [this]
  | succ k ih => simpa [List.replicate_succ] using ih

theorem takeWhile_digits (ds rest : List Char) (h : ds.all isDigit = true) (hr : ∀ c, rest.head? = some c → isDigit c = false) :
    (ds ++ rest).takeWhile isDigit = ds := by
  induction ds with
  | nil =>
    cases rest with
    | nil => rfl
    | cons c rest => simp [hr c rfl]
  | cons d ds ih =>
    simp only [List.all_cons, Bool.and_eq_true] at h
    simp [h.1, ih h.2]

theorem takeWhile_word (ds rest : List Char) (h : ' ' ∉ ds) (hr : ∀ c, rest.head? = some c → c = ' ') :
    (ds ++ rest).takeWhile (· ≠ ' ') = ds := by
  induction ds with
  | nil =>
    cases rest with
    | nil => rfl
    | cons c rest => simp [hr c rfl]
  | cons d ds ih =>
    rw [List.mem_cons, not_or] at h
    rw [List.cons_append, List.takeWhile_cons, if_pos (by simpa using Ne.symm h.1), ih h.2]

theorem word_digits {ds : List Char} (h : ds.all isDigit = true) (hn : ds ≠ []) :
    ' ' ∉ ds ∧ ¬ (ds = [] ∨ ds.any (fun c => !isDigit c) = true) := by
  rw [List.all_eq_true] at h
  refine ⟨fun hm => absurd (h _ hm) (by decide), ?_⟩
  rintro (h1 | h1)
  · exact hn h1
  · obtain ⟨c, hc, h2⟩ := List.any_eq_true.1 h1
    rw [h c hc] at h2
    cases h2

theorem decimal_head (x : U8) : ∃ c l, decimal x = c :: l ∧ isDigit c = true ∧ c ≠ ' ' ∧ c ≠ 'P' := by
  obtain ⟨h1, h2, -⟩ := decimal_spec x
  cases hd : decimal x with
  | nil => exact absurd hd h2
  | cons c l =>
    rw [hd, List.all_cons, Bool.and_eq_true] at h1
    refine ⟨c, l, rfl, h1.1, ?_, ?_⟩ <;> rintro rfl <;> exact absurd h1.1 (by decide)

/-- A line that starts with spaces and a port. -/
theorem linePort_column (k : Nat) (port : U8) (rest : List Char) (hr : ∀ c, rest.head? = some c → c = ' ') :
    linePort (List.replicate k ' ' ++ (decimal port ++ rest)) = some port.toNat := by
  obtain ⟨h1, h2, h3, -⟩ := decimal_spec port
  obtain ⟨c, l, h4, h5, h6, h7⟩ := decimal_head port
  have hp : ¬ (List.replicate k ' ' ++ (decimal port ++ rest)).take 5 = ['P', 'o', 'r', 't', ' '] := by
    cases k with
    | zero => rw [h4]; simpa using fun h => absurd h h7
    | succ k => simp [List.replicate_succ]
  have hd : (decimal port ++ rest).head? ≠ some ' ' := by
    rw [h4]
    simpa using h6
  simp only [linePort, if_neg hp]
  rw [dropWhile_spaces k _ hd, takeWhile_word _ _ (word_digits h1 h2).1 hr, if_neg (word_digits h1 h2).2, h3]

/-- A line that says `Port` and the port. -/
theorem linePort_word (port : U8) : linePort (chars!"Port " ++ decimal port) = some port.toNat := by
  obtain ⟨h1, h2, h3, -⟩ := decimal_spec port
  obtain ⟨c, l, h4, h5, h6, h7⟩ := decimal_head port
  have hp : (chars!"Port " ++ decimal port).take 5 = ['P', 'o', 'r', 't', ' '] := rfl
  have hd : (chars!"Port " ++ decimal port).drop 5 = decimal port := rfl
  simp only [linePort, if_pos hp, hd]
  have := dropWhile_spaces 0 (decimal port) (by rw [h4]; simpa using h6)
  rw [show List.replicate 0 ' ' ++ decimal port = decimal port from rfl] at this
  have ht := takeWhile_word (decimal port) [] (word_digits h1 h2).1 (by simp)
  rw [List.append_nil] at ht
  rw [this, ht, if_neg (word_digits h1 h2).2, h3]

/-- A line that starts with spaces and something other than a number. -/
theorem linePort_text (k : Nat) (c : Char) (l : List Char) (h : isDigit c = false) (hs : c ≠ ' ') (hk : k ≠ 0 ∨ c ≠ 'P') :
    linePort (List.replicate k ' ' ++ c :: l) = none := by
  have hp : ¬ (List.replicate k ' ' ++ c :: l).take 5 = ['P', 'o', 'r', 't', ' '] := by
    cases k with
    | zero => simpa using fun h => absurd h (hk.resolve_left fun h => h rfl)
    | succ k => simp [List.replicate_succ]
  simp only [linePort, if_neg hp]
  rw [dropWhile_spaces k _ (by simpa using hs)]
  simp [h, hs]

/-- A line that starts with the word `Port` and a word that is not a number. -/
theorem linePort_label (c d : Char) (l : List Char) (hs : c ≠ ' ') (h : isDigit c = false ∨ d ≠ ' ' ∧ isDigit d = false) :
    linePort (chars!"Port " ++ c :: d :: l) = none := by
  have hp : (chars!"Port " ++ c :: d :: l).take 5 = ['P', 'o', 'r', 't', ' '] := rfl
  have hd : (chars!"Port " ++ c :: d :: l).drop 5 = c :: d :: l := rfl
  simp only [linePort, if_pos hp, hd]
  rw [if_pos]
  rcases h with h | ⟨h1, h2⟩ <;> simp [hs, *]

theorem linePort_portColumn (port : U8) (rest : List Char) (hr : ∀ c, rest.head? = some c → c = ' ') :
    linePort (portColumn port ++ rest) = some port.toNat := by
  unfold portColumn alignRight
  rw [List.append_assoc]
  exact linePort_column _ _ _ hr

/-- The ports named by the lines of one or more modules. -/
abbrev portsOf (ls : Lines) : List Nat := ls.filterMap linePort

theorem portsOf_separated (bs : List Lines) : portsOf (separated bs) = (bs.map portsOf).flatten := by
  induction bs with
  | nil => rfl
  | cons b bs ih =>
    cases bs with
    | nil => simp [separated]
    | cons c bs =>
      have : portsOf [[]] = [] := by decide
      rw [separated]
      unfold portsOf at *
      rw [List.filterMap_append, List.filterMap_append, this, ih]
      simp

theorem mapM_lines {α β γ : Type} {f : α → Exec Unit β} {g : β → γ} {k : α → γ} {xs : List α} {ys : List β}
    (h : xs.mapM f = .ok ys) (hf : ∀ x ∈ xs, ∀ y, f x = .ok y → g y = k x) : ys.map g = xs.map k := by
  induction xs generalizing ys with
  | nil =>
    rw [List.mapM_nil] at h
    cases h
    rfl
  | cons x xs ih =>
    rw [List.mapM_cons] at h
    cases hx : f x with
    | ok y =>
      rw [hx] at h
      cases hxs : xs.mapM f with
      | ok zs =>
        rw [hxs] at h
        cases h
        rw [List.map_cons, List.map_cons, hf x List.mem_cons_self y hx,
          ih hxs fun x hx => hf x (List.mem_cons_of_mem _ hx)]
      | err e => rw [hxs] at h; cases h
      | panic => rw [hxs] at h; cases h
    | err e => rw [hx] at h; cases h
    | panic => rw [hx] at h; cases h

theorem portsOf_some {α : Type} {ls : Lines} {rows : List α} {port : α → U8}
    (h : ls.map linePort = rows.map fun r => some (port r).toNat) : portsOf ls = rows.map fun r => (port r).toNat := by
  have : portsOf ls = (ls.map linePort).filterMap id := by simp [portsOf, List.filterMap_map]
  rw [this, h]
  simp [List.filterMap_map]

/-- The ports named by a table in the default form. -/
theorem portsOf_table {F P : Type} {head : List Char} {row : U8 → P → Exec Unit (List Char)} {name : F → List Char}
    {cell : F → U8 → P → Exec Unit (List Char)} {header : Bool} {rows : List (U8 × P)} {ls : Lines}
    (h : table head row name cell (.default header) rows = .ok ls) (hh : linePort head = none)
    (hr : ∀ port x l, row port x = .ok l → linePort l = some port.toNat) :
    portsOf ls = rows.map fun r => r.1.toNat := by
  unfold table at h
  dsimp only at h
  cases hb : rows.mapM fun r => row r.1 r.2 with
  | ok body =>
    rw [hb] at h
    cases h
    have := portsOf_some (mapM_lines (g := linePort) (k := fun r => some r.1.toNat) hb fun x _ y h => hr _ _ _ h)
    unfold portsOf at *
    rw [List.filterMap_append, this]
    cases header <;> simp [hh]
  | err e => rw [hb] at h; cases h
  | panic => rw [hb] at h; cases h

/-- The text of flags, if there are any, starts with a letter or with `0x`. -/
theorem statusText_head {s : U32} (h : s ≠ 0) : ∃ c d l, statusText s = c :: d :: l ∧ c ≠ ' ' ∧
    (isDigit c = false ∨ d ≠ ' ' ∧ isDigit d = false) := by
  have key : ∀ xs : List (List Char), xs ≠ [] →
      (∀ x ∈ xs, ∃ c d l, x = c :: d :: l ∧ c ≠ ' ' ∧ (isDigit c = false ∨ d ≠ ' ' ∧ isDigit d = false)) →
      ∃ c d l, join chars!" | " xs = c :: d :: l ∧ c ≠ ' ' ∧ (isDigit c = false ∨ d ≠ ' ' ∧ isDigit d = false) := by
    intro xs hn hx
    match xs, hn with
    | [x], _ => exact hx x (by simp)
    | x :: y :: rest, _ =>
      obtain ⟨c, d, l, rfl, h⟩ := hx x (by simp)
      exact ⟨c, d, _, rfl, h⟩
  unfold statusText flagsText
  refine key _ ?_ ?_
  · intro he
    obtain ⟨h1, h2⟩ := List.append_eq_nil_iff.1 he
    rw [List.map_eq_nil_iff, List.filter_eq_nil_iff] at h1
    split at h2
    · rename_i h0
      refine h ?_
      rw [show flagNames.foldl (fun a f => a ||| f.2) 0 = (511 : U32) by decide +kernel] at h0
      have hb : ∀ i, i < 9 → s.getLsbD i = false := by
        intro i hi
        have h3 : ∃ f ∈ flagNames, f.2 = BitVec.twoPow 32 i := by
          have : ∀ i : Fin 9, ∃ f ∈ flagNames, f.2 = BitVec.twoPow 32 i.val := by decide +kernel
          exact this ⟨i, hi⟩
        obtain ⟨f, hf, he⟩ := h3
        have := h1 f hf
        rw [he, BitVec.and_twoPow] at this
        cases hs : s.getLsbD i
        · rfl
        · simp [hs] at this
      apply BitVec.eq_of_getLsbD_eq
      intro i hi
      by_cases h9 : i < 9
      · rw [hb i h9]; simp
      · have := congrArg (fun x : U32 => x.getLsbD i) h0
        simp only [BitVec.getLsbD_and, BitVec.getLsbD_not, hi, decide_true, Bool.true_and] at this
        have h5 : (511 : U32).getLsbD i = false := by
          have : ∀ i : Fin 32, 9 ≤ i.val → (511 : U32).getLsbD i.val = false := by decide +kernel
          exact this ⟨i, hi⟩ (by simpa using h9)
        rw [h5] at this
        simpa using this
    · cases h2
  · intro x hx
    rcases List.mem_append.1 hx with hx | hx
    · obtain ⟨f, hf, rfl⟩ := List.mem_map.1 hx
      have hn : ∀ f ∈ flagNames, f.1.head? ≠ none ∧ f.1.tail ≠ [] ∧ ∀ c ∈ f.1.head?, c ≠ ' ' ∧ isDigit c = false := by decide
      obtain ⟨h1, h2, h3⟩ := hn f (List.mem_filter.1 hf).1
      cases hf : f.1 with
      | nil => rw [hf] at h1; exact absurd rfl h1
      | cons c l =>
        cases l with
        | nil => rw [hf] at h2; exact absurd rfl h2
        | cons d l =>
          rw [hf] at h3
          exact ⟨c, d, l, rfl, (h3 c rfl).1, .inl (h3 c rfl).2⟩
    · split at hx
      · cases hx
      · rw [List.mem_singleton] at hx
        subst hx
        exact ⟨'0', 'x', _, rfl, by decide, .inr (by decide)⟩

theorem allHeader_ports : portsOf allHeader = [] := by decide

/-- The ports named by the status tables of the default form. -/
theorem portsOf_status {kind : StatusKind} {omitted : Bool} {output : List StatusField} {sep : Option (List Char)}
    {r : Res U32} {ls : Lines} (hk : kind ≠ .parseable) (h : statusTable kind omitted output sep r = .ok ls) :
    portsOf ls = r.iter.map fun r => r.1.toNat := by
  have rows : ∀ (f : U8 × U32 → List Char), (∀ p, linePort (f p) = some p.1.toNat) →
      portsOf (r.iter.map f) = r.iter.map fun r => r.1.toNat := fun f hf =>
    portsOf_some (port := Prod.fst) (by simp [Function.comp_def, hf])
  cases kind with
  | parseable => exact absurd rfl hk
  | normal =>
    cases h
    have := rows (fun p => portColumn p.1 ++ chars!" " ++ statusText p.2) fun p => by
      rw [List.append_assoc]
      exact linePort_portColumn _ _ (by simp)
    unfold portsOf at *
    rw [List.filterMap_append, this]
    cases omitted
    · have : linePort chars!"Port Status" = none := by decide
      simp [this]
    · simp
  | all =>
    cases h
    have := rows (fun p => allRow p.1 p.2) fun p => by
      unfold allRow alignRight
      rw [List.append_assoc, List.append_assoc]
      exact linePort_column _ _ _ (by simp)
    have h2 := allHeader_ports
    unfold portsOf at *
    rw [List.filterMap_append, this, h2, List.nil_append]
  | limited w wo =>
    unfold statusTable at h
    dsimp only at h
    unfold limitedColumn at h
    split at h
    · cases h
    · cases h
      have hh : linePort (chars!"Port " ++ limitedText w wo) = none := by
        rename_i hz
        unfold limitedText
        split
        · rename_i h0
          obtain ⟨c, d, l, h1, h2, h3⟩ := statusText_head (s := w) fun h => hz ⟨h, h0⟩
          rw [h1]
          exact linePort_label _ _ _ h2 h3
        · split
          · rename_i h0 _
            obtain ⟨c, d, l, h1, -⟩ := statusText_head h0
            rw [h1]
            exact linePort_label _ _ _ (by decide) (by decide)
          · rename_i h0
            obtain ⟨c, d, l, h1, h2, h3⟩ := statusText_head h0
            rw [h1]
            exact linePort_label _ _ _ h2 h3
      unfold portsOf
      rw [List.filterMap_cons, hh, List.map_map]
      exact rows _ fun p => by
        simp only [Function.comp_apply]
        rw [List.append_assoc]
        exact linePort_portColumn _ _ (by simp)

/-- A line about a monitor names no port. -/
theorem linePort_monitor (name : List Char) (value : Option (List Char)) (c : Char) (l : List Char) (hn : name = c :: l)
    (h : isDigit c = false) (hs : c ≠ ' ') : linePort (monitorLine name value) = none := by
  have : monitorLine name value = List.replicate (2 + (22 - name.length)) ' ' ++ c :: (l ++ chars!": " ++ value.getD chars!"--") := by
    unfold monitorLine alignRight
    rw [← List.replicate_append_replicate, hn]
    simp
  rw [this]
  exact linePort_text _ _ _ h hs (.inl (by omega))

theorem portsOf_monitorBlock {port : U8} {m : Monitors} {ls : Lines} (h : monitorBlock port m = .ok ls) :
    portsOf ls = [port.toNat] := by
  unfold monitorBlock at h
  cases hn : rxName m.receiverPower with
  | ok name =>
    rw [hn] at h
    cases h
    have h1 := linePort_word port
    have h2 : ∀ v, linePort (monitorLine chars!"Temperature (C)" v) = none := fun v => linePort_monitor _ v _ _ rfl (by decide) (by decide)
    have h3 : ∀ v, linePort (monitorLine chars!"Supply voltage (V)" v) = none := fun v => linePort_monitor _ v _ _ rfl (by decide) (by decide)
    have h4 : ∀ n v, linePort (monitorLine (rxNameText n) v) = none := by
      rintro (_ | _ | _) v <;> exact linePort_monitor _ v _ _ rfl (by decide) (by decide)
    have h5 : ∀ v, linePort (monitorLine chars!"Tx bias (mA)" v) = none := fun v => linePort_monitor _ v _ _ rfl (by decide) (by decide)
    have h6 : ∀ v, linePort (monitorLine chars!"Tx power (mW)" v) = none := fun v => linePort_monitor _ v _ _ rfl (by decide) (by decide)
    have h7 : ∀ a v, linePort (monitorLine (aux1Value a).1 v) = none := by
      rintro (_ | _ | _) v <;> exact linePort_monitor _ v _ _ rfl (by decide) (by decide)
    have h8 : ∀ a v, linePort (monitorLine (aux2Value a).1 v) = none := by
      rintro (_ | _ | _) v <;> exact linePort_monitor _ v _ _ rfl (by decide) (by decide)
    have h9 : ∀ a v, linePort (monitorLine (aux3Value a).1 v) = none := by
      rintro (_ | _ | _) v <;> exact linePort_monitor _ v _ _ rfl (by decide) (by decide)
    simp only [portsOf, List.filterMap_cons, List.filterMap_nil, h1, h2, h3, h4, h5, h6, h7, h8, h9]
  | err e => rw [hn] at h; cases h
  | panic => rw [hn] at h; cases h

theorem flatten_singletons {α : Type} (f : α → Nat) (rows : List α) : (rows.map fun r => [f r]).flatten = rows.map f := by
  induction rows with
  | nil => rfl
  | cons r rows ih => simp [ih]

theorem portsOf_monitors {header : Bool} {r : Res Monitors} {ls : Lines}
    (h : monitorTable (.default header) r = .ok ls) : portsOf ls = r.iter.map fun r => r.1.toNat := by
  unfold monitorTable at h
  dsimp only at h
  cases hb : r.iter.mapM fun p => monitorBlock p.1 p.2 with
  | ok bs =>
    rw [hb] at h
    cases h
    rw [portsOf_separated, mapM_lines (g := portsOf) (k := fun p => [p.1.toNat]) hb fun x _ y h => portsOf_monitorBlock h,
      flatten_singletons]
  | err e => rw [hb] at h; cases h
  | panic => rw [hb] at h; cases h

theorem portsOf_datapathBlock {fmt : Fmt} (hf : ∀ g, linePort (fmt.grid g) = none) (port : U8) (d : Datapath) :
    portsOf (datapathBlock fmt port d) = [port.toNat] := by
  have hc : ∀ x, linePort (chars!"        Connector: " ++ x) = none := fun x =>
    linePort_text 8 'C' _ (by decide) (by decide) (.inl (by decide))
  have he : linePort [] = none := by decide
  cases d with
  | cmis connector supported datapaths =>
    have hp : portsOf (datapaths.map fun d => cmisApplication fmt supported d.1 d.2).flatten = [] := by
      unfold portsOf
      rw [List.filterMap_eq_nil_iff]
      intro l hl
      obtain ⟨ls, hls, hl⟩ := List.mem_flatten.1 hl
      obtain ⟨d, -, rfl⟩ := List.mem_map.1 hls
      have h1 : ∀ x, linePort (chars!"   Application ID: " ++ x) = none := fun x =>
        linePort_text 3 'A' _ (by decide) (by decide) (.inl (by decide))
      have h2 : ∀ x, linePort (chars!"  Supported lanes: [" ++ x) = none := fun x =>
        linePort_text 2 'S' _ (by decide) (by decide) (.inl (by decide))
      have h3 : ∀ x, linePort (chars!"   Host interface: " ++ x) = none := fun x =>
        linePort_text 3 'H' _ (by decide) (by decide) (.inl (by decide))
      have h4 : ∀ x, linePort (chars!"  Media interface: " ++ x) = none := fun x =>
        linePort_text 2 'M' _ (by decide) (by decide) (.inl (by decide))
      unfold cmisApplication at hl
      rcases List.mem_append.1 hl with hl | hl
      · rcases List.mem_append.1 hl with hl | hl
        · simp only [List.mem_cons, List.not_mem_nil, or_false] at hl
          rcases hl with rfl | rfl | rfl | rfl
          · exact h1 _
          · rw [List.append_assoc]; exact h2 _
          · exact h3 _
          · exact h4 _
        · split at hl
          · simp at hl
          · simp only [List.mem_cons, List.not_mem_nil, or_false] at hl
            subst hl
            exact hf _
      · simp only [List.mem_cons, List.not_mem_nil, or_false] at hl
        subst hl
        exact he
    unfold portsOf at *
    rw [datapathBlock, List.filterMap_append, hp]
    simp only [List.filterMap_cons, List.filterMap_nil, linePort_word, hc, List.append_nil]
  | sff8636 connector specification lanes =>
    have h1 : ∀ x, linePort (chars!"    Specification: " ++ x) = none := fun x =>
      linePort_text 4 'S' _ (by decide) (by decide) (.inl (by decide))
    simp only [portsOf, datapathBlock, List.filterMap_cons, List.filterMap_nil, linePort_word, hc, h1, he, hf]

theorem portsOf_datapaths {fmt : Fmt} (hf : ∀ g, linePort (fmt.grid g) = none) (r : Res Datapath) :
    portsOf (datapathTable fmt r) = r.iter.map fun r => r.1.toNat := by
  rw [datapathTable, portsOf_separated, List.map_map]
  rw [show (portsOf ∘ fun p : U8 × Datapath => datapathBlock fmt p.1 p.2) = fun p => [p.1.toNat] from
    funext fun p => portsOf_datapathBlock hf _ _]
  exact flatten_singletons _ _

end Xcvr
