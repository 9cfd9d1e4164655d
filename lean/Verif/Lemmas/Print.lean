import Verif.Model.CliPrint
import Verif.Spec.Print
import Verif.Lemmas.Cli

/-! # Lemmas about printed text -/

namespace Xcvr.Cli

open Spec

theorem join_eq (sep : List Char) : ∀ xs, join sep xs = List.intercalate sep xs
  | [] => rfl
  | [x] => by simp [join, List.intercalate]
  | x :: y :: rest => by
    rw [join, join_eq sep (y :: rest)]
    simp [List.intercalate]

theorem splitChar_join {c : Char} : ∀ {xs : List (List Char)}, xs ≠ [] → (∀ x ∈ xs, c ∉ x) →
    splitChar c (join [c] xs) = xs
  | [], h, _ => absurd rfl h
  | [x], _, h => splitChar_of_not_mem (h x (by simp))
  | x :: y :: rest, _, h => by
    rw [join, List.append_assoc]
    show splitChar c (x ++ c :: join [c] (y :: rest)) = _
    rw [splitChar_append (h x (by simp)), splitChar_join (by simp) (fun z hz => h z (by simp [hz]))]

theorem cells_unique {sep : Char} {text : List Char} {a b : List (List Char)} (ha : Cells sep text a)
    (hb : Cells sep text b) : a = b := by
  rw [← splitChar_join ha.1 ha.2.2, ← splitChar_join hb.1 hb.2.2, join_eq, join_eq, ← ha.2.1, ← hb.2.1]

theorem mem_join {x : Char} {sep : List Char} : ∀ {xs : List (List Char)}, x ∈ join sep xs → x ∈ sep ∨ ∃ y ∈ xs, x ∈ y
  | [], h => by cases h
  | [a], h => .inr ⟨a, by simp, h⟩
  | a :: b :: rest, h => by
    rw [join, List.append_assoc, List.mem_append, List.mem_append] at h
    rcases h with h | h | h
    · exact .inr ⟨a, by simp, h⟩
    · exact .inl h
    · rcases mem_join h with h | ⟨y, hy, hx⟩
      · exact .inl h
      · exact .inr ⟨y, List.mem_cons_of_mem _ hy, hx⟩

/-- The lines of a text that ends with a line break. -/
theorem splitChar_lines : ∀ {lines : List (List Char)}, (∀ l ∈ lines, '\n' ∉ l) →
    splitChar '\n' (printed lines) = lines ++ [[]]
  | [], _ => rfl
  | l :: ls, h => by
    have : printed (l :: ls) = l ++ '\n' :: printed ls := by simp [printed]
    rw [this, splitChar_append (h l (by simp)), splitChar_lines (fun x hx => h x (by simp [hx]))]
    rfl

theorem Spec.Reads.lines {sep : Char} {text : List Char} {t : List (List (List Char))} (h : Reads sep text t)
    (hs : sep ≠ '\n') : splitChar '\n' text = t.map (join [sep]) ++ [[]] := by
  have e : text = printed (t.map (join [sep])) := by
    rw [h.1, printed, List.map_map]
    congr 1
    refine List.map_congr_left fun row _ => ?_
    simp [join_eq]
  rw [e]
  refine splitChar_lines ?_
  intro l hl hm
  obtain ⟨row, hr, rfl⟩ := List.mem_map.1 hl
  rcases mem_join hm with hm | ⟨y, hy, hx⟩
  · exact hs (List.mem_singleton.1 hm).symm
  · exact ((h.2 row hr).2 y hy).2 hx

theorem reads_unique {sep : Char} (hs : sep ≠ '\n') {text : List Char} {a b : List (List (List Char))}
    (ha : Reads sep text a) (hb : Reads sep text b) : a = b := by
  have e := (Spec.Reads.lines ha hs).symm.trans (Spec.Reads.lines hb hs)
  have e := List.append_cancel_right e
  have back : ∀ {t : List (List (List Char))}, Reads sep text t → (t.map (join [sep])).map (splitChar sep) = t := by
    intro t ht
    rw [List.map_map]
    conv => rhs; rw [← List.map_id t]
    exact List.map_congr_left fun row hr => splitChar_join (ht.2 row hr).1 (fun c hc => ((ht.2 row hr).2 c hc).1)
  rw [← back ha, ← back hb, e]

theorem mapM_ok {α β : Type} {f : α → Exec Unit β} {g : α → β} : ∀ {xs : List α}, (∀ x ∈ xs, f x = .ok (g x)) →
    xs.mapM f = .ok (xs.map g)
  | [], _ => rfl
  | x :: xs, h => by
    rw [List.mapM_cons, h x (by simp), mapM_ok (xs := xs) (fun y hy => h y (by simp [hy]))]
    rfl

/-- A table whose cells contain neither the separator nor a line break can be read. -/
theorem reads_table {F P : Type} {header : Bool} {name : F → List Char} {cell : F → U8 → P → Exec Unit (List Char)}
    {value : F → U8 → P → List Char} {fields : List F} {sep : Char} {rows : List (U8 × P)} (hf : fields ≠ [])
    (hn : ∀ f ∈ fields, sep ∉ name f ∧ '\n' ∉ name f)
    (hc : ∀ f ∈ fields, ∀ r ∈ rows, cell f r.1 r.2 = .ok (value f r.1 r.2))
    (hv : ∀ f ∈ fields, ∀ r ∈ rows, sep ∉ value f r.1 r.2 ∧ '\n' ∉ value f r.1 r.2) :
    ∃ lines, tableLines header name cell fields [sep] rows = .ok lines ∧
      Reads sep (printed lines) ((if header then [fields.map name] else []) ++
        rows.map fun r => fields.map fun f => value f r.1 r.2) := by
  have hl : fields.length > 0 := List.length_pos_iff.2 hf
  have hb : (rows.mapM fun r =>
      if fields.length > 0 then do
        let cells ← fields.mapM fun f => cell f r.1 r.2
        return [join [sep] cells]
      else return []) = Exec.ok (rows.map fun r => [join [sep] (fields.map fun f => value f r.1 r.2)]) := by
    refine mapM_ok fun r hr => ?_
    rw [if_pos hl, mapM_ok (fun f hf' => hc f hf' r hr)]
    rfl
  refine ⟨(if header then headerLines name fields [sep] else []) ++
    (rows.map fun r => [join [sep] (fields.map fun f => value f r.1 r.2)]).flatten, ?_, ?_, ?_⟩
  · rw [tableLines, hb]; rfl
  · have e1 : headerLines name fields [sep] = [join [sep] (fields.map name)] := if_pos hl
    have e2 : (rows.map fun r => [join [sep] (fields.map fun f => value f r.1 r.2)]).flatten =
        rows.map fun r => join [sep] (fields.map fun f => value f r.1 r.2) := by
      clear hb hc hv
      induction rows with
      | nil => rfl
      | cons r rs ih => rw [List.map_cons, List.flatten_cons, ih]; rfl
    rw [e1, e2, printed]
    congr 1
    cases header
    · simp [join_eq, Function.comp_def]
    · simp [join_eq, Function.comp_def]
  · intro row hr
    rcases List.mem_append.1 hr with hr | hr
    · cases header
      · simp at hr
      · have : row = fields.map name := by simpa using hr
        subst this
        refine ⟨by simpa using hf, fun c hc' => ?_⟩
        obtain ⟨f, hf', rfl⟩ := List.mem_map.1 hc'
        exact hn f hf'
    · obtain ⟨r, hr', rfl⟩ := List.mem_map.1 hr
      refine ⟨by simpa using hf, fun c hc' => ?_⟩
      obtain ⟨f, hf', rfl⟩ := List.mem_map.1 hc'
      exact hv f hf' r hr'

/-! ## The characters of values -/

/-- Neither a colon nor a line break. -/
def Clean (s : List Char) : Prop := ':' ∉ s ∧ '\n' ∉ s

instance (s : List Char) : Decidable (Clean s) := inferInstanceAs (Decidable (_ ∧ _))

theorem clean_append {a b : List Char} (ha : Clean a) (hb : Clean b) : Clean (a ++ b) :=
  ⟨by simp [ha.1, hb.1], by simp [ha.2, hb.2]⟩

theorem clean_join {sep : List Char} {xs : List (List Char)} (hs : Clean sep) (hx : ∀ x ∈ xs, Clean x) :
    Clean (join sep xs) :=
  ⟨fun h => (mem_join h).elim hs.1 fun ⟨y, hy, h⟩ => (hx y hy).1 h,
   fun h => (mem_join h).elim hs.2 fun ⟨y, hy, h⟩ => (hx y hy).2 h⟩

theorem clean_decimal (x : U8) : Clean (decimal x) := by revert x; decide +kernel
theorem clean_hexByte (x : U8) : Clean (hexByte x) := by revert x; decide +kernel
theorem clean_binByte (x : U8) : Clean (binByte x) := by revert x; decide +kernel
theorem comma_hexByte (x : U8) : ',' ∉ hexByte x := by revert x; decide +kernel
theorem comma_binByte (x : U8) : ',' ∉ binByte x := by revert x; decide +kernel

theorem clean_dataText (binary : Bool) (d : Bytes) : Clean (dataText binary d) := by
  refine clean_join (by decide) fun x hx => ?_
  obtain ⟨b, _, rfl⟩ := List.mem_map.1 hx
  cases binary
  · exact clean_hexByte b
  · exact clean_binByte b

/-- A number in hexadecimal notation reads back. -/
theorem hexDigits_toDigits (n : Nat) : Digits 16 (Nat.toDigits 16 n) n := by
  have hd : ∀ x : Fin 16, hexVal x.val.digitChar = some x.val := by decide +kernel
  induction n using Nat.strongRecOn with
  | _ n ih =>
    by_cases h : n < 16
    · rw [Nat.toDigits_of_lt_base h]
      have := Digits.snoc (.nil : Digits 16 [] 0) (val_hexDigit (hd ⟨n, h⟩)) h
      simpa using this
    · rw [Nat.toDigits_of_base_le (by decide) (by omega)]
      have := Digits.snoc (ih (n / 16) (by omega)) (val_hexDigit (hd ⟨n % 16, by omega⟩)) (Nat.mod_lt n (by decide))
      rwa [show 16 * (n / 16) + n % 16 = n by omega] at this

theorem not_mem_toDigits {c : Char} (h : hexVal c = none) (n : Nat) : c ∉ Nat.toDigits 16 n := by
  intro hm
  obtain ⟨d, hd, -⟩ := (hexDigits_toDigits n).mem c hm
  rw [hexDigit_val hd] at h
  cases h

theorem clean_statusText (s : U32) : Clean (statusText s) := by
  refine clean_join (by decide) fun x hx => ?_
  rcases List.mem_append.1 hx with hx | hx
  · obtain ⟨f, hf, rfl⟩ := List.mem_map.1 hx
    have : ∀ f ∈ flagNames, Clean f.1 := by decide
    exact this f (List.mem_filter.1 hf).1
  · split at hx
    · cases hx
    · rw [List.mem_singleton] at hx
      subst hx
      exact clean_append (by decide) ⟨not_mem_toDigits (by decide) _, not_mem_toDigits (by decide) _⟩

theorem clean_known {T : BitfieldEnum} (h : ∀ v ∈ T.variants, Clean v.2.1 ∧ Clean v.2.2)
    (ho : ∀ o ∈ T.others, Clean o.name) (x : Bf T) : Clean (debugText x) ∧ Clean x.display := by
  cases x with
  | known i => exact h _ (List.getElem_mem _)
  | other j x =>
    have hj := ho _ (List.getElem_mem j.2)
    refine ⟨clean_append (clean_append (clean_append hj (by decide)) (clean_decimal x)) (by decide),
      clean_append (clean_append (clean_append hj (by decide)) ?_) (by decide)⟩
    revert x; decide +kernel

theorem clean_ident (id : Identifier) : Clean (debugText id) ∧ Clean id.display := by
  refine clean_known (T := identifierTable) ?_ ?_ id
  · decide +kernel
  · decide +kernel

end Xcvr.Cli
