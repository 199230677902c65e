import Verif.Model.Output
import Verif.Spec.Csv
import Verif.Proofs.FoldLemmas
/-
CSV output.
-/
namespace Wassign
open Spec Output

theorem mapM_exists {α β γ : Type} {f : α → R β} (g : γ → β) {P : Nat → γ → Prop} : ∀ {l : List α} (o : Nat),
    (∀ k (h : k < l.length), ∃ y, f l[k] = .ok (g y) ∧ P (o + k) y) →
    ∃ ys : List γ, l.mapM f = .ok (ys.map g) ∧ ys.length = l.length ∧ ∀ k y, ys[k]? = some y → P (o + k) y := by
  intro l
  induction l with
  | nil => intro o _; exact ⟨[], by simp, rfl, by intro k y h; simp at h⟩
  | cons x t ih =>
    intro o h
    obtain ⟨y, hy, py⟩ := h 0 (by simp)
    obtain ⟨ys, h1, h2, h3⟩ := ih (o + 1) (fun k hk => by
      obtain ⟨z, hz, pz⟩ := h (k + 1) (by simpa using hk)
      exact ⟨z, by simpa using hz, by rwa [Nat.add_assoc, Nat.add_comm 1 k]⟩)
    refine ⟨y :: ys, ?_, by simp [h2], ?_⟩
    · rw [List.mapM_cons]
      simp only [List.getElem_cons_zero] at hy
      rw [hy, R.bind_ok, h1]
      rfl
    · intro k z hz
      cases k with
      | zero => simp at hz; subst hz; exact py
      | succ k =>
        have := h3 k z (by simpa using hz)
        rwa [Nat.add_assoc, Nat.add_comm 1 k] at this

theorem join_eq (sep : Str) : ∀ l, join sep l = List.intercalate sep l
  | [] => by simp [join, List.intercalate]
  | [x] => by simp [join, List.intercalate]
  | x :: y :: rest => by
    rw [join, join_eq sep (y :: rest)]
    simp [List.intercalate]

theorem stripGenerated_eq (s : Str) : stripGenerated s = shown s := by
  unfold stripGenerated shown
  split
  · simp
  · rename_i h
    cases s with
    | nil => rfl
    | cons c t =>
      by_cases hc : c = '~'
      · exact absurd (by rw [hc]) (h t)
      · simp [hc]

/-- One row as CSV. -/
def csvRow (row : List Str) : Str := List.intercalate [',', ' '] (row.map (fun cell => ['"'] ++ cell ++ ['"']))

theorem quoted_eq (s : Str) : quoted s = ['"'] ++ s ++ ['"'] := rfl

theorem csv_eq (table : List (List Str)) : csv table = List.intercalate ['\n'] (table.map csvRow) := rfl

theorem join_quoted (cells : List Str) : join ", ".toList (cells.map quoted) = csvRow cells := by
  rw [join_eq]; rfl

/-- The table of a scheduling is printed. -/
theorem writeScheduling_ok {i : InputData} {sol : Solution} {s : Scheduling} (hsol : sol.scheduling? = some s)
    (hs : SchedShape i s) : ∃ table, writeScheduling i sol = .ok (csv table) ∧ SchedulingTable i s table := by
  have hrow : ∀ (n pl : Str), quoted n ++ ", ".toList ++ quoted pl = csvRow [n, pl] := by
    intro n pl
    simp [csvRow, quoted, List.intercalate]
  obtain ⟨rows, h1, h2, h3⟩ := mapM_exists (f := schedulingLine i s) (l := i.choices.zipIdx) csvRow
    (P := fun c row => ∃ ch place, i.choices[c]? = some ch ∧ row = [shown ch.name, place] ∧
      match slotAt s c with
      | some t => i.slots[t]? = some place
      | none => place = "not scheduled".toList) 0 (by
    intro c hc
    have hc' : c < i.nc := by simpa using hc
    have hcs : c < s.length := by rw [hs.len]; exact hc'
    rw [Nat.zero_add]
    unfold schedulingLine slotOf
    simp only [List.getElem_zipIdx, Nat.zero_add]
    rw [idx_ok hcs, R.bind_ok]
    have hsa : slotAt s c = s[c] := by unfold slotAt; rw [List.getElem?_eq_getElem hcs]; rfl
    cases hv : s[c] with
    | none =>
      refine ⟨[shown i.choices[c].name, "not scheduled".toList], ?_, i.choices[c], "not scheduled".toList, by simp, rfl, ?_⟩
      · simp only [R.pure_eq, R.bind_ok, Except.ok.injEq]
        rw [stripGenerated_eq, hrow]
      · rw [hsa, hv]
    | some t =>
      have ht : t < i.slots.length := hs.range c t (by rw [hsa, hv])
      refine ⟨[shown i.choices[c].name, i.slots[t]], ?_, i.choices[c], i.slots[t], by simp, rfl, ?_⟩
      · simp only [idx_ok ht, R.pure_eq, R.bind_ok, Except.ok.injEq]
        rw [stripGenerated_eq, hrow]
      · rw [hsa, hv]
        simp)
  simp only [Nat.zero_add] at h3
  have h2' : rows.length = i.nc := by simpa using h2
  refine ⟨["Choice".toList, "Slot".toList] :: rows, ?_, rfl, by simp [h2'], ?_⟩
  · unfold writeScheduling
    rw [hsol]
    simp only
    rw [h1, R.bind_ok, hrow, join_eq]
    rfl
  · intro c ch hch
    have hc : c < rows.length := by rw [h2']; exact (List.getElem?_eq_some_iff.1 hch).1
    obtain ⟨ch', place, e1, e2, e3⟩ := h3 c rows[c] (by simp)
    rw [hch] at e1
    cases e1
    exact ⟨place, by simp [hc, e2], e3⟩

/-- Where the inner loop has put the choices of a chooser. -/
theorem placeChoices_ok {i : InputData} {s : Scheduling} {a : Assignment} (hsh : Shape i s a) (h1 : OnePerSlot i s a)
    (h2 : OnlyScheduled i s a) {p : Nat} (hp : p < i.np) :
    ∃ choices, (List.range i.ns).foldlM (placeChoice s a p) (List.replicate i.ns 0) = .ok choices ∧ choices.length = i.ns ∧
      ∀ t, t < i.ns → ∃ c, Attends a p c ∧ slotAt s c = some t ∧ choices[t]? = some c := by
  have hpa : p < a.length := by rw [hsh.asgLen]; exact hp
  have hrow : a[p].length = i.ns := hsh.rowLen _ (List.getElem_mem hpa)
  have hent : ∀ k (hk : k < i.ns), entry a p k = some (a[p][k]'(by omega)) := by
    intro k hk
    have hk' : k < a[p].length := by omega
    unfold entry
    rw [List.getElem?_eq_getElem hpa, Option.bind_some, List.getElem?_eq_getElem hk']
  obtain ⟨r, hr, hlen, hinv⟩ := foldlM_total (l := List.range i.ns) (f := placeChoice s a p) (s := List.replicate i.ns 0)
    (Inv := fun k choices => choices.length = i.ns ∧ ∀ k', k' < k → ∀ c t, entry a p k' = some c → slotAt s c = some t →
      choices[t]? = some c) (by
    intro k hk choices ⟨hl, hi⟩
    have hk' : k < i.ns := by simpa using hk
    have hk2 : k < a[p].length := by omega
    have hat : Attends a p (a[p][k]) := ⟨k, hent k hk'⟩
    obtain ⟨t, ht, hst⟩ := h2 p hp _ hat
    have hcs : a[p][k] < s.length := by
      apply Classical.byContradiction
      intro hn
      rw [slotAt, List.getElem?_eq_none (by omega)] at hst
      cases hst
    have hsv : s[a[p][k]] = some t := by
      unfold slotAt at hst
      rw [List.getElem?_eq_getElem hcs] at hst
      exact hst
    refine ⟨choices.set t a[p][k], ?_, by simpa using hl, ?_⟩
    · unfold placeChoice choiceOf slotOf
      simp only [List.getElem_range, idx_ok hpa, R.bind_ok, idx_ok hk2, idx_ok hcs, hsv]
      rw [if_pos (by omega)]
      rfl
    · intro k' hk' c t' hc hs'
      rw [List.getElem?_set]
      obtain ⟨c0, _, hu⟩ := h1 p hp t ht
      by_cases e : t = t'
      · subst e
        rw [if_pos rfl, if_pos (by omega)]
        rw [hu c ⟨k', hc⟩ hs', hu _ hat hst]
      · rw [if_neg e]
        by_cases e' : k' = k
        · subst e'
          rw [hent k' (by omega)] at hc
          cases hc
          rw [hst] at hs'
          cases hs'
          exact absurd rfl e
        · exact hi k' (by omega) c t' hc hs') ⟨by simp, by intro k' h; omega⟩
  refine ⟨r, hr, hlen, ?_⟩
  intro t ht
  obtain ⟨c, ⟨⟨k, hk⟩, hs⟩, _⟩ := h1 p hp t ht
  have hk' : k < i.ns := by
    apply Classical.byContradiction
    intro hn
    unfold entry at hk
    rw [List.getElem?_eq_getElem hpa, Option.bind_some, List.getElem?_eq_none (by omega)] at hk
    cases hk
  exact ⟨c, ⟨k, hk⟩, hs, hinv k (by simpa using hk') c t hk hs⟩

/-- The table of an assignment is printed. -/
theorem writeAssignment_ok {i : InputData} {s : Scheduling} {a : Assignment} (hsh : Shape i s a) (h1 : OnePerSlot i s a)
    (h2 : OnlyScheduled i s a) : ∃ table, writeAssignment i (.complete s a) = .ok (csv table) ∧ AssignmentTable i s a table := by
  obtain ⟨rows, g1, g2, g3⟩ := mapM_exists (f := assignmentLine i s a) (l := List.range i.np) csvRow
    (P := fun p row => ∃ who cells, i.choosers[p]? = some who ∧ row = who.name :: cells ∧ cells.length = i.ns ∧
      ∀ t, t < i.ns → ∃ c ch, Attends a p c ∧ slotAt s c = some t ∧ i.choices[c]? = some ch ∧ cells[t]? = some (shown ch.name)) 0 (by
    intro p hp
    have hp' : p < i.np := by simpa using hp
    rw [Nat.zero_add, List.getElem_range]
    obtain ⟨choices, c1, c2, c3⟩ := placeChoices_ok hsh h1 h2 hp'
    obtain ⟨cells, d1, d2, d3⟩ := mapM_exists (f := choiceCell i) (l := choices.take i.ns) quoted
      (P := fun t cell => ∃ c ch, Attends a p c ∧ slotAt s c = some t ∧ i.choices[c]? = some ch ∧ cell = shown ch.name) 0 (by
      intro t ht
      have ht' : t < i.ns := by simp at ht; omega
      obtain ⟨c, hc, hs, hct⟩ := c3 t ht'
      have hc' : c < i.choices.length := by
        apply Classical.byContradiction
        intro hn
        rw [slotAt, List.getElem?_eq_none (by rw [hsh.schedLen]; exact Nat.le_of_not_lt hn)] at hs
        cases hs
      have hget : choices[t]'(by omega) = c := by
        rw [List.getElem?_eq_getElem (by omega)] at hct
        exact Option.some.inj hct
      refine ⟨shown i.choices[c].name, ?_, c, i.choices[c], hc, by simpa using hs, by simp, rfl⟩
      rw [List.getElem_take, hget]
      unfold choiceCell
      rw [idx_ok hc', R.bind_ok, stripGenerated_eq]
      rfl)
    simp only [Nat.zero_add] at d3
    have d2' : cells.length = i.ns := by rw [d2]; simp [c2]
    refine ⟨i.choosers[p].name :: cells, ?_, i.choosers[p], cells, by simp, rfl, d2', ?_⟩
    · unfold assignmentLine
      rw [c1, R.bind_ok, idx_ok hp', R.bind_ok, d1, R.bind_ok]
      show (Except.ok (join ", ".toList ((i.choosers[p].name :: cells).map quoted)) : R Str) = _
      rw [join_quoted]
    · intro t ht
      obtain ⟨c, ch, e1, e2, e3, e4⟩ := d3 t (cells[t]'(by omega)) (by simp)
      exact ⟨c, ch, e1, e2, e3, by rw [← e4]; simp⟩)
  simp only [Nat.zero_add] at g3
  have g2' : rows.length = i.np := by simpa using g2
  refine ⟨("Chooser".toList :: i.slots) :: rows, ?_, rfl, by simp [g2'], ?_⟩
  · unfold writeAssignment
    simp only [Solution.scheduling?, Solution.assignment?]
    rw [g1, R.bind_ok, join_eq]
    show (Except.ok (List.intercalate "\n".toList ((join ", ".toList (("Chooser".toList :: i.slots).map quoted)) ::
      rows.map csvRow)) : R Str) = _
    rw [join_quoted]
    rfl
  · intro p who hwho
    have hp : p < rows.length := by rw [g2']; exact (List.getElem?_eq_some_iff.1 hwho).1
    obtain ⟨who', cells, e1, e2, e3, e4⟩ := g3 p rows[p] (by simp)
    rw [hwho] at e1
    cases e1
    exact ⟨cells, by simp [hp, e2], e3, e4⟩

/-! ### Reading a table back -/

theorem cut_quote {c c' x y : Str} (hc : '"' ∉ c) (hc' : '"' ∉ c') (h : c ++ '"' :: x = c' ++ '"' :: y) : c = c' ∧ x = y := by
  induction c generalizing c' with
  | nil =>
    cases c' with
    | nil => simpa using h
    | cons d t => simp at h; exact absurd (by rw [← h.1]; simp) hc'
  | cons a t ih =>
    cases c' with
    | nil => simp at h; exact absurd (by rw [h.1]; simp) hc
    | cons d t' =>
      simp only [List.cons_append, List.cons.injEq] at h
      obtain ⟨e1, e2⟩ := ih (c' := t') (fun h => hc (by simp [h])) (fun h => hc' (by simp [h])) h.2
      exact ⟨by rw [h.1, e1], e2⟩

/-- What follows a row: nothing or a line break. -/
def RowEnd (x : Str) : Prop := x = [] ∨ ∃ t, x = '\n' :: t

theorem csvRow_cons (c : Str) (rest : List Str) :
    csvRow (c :: rest) = '"' :: (c ++ '"' :: (if rest = [] then [] else ',' :: ' ' :: csvRow rest)) := by
  cases rest with
  | nil => simp [csvRow, List.intercalate]
  | cons d t => simp [csvRow, List.intercalate]

theorem csvRow_inj : ∀ {r r' : List Str} {x y : Str}, r ≠ [] → r' ≠ [] → (∀ c ∈ r, '"' ∉ c) → (∀ c ∈ r', '"' ∉ c) →
    RowEnd x → RowEnd y → csvRow r ++ x = csvRow r' ++ y → r = r' ∧ x = y := by
  intro r
  induction r with
  | nil => intro r' x y h; exact absurd rfl h
  | cons c t ih =>
    intro r' x y _ h0 hq hq' hx hy h
    cases r' with
    | nil => exact absurd rfl h0
    | cons c' t' =>
      rw [csvRow_cons, csvRow_cons] at h
      simp only [List.cons_append, List.append_assoc, List.cons.injEq, true_and] at h
      obtain ⟨e1, e2⟩ := cut_quote (hq c (by simp)) (hq' c' (by simp)) h
      subst e1
      by_cases ht : t = []
      · by_cases ht' : t' = []
        · rw [if_pos ht, if_pos ht'] at e2
          exact ⟨by rw [ht, ht'], by simpa using e2⟩
        · rw [if_pos ht, if_neg ht'] at e2
          rcases hx with rfl | ⟨u, rfl⟩
          · simp at e2
          · simp at e2
      · by_cases ht' : t' = []
        · rw [if_neg ht, if_pos ht'] at e2
          rcases hy with rfl | ⟨u, rfl⟩
          · simp at e2
          · simp at e2
        · rw [if_neg ht, if_neg ht'] at e2
          simp only [List.cons_append, List.cons.injEq, true_and] at e2
          obtain ⟨e3, e4⟩ := ih ht ht' (fun d hd => hq d (by simp [hd])) (fun d hd => hq' d (by simp [hd])) hx hy e2
          exact ⟨by rw [e3], e4⟩

theorem csv_cons (r : List Str) (rest : List (List Str)) :
    csv (r :: rest) = csvRow r ++ (if rest = [] then [] else '\n' :: csv rest) := by
  cases rest with
  | nil => simp [csv_eq, List.intercalate]
  | cons d t => simp [csv_eq, List.intercalate]

theorem csv_injective : ∀ {t t' : List (List Str)}, t ≠ [] → t' ≠ [] → (∀ r ∈ t, r ≠ [] ∧ ∀ c ∈ r, '"' ∉ c) →
    (∀ r ∈ t', r ≠ [] ∧ ∀ c ∈ r, '"' ∉ c) → csv t = csv t' → t = t' := by
  intro t
  induction t with
  | nil => intro t' h; exact absurd rfl h
  | cons r rest ih =>
    intro t' _ h0 hq hq' h
    cases t' with
    | nil => exact absurd rfl h0
    | cons r' rest' =>
      rw [csv_cons, csv_cons] at h
      have he : ∀ l : List (List Str), RowEnd (if l = [] then [] else '\n' :: csv l) := by
        intro l
        by_cases hl : l = []
        · rw [if_pos hl]; exact .inl rfl
        · rw [if_neg hl]; exact .inr ⟨_, rfl⟩
      obtain ⟨e1, e2⟩ := csvRow_inj (hq r (by simp)).1 (hq' r' (by simp)).1 (hq r (by simp)).2 (hq' r' (by simp)).2
        (he _) (he _) h
      subst e1
      by_cases hr : rest = []
      · by_cases hr' : rest' = []
        · rw [hr, hr']
        · rw [if_pos hr, if_neg hr'] at e2; cases e2
      · by_cases hr' : rest' = []
        · rw [if_neg hr, if_pos hr'] at e2; cases e2
        · rw [if_neg hr, if_neg hr'] at e2
          simp only [List.cons.injEq, true_and] at e2
          rw [ih hr hr' (fun d hd => hq d (by simp [hd])) (fun d hd => hq' d (by simp [hd])) e2]

end Wassign
