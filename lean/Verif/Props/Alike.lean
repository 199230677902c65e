import Verif.Props.Reword
import Verif.Props.Looser
import Verif.Props.Offer
import Verif.Props.Slots
/-
C90 to C95 for the program: what is printed for one of two inputs, said of the other.
-/
namespace Wassign
open Spec Build Threaded Main Reader
variable {F σ : Type}

/-- A table of attendances only shows the names of choosers and slots and those of the choices attended. -/
theorem table_alike {d d' : InputData} {s : Scheduling} {a : Assignment} {table : List (List Str)} (hsl : d'.slots = d.slots)
    (hch : d'.choices = d.choices) (hcs : d'.choosers = d.choosers) (h : AssignmentTable d s a table) : AssignmentTable d' s a table := by
  refine ⟨by rw [hsl]; exact h.head, ?_, ?_⟩
  · show table.length = d'.choosers.length + 1
    rw [hcs]; exact h.rows
  · intro q who hq
    rw [hcs] at hq
    obtain ⟨cells, c1, c2, c3⟩ := h.row q who hq
    refine ⟨cells, c1, ?_, ?_⟩
    · show cells.length = d'.slots.length
      rw [hsl]; exact c2
    · intro t ht
      obtain ⟨c, ch, k1, k2, k3, k4⟩ := c3 t (by show t < d.slots.length; rw [← hsl]; exact ht)
      exact ⟨c, ch, k1, k2, by rw [hch]; exact k3, k4⟩

/-- **C90**, for the program: if the choosers are listed in another order, the printed table of attendances with its rows in the new order is
that of a valid timetable, with the same worst preference and the same cost. -/
theorem C90_printed_in_any_order (π : Equiv.Perm Nat) (raw raw' : Raw) (hl : Reordered π raw raw')
    (tr : List Reader.Event) (hdes : Describes tr raw) (d : InputData) (h : build raw = .ok d) (hr : ManageableRaw raw) (hd : Manageable d)
    (o : Outside F σ) (ho : Trusted o d.nc) (opts : Opts F) (hcs : 0 ≤ opts.csTimeout) (p : Prepared) (hp : prepare o d opts = .ok p)
    (g : Session σ ASolver (σ × Nat)) (hg : Run (setup o p opts) (start (setup o p opts)) g) (sched asg : Str)
    (hrep : report p g = .ok (.tables sched asg)) :
    ∃ d' s a a' table table', build raw' = .ok d' ∧ Valid d s a ∧ Valid d' s a' ∧ Placed d' s ∧ asg = csv table ∧ AssignmentTable d s a table ∧
      AssignmentTable d' s a' table' ∧ table'[0]? = table[0]? ∧ (∀ i, i < d.np → table'[i + 1]? = table[π i + 1]?) ∧
      (∀ w, IsWorst d' a' w ↔ IsWorst d a w) ∧ ∀ cost, totalCost d' cost a' = totalCost d cost a := by
  have hmax := fun q hq => ((described_fit hdes).1 q hq).2.1
  have hmax' : ∀ q ∈ raw'.choices, q.max ≤ u32Max := by rw [hl.choices]; exact hmax
  obtain ⟨d', h', hsl, hch, _, _, _, hall⟩ := C90_order_of_choosers π raw raw' hl hmax d h
  obtain ⟨m, written, hb⟩ := build_spec hmax h
  obtain ⟨m', written', hb'⟩ := build_spec hmax' h'
  rcases printed_made raw tr hdes d h hr hd o ho opts hcs p hp g hg with e | ⟨s, a, sched', asg', _, hsh, hv, hpl, e, ⟨table, e1, e2⟩, _⟩
  · rw [hrep] at e; cases e
  rw [hrep] at e
  cases e
  have hnp : d.np = raw.choosers.length := hb.np
  have hnp' : d'.np = d.np := by rw [hb.np, hb'.np, hl.number]
  have hlt : ∀ i, π i < d.np ↔ i < d.np := by rw [hnp]; exact hl.lt
  have hrows : RowsReordered π a ((List.range d.np).map (fun i => (a[π i]?).getD [])) := by
    intro i
    by_cases hi : i < d.np
    · rw [List.getElem?_map, List.getElem?_range hi, Option.map_some,
        List.getElem?_eq_getElem (show π i < a.length by rw [hsh.asgLen]; exact (hlt i).2 hi)]
      rfl
    · rw [List.getElem?_eq_none (by simpa using hi), List.getElem?_eq_none (by rw [hsh.asgLen]; have := hlt i; omega)]
  have hn : ∀ i who, d'.choosers[i]? = some who → i < d.np ∧ ∃ who0, d.choosers[π i]? = some who0 ∧ who.name = who0.name := by
    intro i who hw
    have hi : i < d.np := by rw [← hnp']; exact (List.getElem?_eq_some_iff.1 hw).1
    have hri : i < raw'.choosers.length := by rw [hl.number, ← hnp]; exact hi
    have hrp : π i < raw.choosers.length := by rw [← hnp]; exact (hlt i).2 hi
    obtain ⟨c1, q1, q2, _⟩ := hb'.names i hri
    obtain ⟨c2, r1, r2, _⟩ := hb.names (π i) hrp
    rw [hw] at q1
    cases q1
    refine ⟨hi, c2, r1, ?_⟩
    rw [q2, r2]
    have := hl.choosers i
    rw [List.getElem?_eq_getElem hri, List.getElem?_eq_getElem hrp] at this
    exact congrArg (·.name) (Option.some.inj this)
  have hrow : ∀ i, i < d.np → table[π i + 1]? = some ((table[π i + 1]?).getD []) := by
    intro i hi
    rw [List.getElem?_eq_getElem (show π i + 1 < table.length by rw [e2.rows]; have := (hlt i).2 hi; omega)]
    rfl
  have hhead := e2.head
  obtain ⟨v, w, c⟩ := hall s a _ hrows
  refine ⟨d', s, a, _, table, ("Chooser".toList :: d.slots) :: (List.range d.np).map (fun i => (table[π i + 1]?).getD []), h', hv,
    (v.2 ⟨hv, hpl⟩).1, (v.2 ⟨hv, hpl⟩).2, e1, e2, ⟨by rw [hsl]; rfl, ?_, ?_⟩, by rw [hhead]; rfl, ?_, w, c⟩
  · rw [hnp']; simp
  · intro i who hw
    obtain ⟨hi, who0, n1, n2⟩ := hn i who hw
    obtain ⟨cells, c1, c2, c3⟩ := e2.row (π i) who0 n1
    refine ⟨cells, ?_, ?_, ?_⟩
    · rw [List.getElem?_cons_succ, List.getElem?_map, List.getElem?_range hi, Option.map_some, c1, n2]
      rfl
    · show cells.length = d'.slots.length
      rw [hsl]; exact c2
    · intro t ht
      obtain ⟨x, y, k1, k2, k3, k4⟩ := c3 t (by show t < d.slots.length; rw [← hsl]; exact ht)
      exact ⟨x, y, (attends_reorder hrows i x).2 k1, k2, by rw [hch]; exact k3, k4⟩
  · intro i hi
    rw [List.getElem?_cons_succ, List.getElem?_map, List.getElem?_range hi, Option.map_some]
    exact (hrow i hi).symm

/-- **C91**, for the program: the table of attendances printed for an input is that of a valid timetable of the same input with its
constraints in another order, with the same worst preference and the same cost. -/
theorem C91_printed_in_any_order (raw raw' : Raw) (hl : Restated raw raw')
    (tr : List Reader.Event) (hdes : Describes tr raw) (d : InputData) (h : build raw = .ok d) (hr : ManageableRaw raw) (hd : Manageable d)
    (o : Outside F σ) (ho : Trusted o d.nc) (opts : Opts F) (hcs : 0 ≤ opts.csTimeout) (p : Prepared) (hp : prepare o d opts = .ok p)
    (g : Session σ ASolver (σ × Nat)) (hg : Run (setup o p opts) (start (setup o p opts)) g) (sched asg : Str)
    (hrep : report p g = .ok (.tables sched asg)) :
    ∃ d' s a table, build raw' = .ok d' ∧ Valid d' s a ∧ Placed d' s ∧ asg = csv table ∧ AssignmentTable d' s a table ∧
      (∀ w, IsWorst d' a w ↔ IsWorst d a w) ∧ ∀ cost, totalCost d' cost a = totalCost d cost a := by
  have hmax := fun q hq => ((described_fit hdes).1 q hq).2.1
  obtain ⟨d', h', hsl, hch, hco, _, _, hall⟩ := C91_order_of_statements raw raw' hl hmax d h
  rcases printed_made raw tr hdes d h hr hd o ho opts hcs p hp g hg with e | ⟨s, a, sched', asg', _, _, hv, hpl, e, ⟨table, e1, e2⟩, _⟩
  · rw [hrep] at e; cases e
  rw [hrep] at e
  cases e
  obtain ⟨v, w, c⟩ := hall s a
  exact ⟨d', s, a, table, h', (v.2 ⟨hv, hpl⟩).1, (v.2 ⟨hv, hpl⟩).2, e1, table_alike hsl hch hco e2, w, c⟩

/-- **C92**, for the program: the table of attendances printed for an input is, word for word, that of a valid timetable of the same input
with its choices in another order, with the same worst preference and the same cost. -/
theorem C92_printed_in_any_order (g' : Equiv.Perm Nat) (raw raw' : Raw) (hl : ChoicesReordered g' raw raw')
    (tr : List Reader.Event) (hdes : Describes tr raw) (d : InputData) (h : build raw = .ok d) (hr : ManageableRaw raw) (hd : Manageable d)
    (o : Outside F σ) (ho : Trusted o d.nc) (opts : Opts F) (hcs : 0 ≤ opts.csTimeout) (p : Prepared) (hp : prepare o d opts = .ok p)
    (g : Session σ ASolver (σ × Nat)) (hg : Run (setup o p opts) (start (setup o p opts)) g) (sched asg : Str)
    (hrep : report p g = .ok (.tables sched asg)) :
    ∃ d' s a s' a' table, build raw' = .ok d' ∧ Valid d s a ∧ Valid d' s' a' ∧ Placed d' s' ∧ asg = csv table ∧ AssignmentTable d s a table ∧
      AssignmentTable d' s' a' table ∧ (∀ w, IsWorst d' a' w ↔ IsWorst d a w) ∧ ∀ cost, totalCost d' cost a' = totalCost d cost a := by
  have hmax := fun q hq => ((described_fit hdes).1 q hq).2.1
  obtain ⟨d', h', hsl, hcn, _, _, ⟨π, hπ⟩, hall⟩ := C92_order_of_choices g' raw raw' hl hmax d h
  obtain ⟨hch, _, hall⟩ := hall π hπ
  rcases printed_made raw tr hdes d h hr hd o ho opts hcs p hp g hg with e | ⟨s, a, sched', asg', _, hsh, hv, hpl, e, ⟨table, e1, e2⟩, _⟩
  · rw [hrep] at e; cases e
  rw [hrep] at e
  cases e
  obtain ⟨s', a', hs, ha, _, _⟩ := C92_counterpart g' π raw raw' hl hπ hmax d h s a hsh.schedLen
  obtain ⟨v, w, c⟩ := hall s s' a a' hs ha
  refine ⟨d', s, a, s', a', table, h', hv, (v.2 ⟨hv, hpl⟩).1, (v.2 ⟨hv, hpl⟩).2, e1, e2, ⟨by rw [hsl]; exact e2.head, ?_, ?_⟩, w, c⟩
  · have := congrArg List.length hcn
    simp only [List.length_map] at this
    show table.length = d'.choosers.length + 1
    rw [this]; exact e2.rows
  · intro q who hq
    have hnm := congrArg (fun l => l[q]?) hcn
    simp only [List.getElem?_map, hq, Option.map_some] at hnm
    cases hx : d.choosers[q]? with
    | none => rw [hx] at hnm; cases hnm
    | some who0 =>
      rw [hx] at hnm
      obtain ⟨cells, c1, c2, c3⟩ := e2.row q who0 hx
      have he : who.name = who0.name := by simpa using hnm
      refine ⟨cells, by rw [he]; exact c1, ?_, ?_⟩
      · show cells.length = d'.slots.length
        rw [hsl]; exact c2
      · intro t ht
        obtain ⟨c, ch, k1, k2, k3, k4⟩ := c3 t (by show t < d.slots.length; rw [← hsl]; exact ht)
        have hc : π (π.symm c) = c := π.apply_symm_apply c
        obtain ⟨y, y1, y2, _⟩ := hch (π.symm c) ch (by rw [hc]; exact k3)
        refine ⟨π.symm c, y, ?_, by rw [hs, hc]; exact k2, y1, by rw [y2]; exact k4⟩
        obtain ⟨k, hk⟩ := k1
        exact ⟨k, by rw [ha, hk]; rfl⟩

/-- **C95**, for the program: the table of attendances printed for an input is that of a valid timetable of the same input with its
constraints in other words, with the same worst preference and the same cost. -/
theorem C95_printed_in_any_words (raw raw' : Raw) (hl : InOtherWords raw raw')
    (tr : List Reader.Event) (hdes : Describes tr raw) (d : InputData) (h : build raw = .ok d) (hr : ManageableRaw raw) (hd : Manageable d)
    (o : Outside F σ) (ho : Trusted o d.nc) (opts : Opts F) (hcs : 0 ≤ opts.csTimeout) (p : Prepared) (hp : prepare o d opts = .ok p)
    (g : Session σ ASolver (σ × Nat)) (hg : Run (setup o p opts) (start (setup o p opts)) g) (sched asg : Str)
    (hrep : report p g = .ok (.tables sched asg)) :
    ∃ d' s a table, build raw' = .ok d' ∧ Valid d' s a ∧ Placed d' s ∧ asg = csv table ∧ AssignmentTable d' s a table ∧
      (∀ w, IsWorst d' a w ↔ IsWorst d a w) ∧ ∀ cost, totalCost d' cost a = totalCost d cost a := by
  have hmax := fun q hq => ((described_fit hdes).1 q hq).2.1
  obtain ⟨d', h', hsl, hch, hco, _, _, hall⟩ := C95_in_other_words raw raw' hl hmax d h
  rcases printed_made raw tr hdes d h hr hd o ho opts hcs p hp g hg with e | ⟨s, a, sched', asg', _, _, hv, hpl, e, ⟨table, e1, e2⟩, _⟩
  · rw [hrep] at e; cases e
  rw [hrep] at e
  cases e
  obtain ⟨v, w, c⟩ := hall s a
  exact ⟨d', s, a, table, h', (v.2 ⟨hv, hpl⟩).1, (v.2 ⟨hv, hpl⟩).2, e1, table_alike hsl hch hco e2, w, c⟩

/-- **C93**, for the program: if no choice has several parts and the slots are listed in another order, the printed table of attendances with
its columns in the new order is that of a valid timetable, with the same worst preference and the same cost. -/
theorem C93_printed_in_any_order (π : Equiv.Perm Nat) (raw raw' : Raw) (hl : SlotsReordered π raw raw') (hsp : SingleParts raw)
    (tr : List Reader.Event) (hdes : Describes tr raw) (d : InputData) (h : build raw = .ok d) (hr : ManageableRaw raw) (hd : Manageable d)
    (o : Outside F σ) (ho : Trusted o d.nc) (opts : Opts F) (hcs : 0 ≤ opts.csTimeout) (p : Prepared) (hp : prepare o d opts = .ok p)
    (g : Session σ ASolver (σ × Nat)) (hg : Run (setup o p opts) (start (setup o p opts)) g) (sched asg : Str)
    (hrep : report p g = .ok (.tables sched asg)) :
    ∃ d' s a s' a' table table', build raw' = .ok d' ∧ Valid d s a ∧ Valid d' s' a' ∧ Placed d' s' ∧ asg = csv table ∧
      AssignmentTable d s a table ∧ AssignmentTable d' s' a' table' ∧ table'.length = table.length ∧
      (∀ (i : Nat) (row row' : List Str), table[i]? = some row → table'[i]? = some row' →
        row'[0]? = row[0]? ∧ ∀ t, t < d.ns → row'[t + 1]? = row[π t + 1]?) ∧
      (∀ w, IsWorst d' a' w ↔ IsWorst d a w) ∧ ∀ cost, totalCost d' cost a' = totalCost d cost a := by
  have hmax := fun q hq => ((described_fit hdes).1 q hq).2.1
  obtain ⟨d', h', hsl, hch, hcn, _, _, _, hall⟩ := C93_order_of_slots π raw raw' hl hsp hmax d h
  obtain ⟨m, written, hb⟩ := build_spec hmax h
  have hlt : ∀ i, π i < d.ns ↔ i < d.ns := by
    show ∀ i, π i < d.slots.length ↔ i < d.slots.length
    rw [hb.slots, slots_kept hl.some]; exact hl.lt
  have hns : d'.ns = d.ns := (slots_timed hmax hsp hl h h').dims.ns.symm
  rcases printed_made raw tr hdes d h hr hd o ho opts hcs p hp g hg with e | ⟨s, a, sched', asg', _, hsh, hv, hpl, e, ⟨table, e1, e2⟩, _⟩
  · rw [hrep] at e; cases e
  rw [hrep] at e
  cases e
  obtain ⟨s', a', hs, ha, _, _⟩ := C93_counterpart π raw raw' hl d hmax h s a hsh.rowLen
  obtain ⟨v, w, c⟩ := hall s s' a a' hs ha
  have hlen : ∀ (i : Nat) (row : List Str), table[i]? = some row → row.length = d.ns + 1 := by
    intro i row hi
    cases i with
    | zero => rw [e2.head] at hi; cases hi; rfl
    | succ i =>
      have hi' : i < d.np := by have := (List.getElem?_eq_some_iff.1 hi).1; have := e2.rows; omega
      obtain ⟨cells, c1, c2, _⟩ := e2.row i _ (List.getElem?_eq_getElem hi')
      rw [hi] at c1
      cases c1
      simp [c2]
  let turn : List Str → List Str := fun r => (r[0]?).getD [] :: (List.range d.ns).map (fun t => (r[π t + 1]?).getD [])
  have hturn : ∀ r : List Str, r.length = d.ns + 1 → (turn r)[0]? = r[0]? ∧ ∀ t, t < d.ns → (turn r)[t + 1]? = r[π t + 1]? := by
    intro r hr'
    refine ⟨?_, fun t ht => ?_⟩
    · show some _ = _
      rw [List.getElem?_eq_getElem (show 0 < r.length by omega)]; rfl
    · show ((List.range d.ns).map _)[t]? = _
      rw [List.getElem?_map, List.getElem?_range ht, Option.map_some,
        List.getElem?_eq_getElem (show π t + 1 < r.length by have := (hlt t).2 ht; omega)]
      rfl
  refine ⟨d', s, a, s', a', table, table.map turn, h', hv, (v.2 ⟨hv, hpl⟩).1, (v.2 ⟨hv, hpl⟩).2, e1, e2, ⟨?_, ?_, ?_⟩, by simp, ?_, w, c⟩
  · rw [List.getElem?_map, e2.head, Option.map_some]
    congr 1
    apply List.ext_getElem?
    intro k
    obtain ⟨q1, q2⟩ := hturn _ (hlen 0 _ e2.head)
    cases k with
    | zero => rw [q1]; rfl
    | succ k =>
      by_cases hk : k < d.ns
      · rw [q2 k hk, List.getElem?_cons_succ, List.getElem?_cons_succ, hsl]
      · rw [List.getElem?_eq_none (by simp [turn]; omega),
          List.getElem?_eq_none (by show d'.ns + 1 ≤ k + 1; omega)]
  · have := congrArg List.length hcn
    simp only [List.length_map] at this
    show (table.map turn).length = d'.choosers.length + 1
    rw [List.length_map, this]; exact e2.rows
  · intro q who hq
    have hnm := congrArg (fun l => l[q]?) hcn
    simp only [List.getElem?_map, hq, Option.map_some] at hnm
    cases hx : d.choosers[q]? with
    | none => rw [hx] at hnm; cases hnm
    | some who0 =>
      rw [hx] at hnm
      obtain ⟨cells, c1, c2, c3⟩ := e2.row q who0 hx
      have he : who.name = who0.name := by simpa using hnm
      obtain ⟨q1, q2⟩ := hturn _ (hlen _ _ c1)
      refine ⟨(List.range d.ns).map (fun t => ((who0.name :: cells)[π t + 1]?).getD []), ?_, ?_, ?_⟩
      · rw [List.getElem?_map, c1, he]; rfl
      · rw [hns]; simp
      · intro t ht
        rw [hns] at ht
        obtain ⟨x, y, k1, k2, k3, k4⟩ := c3 (π t) ((hlt t).2 ht)
        refine ⟨x, y, ?_, ?_, by rw [hch]; exact k3, ?_⟩
        · obtain ⟨k, hk⟩ := k1
          exact ⟨π.symm k, by rw [ha, π.apply_symm_apply]; exact hk⟩
        · rw [hs, k2]; simp
        · have := q2 t ht
          exact this.trans ((List.getElem?_cons_succ).trans k4)
  · intro i row row' h1 h2
    rw [List.getElem?_map, h1] at h2
    cases h2
    exact hturn row (hlen i row h1)

/-- **C94**, for the program: the table of attendances printed for an input is that of a valid timetable of the input that offers more
optional choices (one in which none of them takes place). -/
theorem C94_printed_still_valid (raw raw' : Raw) (extra : List Proto) (hl : OffersMore raw raw' extra) (hmax' : ∀ q ∈ raw'.choices, q.max ≤ u32Max)
    (hsum : (raw'.choices.map width).sum ≤ i32Max)
    (tr : List Reader.Event) (hdes : Describes tr raw) (d : InputData) (h : build raw = .ok d) (hr : ManageableRaw raw) (hd : Manageable d)
    (o : Outside F σ) (ho : Trusted o d.nc) (opts : Opts F) (hcs : 0 ≤ opts.csTimeout) (p : Prepared) (hp : prepare o d opts = .ok p)
    (g : Session σ ASolver (σ × Nat)) (hg : Run (setup o p opts) (start (setup o p opts)) g) (sched asg : Str)
    (hrep : report p g = .ok (.tables sched asg)) :
    ∃ d' s a table, build raw' = .ok d' ∧ Valid d' s a ∧ Placed d' s ∧ (∀ c, d.nc ≤ c → slotAt s c = none) ∧
      asg = csv table ∧ AssignmentTable d' s a table := by
  obtain ⟨d', more, h', hnc, hsl, hold, _, hcn, hall⟩ := C94_offering_more raw raw' extra hl hmax' hsum d h
  rcases printed_made raw tr hdes d h hr hd o ho opts hcs p hp g hg with e | ⟨s, a, sched', asg', _, hsh, hv, hpl, e, ⟨table, e1, e2⟩, _⟩
  · rw [hrep] at e; cases e
  rw [hrep] at e
  cases e
  obtain ⟨_, hval⟩ := hall s a hsh
  obtain ⟨hv', hpl'⟩ := hval.2 ⟨hv, hpl⟩
  have hat : ∀ c t, slotAt s c = some t → slotAt (withoutNew s more) c = some t := by
    intro c t hc
    unfold slotAt withoutNew at *
    rw [List.getElem?_append_left]
    · exact hc
    · by_contra hh
      rw [List.getElem?_eq_none (by omega)] at hc
      cases hc
  refine ⟨d', withoutNew s more, a, table, h', hv', hpl', ?_, e1, ?_, ?_, ?_⟩
  · intro c hc
    unfold slotAt withoutNew
    rw [List.getElem?_append_right (by rw [hsh.schedLen]; exact hc), List.getElem?_replicate]
    split <;> rfl
  · rw [hsl]; exact e2.head
  · have := congrArg List.length hcn
    simp only [List.length_map] at this
    show table.length = d'.choosers.length + 1
    rw [this]; exact e2.rows
  · intro q who hq
    have hnm := congrArg (fun l => l[q]?) hcn
    simp only [List.getElem?_map, hq, Option.map_some] at hnm
    cases hx : d.choosers[q]? with
    | none => rw [hx] at hnm; cases hnm
    | some who0 =>
      rw [hx] at hnm
      obtain ⟨cells, c1, c2, c3⟩ := e2.row q who0 hx
      have he : who.name = who0.name := by simpa using hnm
      refine ⟨cells, by rw [he]; exact c1, ?_, ?_⟩
      · show cells.length = d'.slots.length
        rw [hsl]; exact c2
      · intro t ht
        obtain ⟨c, ch, k1, k2, k3, k4⟩ := c3 t (by show t < d.slots.length; rw [← hsl]; exact ht)
        have hc : c < d.nc := (List.getElem?_eq_some_iff.1 k3).1
        exact ⟨c, ch, k1, hat c t k2, by rw [hold c hc]; exact k3, k4⟩

/-- **C95**, the other way round: if an undisturbed session finds out that there is no solution (C58), there is none in other words. -/
theorem C95_no_solution_in_any_words_partial (raw raw' : Raw) (hl : InOtherWords raw raw')
    (tr : List Reader.Event) (hdes : Describes tr raw) (d : InputData) (h : build raw = .ok d) (hr : ManageableRaw raw) (hd : Manageable d)
    (o : Outside F σ) (ho : Trusted o d.nc) (opts : Opts F) (hcs : 0 ≤ opts.csTimeout) (p : Prepared) (hp : prepare o d opts = .ok p)
    (hl1 : ∀ tid t, o.lateIter tid t = false) (hl2 : ∀ tid a b c, o.lateSearch tid a b c = false) (g : Session σ ASolver (σ × Nat))
    (hg : Undisturbed (setup o p opts) (start (setup o p opts)) g) (hover : g.over) (hrep : report p g = .ok .noSolution)
    (hns : 1 < d.slots.length) (hnp : 0 < d.choosers.length) (hnc : 0 < d.choices.length)
    (hself : ∀ k ∈ d.schedCons, (k.kind = .choicesAreNotInSameSlot ∨ k.kind = .choicesHaveOffset) → k.right ≠ .choice k.left)
    (hmin : (∀ c ∈ d.choices, c.min ≤ 1) ∨ (d.choices.map (·.min)).sum ≤ d.choosers.length) :
    ∃ d', build raw' = .ok d' ∧ ¬ ∃ s a, SchedShape d' s ∧ Valid d' s a ∧ Placed d' s := by
  have hmax := fun q hq => ((described_fit hdes).1 q hq).2.1
  obtain ⟨d', h', hsl, hch, _, _, _, hall⟩ := C95_in_other_words raw raw' hl hmax d h
  refine ⟨d', h', ?_⟩
  rcases C58_verdict_partial raw tr hdes d h hr hd o ho opts hcs p hp hl1 hl2 g hg hover hns hnp hnc hself hmin with ⟨_, hno⟩ | ⟨_, _, _, _, _, _, _, _, e, _⟩
  · rintro ⟨s, a, hsh, hv, hpl⟩
    obtain ⟨v1, v2⟩ := (hall s a).1.1 ⟨hv, hpl⟩
    refine hno ⟨s, a, ⟨?_, fun c t hct => ?_⟩, v1, v2⟩
    · rw [hsh.len]; show d'.choices.length = d.choices.length; rw [hch]
    · have := hsh.range c t hct
      show t < d.slots.length
      rw [← hsl]; exact this
  · rw [hrep] at e; cases e

end Wassign
