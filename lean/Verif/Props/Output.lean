import Verif.Proofs.Output
import Verif.Proofs.ReadInput
import Verif.Proofs.Built
import Verif.Props.Build
import Verif.Props.Scoring
/-
The CSV output: C40, C41.
-/
namespace Wassign
open Spec Output

/-! ## C41: the scheduling -/

/-- **C41**: if the solution has a scheduling, its table is printed: one row per choice, in order, with the choice's name
and the name of its slot, or `not scheduled`. -/
theorem C41_scheduling_table (i : InputData) (sol : Solution) (s : Scheduling) (hsol : sol.scheduling? = some s)
    (hs : SchedShape i s) : ∃ table, writeScheduling i sol = .ok (csv table) ∧ SchedulingTable i s table :=
  writeScheduling_ok hsol hs

/-- **C41**: a missing scheduling is reported as an error. -/
theorem C41_missing_reported (i : InputData) (sol : Solution) (hsol : sol.scheduling? = none) :
    writeScheduling i sol = .error (.error "IncompleteSolution") := by
  unfold writeScheduling; rw [hsol]

/-! ## C40: the assignment -/

/-- **C40**: for a solution in which everybody attends exactly one scheduled choice per slot (as in every valid
solution), the printed table has one row per chooser, in order, and below each slot the choice attended in that slot. -/
theorem C40_assignment_table (i : InputData) (s : Scheduling) (a : Assignment) (hsh : Shape i s a) (h1 : OnePerSlot i s a)
    (h2 : OnlyScheduled i s a) : ∃ table, writeAssignment i (.complete s a) = .ok (csv table) ∧ AssignmentTable i s a table :=
  writeAssignment_ok hsh h1 h2

theorem C40_valid_solution (i : InputData) (s : Scheduling) (a : Assignment) (hsh : Shape i s a) (hv : Valid i s a) :
    ∃ table, writeAssignment i (.complete s a) = .ok (csv table) ∧ AssignmentTable i s a table :=
  writeAssignment_ok hsh hv.onePerSlot hv.onlyScheduled

/-- **C40**: a missing part of the solution is reported as an error. -/
theorem C40_missing_reported (i : InputData) (sol : Solution) (h : sol.scheduling? = none ∨ sol.assignment? = none) :
    writeAssignment i sol = .error (.error "IncompleteSolution") := by
  unfold writeAssignment
  rcases h with h | h
  · rw [h]
  · rw [h]; cases sol.scheduling? <;> rfl

theorem mapM_not_ok {α β : Type} {f : α → R β} {l : List α} {x : α} (hx : x ∈ l) (hf : ∀ y, f x ≠ .ok y) :
    ∀ ys, l.mapM f ≠ .ok ys := by
  induction l with
  | nil => cases hx
  | cons a t ih =>
    intro ys h
    rw [List.mapM_cons, R.bind_eq_ok] at h
    obtain ⟨y, hy, h⟩ := h
    rw [R.bind_eq_ok] at h
    obtain ⟨zs, hz, _⟩ := h
    rcases List.mem_cons.1 hx with rfl | hx
    · exact hf y hy
    · exact ih hx zs hz

theorem foldlM_not_ok {α β : Type} {f : β → α → R β} {l : List α} {x : α} (hx : x ∈ l) (hf : ∀ b y, f b x ≠ .ok y) :
    ∀ b r, l.foldlM f b ≠ .ok r := by
  induction l with
  | nil => cases hx
  | cons a t ih =>
    intro b r h
    rw [List.foldlM_cons, R.bind_eq_ok] at h
    obtain ⟨y, hy, h⟩ := h
    rcases List.mem_cons.1 hx with rfl | hx
    · exact hf b y hy
    · exact ih hx y r h

/-- **C40**: an assignment to a choice that is not scheduled is reported as an error (not by a crash). -/
theorem C40_unscheduled_reported (i : InputData) (s : Scheduling) (a : Assignment) (hsh : Shape i s a)
    (hr : SlotsInRange i s) (hc : ∀ p k c, entry a p k = some c → c < i.nc) (p k c : Nat) (he : entry a p k = some c)
    (hu : slotAt s c = none) : ∃ msg, writeAssignment i (.complete s a) = .error (.error msg) := by
  have hp : p < i.np := by
    apply Classical.byContradiction
    intro hn
    unfold entry at he
    rw [List.getElem?_eq_none (by rw [hsh.asgLen]; omega)] at he
    cases he
  have rowOf : ∀ p (hp : p < i.np), ∃ row, a[p]? = some row ∧ row.length = i.ns := by
    intro p hp
    have hpa : p < a.length := by rw [hsh.asgLen]; exact hp
    exact ⟨a[p], by simp, hsh.rowLen _ (List.getElem_mem hpa)⟩
  obtain ⟨row, hrow, hlen⟩ := rowOf p hp
  have hk : k < i.ns := by
    apply Classical.byContradiction
    intro hn
    unfold entry at he
    rw [hrow, Option.bind_some, List.getElem?_eq_none (by omega)] at he
    cases he
  have hnc : 0 < i.nc := by have := hc p k c he; omega
  -- no panic
  have hplace : ∀ p, p < i.np → ∀ k, k < i.ns → ∀ choices : List Nat, choices.length = i.ns →
      NoPanic (placeChoice s a p choices k) := by
    intro p hp k hk choices hl
    obtain ⟨row, hrow, hlen⟩ := rowOf p hp
    have hkr : row[k]? = some (row[k]'(by omega)) := by simp
    have hent : entry a p k = some (row[k]'(by omega)) := by unfold entry; rw [hrow, Option.bind_some, hkr]
    have hcl := hc _ _ _ hent
    unfold placeChoice choiceOf
    rw [idx_eq_ok.2 hrow, R.bind_ok, idx_eq_ok.2 hkr, R.bind_ok]
    have hcs : row[k]'(by omega) < s.length := by rw [hsh.schedLen]; exact hcl
    unfold slotOf
    rw [idx_ok hcs, R.bind_ok]
    cases hv : s[row[k]'(by omega)] with
    | none => exact NoPanic.err _
    | some t =>
      have : t < i.ns := hr _ t (by unfold slotAt; rw [List.getElem?_eq_getElem hcs]; exact hv)
      simp only
      rw [if_pos (by omega)]
      exact NoPanic.ok _
  have hline : ∀ p, p < i.np → NoPanic (assignmentLine i s a p) := by
    intro p hp
    have step : ∀ (l : List Nat) (choices : List Nat), (∀ k ∈ l, k < i.ns) → choices.length = i.ns → (∀ c ∈ choices, c < i.nc) →
        NoPanic (l.foldlM (placeChoice s a p) choices) ∧ ∀ r, l.foldlM (placeChoice s a p) choices = .ok r → ∀ c ∈ r, c < i.nc := by
      intro l
      induction l with
      | nil => intro choices _ _ h3; exact ⟨NoPanic.ok _, by intro r h; cases h; exact h3⟩
      | cons k t ih =>
        intro choices h1 h2 h3
        rw [List.foldlM_cons]
        have key : ∀ r, placeChoice s a p choices k = .ok r → r.length = i.ns ∧ ∀ c ∈ r, c < i.nc := by
          intro r h
          unfold placeChoice at h
          rw [R.bind_eq_ok] at h
          obtain ⟨c, hcc, h⟩ := h
          rw [R.bind_eq_ok] at h
          obtain ⟨sl, hsl, h⟩ := h
          unfold slotOf at hsl
          rw [idx_eq_ok] at hsl
          have hcl : c < i.nc := by
            have := (List.getElem?_eq_some_iff.1 hsl).1
            rw [hsh.schedLen] at this
            exact this
          cases sl with
          | none => cases h
          | some t =>
            simp only at h
            split at h
            · cases h
              refine ⟨by simpa using h2, fun d hd => ?_⟩
              rcases List.mem_or_eq_of_mem_set hd with hd | rfl
              · exact h3 d hd
              · exact hcl
            · cases h
        refine ⟨NoPanic.bind (hplace p hp k (h1 k (by simp)) choices h2) (fun r hr' =>
          (ih r (fun k hk => h1 k (by simp [hk])) (key r hr').1 (key r hr').2).1), fun r h => ?_⟩
        rw [R.bind_eq_ok] at h
        obtain ⟨r', hr', h⟩ := h
        exact (ih r' (fun k hk => h1 k (by simp [hk])) (key r' hr').1 (key r' hr').2).2 r h
    have := step (List.range i.ns) (List.replicate i.ns 0) (by simp) (by simp) (by
      intro c hc'
      rw [List.mem_replicate] at hc'
      omega)
    unfold assignmentLine
    refine NoPanic.bind this.1 (fun r hr' => NoPanic.bind (NoPanic.idx hp) (fun _ _ => NoPanic.bind
      (NoPanic.mapM (fun c hc' => ?_)) (fun _ _ => NoPanic.ok _)))
    exact NoPanic.bind (NoPanic.idx (this.2 r hr' c (List.mem_of_mem_take hc'))) (fun _ _ => NoPanic.ok _)
  have hall : NoPanic (writeAssignment i (.complete s a)) := by
    unfold writeAssignment
    exact NoPanic.bind (NoPanic.mapM (fun p hp => hline p (by simpa using hp))) (fun _ _ => NoPanic.ok _)
  have hnot : ∀ t, writeAssignment i (.complete s a) ≠ .ok t := by
    intro t h
    unfold writeAssignment at h
    simp only [Solution.scheduling?, Solution.assignment?] at h
    rw [R.bind_eq_ok] at h
    obtain ⟨lines, hl, _⟩ := h
    refine mapM_not_ok (x := p) (by simpa using hp) (fun y hy => ?_) _ hl
    unfold assignmentLine at hy
    rw [R.bind_eq_ok] at hy
    obtain ⟨r, hr', _⟩ := hy
    refine foldlM_not_ok (x := k) (by simpa using hk) (fun b y hy => ?_) _ _ hr'
    unfold placeChoice choiceOf slotOf at hy
    have hkr : row[k]? = some c := by unfold entry at he; rw [hrow, Option.bind_some] at he; exact he
    have hsc : s[c]? = some none := by
      have hcs : c < s.length := by rw [hsh.schedLen]; exact hc p k c he
      unfold slotAt at hu
      rw [List.getElem?_eq_getElem hcs] at hu ⊢
      exact congrArg some hu
    rw [idx_eq_ok.2 hrow, R.bind_ok, idx_eq_ok.2 hkr, R.bind_ok, idx_eq_ok.2 hsc, R.bind_ok] at hy
    cases hy
  cases hw : writeAssignment i (.complete s a) with
  | ok t => exact absurd hw (hnot t)
  | error f =>
    cases f with
    | error m => exact ⟨m, rfl⟩
    | panic m => exact absurd hw (hall m)

/-- **C40**, **C41**: as long as no name contains a double quote, the table can be read back from the text: different
tables give different texts. -/
theorem C40_readable (t t' : List (List Str)) (h : t ≠ []) (h' : t' ≠ []) (hq : ∀ r ∈ t, r ≠ [] ∧ ∀ c ∈ r, '"' ∉ c)
    (hq' : ∀ r ∈ t', r ≠ [] ∧ ∀ c ∈ r, '"' ∉ c) (he : csv t = csv t') : t = t' :=
  csv_injective h h' hq hq' he

/-- Names are not escaped: with quotes in a name two different tables give the same text. -/
theorem C40_quotes_not_escaped : csv [["a".toList, "b".toList]] = csv [["a\", \"b".toList]] := by decide +kernel

/-- **C40**, **C41** (partial: names that do not begin with `~`): in the data made from an input, the first part of a
choice is shown under the choice's name and part `j` as `[j] name`. -/
theorem C40_shown_names_partial (raw : Raw) (d : InputData) (hmax : ∀ p ∈ raw.choices, p.max ≤ u32Max)
    (h : Build.build raw = .ok d) (k j c : Nat) (p : Proto) (hp : raw.choices[k]? = some p) (hj : IsPart raw.choices k j c)
    (hn : ∀ t, p.name ≠ '~' :: t) : ∃ ch, d.choices[c]? = some ch ∧
      shown ch.name = if j = 0 then p.name else "[".toList ++ natStr (j + 1) ++ "] ".toList ++ p.name := by
  obtain ⟨m, written, hb⟩ := build_spec hmax h
  have hc : c < d.nc := by rw [hb.nc]; exact isPart_lt hj
  obtain ⟨ch, ch1, e1, e2, e3, _⟩ := hb.choice c hc
  refine ⟨ch, e1, ?_⟩
  obtain ⟨p', q1, q2, q3⟩ := hj
  rw [hp] at q1
  cases q1
  rw [q3, blocks_get hp q2 0] at e2
  cases e2
  rw [e3]
  by_cases hj0 : j = 0
  · simp only [if_pos hj0]
    unfold shown
    cases hnm : p.name with
    | nil => rfl
    | cons x t =>
      have : x ≠ '~' := by rintro rfl; exact hn t hnm
      simp [this]
  · simp only [if_neg hj0]
    simp [shown, Build.partName]

/-- A name that begins with `~` loses it in the output. -/
theorem C40_tilde_lost : shown "~Chess".toList = "Chess".toList ∧ shown "Chess".toList = "Chess".toList := by decide +kernel

/-- The hypotheses are met by a valid solution; this is what is printed for it. -/
example : Shape Ex.inp Ex.sch Ex.asg ∧ Valid Ex.inp Ex.sch Ex.asg :=
  ⟨Ex.shape, (C01_feasibility_exact Ex.inp Ex.inp_wf (by decide) Ex.sch Ex.asg Ex.shape true (by decide +kernel)).1 rfl⟩

example : writeAssignment Ex.inp (.complete Ex.sch Ex.asg) =
    .ok "\"Chooser\", \"s\", \"t\"\n\"p\", \"A\", \"C\"\n\"q\", \"A\", \"B\"\n\"r\", \"A\", \"C\"".toList := by decide +kernel

example : writeScheduling Ex.inp (.complete Ex.sch Ex.asg) =
    .ok "\"Choice\", \"Slot\"\n\"A\", \"s\"\n\"B\", \"t\"\n\"C\", \"t\"\n\"D\", \"not scheduled\"".toList := by decide +kernel

/-- An assignment to the unscheduled choice 3 is reported. -/
example : writeAssignment Ex.inp (.complete Ex.sch [[0, 2], [0, 3], [0, 2]]) = .error (.error "IncompleteSolution") := by
  decide +kernel

end Wassign
