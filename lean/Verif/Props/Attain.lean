import Verif.Spec.Attain
import Verif.Proofs.First
import Verif.Props.Climb
import Verif.Props.Order
/-
C78: which timetables can be found.
-/
namespace Wassign
open Spec Build Threaded Main Reader Hill Search

section
variable {σ : Type} (g : RngOps σ) (hg : g.Lawful) (i : InputData) (hw : WF i) (hz : Sizes i) (hr : SearchReady i)
  (cs : List CriticalSet) (hcs : ∀ set ∈ cs, ∀ e ∈ set.data, e < i.nc) (late : Nat → Bool) (rs : σ)
include hg hw hz hr hcs

/-- **C78**: of all schedulings that satisfy the scheduling rules and cover the critical sets, the search finds the first one in its order. -/
theorem C78_first_in_order (slots : List (List Nat)) (r : σ) (h : solve g i cs late rs = .ok (.found slots, r)) :
    ∃ s, toScheduling i slots = .ok s ∧ HandlingOrder i (choiceScramble g rs i).1 ∧
      FirstInOrder i cs (choiceScramble g rs i).1 s := by
  obtain ⟨s, e1, e2, e3, e4, e5⟩ := solve_first hg hw hz hr hcs h
  exact ⟨s, e1, C71_most_constrained_first g hg i rs, ⟨⟨e2, e3⟩, e4, fun t h1 h2 h3 => e5 t h1.len ⟨h2, h1.range, h3⟩⟩⟩

omit hg hw hz hr hcs in
theorem emptier_asymm {i : InputData} {p : Scheduling} {a b : Nat} (h1 : Emptier i p a b) (h2 : Emptier i p b a) : False := by
  unfold Emptier at h1 h2
  omega

omit hg hw hz hr hcs in
theorem decidedFirst_congr {order : List Nat} {k : Nat} {s t : Scheduling} (hs : s.length = t.length)
    (h : ∀ j c', j < k → order[j]? = some c' → slotAt s c' = slotAt t c') : decidedFirst order k s = decidedFirst order k t := by
  unfold decidedFirst
  rw [hs]
  apply List.map_congr_left
  intro c _
  by_cases hm : c ∈ order.take k
  · rw [if_pos hm, if_pos hm]
    obtain ⟨j, hj, he⟩ := mem_take_iff.1 hm
    exact h j c hj he
  · rw [if_neg hm, if_neg hm]

omit hg hw hz hr hcs in
/-- Where nothing is optional, of two schedulings at most one comes before the other. -/
theorem searchedFirst_asymm {i : InputData} {order : List Nat} (hno : ∀ c ∈ i.choices, c.isOptional = false) {s t : Scheduling}
    (hs : SchedShape i s) (hsv : SchedValid i s) (ht : SchedShape i t) (htv : SchedValid i t) (hlt : ∀ c ∈ order, c < i.nc)
    (h1 : SearchedFirst i order s t) (h2 : SearchedFirst i order t s) : False := by
  obtain ⟨k, c, a1, a2, a3, a4⟩ := h1
  obtain ⟨k', c', b1, b2, b3, b4⟩ := h2
  have hk : k = k' := by
    rcases Nat.lt_trichotomy k k' with h | h | h
    · exact absurd (b2 k c h a1).symm a3
    · exact h
    · exact absurd (a2 k' c' h b1).symm b3
  subst hk
  rw [a1] at b1
  cases b1
  have hc : c < i.nc := hlt c (List.mem_of_getElem? a1)
  have hsome : ∀ {u : Scheduling}, SchedValid i u → ∃ x, slotAt u c = some x := by
    intro u hu
    have := hu.mandatory c hc (hno _ (List.getElem_mem hc))
    cases hx : slotAt u c with
    | none => exact absurd hx this
    | some x => exact ⟨x, rfl⟩
  obtain ⟨x, hx⟩ := hsome hsv
  obtain ⟨y, hy⟩ := hsome htv
  have e1 := a4 x y hx hy
  have e2 := b4 y x hy hx
  rw [← decidedFirst_congr (by rw [hs.len, ht.len]) a2] at e2
  exact emptier_asymm e1 e2

omit hg hw hz hr hcs in
/-- **C78**: a scheduling that always puts the next choice into the least full slot comes before all others. -/
theorem C78_least_full_is_first (hno : ∀ c ∈ i.choices, c.isOptional = false) (order : List Nat) (ho : HandlingOrder i order) (s : Scheduling)
    (hs : SchedShape i s) (hv : SchedValid i s) (hl : LeastFull i order s) : FirstInOrder i [] order s := by
  refine ⟨hs, hv, ?_⟩
  intro t ht htv _
  by_cases he : t = s
  · exact .inl he
  right
  have hex : ∃ k : Nat, ∃ c : Nat, order[k]? = some c ∧ slotAt s c ≠ slotAt t c := by
    by_contra hcon
    apply he
    apply slotAt_ext (by rw [ht.len, hs.len])
    intro c hc
    rw [ht.len] at hc
    have hmem : c ∈ order := ho.1.mem_iff.2 (by simpa using hc)
    obtain ⟨j, hj⟩ := List.mem_iff_getElem?.1 hmem
    by_contra hne
    exact hcon ⟨j, c, hj, fun e => hne e.symm⟩
  classical
  let k := Nat.find hex
  obtain ⟨c, hc, hne⟩ := Nat.find_spec hex
  have hmin : ∀ j c', j < k → order[j]? = some c' → slotAt s c' = slotAt t c' := by
    intro j c' hj hc'
    by_contra hn
    exact Nat.find_min hex hj ⟨c', hc', hn⟩
  refine ⟨k, c, hc, hmin, hne, ?_⟩
  intro a b ha hb
  obtain ⟨a', ha', hall⟩ := hl k c hc
  rw [ha] at ha'
  cases ha'
  refine hall b (ht.range c b hb) ?_
  rintro rfl
  exact hne (ha.trans hb.symm)

/-- **C78**: whatever comes first among the schedulings that satisfy the rules can be found: if nothing is optional and it covers the
critical sets, it is found when the choices are shuffled into that order and the time limit does not strike. -/
theorem C78_first_is_found (hno : ∀ c ∈ i.choices, c.isOptional = false) (hself : NoSelf i) (hmin : MinimaSmall i) (hnc : 0 < i.nc)
    (order : List Nat) (hsh : (g.shuffle rs i.nc).1 = order) (ho : HandlingOrder i order) (hl : ∀ k, late k = false) (s : Scheduling)
    (hf : FirstInOrder i [] order s) (hcov : ∀ set ∈ cs, CoversSlots i s set.data) :
    ∃ slots r, solve g i cs late rs = .ok (.found slots, r) ∧ toScheduling i slots = .ok s := by
  have hscr : (choiceScramble g rs i).1 = order := by
    have h1 : (shuffleList g rs (List.range i.nc)).1 = order := by
      unfold shuffleList
      simp only [List.length_range, hsh]
      have : ∀ l : List Nat, (∀ c ∈ l, c < i.nc) → l.filterMap (fun k => (List.range i.nc)[k]?) = l := by
        intro l
        induction l with
        | nil => intro _; rfl
        | cons c l ih =>
          intro hl
          have hc : (List.range i.nc)[c]? = some c := by
            rw [List.getElem?_range (hl c (by simp))]
          rw [List.filterMap_cons_some hc, ih (fun c hc => hl c (by simp [hc]))]
      exact this order (fun c hc => by simpa using ho.1.mem_iff.1 hc)
    unfold choiceScramble
    simp only [h1]
    exact isort_sorted (ho.2.imp (fun h => by simpa using h))
  obtain ⟨o, r, h1, h2⟩ := solve_total hg hw hz hr hcs late rs
  cases o with
  | timeout => obtain ⟨k, hk⟩ := h2; rw [hl k] at hk; cases hk
  | exhausted => exact absurd ⟨hf.valid, hf.shape.range, hcov⟩ (h2 s)
  | rejected s' => exact absurd h1 (solve_never_rejects hg hw hz hr hself hmin hnc hcs late rs s' r)
  | found slots =>
    obtain ⟨s', e1, e2, e3⟩ := C78_first_in_order g hg i hw hz hr cs hcs late rs slots r h1
    refine ⟨slots, r, h1, ?_⟩
    rw [hscr] at e3
    rcases e3.first s hf.shape hf.valid hcov with e | e
    · rw [e1, e]
    · rcases hf.first s' e3.shape e3.valid (by simp) with e' | e'
      · rw [e1, e']
      · exact (searchedFirst_asymm hno e3.shape e3.valid hf.shape hf.valid
          (fun c hc => by simpa using ho.1.mem_iff.1 hc) e e').elim

end

/-! ### The program -/

section
variable {F σ τ ρ : Type}

/-- What a worker has recorded: nothing, or a solution whose scheduling is in the set. -/
def Confined (pr : HProblem) (Inv : τ → Prop) (P : Scheduling → Prop) (st : SState σ τ ρ) : Prop :=
  Inv st.hill.asg ∧ (st.progress.bestScore.isFinite = false ∨ Hill.Good pr P (st.progress.bestSolution, st.progress.bestScore))

theorem iterate_confined {pr : HProblem} {env : SEnv σ τ ρ} {Inv : τ → Prop} {P : Scheduling → Prop} (hw : WF pr.input)
    (hm : pr.input.maxPref ≤ u32Max) (hg : env.rng.Lawful) (hA : Shaped pr.input env.asolve Inv)
    (hF : ∀ s n, SchedShape pr.input s → P s → Picked pr.input s n → P n)
    (hnext : ∀ r s r', env.next r = .ok (some s, r') → SchedShape pr.input s ∧ P s) :
    ∀ (n k : Nat) (st st' : SState σ τ ρ), Confined pr Inv P st → Shotgun.iterate pr env true n st = .ok (k, st') →
      Confined pr Inv P st' := by
  intro n
  induction n with
  | zero => intro k st st' h hs; cases hs; exact h
  | succ n ih =>
    intro k st st' h hs
    have h1 : Confined pr Inv P (Shotgun.clock env true st).2 := by unfold Shotgun.clock; split <;> exact h
    unfold Shotgun.iterate at hs
    simp only at hs
    generalize (Shotgun.clock env true st) = c at h1 hs
    split at hs
    · cases hs; exact h1
    · rw [R.bind_eq_ok] at hs
      obtain ⟨⟨x, r⟩, hx, hs⟩ := hs
      cases x with
      | none => cases hs; exact h1
      | some s =>
        simp only at hs
        rw [R.bind_eq_ok] at hs
        obtain ⟨⟨sol, h'⟩, h2, hs⟩ := hs
        obtain ⟨hs1, hs2⟩ := hnext _ _ _ hx
        obtain ⟨hinv, _, _, sol0, sc0, _, _, _, _, _, _, _, hcase⟩ := solve_within hw hm hg hA hF h1.1 hs1 hs2 h2
        rw [R.bind_eq_ok] at hs
        obtain ⟨sc, hsc, hs⟩ := hs
        rw [R.bind_eq_ok] at hs
        obtain ⟨⟨k', st2⟩, h4, hs⟩ := hs
        cases hs
        refine ih _ _ _ ?_ h4
        refine ⟨?_, ?_⟩
        · show Inv (Shotgun.record env sol sc _).hill.asg
          unfold Shotgun.record; split <;> exact hinv
        · show (Shotgun.record env sol sc _).progress.bestScore.isFinite = false ∨
            Hill.Good pr P ((Shotgun.record env sol sc _).progress.bestSolution, (Shotgun.record env sol sc _).progress.bestScore)
          unfold Shotgun.record
          split
          · rename_i hlt
            simp only
            rcases hcase with ⟨_, e, _⟩ | ⟨_, _, sc', _, e2, _⟩
            · subst e
              simp [Scoring.evaluate] at hsc
              subst hsc
              have := Score.lt_finite hlt
              exact absurd this (by decide)
            · have e4 := e2.eval
              simp only at e4
              have : sc = sc' := by rw [hsc] at e4; cases e4; rfl
              subst this
              exact .inr e2
          · exact h1.2

/-- **C78** for the program: whatever it prints is attainable — the first scheduling of some order of the choices, or one that can be got to
from such a scheduling by moving single choices and exchanging slots, always within the scheduling rules. -/
theorem C78_printed_is_attainable (raw : Raw) (tr : List Reader.Event) (hdes : Describes tr raw) (d : InputData) (h : build raw = .ok d)
    (hr : ManageableRaw raw) (hd : Manageable d) (o : Outside F σ) (ho : Trusted o d.nc)
    (opts : Opts F) (hcs : 0 ≤ opts.csTimeout) (p : Prepared) (hp : Main.prepare o d opts = .ok p)
    (g : Session σ ASolver (σ × Nat)) (hg : Run (setup o p opts) (Threaded.start (setup o p opts)) g) :
    report p g = .ok .noSolution ∨
    ∃ s a sched asg, SchedShape d s ∧ Valid d s a ∧ Placed d s ∧ report p g = .ok (.tables sched asg) ∧
      (∃ table, asg = csv table ∧ AssignmentTable d s a table) ∧ Attainable d p.analysis.forPreference s := by
  have hmax := fun q hq => ((described_fit hdes).1 q hq).2.1
  obtain ⟨m, written, hb⟩ := build_spec hmax h
  obtain ⟨hz, hnc', hns'⟩ := sizes_of_manageable hb hr hd
  have hcalm := C49_no_worker_panics raw d hmax h hr hd o ho opts hcs p hp g hg
  have hrep := report_ok hdes h ho.lawful hp hg hcalm
  rcases hrep with ⟨e, _⟩ | ⟨s, a, x, sched, hwait, hre, hs, hv, hpl, ht, _⟩
  · exact .inl e
  right
  have hpp := hp
  unfold Main.prepare at hpp
  simp only [R.bind_eq_ok] at hpp
  obtain ⟨an, han, S, hS, hpp⟩ := hpp
  have hin : p.input = d := by cases hpp; rfl
  have hanp : p.analysis = an := by cases hpp; rfl
  subst hin
  have hready : SearchReady p.input := ready_of_built hb hr.numbers hnc' hns'
  have hsets : ∀ l, ∀ set ∈ p.analysis.forPreference l, ∀ e ∈ set.data, e < p.input.nc := by
    obtain ⟨hlev, _, hmem, _⟩ := C26_levels_partial raw p.input hmax h
    obtain ⟨A, hA, hA1, hA2⟩ := analysis_total hb.wf hz hlev (!opts.noCs && !opts.greedy && decide (1 < p.input.ns))
      ((!opts.noCs && !opts.greedy && decide (1 < p.input.ns)) && !opts.noCsSimp)
    rw [hanp]
    rw [hA] at han
    cases han
    exact hA2
  have hnc : p.input.nc ≤ u32Max := by have := hz.choices; unfold i32Max at this; unfold u32Max; omega
  have hnp : p.input.np ≤ u32Max := by have := hz.choosers; unfold i32Max at this; unfold u32Max; omega
  have hmp : p.input.maxPref ≤ u32Max := Nat.le_of_lt hz.maxPref
  have hworkers := run_kept (cfg := setup o p opts)
    (P := fun tid st => Confined (setup o p opts).problem (CacheShape p.input) (Attainable p.input p.analysis.forPreference) st)
    (fun tid => ⟨cacheShape_new _, .inl (by show Score.infinite.isFinite = false; decide)⟩)
    (fun tid k st st' hc he => by
      refine iterate_confined (pr := (setup o p opts).problem) (env := (setup o p opts).env tid) hb.wf hmp ho.lawful
        (shaped_any (asgProblem o p opts) (asgEnv o tid) true) ?_ ?_ 1 k st st' hc he
      · intro s n hs ha hn
        exact .step ha hn.1 ((schedFeasible_spec hn.1.len hnc hnp hb.wf.sched hn.2.1).1 rfl) hn.2.2
      · intro r s r' e
        have hnx := source_next e
        obtain ⟨e1, e2⟩ := Search.nextScheduling_feasible hnx
        obtain ⟨rs', l, e3⟩ := Search.nextScheduling_first ho.lawful hb.wf hz hready hsets hnx
        have hsh : SchedShape p.input s := ⟨e1, schedFeasible_range e1 e2⟩
        refine ⟨hsh, .start _ l (C71_most_constrained_first o.rng ho.lawful p.input rs')
          ⟨hsh, (schedFeasible_spec e1 hnc hnp hb.wf.sched e2).1 rfl, fun t h1 h2 h3 => e3 t h1.len ⟨h2, h1.range, h3⟩⟩⟩)
    (fun tid st hc => hc) hg
  have hcol : wait g = .ok ((g.workers.map (·.st.best)).foldl keep nothing).1 := by
    unfold Threaded.wait
    rw [collect_ok hcalm]
  rw [hcol] at hwait
  injection hwait with hwait
  obtain ⟨hmem, hf⟩ : (g.workers.map (·.st.best)).foldl keep nothing ∈ g.workers.map (·.st.best) ∧
      ((g.workers.map (·.st.best)).foldl keep nothing).2.isFinite = true := by
    rcases keep_mem (g.workers.map (·.st.best)) nothing with e | e
    · rw [e] at hwait; cases hwait
    · exact e
  obtain ⟨w, hw, hwb⟩ := List.mem_map.1 hmem
  rw [← hwb] at hwait hf
  obtain ⟨tid, htid⟩ := List.mem_iff_getElem?.1 hw
  obtain ⟨_, hc⟩ := hworkers tid w htid
  rcases hc with hc | hgood
  · have : w.st.progress.bestScore.isFinite = true := hf
    rw [this] at hc; cases hc
  have hwait : w.st.progress.bestSolution = .complete s a := hwait
  obtain ⟨s2, a2, e, _, _, hat⟩ := hgood.whole
  simp only at e
  rw [hwait] at e
  cases e
  exact ⟨s, a, sched, x, hs, hv, hpl, hre, ht, hat⟩

end
end Wassign
