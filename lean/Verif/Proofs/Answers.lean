import Verif.Spec.Answers
import Verif.Proofs.Climb
import Verif.Proofs.Threaded
/-
The best of all answers of the assignment solver.
-/
namespace Wassign
open Spec Hill

variable {σ τ ρ : Type}

theorem Answers.trans {pr : HProblem} {env : HEnv σ τ} {t t' t'' : τ} {xs ys : List (Solution × Score)}
    (h1 : Answers pr env t xs t') (h2 : Answers pr env t' ys t'') : Answers pr env t (xs ++ ys) t'' := by
  induction h2 with
  | none => rw [List.append_nil]; exact h1
  | more _ b c ih => rw [← List.append_assoc]; exact .more ih b c

section
variable {pr : HProblem} {env : HEnv σ τ} {Inv : τ → Prop}

theorem solveAssignment_answer (hw : WF pr.input) (hm : pr.input.maxPref ≤ u32Max) (hA : Shaped pr.input env.asolve Inv)
    {st st' : HState σ τ} {n : Scheduling} (hs : SchedShape pr.input n) (hi : Inv st.asg) {sol : Solution}
    (h : solveAssignment env st n = .ok (sol, st')) {sc : Score} (he : pr.scoring.evaluate pr.input sol = .ok sc) :
    Answers pr env st.asg [(sol, sc)] st'.asg ∧ Inv st'.asg ∧ st'.count = st.count + 1 ∧ sc.InMode pr.scoring.greedy := by
  obtain ⟨i1, n1, _, _, hsh⟩ := solveAssignment_spec hA hs hi h
  refine ⟨?_, i1, n1, evaluate_inMode hw hm (by
    intro s' a e
    obtain ⟨rfl, h⟩ := hsh s' a e
    exact h) he⟩
  unfold solveAssignment at h
  rw [R.bind_eq_ok] at h
  obtain ⟨⟨r, t'⟩, hr, h⟩ := h
  have key : sol = answer n r ∧ st'.asg = t' := by
    cases r with
    | none => cases h; exact ⟨rfl, rfl⟩
    | some a => cases h; exact ⟨rfl, rfl⟩
  obtain ⟨rfl, rfl⟩ := key
  exact Answers.more (.none _) hr he

theorem round_answers (hw : WF pr.input) (hm : pr.input.maxPref ≤ u32Max) (hA : Shaped pr.input env.asolve Inv) {deadline : Bool} :
    ∀ (ns : List Scheduling), (∀ n ∈ ns, SchedShape pr.input n) → ∀ {found ret found' : Bool} {b b' : Best} {st st' : HState σ τ},
      Inv st.asg → round pr env deadline ns found b st = .ok (ret, found', b', st') →
      Inv st'.asg ∧ ∃ xs, Answers pr env st.asg xs st'.asg ∧ st'.count = st.count + xs.length ∧ OneMode pr.scoring.greedy xs ∧
        (b'.sol, b'.score) = xs.foldl keep (b.sol, b.score) := by
  intro ns
  induction ns with
  | nil => intro _ found ret found' b b' st st' hi h; cases h; exact ⟨hi, [], .none _, rfl, by simp [OneMode], rfl⟩
  | cons n ns ih =>
    intro hn found ret found' b b' st st' hi h
    have hn' : ∀ x ∈ ns, SchedShape pr.input x := fun x hx => hn x (List.mem_cons_of_mem _ hx)
    obtain ⟨c1, c2, c3, _⟩ := clock_eq (env := env) (deadline := deadline) (st := st)
    simp only [round] at h
    split at h
    · cases h
      rw [c1, c2]
      exact ⟨hi, [], .none _, rfl, by simp [OneMode], rfl⟩
    · simp only [R.bind_eq_ok] at h
      obtain ⟨⟨sol, st1⟩, h1, sc, h2, h⟩ := h
      obtain ⟨a1, i1, n1, m1⟩ := solveAssignment_answer hw hm hA (hn n (by simp)) (by rw [c1]; exact hi) h1 h2
      rw [c1] at a1
      rw [c2] at n1
      have fin : ∀ {st2 : HState σ τ} {b1 : Best} {f1 : Bool}, st2.asg = st1.asg → st2.count = st1.count →
          (b1.sol, b1.score) = keep (b.sol, b.score) (sol, sc) → round pr env deadline ns f1 b1 st2 = .ok (ret, found', b', st') →
          Inv st'.asg ∧ ∃ xs, Answers pr env st.asg xs st'.asg ∧ st'.count = st.count + xs.length ∧ OneMode pr.scoring.greedy xs ∧
          (b'.sol, b'.score) = xs.foldl keep (b.sol, b.score) := by
        intro st2 b1 f1 e1 e2 e3 h
        obtain ⟨j, xs, j1, j2, j3, j4⟩ := ih hn' (by rw [e1]; exact i1) h
        rw [e1] at j1
        refine ⟨j, (sol, sc) :: xs, Answers.trans a1 j1, by rw [j2, e2, n1, List.length_cons]; omega, ?_, by rw [j4, e3]; rfl⟩
        intro x hx
        rcases List.mem_cons.1 hx with rfl | hx
        · exact m1
        · exact j3 x hx
      split at h
      · rename_i hlt
        exact fin (st2 := publish st1 (Event.ofBest env.worker sol sc)) (b1 := ⟨sol, sc⟩) rfl rfl (by simp [keep, hlt]) h
      · rename_i hlt
        exact fin (b1 := b) rfl rfl (by simp [keep, hlt]) h

theorem loop_answers (hw : WF pr.input) (hm : pr.input.maxPref ≤ u32Max) (hg : env.rng.Lawful) (hA : Shaped pr.input env.asolve Inv)
    {deadline : Bool} : ∀ (k : Nat) {b b' : Best} {st st' : HState σ τ}, Good pr (fun _ => True) (b.sol, b.score) → Inv st.asg →
      loop pr env deadline k b st = .ok (b', st') →
      ∃ xs, Answers pr env st.asg xs st'.asg ∧ st'.count = st.count + xs.length ∧ OneMode pr.scoring.greedy xs ∧
        (b'.sol, b'.score) = xs.foldl keep (b.sol, b.score) := by
  intro k
  induction k with
  | zero => intro b b' st st' _ _ h; simp [loop, panic'] at h
  | succ k ih =>
    intro b b' st st' hb hi h
    simp only [loop] at h
    obtain ⟨c1, c2, c3, c4⟩ := clock_eq (env := env) (deadline := deadline) (st := st)
    split at h
    · cases h
      rw [c1, c2]
      exact ⟨[], .none _, rfl, by simp [OneMode], rfl⟩
    · simp only [R.bind_eq_ok] at h
      obtain ⟨s, hs, ⟨ns, rs⟩, hns, ⟨ret, found, b1, st1⟩, hr, h⟩ := h
      obtain ⟨s', a, e, hsh, _⟩ := hb.whole
      have hss : s = s' := by
        simp only at e
        rw [e] at hs; cases hs; rfl
      subst hss
      obtain ⟨hp, _, _⟩ := pickNeighbors_spec hg hsh hns
      have hi' : Inv ({ (clock env deadline st).2 with rng := rs } : HState σ τ).asg := by
        show Inv (clock env deadline st).2.asg; rw [c1]; exact hi
      obtain ⟨j, xs, j1, j2, j3, j4⟩ := round_answers hw hm hA ns (fun n hn => (hp n hn).1) hi' hr
      obtain ⟨_, g1, _⟩ := round_spec hw hm hA ns (fun n hn => ⟨(hp n hn).1, trivial⟩) hb hi' hr
      simp only [c1, c2] at j1 j2
      split at h
      · cases h; exact ⟨xs, j1, j2, j3, j4⟩
      · split at h
        · obtain ⟨ys, l1, l2, l3, l4⟩ := ih g1 j h
          refine ⟨xs ++ ys, Answers.trans j1 l1, by rw [l2, j2, List.length_append]; omega, ?_, by rw [l4, List.foldl_append, j4]⟩
          intro x hx
          rcases List.mem_append.1 hx with hx | hx
          · exact j3 x hx
          · exact l3 x hx
        · cases h; exact ⟨xs, j1, j2, j3, j4⟩

/-- What hill climbing returns is the best of all answers it got. -/
theorem solve_answers (hw : WF pr.input) (hm : pr.input.maxPref ≤ u32Max) (hg : env.rng.Lawful) (hA : Shaped pr.input env.asolve Inv)
    {deadline : Bool} {st st' : HState σ τ} (hi : Inv st.asg) {s : Scheduling} (hs : SchedShape pr.input s) {sol : Solution}
    (h : solve pr env deadline st s = .ok (sol, st')) :
    ∃ xs sc, Answers pr env st.asg xs st'.asg ∧ st'.count = st.count + xs.length ∧ 0 < xs.length ∧ OneMode pr.scoring.greedy xs ∧
      pr.scoring.evaluate pr.input sol = .ok sc ∧ IsBest xs (sol, sc) := by
  have h0 := h
  unfold solve at h
  simp only [R.bind_eq_ok] at h
  obtain ⟨⟨sol0, st1⟩, h1, sc0, h2, h⟩ := h
  obtain ⟨a1, i1, n1, m1⟩ := solveAssignment_answer hw hm hA hs hi h1 h2
  cases hf : sc0.isFinite
  · rw [hf] at h
    simp only [Bool.not_false, if_true] at h
    cases h
    refine ⟨[(sol0, sc0)], Score.infinite, a1, n1, by simp, (by intro x hx; simp at hx; subst hx; exact m1), rfl, .inl ⟨rfl, ?_⟩⟩
    intro x hx; simp at hx; subst hx; exact hf
  · rw [hf] at h
    simp only [Bool.not_true, Bool.false_eq_true, if_false, R.bind_eq_ok] at h
    obtain ⟨⟨b, st2⟩, hl, h⟩ := h
    cases h
    obtain ⟨_, _, _, _, hsh⟩ := solveAssignment_spec hA hs hi h1
    have hgood := good_of_finite (F := fun _ => True) hw hm hs trivial hsh h2 hf
    obtain ⟨xs, l1, l2, l3, l4⟩ := loop_answers hw hm hg hA rounds (b := ⟨sol0, sc0⟩) hgood (by exact i1) hl
    obtain ⟨_, g2, _⟩ := loop_spec (F := fun _ => True) hw hm hg hA (fun _ _ _ => trivial) rounds (b := ⟨sol0, sc0⟩) hgood (by exact i1) hl
    have hmode : OneMode pr.scoring.greedy ([(sol0, sc0)] ++ xs) := by
      intro x hx
      rcases List.mem_cons.1 hx with rfl | hx
      · exact m1
      · exact l3 x hx
    refine ⟨(sol0, sc0) :: xs, b.score, Answers.trans a1 l1, ?_, by simp, hmode, g2.eval, ?_⟩
    · rw [l2]
      show st1.count + _ = _
      rw [n1, List.length_cons]; omega
    · have := isBest_foldl (g := pr.scoring.greedy) xs [(sol0, sc0)] (b := (sol0, sc0)) hmode
        (.inr ⟨by simp, hf, by intro x hx; simp at hx; subst hx; exact Score.le_refl _⟩)
      rw [← l4] at this
      exact this

end

/-- The answers given during a history of a worker, grouped by iteration. -/
theorem history_answers {pr : HProblem} {env : SEnv σ τ ρ} {Inv : τ → Prop} {InvR : ρ → Prop} (hE : WorkerWF pr env Inv InvR)
    {dl : Bool} {r r' : ρ} {h h' : HState σ τ} {seen : List (Solution × Score)} (H : History pr env dl r h seen r' h')
    (hi : Inv h.asg) (hr : InvR r) :
    Inv h'.asg ∧ InvR r' ∧ ∃ gs : List (List (Solution × Score) × (Solution × Score)),
      gs.map Prod.snd = seen ∧ Answers pr env.toHEnv h.asg (gs.flatMap Prod.fst) h'.asg ∧
      h'.count = h.count + (gs.flatMap Prod.fst).length ∧
      ∀ g ∈ gs, 0 < g.1.length ∧ OneMode pr.scoring.greedy g.1 ∧ IsBest g.1 g.2 := by
  induction H with
  | none e => obtain ⟨_, e2, e3, _⟩ := e; rw [← e2, ← e3]; exact ⟨hi, hr, [], rfl, .none _, rfl, by simp⟩
  | dry a b ih =>
    obtain ⟨i1, i2, gs, k1, k2, k3, k4⟩ := ih hi
    exact ⟨i1, hE.supplies.keeps _ _ _ i2 b, gs, k1, k2, k3, k4⟩
  | @more _ _ _ _ _ _ _ x a b c ih =>
    obtain ⟨i1, i2, gs, k1, k2, k3, k4⟩ := ih hi
    obtain ⟨s, b1, b2, b3⟩ := b.out
    obtain ⟨_, c2, c3, _⟩ := c
    have hs := hE.supplies.shape _ _ _ i2 b1
    obtain ⟨xs, sc, l1, l2, l3, l4, l5, l6⟩ := solve_answers hE.wf hE.pref hE.lawful hE.shaped i1 hs b2
    obtain ⟨j1, _⟩ := solve_spec (F := fun _ => True) hE.wf hE.pref hE.lawful hE.shaped (fun _ _ _ => trivial) i1 hs trivial b2
    rw [b3] at l5; cases l5
    rw [← c2, ← c3]
    refine ⟨j1, hE.supplies.keeps _ _ _ i2 b1, gs ++ [(xs, x)], by simp [k1], ?_, ?_, ?_⟩
    · simp only [List.flatMap_append, List.flatMap_cons, List.flatMap_nil, List.append_nil]
      exact Answers.trans k2 l1
    · simp only [List.flatMap_append, List.flatMap_cons, List.flatMap_nil, List.append_nil, List.length_append]
      omega
    · intro g hg
      rcases List.mem_append.1 hg with hg | hg
      · exact k4 g hg
      · simp only [List.mem_singleton] at hg; subst hg; exact ⟨l3, l4, l6⟩

end Wassign
