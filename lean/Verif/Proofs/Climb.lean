import Verif.Spec.Climb
import Verif.Proofs.Hill
import Verif.Proofs.Shotgun
import Verif.Proofs.Best
/-
Hill climbing ends in a local optimum.
-/
namespace Wassign
open Spec
namespace Hill
variable {σ τ : Type} {pr : HProblem} {env : HEnv σ τ} {Inv : τ → Prop} {F : Scheduling → Prop}

theorem Stretch.rank_le {w : Nat} {b b' : Solution × Score} {evs : List Event} {n n' : Nat} (h : Stretch pr F w b b' evs n n') :
    b'.2.rank pr.scoring.greedy ≤ b.2.rank pr.scoring.greedy := by
  obtain ⟨ys, hys⟩ := List.getLast?_eq_some_iff.1 h.last
  have hp := h.improving
  unfold Improving at hp
  have hmem : b' ∈ b :: announced evs := by rw [hys]; simp
  rw [List.pairwise_cons] at hp
  rcases List.mem_cons.1 hmem with e | e
  · rw [e]; exact Nat.le_refl _
  · exact Nat.le_of_lt (hp.1 _ e)

/-- What is not better than `b` is not better than something better than `b`. -/
theorem not_lt_of_rank {g : Bool} {sc b b' : Score} (hs : sc.InMode g) (hb : b.InMode g) (fb : b.isFinite = true) (hb' : b'.InMode g) (fb' : b'.isFinite = true)
    (hr : b'.rank g ≤ b.rank g) (h : Score.lt sc b = false) : Score.lt sc b' = false := by
  cases hlt : Score.lt sc b' with
  | false => rfl
  | true =>
    obtain ⟨f, hk⟩ := Score.lt_rank hs hb' fb' hlt
    rw [Score.rank_lt_lt hs hb f fb (by omega)] at h
    exact h

/-- One round over the neighbours, if the deadline does not pass: the solver has examined every one of them, and none is better than
the best it ends with. -/
theorem round_best (hw : WF pr.input) (hm : pr.input.maxPref ≤ u32Max) (hA : Shaped pr.input env.asolve Inv) {deadline : Bool} :
    ∀ (ns : List Scheduling), (∀ n ∈ ns, SchedShape pr.input n ∧ F n) → ∀ {found found' : Bool} {b b' : Best} {st st' : HState σ τ},
      Good pr F (b.sol, b.score) → Inv st.asg → round pr env deadline ns found b st = .ok (false, found', b', st') →
      ∀ n ∈ ns, ∃ sc, Examined pr env Inv n sc ∧ Score.lt sc b'.score = false := by
  intro ns
  induction ns with
  | nil => intro _ _ _ _ _ _ _ _ _ _ n hn; cases hn
  | cons n ns ih =>
    intro hn found found' b b' st st' hb hi h
    have hn' : ∀ x ∈ ns, SchedShape pr.input x ∧ F x := fun x hx => hn x (List.mem_cons_of_mem _ hx)
    obtain ⟨hnn, hnf⟩ := hn n (by simp)
    simp only [round] at h
    obtain ⟨c1, c2, c3, _⟩ := clock_eq (env := env) (deadline := deadline) (st := st)
    split at h
    · cases h
    · simp only [R.bind_eq_ok] at h
      obtain ⟨⟨sol, st1⟩, h1, sc, h2, h⟩ := h
      obtain ⟨i1, _, _, ⟨r, t', hr, hsol⟩, hsh⟩ := solveAssignment_spec hA hnn (by rw [c1]; exact hi) h1
      have hmode : sc.InMode pr.scoring.greedy := evaluate_inMode hw hm (by
        intro s' a e
        obtain ⟨rfl, h⟩ := hsh s' a e
        exact h) h2
      have hex : Examined pr env Inv n sc := by
        refine ⟨_, r, t', (by rw [c1]; exact hi), hr, ?_⟩
        rw [← h2, hsol]
        cases r <;> rfl
      split at h
      · rename_i hlt
        obtain ⟨hfin, hrank⟩ := Score.lt_rank hmode hb.mode hb.fin hlt
        have hgood := good_of_finite hw hm hnn hnf hsh h2 hfin
        have hrest := ih hn' hgood (by exact i1) h
        obtain ⟨_, j2, ⟨evs, _, j4⟩, _⟩ := round_spec hw hm hA ns hn' hgood (by exact i1) h
        intro x hx
        rcases List.mem_cons.1 hx with rfl | hx
        · refine ⟨sc, hex, not_lt_of_rank hmode hmode hfin j2.mode j2.fin j4.rank_le ?_⟩
          cases hsc : Score.lt sc sc with
          | false => rfl
          | true => exact absurd (Score.lt_rank hmode hmode hfin hsc).2 (Nat.lt_irrefl _)
        · exact hrest x hx
      · rename_i hlt
        have hrest := ih hn' hb (by exact i1) h
        obtain ⟨_, j2, ⟨evs, _, j4⟩, _⟩ := round_spec hw hm hA ns hn' hb (by exact i1) h
        intro x hx
        rcases List.mem_cons.1 hx with rfl | hx
        · exact ⟨sc, hex, not_lt_of_rank hmode hb.mode hb.fin j2.mode j2.fin j4.rank_le (by simpa using hlt)⟩
        · exact hrest x hx

theorem round_on_time {deadline : Bool} (hl : deadline = true → ∀ t, env.late t = false) :
    ∀ (ns : List Scheduling) {found ret found' : Bool} {b b' : Best} {st st' : HState σ τ},
      round pr env deadline ns found b st = .ok (ret, found', b', st') → ret = false := by
  intro ns
  induction ns with
  | nil => intro _ _ _ _ _ _ _ h; cases h; rfl
  | cons n ns ih =>
    intro found ret found' b b' st st' h
    simp only [round] at h
    have hc : (clock env deadline st).1 = false := by
      unfold clock; split
      · rename_i hd; exact hl hd _
      · rfl
    rw [hc] at h
    simp only [Bool.false_eq_true, if_false, R.bind_eq_ok] at h
    obtain ⟨_, _, sc, _, h⟩ := h
    split at h <;> exact ih h

/-- If the deadline does not pass, the main loop ends in a local optimum. -/
theorem loop_best (hw : WF pr.input) (hm : pr.input.maxPref ≤ u32Max) (hg : env.rng.Lawful) (hA : Shaped pr.input env.asolve Inv)
    (hF : ∀ n, n.length = pr.input.nc → schedFeasible pr.input n = .ok true → F n) {deadline : Bool}
    (hl : deadline = true → ∀ t, env.late t = false) :
    ∀ (k : Nat) {b b' : Best} {st st' : HState σ τ}, Good pr F (b.sol, b.score) → Inv st.asg →
      loop pr env deadline k b st = .ok (b', st') →
      ∃ s, schedOf b'.sol = .ok s ∧ LocallyBest pr env Inv s b'.score := by
  intro k
  induction k with
  | zero => intro b b' st st' _ _ h; simp [loop, panic'] at h
  | succ k ih =>
    intro b b' st st' hb hi h
    simp only [loop] at h
    obtain ⟨c1, c2, c3, c4⟩ := clock_eq (env := env) (deadline := deadline) (st := st)
    have hc : (clock env deadline st).1 = false := by
      unfold clock; split
      · rename_i hd; exact hl hd _
      · rfl
    rw [hc] at h
    simp only [Bool.false_eq_true, if_false, R.bind_eq_ok] at h
    obtain ⟨s, hs, ⟨ns, rs⟩, hns, ⟨ret, found, b1, st1⟩, hr, h⟩ := h
    obtain ⟨s', a, e, hsh, _⟩ := hb.whole
    have hss : s = s' := by
      simp only at e
      rw [e] at hs; cases hs; rfl
    subst hss
    obtain ⟨hp, _, _⟩ := pickNeighbors_spec hg hsh hns
    have hret := round_on_time hl ns hr
    subst hret
    have hn : ∀ n ∈ ns, SchedShape pr.input n ∧ F n := fun n hn => ⟨(hp n hn).1, hF n (hp n hn).1.len (hp n hn).2.1⟩
    have hi' : Inv (clock env deadline st).2.asg := by rw [c1]; exact hi
    obtain ⟨j1, j2, _, _, _, j7⟩ := round_spec hw hm hA ns hn hb (by exact hi') hr
    simp only [Bool.false_eq_true, if_false] at h
    cases found with
    | true =>
      simp only [if_true] at h
      exact ih j2 j1 h
    | false =>
      simp only [Bool.false_eq_true, if_false] at h
      cases h
      have := j7 rfl
      subst this
      exact ⟨s, hs, _, ns, rs, hns, round_best hw hm hA ns hn hb (by exact hi') hr⟩

/-- If the deadline does not pass, hill climbing ends in a local optimum. -/
theorem solve_best (hw : WF pr.input) (hm : pr.input.maxPref ≤ u32Max) (hg : env.rng.Lawful) (hA : Shaped pr.input env.asolve Inv)
    (hF : ∀ n, n.length = pr.input.nc → schedFeasible pr.input n = .ok true → F n) {deadline : Bool}
    (hl : deadline = true → ∀ t, env.late t = false) {st st' : HState σ τ} (hi : Inv st.asg) {s : Scheduling}
    (hs : SchedShape pr.input s) (hf0 : F s) {sol : Solution} (h : solve pr env deadline st s = .ok (sol, st')) :
    sol = .invalid ∨ ∃ s' a sc, sol = .complete s' a ∧ Good pr F (sol, sc) ∧ LocallyBest pr env Inv s' sc := by
  unfold solve at h
  simp only [R.bind_eq_ok] at h
  obtain ⟨⟨sol0, st1⟩, h1, sc0, h2, h⟩ := h
  obtain ⟨i1, _, _, _, hsh⟩ := solveAssignment_spec hA hs hi h1
  cases hf : sc0.isFinite
  · rw [hf] at h
    simp only [Bool.not_false, if_true] at h
    cases h
    exact .inl rfl
  · rw [hf] at h
    simp only [Bool.not_true, Bool.false_eq_true, if_false, R.bind_eq_ok] at h
    obtain ⟨⟨b, st2⟩, hlp, h⟩ := h
    cases h
    have hgood := good_of_finite hw hm hs hf0 hsh h2 hf
    obtain ⟨_, j2, _⟩ := loop_spec hw hm hg hA hF rounds (b := ⟨sol0, sc0⟩) hgood (by exact i1) hlp
    obtain ⟨s1, e1, e2⟩ := loop_best hw hm hg hA hF hl rounds (b := ⟨sol0, sc0⟩) hgood (by exact i1) hlp
    obtain ⟨s2, a, e, _⟩ := j2.whole
    simp only at e
    rw [e] at e1
    cases e1
    exact .inr ⟨s1, a, b.score, e, j2, e2⟩

/-! ### Which neighbours are picked -/

theorem trySwap_keeps {g : RngOps σ} {draws : Nat} {i : InputData} {s : Scheduling}
    {res l : List Scheduling} {rs rs' : σ} (h : trySwap g draws i s res rs = .ok (l, rs')) : ∀ n ∈ res, n ∈ l := by
  unfold trySwap at h
  simp only [R.bind_eq_ok] at h
  obtain ⟨w, _, ok, _, h⟩ := h
  cases h
  intro n hn
  split
  · exact List.mem_append_left _ hn
  · exact hn

theorem fillLoop_keeps {g : RngOps σ} {draws maxN : Nat} {i : InputData} {s : Scheduling} :
    ∀ (k : Nat) {res l : List Scheduling} {rs rs' : σ}, fillLoop g draws maxN i s k res rs = .ok (l, rs') → ∀ n ∈ res, n ∈ l := by
  intro k
  induction k with
  | zero => intro res l rs rs' h; cases h; exact fun _ h => h
  | succ k ih =>
    intro res l rs rs' h
    simp only [fillLoop] at h
    split at h
    · cases h; exact fun _ h => h
    · rw [R.bind_eq_ok] at h
      obtain ⟨w, hw, h⟩ := h
      exact fun n hn => ih h n (trySwap_keeps hw n hn)

/-- The loop over the keys, if there is room for everything: every feasible scheduling of a key is in the result. -/
theorem moveLoop_all {g : RngOps σ} (hg : g.Lawful) {draws maxN : Nat} {i : InputData} {s : Scheduling} (hs : SchedShape i s) :
    ∀ (keys : List Nat) {k : Nat} {res l : List Scheduling} {rs rs' : σ}, (∀ n ∈ res, Picked i s n) → (∀ key ∈ keys, key < maxKey i) →
      res.length + (if addSwap i then 2 else 1) * keys.length ≤ maxN → k + keys.length ≤ maxN * 32 + 1 →
      moveLoop g draws maxN i s keys k res rs = .ok (l, rs') →
      (∀ n ∈ res, n ∈ l) ∧ ∀ key ∈ keys, ∀ n, neighbor i s key = .ok n → schedFeasible i n = .ok true → n ∈ l := by
  intro keys
  induction keys with
  | nil =>
    intro k res l rs rs' _ _ _ _ h
    cases h
    exact ⟨fun _ h => h, by simp⟩
  | cons key ks ih =>
    intro k res l rs rs' hres hk hlen hk32 h
    have hk' : ∀ key ∈ ks, key < maxKey i := fun x hx => hk x (List.mem_cons_of_mem _ hx)
    simp only [List.length_cons] at hlen hk32
    have hroom : ¬ maxN ≤ res.length := by
      have : (if addSwap i then 2 else 1) ≥ 1 := by split <;> omega
      have : (if addSwap i then 2 else 1) * (ks.length + 1) ≥ 1 * 1 := Nat.mul_le_mul this (by omega)
      omega
    simp only [moveLoop] at h
    rw [if_neg hroom, if_neg (by omega)] at h
    simp only [R.bind_eq_ok] at h
    obtain ⟨n, hn, ok, hok, h⟩ := h
    obtain ⟨n', hn', hmove⟩ := neighbor_move hs (hk key (by simp))
    rw [hn] at hn'
    injection hn' with hn'
    subst hn'
    cases ok
    · simp only [Bool.not_false, if_true] at h
      obtain ⟨h1, h2⟩ := ih hres hk' (by rw [Nat.mul_add] at hlen; omega) (by omega) h
      refine ⟨h1, ?_⟩
      intro key' hkey' x hx hxf
      rcases List.mem_cons.1 hkey' with rfl | hkey'
      · rw [hn] at hx; cases hx
        rw [hok] at hxf; cases hxf
      · exact h2 key' hkey' x hx hxf
    · simp only [Bool.not_true, Bool.false_eq_true, if_false] at h
      have hres1 : ∀ x ∈ res ++ [n], Picked i s x := by
        intro x hx
        simp only [List.mem_append, List.mem_singleton] at hx
        rcases hx with hx | rfl
        · exact hres x hx
        · exact ⟨hmove.1, hok, .inl hmove⟩
      have fin : ∀ {res2 : List Scheduling}, (∀ x ∈ res ++ [n], x ∈ res2) →
          (∀ n ∈ res2, n ∈ l) ∧ (∀ key ∈ ks, ∀ n, neighbor i s key = .ok n → schedFeasible i n = .ok true → n ∈ l) →
          (∀ n ∈ res, n ∈ l) ∧ ∀ key' ∈ key :: ks, ∀ n, neighbor i s key' = .ok n → schedFeasible i n = .ok true → n ∈ l := by
        intro res2 hsub ⟨h1, h2⟩
        refine ⟨fun x hx => h1 x (hsub x (by simp [hx])), ?_⟩
        intro key' hkey' x hx hxf
        rcases List.mem_cons.1 hkey' with rfl | hkey'
        · rw [hn] at hx; cases hx
          exact h1 n (hsub n (by simp))
        · exact h2 key' hkey' x hx hxf
      cases ha : addSwap i
      · rw [ha] at h hlen
        simp only [Bool.false_eq_true, if_false] at h hlen
        exact fin (fun x hx => hx) (ih hres1 hk' (by rw [ha]; simp; omega) (by omega) h)
      · rw [ha] at h hlen
        simp only [if_true, R.bind_eq_ok] at h hlen
        obtain ⟨w, hw, h⟩ := h
        obtain ⟨hw1, _, hw3⟩ := trySwap_spec hg hs hw hres1
        exact fin (trySwap_keeps hw) (ih hw1 hk' (by rw [ha]; simp at hw3 ⊢; omega) (by omega) h)

/-- If the limit is at least twice the number of moves, every feasible move is picked. -/
theorem pickNeighbors_all {g : RngOps σ} (hg : g.Lawful) {draws maxN : Nat} {i : InputData} {s : Scheduling}
    (hs : SchedShape i s) (hmax : (if addSwap i then 2 else 1) * (i.nc * i.ns) ≤ maxN) {rs rs' : σ} {l : List Scheduling}
    (h : pickNeighbors g draws maxN i s rs = .ok (l, rs')) {n : Scheduling} (hn : SingleMove i s n)
    (hf : schedFeasible i n = .ok true) : n ∈ l := by
  unfold pickNeighbors at h
  simp only [R.bind_eq_ok] at h
  obtain ⟨r, hr, h⟩ := h
  have hle : maxKey i ≤ (if addSwap i then 2 else 1) * (i.nc * i.ns) := by unfold maxKey; split <;> omega
  rw [if_neg (by omega)] at hr
  obtain ⟨key, ⟨hkey, hnb⟩, _⟩ := move_neighbor hs hn
  have hm := (moveLoop_all hg hs _ (by simp) (fun key hk => List.mem_range.1 hk)
    (by simp only [List.length_nil, Nat.zero_add, List.length_range]; exact hmax)
    (by simp only [List.length_range]; omega) hr).2 key
    (List.mem_range.2 hkey) n hnb hf
  split at h
  · exact fillLoop_keeps _ h n hm
  · cases h; exact hm

end Hill
end Wassign

namespace Wassign
open Spec Hill
variable {σ τ ρ : Type}

/-- What a worker has recorded: nothing, or a local optimum. -/
def Climbed (pr : HProblem) (env : SEnv σ τ ρ) (Inv : τ → Prop) (F : Scheduling → Prop) (st : SState σ τ ρ) : Prop :=
  Inv st.hill.asg ∧ (st.progress.bestScore.isFinite = false ∨ ∃ s a, st.progress.bestSolution = .complete s a ∧
    Good pr F (st.progress.bestSolution, st.progress.bestScore) ∧ LocallyBest pr env.toHEnv Inv s st.progress.bestScore)

theorem iterate_climbed {pr : HProblem} {env : SEnv σ τ ρ} {Inv : τ → Prop} {F : Scheduling → Prop} (hw : WF pr.input)
    (hm : pr.input.maxPref ≤ u32Max) (hg : env.rng.Lawful) (hA : Shaped pr.input env.asolve Inv)
    (hF : ∀ n, n.length = pr.input.nc → schedFeasible pr.input n = .ok true → F n)
    (hnext : ∀ r s r', env.next r = .ok (some s, r') → SchedShape pr.input s ∧ F s) (hl : ∀ t, env.late t = false) :
    ∀ (n k : Nat) (st st' : SState σ τ ρ), Climbed pr env Inv F st → Shotgun.iterate pr env true n st = .ok (k, st') →
      Climbed pr env Inv F st' := by
  intro n
  induction n with
  | zero => intro k st st' h hs; cases hs; exact h
  | succ n ih =>
    intro k st st' h hs
    have h1 : Climbed pr env Inv F (Shotgun.clock env true st).2 := by unfold Shotgun.clock; split <;> exact h
    unfold Shotgun.iterate at hs
    simp only at hs
    generalize (Shotgun.clock env true st) = c at h1 hs
    split at hs
    · cases hs; exact h1
    · rw [R.bind_eq_ok] at hs
      obtain ⟨⟨x, r⟩, hx, hs⟩ := hs
      cases x with
      | none => cases hs; exact h1
      | some s =>
        simp only at hs
        rw [R.bind_eq_ok] at hs
        obtain ⟨⟨sol, h'⟩, h2, hs⟩ := hs
        obtain ⟨hs1, hs2⟩ := hnext _ _ _ hx
        have hinv := (solve_spec hw hm hg hA hF h1.1 hs1 hs2 h2).1
        have hbest := solve_best hw hm hg hA hF (fun _ => hl) h1.1 hs1 hs2 h2
        rw [R.bind_eq_ok] at hs
        obtain ⟨sc, hsc, hs⟩ := hs
        rw [R.bind_eq_ok] at hs
        obtain ⟨⟨k', st2⟩, h4, hs⟩ := hs
        cases hs
        refine ih _ _ _ ?_ h4
        refine ⟨?_, ?_⟩
        · show Inv (Shotgun.record env sol sc _).hill.asg
          unfold Shotgun.record; split <;> exact hinv
        · show (Shotgun.record env sol sc _).progress.bestScore.isFinite = false ∨ ∃ s a, (Shotgun.record env sol sc _).progress.bestSolution = _ ∧
            Good pr F ((Shotgun.record env sol sc _).progress.bestSolution, (Shotgun.record env sol sc _).progress.bestScore) ∧
            LocallyBest pr env.toHEnv Inv s (Shotgun.record env sol sc _).progress.bestScore
          unfold Shotgun.record
          split
          · rename_i hlt
            simp only
            rcases hbest with e | ⟨s', a, sc', e1, e2, e3⟩
            · subst e
              simp [Scoring.evaluate] at hsc
              subst hsc
              have := Score.lt_finite hlt
              exact absurd this (by decide)
            · have e4 := e2.eval
              simp only at e4
              have : sc = sc' := by rw [hsc] at e4; cases e4; rfl
              subst this
              exact .inr ⟨s', a, e1, e2, e3⟩
          · exact h1.2

end Wassign
