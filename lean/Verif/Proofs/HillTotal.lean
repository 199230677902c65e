import Verif.Proofs.Hill
import Verif.Spec.Draws
/-
Hill climbing ends and does not panic.
-/
namespace Wassign.Hill
open Spec
variable {σ τ : Type}

theorem nextInRange_value {g : RngOps σ} (hg : g.Lawful) (rs : σ) {n : Nat} (hn : 0 < n) (hmax : n ≤ i32Max) :
    nextInRange g rs 0 n = .ok ((g.sample rs).1 % n, (g.sample rs).2) := by
  have hm : (n : Int) ≤ 2147483647 := by
    have : i32Max = 2147483647 := rfl
    omega
  have h1 := Int.emod_nonneg (g.sample rs).1 (by omega : (n : Int) ≠ 0)
  have h2 := Int.emod_lt_of_pos (g.sample rs).1 (by omega : (0 : Int) < n)
  unfold nextInRange
  rw [chkI32_eq_ok.2 ⟨by omega, rfl⟩]
  simp only [R.bind_ok]
  rw [if_neg (by omega), if_neg (by omega)]
  simp only [Int.sub_zero]
  rw [chkI32_eq_ok.2 ⟨by omega, rfl⟩]
  simp

theorem drawIndex_value {g : RngOps σ} (hg : g.Lawful) (rs : σ) {n : Nat} (hn : 0 < n) (hmax : n ≤ i32Max) :
    drawIndex g rs n = .ok (((g.sample rs).1 % n).toNat, (g.sample rs).2) := by
  have h1 := Int.emod_nonneg (g.sample rs).1 (by omega : (n : Int) ≠ 0)
  unfold drawIndex
  rw [toI32_eq_ok.2 ⟨hmax, rfl⟩]
  simp only [R.bind_ok, nextInRange_value hg rs hn hmax]
  rw [if_neg (by omega)]
  rfl

theorem drawFresh_total {g : RngOps σ} (hg : g.Lawful) {n : Nat} (hn : 0 < n) (hmax : n ≤ i32Max) {used : List Nat} :
    ∀ (draws k : Nat) (rs : σ), k < draws → ((g.sample (g.after k rs)).1 % (n : Int)).toNat ∉ used →
      ∃ r, drawFresh g n used draws rs = .ok r := by
  intro draws
  induction draws with
  | zero => intro k rs h; omega
  | succ d ih =>
    intro k rs hk h
    simp only [drawFresh, drawIndex_value hg rs hn hmax, R.bind_ok]
    split
    · rename_i hc
      cases k with
      | zero => exact absurd (by simpa [RngOps.after] using hc) h
      | succ k => exact ih k _ (by omega) h
    · exact ⟨_, rfl⟩

theorem growCycle_total {g : RngOps σ} (hg : g.Lawful) {draws n : Nat} (hn : 0 < n) (hmax : n ≤ i32Max) (hv : g.Varied draws n) :
    ∀ (k : Nat) (cyc : List Nat) (rs : σ), n / 2 < cyc.length + k → 0 < k → ∃ r, growCycle g draws n k cyc rs = .ok r := by
  intro k
  induction k with
  | zero => intro cyc rs _ h; omega
  | succ k ih =>
    intro cyc rs h _
    have h3 : nextInRange g rs 0 3 = .ok ((g.sample rs).1 % 3, (g.sample rs).2) :=
      nextInRange_value hg rs (n := 3) (by omega) (by decide)
    simp only [growCycle, h3, R.bind_ok]
    split
    · rename_i hc
      obtain ⟨j, hj, hj'⟩ := hv cyc (by omega) (g.sample rs).2
      obtain ⟨c, hcc⟩ := drawFresh_total hg hn hmax draws j _ hj hj'
      rw [hcc, R.bind_ok]
      exact ih _ _ (by simp; omega) (by omega)
    · exact ⟨_, rfl⟩

theorem rotFold_total : ∀ (cyc : List Nat) (acc : Option Nat × List (Option Nat)), (∀ x ∈ cyc, x < acc.2.length) →
    ∃ r, cyc.foldlM rotStep acc = .ok r := by
  intro cyc
  induction cyc with
  | nil => intro acc _; exact ⟨acc, rfl⟩
  | cons k ks ih =>
    intro acc h
    rw [List.foldlM_cons]
    unfold rotStep
    rw [idx_ok (h k (by simp))]
    simp only [R.bind_ok, R.pure_eq]
    exact ih _ (by simp only [List.length_set]; exact fun x hx => h x (List.mem_cons_of_mem _ hx))

theorem rotate_total {data : List (Option Nat)} {cyc : List Nat} (hne : cyc ≠ []) (h : ∀ x ∈ cyc, x < data.length) :
    ∃ d, rotate data cyc = .ok d := by
  unfold rotate
  cases hz : cyc.getLast? with
  | none => exact absurd (List.getLast?_eq_none_iff.1 hz) hne
  | some z =>
    simp only [idx_ok (h z (List.mem_of_getLast? hz)), R.bind_ok]
    obtain ⟨r, hr⟩ := rotFold_total cyc (data[z]'(h z (List.mem_of_getLast? hz)), data) h
    rw [hr]
    exact ⟨_, rfl⟩

theorem swapNeighbor_total {g : RngOps σ} (hg : g.Lawful) {draws : Nat} {i : InputData} {s : Scheduling} (hl : s.length = i.nc)
    (hn : 0 < i.nc) (hmax : i.nc ≤ i32Max) (hv : g.Varied draws i.nc) (rs : σ) : ∃ r, swapNeighbor g draws i s rs = .ok r := by
  unfold swapNeighbor
  rw [hl, drawIndex_value hg rs hn hmax]
  simp only [R.bind_ok]
  obtain ⟨cyc, hc⟩ := growCycle_total hg hn hmax hv (i.nc / 2 + 1) [((g.sample rs).1 % (i.nc : Int)).toNat] (g.sample rs).2
    (by simp; omega) (by omega)
  have hfirst : ((g.sample rs).1 % (i.nc : Int)).toNat < i.nc := by
    have h1 := Int.emod_nonneg (g.sample rs).1 (by omega : (i.nc : Int) ≠ 0)
    have h2 := Int.emod_lt_of_pos (g.sample rs).1 (by omega : (0 : Int) < i.nc)
    omega
  obtain ⟨hnd, hlt, hne⟩ := growCycle_spec hg _ hc (by simp) (by simpa using hfirst) (by simp)
  obtain ⟨d, hd⟩ := rotate_total hne (data := s) (by rw [hl]; exact hlt)
  have hdl : d.length = i.nc := by rw [(rotate_perm hnd hd).length_eq, hl]
  rw [hc, R.bind_ok, hd, R.bind_ok]
  unfold Scheduling.withData
  rw [if_pos hdl]
  exact ⟨_, rfl⟩

/-- What the neighbour selection needs to run through. -/
structure PickReady (g : RngOps σ) (draws : Nat) (i : InputData) : Prop where
  wf : ∀ c ∈ i.schedCons, SchedConWF i c
  sizes : Sizes i
  varied : g.Varied draws i.nc

theorem trySwap_total {g : RngOps σ} (hg : g.Lawful) {draws : Nat} {i : InputData} (hr : PickReady g draws i) {s : Scheduling}
    (hs : SchedShape i s) (hn : 0 < i.nc) (res : List Scheduling) (rs : σ) : ∃ r, trySwap g draws i s res rs = .ok r := by
  unfold trySwap
  obtain ⟨w, hw⟩ := swapNeighbor_total hg hs.len hn hr.sizes.choices hr.varied rs
  have hsh := swap_shape hg hs (s' := w.1) (rs' := w.2) hw
  obtain ⟨b, hb⟩ := schedFeasible_total hsh.len hsh.range hr.sizes hr.wf
  rw [hw, R.bind_ok, hb]
  exact ⟨_, rfl⟩

theorem moveLoop_total {g : RngOps σ} (hg : g.Lawful) {draws maxN : Nat} {i : InputData} (hr : PickReady g draws i) {s : Scheduling}
    (hs : SchedShape i s) : ∀ (keys : List Nat), (∀ key ∈ keys, key < maxKey i) → ∀ (k : Nat) (res : List Scheduling) (rs : σ),
      ∃ r, moveLoop g draws maxN i s keys k res rs = .ok r := by
  intro keys
  induction keys with
  | nil => intro _ k res rs; exact ⟨_, rfl⟩
  | cons key ks ih =>
    intro hk k res rs
    have ih := ih (fun x hx => hk x (List.mem_cons_of_mem _ hx))
    obtain ⟨n, hn, hmove⟩ := neighbor_move hs (hk key (by simp))
    obtain ⟨b, hb⟩ := schedFeasible_total hmove.1.len hmove.1.range hr.sizes hr.wf
    simp only [moveLoop, hn, hb, R.bind_ok]
    split
    · exact ⟨_, rfl⟩
    split
    · exact ⟨_, rfl⟩
    split
    · exact ih _ _ _
    split
    · rename_i ha
      have hpos : 0 < i.nc := by
        unfold addSwap at ha
        simp only [Bool.and_eq_true, decide_eq_true_eq] at ha
        omega
      obtain ⟨w, hw⟩ := trySwap_total hg hr hs hpos (res ++ [n]) rs
      rw [hw, R.bind_ok]
      exact ih _ _ _
    · exact ih _ _ _

theorem fillLoop_total {g : RngOps σ} (hg : g.Lawful) {draws maxN : Nat} {i : InputData} (hr : PickReady g draws i) {s : Scheduling}
    (hs : SchedShape i s) (hn : 0 < i.nc) : ∀ (k : Nat) (res : List Scheduling) (rs : σ),
      ∃ r, fillLoop g draws maxN i s k res rs = .ok r := by
  intro k
  induction k with
  | zero => intro res rs; exact ⟨_, rfl⟩
  | succ k ih =>
    intro res rs
    simp only [fillLoop]
    split
    · exact ⟨_, rfl⟩
    · obtain ⟨w, hw⟩ := trySwap_total hg hr hs hn res rs
      rw [hw, R.bind_ok]
      exact ih _ _

theorem pickNeighbors_total {g : RngOps σ} (hg : g.Lawful) {draws maxN : Nat} {i : InputData} (hr : PickReady g draws i)
    {s : Scheduling} (hs : SchedShape i s) (rs : σ) : ∃ r, pickNeighbors g draws maxN i s rs = .ok r := by
  unfold pickNeighbors
  obtain ⟨r, h⟩ := moveLoop_total hg hr hs (maxN := maxN) _ (shuffled_keys hg maxN i rs) 0 []
    (if maxN < maxKey i then shuffleList g rs (List.range (maxKey i)) else (List.range (maxKey i), rs)).2
  simp only [h, R.bind_ok]
  split
  · rename_i hc
    simp only [Bool.and_eq_true, decide_eq_true_eq, addSwap] at hc
    exact fillLoop_total hg hr hs (by omega) _ _ _
  · exact ⟨_, rfl⟩

theorem _root_.Wassign.Spec.Solid.shaped {i : InputData} {asolve : τ → Scheduling → R (Option Assignment × τ)} {Inv : τ → Prop}
    (h : Solid i asolve Inv) : Shaped i asolve Inv := ⟨h.keeps, h.shape⟩

variable {pr : HProblem} {env : HEnv σ τ} {Inv : τ → Prop}

theorem solveAssignment_total (hw : WF pr.input) (hz : Sizes pr.input) (hA : Solid pr.input env.asolve Inv) {st : HState σ τ}
    {s : Scheduling} (hs : SchedShape pr.input s) (hv : SchedValid pr.input s) (hi : Inv st.asg) :
    ∃ sol st' sc, solveAssignment env st s = .ok (sol, st') ∧ Inv st'.asg ∧ pr.scoring.evaluate pr.input sol = .ok sc := by
  obtain ⟨r, t', hr⟩ := hA.total _ _ hi hs hv
  unfold solveAssignment
  simp only [hr, R.bind_ok]
  have hi' := hA.keeps _ _ _ _ hi hs hr
  cases r with
  | none => exact ⟨_, _, _, rfl, hi', rfl⟩
  | some a =>
    obtain ⟨h1, h2⟩ := hA.valid _ _ _ _ hi hs hv hr
    obtain ⟨w, cnt, _, _, _, he⟩ := evaluate_valid pr.scoring h1 hz hw hs.range h2
    exact ⟨_, _, _, rfl, hi', he⟩

theorem round_total (hw : WF pr.input) (hz : Sizes pr.input) (hA : Solid pr.input env.asolve Inv) {deadline : Bool} :
    ∀ (ns : List Scheduling), (∀ n ∈ ns, SchedShape pr.input n ∧ SchedValid pr.input n) → ∀ (found : Bool) (b : Best) (st : HState σ τ),
      Inv st.asg → ∃ r, round pr env deadline ns found b st = .ok r := by
  intro ns
  induction ns with
  | nil => intro _ found b st _; exact ⟨_, rfl⟩
  | cons n ns ih =>
    intro hn found b st hi
    have ih := ih (fun x hx => hn x (List.mem_cons_of_mem _ hx))
    obtain ⟨c1, _⟩ := clock_eq (env := env) (deadline := deadline) (st := st)
    obtain ⟨sol, st', sc, h1, h2, h3⟩ := solveAssignment_total hw hz hA (hn n (by simp)).1 (hn n (by simp)).2
      (st := (clock env deadline st).2) (by rw [c1]; exact hi)
    simp only [round, h1, h3, R.bind_ok]
    split
    · exact ⟨_, rfl⟩
    · split
      · exact ih _ _ _ h2
      · exact ih _ _ _ h2

theorem loop_total (hw : WF pr.input) (hz : Sizes pr.input) (hg : env.rng.Lawful) (hv : env.rng.Varied env.draws pr.input.nc)
    (hA : Solid pr.input env.asolve Inv) {deadline : Bool} : ∀ (k : Nat) (b : Best) (st : HState σ τ),
      Good pr (fun _ => True) (b.sol, b.score) → Inv st.asg → b.score.rank pr.scoring.greedy < k → ∃ r, loop pr env deadline k b st = .ok r := by
  have hm : pr.input.maxPref ≤ u32Max := Nat.le_of_lt hz.maxPref
  intro k
  induction k with
  | zero => intro b st _ _ h; omega
  | succ k ih =>
    intro b st hb hi hk
    obtain ⟨c1, c2, c3, c4⟩ := clock_eq (env := env) (deadline := deadline) (st := st)
    obtain ⟨s, a, e, hsh, _⟩ := hb.whole
    have e : b.sol = .complete s a := e
    obtain ⟨ns, hns⟩ := pickNeighbors_total hg (maxN := pr.maxNeighbors) ⟨hw.sched, hz, hv⟩ hsh (clock env deadline st).2.rng
    have hp := (pickNeighbors_spec hg hsh (l := ns.1) (rs' := ns.2) hns).1
    have hu : pr.input.nc ≤ u32Max := by
      have := hz.choices
      have h1 : i32Max = 2147483647 := rfl
      have h2 : u32Max = 4294967295 := rfl
      omega
    have hpu : pr.input.np ≤ u32Max := by
      have := hz.choosers
      have h1 : i32Max = 2147483647 := rfl
      have h2 : u32Max = 4294967295 := rfl
      omega
    obtain ⟨r, hr⟩ := round_total (pr := pr) (deadline := deadline) hw hz hA ns.1 (fun n hn => ⟨(hp n hn).1,
      (schedFeasible_spec (hp n hn).1.len hu hpu hw.sched (hp n hn).2.1).1 rfl⟩) false b
      { (clock env deadline st).2 with rng := ns.2 } (by show Inv (clock env deadline st).2.asg; rw [c1]; exact hi)
    obtain ⟨j1, j2, _, j4, _⟩ := round_spec hw hm hA.shaped ns.1 (fun n hn => ⟨(hp n hn).1, trivial⟩) hb
      (by show Inv (clock env deadline st).2.asg; rw [c1]; exact hi) hr
    have hso : schedOf b.sol = .ok s := by rw [e]; rfl
    simp only [loop, hso, hns, hr, R.bind_ok]
    split
    · exact ⟨_, rfl⟩
    · split
      · exact ⟨_, rfl⟩
      · split
        · rename_i hf
          exact ih _ _ j2 j1 (Nat.lt_of_lt_of_le (j4 hf rfl) (Nat.le_of_lt_succ hk))
        · exact ⟨_, rfl⟩

theorem solve_total (hw : WF pr.input) (hz : Sizes pr.input) (hg : env.rng.Lawful) (hv : env.rng.Varied env.draws pr.input.nc)
    (hA : Solid pr.input env.asolve Inv) (deadline : Bool) {st : HState σ τ} (hi : Inv st.asg) {s : Scheduling}
    (hs : SchedShape pr.input s) (hsv : SchedValid pr.input s) : ∃ r, solve pr env deadline st s = .ok r := by
  have hm : pr.input.maxPref ≤ u32Max := Nat.le_of_lt hz.maxPref
  obtain ⟨sol, st', sc, h1, h2, h3⟩ := solveAssignment_total hw hz hA hs hsv hi
  have hsp := solveAssignment_spec hA.shaped hs hi h1
  unfold solve
  simp only [h1, h3, R.bind_ok]
  split
  · exact ⟨_, rfl⟩
  · rename_i hf
    have hf : sc.isFinite = true := by simpa using hf
    obtain ⟨r, hr⟩ := loop_total hw hz hg hv hA (deadline := deadline) rounds ⟨sol, sc⟩
      (publish st' (Event.ofBest env.worker sol sc)) (good_of_finite hw hm hs trivial hsp.2.2.2.2 h3 hf) h2
      (by have := Score.rank_lt pr.scoring.greedy sc; unfold rounds; exact Nat.lt_succ_of_lt this)
    rw [hr]
    exact ⟨_, rfl⟩

end Wassign.Hill
