import Verif.Proofs.HillAsg
import Verif.Props.Rng
import Verif.Props.Scoring
import Verif.Props.Assignment
/-
Property theorems about hill climbing: C16-C19.

The assignment solver is a parameter: `Shaped` (Spec/Progress.lean) asks only that the assignments it returns have the
right dimensions; `C16_real_solver` shows that the real solver meets it.
-/
namespace Wassign
open Spec Hill

/-! ### C17 -/

/-- **C17**: every key in the range used stands for a scheduling that differs from the given one in exactly one
choice. -/
theorem C17_keys_are_moves (i : InputData) (s : Scheduling) (hs : SchedShape i s) (key : Nat) (hk : key < i.nc * i.ns) :
    ∃ s', neighbor i s key = .ok s' ∧ SingleMove i s s' :=
  neighbor_move hs hk

/-- **C17**: and every such scheduling has exactly one key. -/
theorem C17_moves_have_one_key (i : InputData) (s s' : Scheduling) (hs : SchedShape i s) (h : SingleMove i s s') :
    ∃ key, (key < i.nc * i.ns ∧ neighbor i s key = .ok s') ∧
      ∀ key', key' < i.nc * i.ns ∧ neighbor i s key' = .ok s' → key' = key :=
  move_neighbor hs h

/-- The example scheduling has eight moves; key 3 schedules the omitted choice. -/
example : (List.range (Ex.inp.nc * Ex.inp.ns)).map (neighbor Ex.inp Ex.sch) =
    [.ok [none, some 1, some 1, none], .ok [some 0, none, some 1, none], .ok [some 0, some 1, none, none],
     .ok [some 0, some 1, some 1, some 0], .ok [some 1, some 1, some 1, none], .ok [some 0, some 0, some 1, none],
     .ok [some 0, some 1, some 0, none], .ok [some 0, some 1, some 1, some 1]] := by decide +kernel

example : SingleMove Ex.inp Ex.sch [some 0, some 1, some 1, some 0] := by
  obtain ⟨s', h, hm⟩ := C17_keys_are_moves Ex.inp Ex.sch AsgEx.sch_shape 3 (by decide)
  have : neighbor Ex.inp Ex.sch 3 = .ok [some 0, some 1, some 1, some 0] := by decide +kernel
  rw [this] at h; cases h; exact hm

/-! ### C18 -/

/-- **C18**: a swap neighbour only permutes the slots among the choices, so every slot keeps its number of choices
(and the number of omitted choices stays the same), for every random engine. -/
theorem C18_swap_permutes {σ : Type} (g : RngOps σ) (hg : g.Lawful) (draws : Nat) (i : InputData) (s s' : Scheduling)
    (hs : SchedShape i s) (rs rs' : σ) (h : swapNeighbor g draws i s rs = .ok (s', rs')) :
    SchedShape i s' ∧ s'.Perm s ∧ ∀ t, slotSize i s' t = slotSize i s t := by
  have hp := swapNeighbor_perm hg h
  refine ⟨swap_shape hg hs h, hp, fun t => ?_⟩
  rw [slotSize_count (by rw [hp.length_eq, hs.len]), slotSize_count hs.len, hp.count_eq]

/-- An engine whose samples count upwards. -/
def Ex.counter : RngOps Nat where
  sample s := (((s % 2147483648 : Nat) : Int), s + 1)
  shuffle s n := ((List.range n).reverse, s + 1)

theorem Ex.counter_lawful : Ex.counter.Lawful where
  sample_range s := by
    show -2147483648 ≤ ((s % 2147483648 : Nat) : Int) ∧ ((s % 2147483648 : Nat) : Int) ≤ 2147483647
    omega
  shuffle_perm s n := List.reverse_perm _

theorem Ex.counter_after : ∀ (k s : Nat), Ex.counter.after k s = s + k := by
  intro k
  induction k with
  | zero => intro s; rfl
  | succ k ih => intro s; show Ex.counter.after k (s + 1) = _; rw [ih]; omega

theorem Ex.counter_varied : Ex.counter.Varied 4 4 := by
  intro used hu s
  have : ∃ v, v < 4 ∧ v ∉ used := by
    apply Classical.byContradiction
    intro hno
    have hall : ∀ v ∈ List.range 4, v ∈ used := by
      intro v hv
      apply Classical.byContradiction
      intro hn
      exact hno ⟨v, List.mem_range.1 hv, hn⟩
    have := (List.nodup_range (n := 4)).subperm hall |>.length_le
    simp at this
    omega
  obtain ⟨v, hv, hn⟩ := this
  refine ⟨(v + 4 - s % 4) % 4, by omega, ?_⟩
  rw [Ex.counter_after]
  show (((((s + (v + 4 - s % 4) % 4) % 2147483648 : Nat) : Int)) % ((4 : Nat) : Int)).toNat ∉ used
  have : (((((s + (v + 4 - s % 4) % 4) % 2147483648 : Nat) : Int)) % ((4 : Nat) : Int)).toNat = v := by omega
  rw [this]
  exact hn

/-- A swap neighbour along a cycle of two choices. -/
example : swapNeighbor Ex.counter 4 Ex.inp Ex.sch 5 = .ok ([some 0, none, some 1, some 1], 9) := by decide +kernel

/-! ### C19 -/

/-- **C19**, partial: only feasible schedulings are picked, each a single move or a swap, and at most one more than
`max_neighbors`; at most `max_neighbors` if there are no swap neighbours (a single slot or a single choice) or the
limit is 0. Missing: the limit itself, which the code can exceed by one (`C19_limit_exceeded`). -/
theorem C19_neighbors_feasible_partial {σ : Type} (g : RngOps σ) (hg : g.Lawful) (draws maxN : Nat) (i : InputData) (hw : WF i)
    (hz : Sizes i) (s : Scheduling) (hs : SchedShape i s) (rs rs' : σ) (l : List Scheduling)
    (h : pickNeighbors g draws maxN i s rs = .ok (l, rs')) :
    (∀ n ∈ l, SchedShape i n ∧ SchedValid i n ∧ (SingleMove i s n ∨ n.Perm s)) ∧ l.length ≤ maxN + 1 ∧
    (i.nc ≤ 1 ∨ i.ns ≤ 1 ∨ maxN = 0 → l.length ≤ maxN) := by
  obtain ⟨h1, h2, h3⟩ := pickNeighbors_spec hg hs h
  have hu : i.nc ≤ u32Max := by
    have := hz.choices
    have h1 : i32Max = 2147483647 := rfl
    have h2 : u32Max = 4294967295 := rfl
    omega
  have hpu : i.np ≤ u32Max := by
    have := hz.choosers
    have h1 : i32Max = 2147483647 := rfl
    have h2 : u32Max = 4294967295 := rfl
    omega
  refine ⟨fun n hn => ⟨(h1 n hn).1, (schedFeasible_spec (h1 n hn).1.len hu hpu hw.sched (h1 n hn).2.1).1 rfl, (h1 n hn).2.2⟩,
    ?_, ?_⟩
  · split at h2 <;> omega
  · intro hc
    by_cases h0 : maxN = 0
    · rw [h3 h0]; simp
    · have : addSwap i = false := by
        unfold addSwap
        rw [Bool.and_eq_false_iff]
        simp only [decide_eq_false_iff_not]
        omega
      rw [this] at h2
      simpa using h2

/-- Beyond the limit there is at most the swap that came with the last move. -/
def Companion (i : InputData) (s : Scheduling) (maxN : Nat) (l : List Scheduling) : Prop :=
  maxN < l.length → ∃ n, l[maxN - 1]? = some n ∧ SingleMove i s n

theorem trySwap_shape {σ : Type} {g : RngOps σ} {draws : Nat} {i : InputData} {s : Scheduling}
    {res l : List Scheduling} {rs rs' : σ} (h : trySwap g draws i s res rs = .ok (l, rs')) : l = res ∨ ∃ w, l = res ++ [w] := by
  unfold trySwap at h
  simp only [R.bind_eq_ok] at h
  obtain ⟨w, hw, ok, hok, h⟩ := h
  cases h
  cases ok
  · exact .inl rfl
  · exact .inr ⟨_, rfl⟩

theorem moveLoop_companion {σ : Type} {g : RngOps σ} {draws maxN : Nat} {i : InputData} {s : Scheduling} (hs : SchedShape i s) :
    ∀ (keys : List Nat) {k : Nat} {res l : List Scheduling} {rs rs' : σ}, (∀ key ∈ keys, key < maxKey i) →
      moveLoop g draws maxN i s keys k res rs = .ok (l, rs') → Companion i s maxN res → Companion i s maxN l := by
  intro keys
  induction keys with
  | nil => intro k res l rs rs' _ h hres; cases h; exact hres
  | cons key ks ih =>
    intro k res l rs rs' hk h hres
    have hk' : ∀ key ∈ ks, key < maxKey i := fun x hx => hk x (List.mem_cons_of_mem _ hx)
    simp only [moveLoop] at h
    split at h
    · cases h; exact hres
    rename_i hlt
    split at h
    · cases h; exact hres
    simp only [R.bind_eq_ok] at h
    obtain ⟨n, hn, ok, hok, h⟩ := h
    obtain ⟨n', hn', hmove⟩ := neighbor_move hs (hk key (by simp))
    rw [hn] at hn'
    injection hn' with hn'
    subst hn'
    cases ok
    · simp only [Bool.not_false, if_true] at h
      exact ih hk' h hres
    · simp only [Bool.not_true, Bool.false_eq_true, if_false] at h
      cases ha : addSwap i
      · rw [ha] at h
        simp only [Bool.false_eq_true, if_false] at h
        exact ih hk' h (fun hc => by simp at hc; omega)
      · rw [ha] at h
        simp only [if_true, R.bind_eq_ok] at h
        obtain ⟨w, hw, h⟩ := h
        refine ih hk' h (fun hc => ?_)
        rcases trySwap_shape (rs' := w.2) (l := w.1) hw with e | ⟨x, e⟩
        · rw [e] at hc; simp at hc; omega
        · rw [e] at hc ⊢
          simp only [List.length_append, List.length_cons, List.length_nil] at hc
          have hl : maxN - 1 = res.length := by omega
          exact ⟨n, by rw [hl]; simp, hmove⟩

theorem fillLoop_companion {σ : Type} {g : RngOps σ} {draws maxN : Nat} {i : InputData} {s : Scheduling} :
    ∀ (k : Nat) {res l : List Scheduling} {rs rs' : σ}, fillLoop g draws maxN i s k res rs = .ok (l, rs') →
      Companion i s maxN res → Companion i s maxN l := by
  intro k
  induction k with
  | zero => intro res l rs rs' h hres; cases h; exact hres
  | succ k ih =>
    intro res l rs rs' h hres
    simp only [fillLoop] at h
    split at h
    · cases h; exact hres
    · rename_i hlt
      rw [R.bind_eq_ok] at h
      obtain ⟨w, hw, h⟩ := h
      refine ih h (fun hc => ?_)
      rcases trySwap_shape (rs' := w.2) (l := w.1) hw with e | ⟨x, e⟩
      · rw [e] at hc; omega
      · rw [e] at hc; simp at hc; omega

/-- **C19**: the limit is exceeded only by a swap picked together with the last permitted neighbour, a single move: if more
than `max_neighbors` schedulings are picked, the one in place `max_neighbors` is a single move. -/
theorem C19_excess_is_companion {σ : Type} (g : RngOps σ) (hg : g.Lawful) (draws maxN : Nat) (i : InputData)
    (s : Scheduling) (hs : SchedShape i s) (rs rs' : σ) (l : List Scheduling)
    (h : pickNeighbors g draws maxN i s rs = .ok (l, rs')) (hl : maxN < l.length) :
    ∃ n, l[maxN - 1]? = some n ∧ SingleMove i s n := by
  unfold pickNeighbors at h
  simp only [R.bind_eq_ok] at h
  obtain ⟨r, hr, h⟩ := h
  have h1 := moveLoop_companion hs _ (shuffled_keys hg maxN i rs) (l := r.1) (rs' := r.2) hr (fun hc => by simp at hc)
  split at h
  · exact fillLoop_companion _ h h1 hl
  · cases h; exact h1 hl

theorem moveLoop_take {σ : Type} (g : RngOps σ) (draws maxN : Nat) (i : InputData) (s : Scheduling) :
    ∀ (ks : List Nat) (k : Nat) (res : List Scheduling) (rs : σ), k ≤ maxN * 32 + 1 →
      moveLoop g draws maxN i s ks k res rs = moveLoop g draws maxN i s (ks.take (maxN * 32 + 1 - k)) k res rs := by
  intro ks
  induction ks with
  | nil => intro k res rs _; simp
  | cons key ks ih =>
    intro k res rs hk
    by_cases hl : maxN * 32 < k
    · have : maxN * 32 + 1 - k = 0 := by omega
      rw [this, List.take_zero]
      simp only [moveLoop, hl, if_true, ite_self]
    · have e : maxN * 32 + 1 - k = (maxN * 32 + 1 - (k + 1)) + 1 := by omega
      rw [e, List.take_succ_cons]
      simp only [moveLoop, hl, if_false]
      simp only [fun r q => ih (k + 1) r q (by omega)]

/-- **C19**: the effort of one round is limited, too: of the single moves, however many there are, only the first
`32 · max_neighbors + 1` are ever looked at, feasible or not. -/
theorem C19_moves_examined {σ : Type} (g : RngOps σ) (draws maxN : Nat) (i : InputData) (s : Scheduling) (keys : List Nat) (rs : σ) :
    moveLoop g draws maxN i s keys 0 [] rs = moveLoop g draws maxN i s (keys.take (maxN * 32 + 1)) 0 [] rs :=
  moveLoop_take g draws maxN i s keys 0 [] rs (Nat.zero_le _)

/-- The engine gets from `rs` to `rs'` while `n` swap neighbours of `s` are made, one after the other. -/
inductive Swaps {σ : Type} (g : RngOps σ) (draws : Nat) (i : InputData) (s : Scheduling) : Nat → σ → σ → Prop
  | none (rs : σ) : Swaps g draws i s 0 rs rs
  | swap {n : Nat} {rs rs1 rs2 : σ} {w : Scheduling} : swapNeighbor g draws i s rs = .ok (w, rs1) → Swaps g draws i s n rs1 rs2 →
      Swaps g draws i s (n + 1) rs rs2

theorem Swaps.trans {σ : Type} {g : RngOps σ} {draws : Nat} {i : InputData} {s : Scheduling} {n m : Nat} {a b c : σ}
    (h : Swaps g draws i s n a b) (h' : Swaps g draws i s m b c) : Swaps g draws i s (n + m) a c := by
  induction h with
  | none => simpa using h'
  | swap hw _ ih =>
    have := Swaps.swap hw (ih h')
    rwa [show ∀ k, k + 1 + m = k + m + 1 from fun k => by omega]

theorem trySwap_swaps {σ : Type} {g : RngOps σ} {draws : Nat} {i : InputData} {s : Scheduling} {res l : List Scheduling} {rs rs' : σ}
    (h : trySwap g draws i s res rs = .ok (l, rs')) : Swaps g draws i s 1 rs rs' ∧ res.length ≤ l.length := by
  unfold trySwap at h
  simp only [R.bind_eq_ok] at h
  obtain ⟨w, hw, ok, _, h⟩ := h
  cases h
  refine ⟨.swap (w := w.1) (rs1 := w.2) hw (.none _), ?_⟩
  split <;> simp

theorem moveLoop_swaps {σ : Type} {g : RngOps σ} {draws maxN : Nat} {i : InputData} {s : Scheduling} :
    ∀ (ks : List Nat) (k : Nat) (res : List Scheduling) (rs : σ) {l : List Scheduling} {rs' : σ},
      moveLoop g draws maxN i s ks k res rs = .ok (l, rs') → ∃ n, n ≤ maxN - res.length ∧ Swaps g draws i s n rs rs' := by
  intro ks
  induction ks with
  | nil => intro k res rs l rs' h; cases h; exact ⟨0, Nat.zero_le _, .none _⟩
  | cons key ks ih =>
    intro k res rs l rs' h
    unfold moveLoop at h
    split at h
    · cases h; exact ⟨0, Nat.zero_le _, .none _⟩
    rename_i hlen
    split at h
    · cases h; exact ⟨0, Nat.zero_le _, .none _⟩
    simp only [R.bind_eq_ok] at h
    obtain ⟨nb, _, ok, _, h⟩ := h
    split at h
    · exact ih _ _ _ h
    split at h
    · simp only [R.bind_eq_ok] at h
      obtain ⟨w, hw, h⟩ := h
      obtain ⟨h1, h2⟩ := trySwap_swaps (l := w.1) (rs' := w.2) hw
      obtain ⟨n, hn, hs⟩ := ih _ _ _ h
      refine ⟨1 + n, ?_, h1.trans hs⟩
      simp only [List.length_append, List.length_singleton] at h2
      omega
    · obtain ⟨n, hn, hs⟩ := ih _ _ _ h
      exact ⟨n, by simp only [List.length_append, List.length_singleton] at hn; omega, hs⟩

theorem fillLoop_swaps {σ : Type} {g : RngOps σ} {draws maxN : Nat} {i : InputData} {s : Scheduling} :
    ∀ (k : Nat) (res : List Scheduling) (rs : σ) {l : List Scheduling} {rs' : σ},
      fillLoop g draws maxN i s k res rs = .ok (l, rs') → ∃ n, n ≤ k ∧ Swaps g draws i s n rs rs' := by
  intro k
  induction k with
  | zero => intro res rs l rs' h; cases h; exact ⟨0, Nat.le_refl _, .none _⟩
  | succ k ih =>
    intro res rs l rs' h
    unfold fillLoop at h
    split at h
    · cases h; exact ⟨0, Nat.zero_le _, .none _⟩
    simp only [R.bind_eq_ok] at h
    obtain ⟨w, hw, h⟩ := h
    obtain ⟨n, hn, hs⟩ := ih _ _ h
    exact ⟨1 + n, by omega, (trySwap_swaps (l := w.1) (rs' := w.2) hw).1.trans hs⟩

/-- **C19**: and so is the number of swap neighbours that are tried in one round: at most one for every neighbour that may be
picked, and 32 for every neighbour that is missing in the end, of which at most as many are counted as there are single moves. -/
theorem C19_swaps_tried {σ : Type} (g : RngOps σ) (draws maxN : Nat) (i : InputData) (s : Scheduling) (rs rs' : σ) (l : List Scheduling)
    (h : pickNeighbors g draws maxN i s rs = .ok (l, rs')) : ∃ n rs0, (rs0 = rs ∨ rs0 = (g.shuffle rs (i.nc * i.ns)).2) ∧
      Swaps g draws i s n rs0 rs' ∧ n ≤ maxN + 32 * min maxN (i.nc * i.ns) := by
  unfold pickNeighbors at h
  simp only [R.bind_eq_ok] at h
  obtain ⟨r, hr, h⟩ := h
  obtain ⟨n, hn, hs⟩ := moveLoop_swaps _ _ _ _ (l := r.1) (rs' := r.2) hr
  have hm : maxKey i = i.nc * i.ns := rfl
  generalize hrs : (if maxN < maxKey i then shuffleList g rs (List.range (maxKey i)) else (List.range (maxKey i), rs)).2 = rs0 at hs
  have h0 : rs0 = rs ∨ rs0 = (g.shuffle rs (i.nc * i.ns)).2 := by
    subst hrs
    split
    · right; simp [shuffleList, hm]
    · left; rfl
  split at h
  · obtain ⟨m, hm', hs'⟩ := fillLoop_swaps _ _ _ h
    exact ⟨n + m, rs0, h0, hs.trans hs', by rw [hm] at hm'; simp only [List.length_nil] at hn; omega⟩
  · cases h
    exact ⟨n, rs0, h0, hs, by simp only [List.length_nil] at hn; omega⟩

/-- **C19** fails as stated: with `max_neighbors = 1` two neighbours are picked (the second one being the scheduling
itself, as a "swap" along a cycle of length one). -/
theorem C19_limit_exceeded : SchedValid Ex.inp Ex.sch ∧ ∃ l rs', pickNeighbors Ex.counter 4 1 Ex.inp Ex.sch 0 = .ok (l, rs') ∧
    l.length = 2 ∧ l = [[some 0, some 1, some 1, some 0], Ex.sch] := by
  refine ⟨(C02_scheduling_feasible_exact Ex.inp Ex.inp_wf.sched (by decide) (by decide) Ex.sch rfl true
    (by decide +kernel)).1 rfl, [[some 0, some 1, some 1, some 0], Ex.sch], 3, by decide +kernel, rfl, rfl⟩

/-! ### C16 -/

section
variable {σ τ : Type} (pr : HProblem) (env : HEnv σ τ) (hw : WF pr.input) (hz : Sizes pr.input) (hg : env.rng.Lawful)
  (Inv : τ → Prop) (hA : Shaped pr.input env.asolve Inv) (deadline : Bool) (st st' : HState σ τ) (hi : Inv st.asg)
  (s : Scheduling) (hs : SchedShape pr.input s) (sol : Solution) (h : Hill.solve pr env deadline st s = .ok (sol, st'))
include hw hz hg hA hi hs h

/-- **C16**: hill climbing returns Invalid or a complete valid solution that is not worse than the starting
scheduling with its own assignment. -/
theorem C16_never_worse : sol = .invalid ∨ ∃ s' a a0 t' sc0 sc, env.asolve st.asg s = .ok (some a0, t') ∧
    pr.scoring.evaluate pr.input (.complete s a0) = .ok sc0 ∧ sol = .complete s' a ∧ Valid pr.input s' a ∧
    pr.scoring.evaluate pr.input (.complete s' a) = .ok sc ∧ sc.isFinite = true ∧ sc.le sc0 := by
  have hn : pr.input.nc ≤ u32Max := by
    have := hz.choices
    have h1 : i32Max = 2147483647 := rfl
    have h2 : u32Max = 4294967295 := rfl
    omega
  obtain ⟨_, r, t', sol0, sc0, lps, evs, hlps, h1, h2, h3, h4, h5⟩ := solve_spec hw (Nat.le_of_lt hz.maxPref) hg hA
    (F := fun _ => True) (fun _ _ _ => trivial) hi hs trivial h
  rcases h5 with ⟨_, rfl, _⟩ | ⟨h5, h6, sc, evs', h7, _, h8⟩
  · exact .inl rfl
  · right
    obtain ⟨s', a, e, hsh, hshp, _⟩ := h7.whole
    have e : sol = .complete s' a := e
    subst e
    cases r with
    | none =>
      simp only at h2; subst h2
      simp [Scoring.evaluate] at h3; subst h3
      exact absurd h5 (by decide)
    | some a0 =>
      simp only at h2; subst h2
      obtain ⟨s2, a2, he, hv⟩ := evaluate_finite_valid pr.scoring hw hn (by intro s a e; cases e; exact hshp) h7.eval h7.fin
      cases he
      refine ⟨s', a, a0, t', sc0, sc, h1, h3, rfl, hv, h7.eval, h7.fin, ?_⟩
      have hmem : (Solution.complete s' a, sc) ∈ (Solution.complete s a0, sc0) :: announced evs' := by
        obtain ⟨ys, hys⟩ := List.getLast?_eq_some_iff.1 h8.last
        rw [hys]; simp
      have hp := h8.improving
      unfold Improving at hp
      rw [List.pairwise_cons] at hp
      rcases List.mem_cons.1 hmem with e | e
      · have : sc = sc0 := congrArg Prod.snd e
        rw [this]; exact Score.le_refl _
      · exact Score.lt_le (Score.rank_lt_lt h7.mode h6.mode h7.fin h6.fin (hp.1 _ e))

/-- **C16**: it returns Invalid exactly if the starting scheduling has no assignment with a finite score. -/
theorem C16_invalid_iff : sol = .invalid ↔ ¬ ∃ a0 t' sc0, env.asolve st.asg s = .ok (some a0, t') ∧
    pr.scoring.evaluate pr.input (.complete s a0) = .ok sc0 ∧ sc0.isFinite = true := by
  obtain ⟨_, r, t', sol0, sc0, lps, evs, hlps, h1, h2, h3, h4, h5⟩ := solve_spec hw (Nat.le_of_lt hz.maxPref) hg hA
    (F := fun _ => True) (fun _ _ _ => trivial) hi hs trivial h
  rcases h5 with ⟨hf, rfl, _⟩ | ⟨h5, h6, sc, evs', h7, _, h8⟩
  · refine ⟨fun _ => ?_, fun _ => rfl⟩
    rintro ⟨a0, t2, sc2, e1, e2, e3⟩
    rw [h1] at e1
    cases e1
    simp only at h2; subst h2
    rw [h3] at e2; cases e2
    rw [hf] at e3; cases e3
  · obtain ⟨s', a, e, _⟩ := h7.whole
    have e : sol = .complete s' a := e
    constructor
    · intro e'; rw [e'] at e; cases e
    · intro hno
      cases r with
      | none =>
        simp only at h2; subst h2
        simp [Scoring.evaluate] at h3; subst h3
        exact absurd h5 (by decide)
      | some a0 =>
        simp only at h2; subst h2
        exact absurd ⟨a0, t', sc0, h1, h3, h5⟩ hno

/-- **C16**: what it announces (besides its assignment counter) are complete valid solutions with their scores, each
strictly better than all earlier ones; the last one is the returned solution, and nothing is announced if it returns
Invalid. -/
theorem C16_announcements_improve : ∃ evs, st'.events = st.events ++ evs ∧ (∀ e ∈ evs, e.worker = env.worker) ∧
    (announced evs).Pairwise (fun x y => Score.lt y.2 x.2 = true) ∧
    (∀ x ∈ announced evs, x.2.isFinite = true ∧ pr.scoring.evaluate pr.input x.1 = .ok x.2 ∧
      ∃ s' a, x.1 = .complete s' a ∧ Valid pr.input s' a) ∧
    (match sol with
      | .invalid => announced evs = []
      | _ => ((announced evs).getLast?.map (·.1)) = some sol) := by
  have hn : pr.input.nc ≤ u32Max := by
    have := hz.choices
    have h1 : i32Max = 2147483647 := rfl
    have h2 : u32Max = 4294967295 := rfl
    omega
  obtain ⟨_, r, t', sol0, sc0, lps, evs, hlps, h1, h2, h3, h4, h5⟩ := solve_spec hw (Nat.le_of_lt hz.maxPref) hg hA
    (F := fun _ => True) (fun _ _ _ => trivial) hi hs trivial h
  refine ⟨_, h4, ?_⟩
  have hval : ∀ x, Hill.Good pr (fun _ => True) x → x.2.isFinite = true ∧ pr.scoring.evaluate pr.input x.1 = .ok x.2 ∧
      ∃ s' a, x.1 = .complete s' a ∧ Valid pr.input s' a := by
    intro x hx
    obtain ⟨s', a, e, hsh, hshp, _⟩ := hx.whole
    refine ⟨hx.fin, hx.eval, ?_⟩
    exact evaluate_finite_valid pr.scoring hw hn (by intro s a e'; rw [e] at e'; cases e'; exact hshp) hx.eval hx.fin
  rcases h5 with ⟨hf, rfl, rfl, _⟩ | ⟨h5, h6, sc, evs', h7, rfl, h8⟩
  · have ha0 : announced (lps ++ [Event.ofAssignments env.worker (st.count + 1)]) = [] := by
      rw [announced_append, hlps.silent]; rfl
    exact ⟨(by
      intro e he
      rcases List.mem_append.1 he with he | he
      · exact hlps.worker e he
      · simp only [List.mem_singleton] at he; subst he; rfl), (by rw [ha0]; exact .nil), (by rw [ha0]; simp), ha0⟩
  · have ha : announced (lps ++ Event.ofAssignments env.worker (st.count + 1) :: Event.ofBest env.worker sol0 sc0 :: evs')
        = (sol0, sc0) :: announced evs' := by
      rw [announced_append, hlps.silent]; rfl
    have hall : ∀ x ∈ (sol0, sc0) :: announced evs', Hill.Good pr (fun _ => True) x := by
      intro x hx
      rcases List.mem_cons.1 hx with rfl | hx
      · exact h6
      · exact h8.good x hx
    rw [ha]
    refine ⟨?_, ?_, fun x hx => hval x (hall x hx), ?_⟩
    · intro e he
      rcases List.mem_append.1 he with he | he
      · exact hlps.worker e he
      rcases List.mem_cons.1 he with rfl | he
      · rfl
      rcases List.mem_cons.1 he with rfl | he
      · rfl
      · exact h8.worker e he
    · refine h8.improving.imp_of_mem ?_
      intro x y hx hy hlt
      exact Score.rank_lt_lt (hall y hy).mode (hall x hx).mode (hall y hy).fin (hall x hx).fin hlt
    · obtain ⟨s', a, e, _⟩ := h7.whole
      have e : sol = .complete s' a := e
      subst e
      show ((_ : Option (Solution × Score)).map (·.1)) = _
      rw [h8.last]
      rfl

end

/-- **C16**: hill climbing ends (without a panic, after at most as many rounds as there are scores) from every
feasible scheduling, provided the assignment solver returns valid assignments and the random engine varies. -/
theorem C16_climb_ends {σ τ : Type} (pr : HProblem) (env : HEnv σ τ) (hw : WF pr.input) (hz : Sizes pr.input)
    (hg : env.rng.Lawful) (hv : env.rng.Varied env.draws pr.input.nc) (Inv : τ → Prop) (hA : Solid pr.input env.asolve Inv)
    (deadline : Bool) (st : HState σ τ) (hi : Inv st.asg) (s : Scheduling) (hs : SchedShape pr.input s)
    (hsv : SchedValid pr.input s) : ∃ sol st', Hill.solve pr env deadline st s = .ok (sol, st') := by
  obtain ⟨r, h⟩ := solve_total hw hz hg hv hA deadline hi hs hsv
  exact ⟨r.1, r.2, h⟩

/-- **C16** applies to the real assignment solver, in every state that earlier solves can leave it in. -/
theorem C16_real_solver (pr : AProblem) (env : AEnv) (hp : ProblemOk pr) (hlev : pr.input.prefLevels.Pairwise (· < ·))
    (hb : Backend.Sound env.backend) (deadline : Bool) :
    Shaped pr.input (Asg.solveUntil pr env deadline) (fun sv => ∃ free, Reach pr env free sv) ∧
    (Sizes pr.input → (∀ c ∈ pr.input.choices, c.min ≤ c.max ∧ c.max ≤ i32Max) →
      Solid pr.input (Asg.solveUntil pr env deadline) (fun sv => ∃ free, Reach pr env free sv)) :=
  ⟨shaped_solver hp hlev hb deadline, fun hz hbf => solid_solver hp hlev hb hz hbf deadline⟩

namespace HillEx

/-- A start with a mediocre assignment, one neighbour with a better one, nothing else solved. -/
def asolve (u : Unit) (s : Scheduling) : R (Option Assignment × Unit) :=
  if s = Ex.sch then pure (some [[0, 2], [0, 1], [0, 1]], u)
  else if s = [some 0, some 1, some 1, some 0] then pure (some Ex.asg, u)
  else pure (none, u)

def prob : HProblem := ⟨Ex.inp, Ex.scorer, 12⟩
def env : HEnv Nat Unit := ⟨0, Ex.counter, 4, asolve, fun _ => false, fun _ => 0⟩
def start : HState Nat Unit := ⟨0, (), 0, 0, []⟩

theorem shaped : Shaped Ex.inp env.asolve (fun _ => True) where
  keeps := by intros; trivial
  shape := by
    intro t s a t' _ hs h
    simp only [env, asolve] at h
    split at h
    · cases h; exact ⟨hs.len, rfl, by decide⟩
    · split at h
      · cases h; exact ⟨hs.len, rfl, by decide⟩
      · cases h

/-- The climb finds the better neighbour, announces it, and stops. -/
theorem climbs : ∃ st', Hill.solve prob env false start Ex.sch = .ok (.complete [some 0, some 1, some 1, some 0] Ex.asg, st') ∧
    announced st'.events = [(.complete Ex.sch [[0, 2], [0, 1], [0, 1]], ⟨F32.ofU32 1, F32.ofU32 3⟩),
      (.complete [some 0, some 1, some 1, some 0] Ex.asg, ⟨F32.ofU32 1, F32.ofU32 2⟩)] := by
  have h : (match Hill.solve prob env false start Ex.sch with
    | .ok (sol, st') => some (sol, announced st'.events)
    | .error _ => none) = some (.complete [some 0, some 1, some 1, some 0] Ex.asg,
      [(.complete Ex.sch [[0, 2], [0, 1], [0, 1]], ⟨F32.ofU32 1, F32.ofU32 3⟩),
      (.complete [some 0, some 1, some 1, some 0] Ex.asg, ⟨F32.ofU32 1, F32.ofU32 2⟩)]) := by decide +kernel
  split at h
  · rename_i sol st' heq
    rw [heq]
    simp only [Option.some.injEq, Prod.mk.injEq] at h
    obtain ⟨rfl, h⟩ := h
    exact ⟨st', rfl, h⟩
  · cases h

end HillEx

end Wassign
