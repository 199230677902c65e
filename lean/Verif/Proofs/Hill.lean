import Verif.Proofs.Neighbors
import Verif.Proofs.Evaluate
import Verif.Proofs.SchedFeasible
import Verif.Spec.Progress
/-
Hill climbing: what it returns and publishes, and that it ends.
-/
namespace Wassign
open Spec

/-! ### Ranks of scores -/

/-- Position of a finite score within its mode. -/
def Score.rank (g : Bool) (s : Score) : Nat :=
  if g then (F32.totalKey s.minor + 2147483648).toNat
  else ((F32.totalKey s.major + 2147483648).toNat) * 4294967296 + (F32.totalKey s.minor + 2147483648).toNat

theorem F32.totalKey_range (b : F32) : -2147483648 ≤ F32.totalKey b ∧ F32.totalKey b < 2147483648 := by
  unfold F32.totalKey
  have h1 := BitVec.le_toInt (b ^^^ (b.sshiftRight 31 >>> 1))
  have h2 := BitVec.toInt_lt (x := b ^^^ (b.sshiftRight 31 >>> 1))
  generalize (b ^^^ (b.sshiftRight 31 >>> 1)).toInt = z at *
  omega

theorem Score.rank_lt (g : Bool) (s : Score) : s.rank g < 2 ^ 64 := by
  have h1 := F32.totalKey_range s.major
  have h2 := F32.totalKey_range s.minor
  unfold Score.rank
  split <;> omega

theorem Score.lt_rank {g : Bool} {a b : Score} (ha : a.InMode g) (hb : b.InMode g) (fb : b.isFinite = true)
    (h : Score.lt a b = true) : a.isFinite = true ∧ a.rank g < b.rank g := by
  unfold Score.lt at h
  have fa : a.isFinite = true := by
    cases fa : a.isFinite
    · rw [Score.cmp_nonfinite_left fa, fb] at h; simp at h
    · rfl
  refine ⟨fa, ?_⟩
  have hc : Score.cmp a b = .lt := by simpa using h
  have a1 := F32.totalKey_range a.major
  have a2 := F32.totalKey_range a.minor
  have b1 := F32.totalKey_range b.major
  have b2 := F32.totalKey_range b.minor
  cases g
  · rw [Score.cmp_normal fa fb (ha fa) (hb fb)] at hc
    unfold F32.totalCmp at hc
    unfold Score.rank
    simp only [Bool.false_eq_true, if_false]
    split at hc <;> rw [compareInt_lt] at hc <;> omega
  · rw [Score.cmp_greedy fa fb (ha fa)] at hc
    unfold F32.totalCmp at hc
    rw [compareInt_lt] at hc
    unfold Score.rank
    simp only [if_true]
    omega

theorem Score.rank_lt_lt {g : Bool} {a b : Score} (ha : a.InMode g) (hb : b.InMode g) (fa : a.isFinite = true)
    (fb : b.isFinite = true) (h : a.rank g < b.rank g) : Score.lt a b = true := by
  have a1 := F32.totalKey_range a.major
  have a2 := F32.totalKey_range a.minor
  have b1 := F32.totalKey_range b.major
  have b2 := F32.totalKey_range b.minor
  unfold Score.lt
  have : Score.cmp a b = .lt := by
    cases g
    · rw [Score.cmp_normal fa fb (ha fa) (hb fb)]
      unfold F32.totalCmp
      unfold Score.rank at h
      simp only [Bool.false_eq_true, if_false] at h
      split <;> rw [compareInt_lt] <;> omega
    · rw [Score.cmp_greedy fa fb (ha fa)]
      unfold F32.totalCmp
      rw [compareInt_lt]
      unfold Score.rank at h
      simp only [if_true] at h
      omega
  rw [this]; rfl

attribute [irreducible] Score.rank

theorem evaluate_inMode {sc : Scoring} {i : InputData} (hw : WF i) (hm : i.maxPref ≤ u32Max) {sol : Solution} {score : Score}
    (hsh : ∀ s a, sol = .complete s a → Shape i s a) (h : sc.evaluate i sol = .ok score) : score.InMode sc.greedy := by
  intro hf
  cases sol with
  | invalid => simp [Scoring.evaluate] at h; subst h; exact absurd hf (by decide)
  | scheduling s => simp [Scoring.evaluate] at h; subst h; exact absurd hf (by decide)
  | complete s a =>
    have hs := hsh s a rfl
    simp only [Scoring.evaluate, Solution.isInvalid, Bool.false_eq_true, if_false, if_true, R.bind_eq_ok] at h
    obtain ⟨major, hmj, minor, _, h⟩ := h
    split at h
    · cases h
      unfold Scoring.majorPart at hmj
      cases hg : sc.greedy
      · rw [hg] at hmj
        simp only [Bool.false_eq_true, if_false, R.bind_eq_ok] at hmj
        obtain ⟨m, hm', hmj⟩ := hmj
        cases hmj
        have hle : m ≤ i.maxPref := by
          rcases (evaluateMajor_spec hs hm').attained with h0 | ⟨p, c, _, hp⟩
          · omega
          · exact pref_le hw hp
        exact F32.ofU32_isNaN (by omega)
      · rw [hg] at hmj
        simp only [if_true] at hmj
        cases hmj
        show F32.nan.isNaN = true
        decide
    · cases h; exact absurd hf (by decide)

namespace Hill
variable {σ τ : Type}

/-! ### Neighbours that are picked -/

/-- What every picked neighbour satisfies. -/
def Picked (i : InputData) (s n : Scheduling) : Prop :=
  SchedShape i n ∧ schedFeasible i n = .ok true ∧ (SingleMove i s n ∨ n.Perm s)

theorem trySwap_spec {g : RngOps σ} (hg : g.Lawful) {draws : Nat} {i : InputData} {s : Scheduling} (hs : SchedShape i s)
    {res l : List Scheduling} {rs rs' : σ} (h : trySwap g draws i s res rs = .ok (l, rs')) (hres : ∀ n ∈ res, Picked i s n) :
    (∀ n ∈ l, Picked i s n) ∧ res.length ≤ l.length ∧ l.length ≤ res.length + 1 := by
  unfold trySwap at h
  simp only [R.bind_eq_ok] at h
  obtain ⟨w, hw, ok, hok, h⟩ := h
  cases h
  cases ok
  · exact ⟨hres, by simp, by simp⟩
  · refine ⟨?_, by simp, by simp⟩
    intro n hn
    simp only [if_true, List.mem_append, List.mem_singleton] at hn
    rcases hn with hn | rfl
    · exact hres n hn
    · exact ⟨swap_shape hg hs hw, hok, .inr (swapNeighbor_perm hg hw)⟩

theorem moveLoop_spec {g : RngOps σ} (hg : g.Lawful) {draws maxN : Nat} {i : InputData} {s : Scheduling} (hs : SchedShape i s) :
    ∀ (keys : List Nat) {k : Nat} {res l : List Scheduling} {rs rs' : σ}, (∀ key ∈ keys, key < maxKey i) →
      moveLoop g draws maxN i s keys k res rs = .ok (l, rs') → (∀ n ∈ res, Picked i s n) →
      res.length ≤ (if addSwap i then maxN + 1 else maxN) →
      (∀ n ∈ l, Picked i s n) ∧ l.length ≤ (if addSwap i then maxN + 1 else maxN) ∧ (maxN = 0 → res = [] → l = []) := by
  intro keys
  induction keys with
  | nil =>
    intro k res l rs rs' _ h hres hlen
    cases h
    exact ⟨hres, hlen, fun _ h => h⟩
  | cons key ks ih =>
    intro k res l rs rs' hk h hres hlen
    have hk' : ∀ key ∈ ks, key < maxKey i := fun x hx => hk x (List.mem_cons_of_mem _ hx)
    simp only [moveLoop] at h
    split at h
    · cases h; exact ⟨hres, hlen, fun _ h => h⟩
    rename_i hlt
    split at h
    · cases h; exact ⟨hres, hlen, fun _ h => h⟩
    simp only [R.bind_eq_ok] at h
    obtain ⟨n, hn, ok, hok, h⟩ := h
    obtain ⟨n', hn', hmove⟩ := neighbor_move hs (hk key (by simp))
    rw [hn] at hn'
    injection hn' with hn'
    subst hn'
    have zero : ∀ l : List Scheduling, maxN = 0 → res = [] → l = [] := by
      intro l h0 h1; subst h0; subst h1; simp at hlt
    cases ok
    · simp only [Bool.not_false, if_true] at h
      obtain ⟨h1, h2, _⟩ := ih hk' h hres hlen
      exact ⟨h1, h2, zero l⟩
    · simp only [Bool.not_true, Bool.false_eq_true, if_false] at h
      have hres1 : ∀ x ∈ res ++ [n], Picked i s x := by
        intro x hx
        simp only [List.mem_append, List.mem_singleton] at hx
        rcases hx with hx | rfl
        · exact hres x hx
        · exact ⟨hmove.1, hok, .inl hmove⟩
      cases ha : addSwap i
      · rw [ha] at h
        simp only [Bool.false_eq_true, if_false] at h
        obtain ⟨h1, h2, _⟩ := ih hk' h hres1 (by simp [ha]; omega)
        rw [ha] at h2
        exact ⟨h1, h2, zero l⟩
      · rw [ha] at h
        simp only [if_true, R.bind_eq_ok] at h
        obtain ⟨w, hw, h⟩ := h
        obtain ⟨hw1, _, hw3⟩ := trySwap_spec hg hs hw hres1
        obtain ⟨h1, h2, _⟩ := ih hk' h hw1 (by simp [ha]; simp at hw3; omega)
        rw [ha] at h2
        exact ⟨h1, h2, zero l⟩

theorem fillLoop_spec {g : RngOps σ} (hg : g.Lawful) {draws maxN : Nat} {i : InputData} {s : Scheduling} (hs : SchedShape i s) :
    ∀ (k : Nat) {res l : List Scheduling} {rs rs' : σ}, fillLoop g draws maxN i s k res rs = .ok (l, rs') →
      (∀ n ∈ res, Picked i s n) → (∀ n ∈ l, Picked i s n) ∧ l.length ≤ max maxN res.length := by
  intro k
  induction k with
  | zero => intro res l rs rs' h hres; cases h; exact ⟨hres, by omega⟩
  | succ k ih =>
    intro res l rs rs' h hres
    simp only [fillLoop] at h
    split at h
    · cases h; exact ⟨hres, by omega⟩
    · rw [R.bind_eq_ok] at h
      obtain ⟨w, hw, h⟩ := h
      obtain ⟨h1, _, h3⟩ := trySwap_spec hg hs hw hres
      obtain ⟨h4, h5⟩ := ih h h1
      exact ⟨h4, by omega⟩

theorem shuffled_keys {g : RngOps σ} (hg : g.Lawful) (maxN : Nat) (i : InputData) (rs : σ) :
    ∀ key ∈ (if maxN < maxKey i then shuffleList g rs (List.range (maxKey i)) else (List.range (maxKey i), rs)).1,
      key < maxKey i := by
  intro key hk
  split at hk
  · exact List.mem_range.1 ((shuffleList_perm hg rs _).subset hk)
  · exact List.mem_range.1 hk

theorem pickNeighbors_spec {g : RngOps σ} (hg : g.Lawful) {draws maxN : Nat} {i : InputData} {s : Scheduling}
    (hs : SchedShape i s) {rs rs' : σ} {l : List Scheduling} (h : pickNeighbors g draws maxN i s rs = .ok (l, rs')) :
    (∀ n ∈ l, Picked i s n) ∧ l.length ≤ (if addSwap i then maxN + 1 else maxN) ∧ (maxN = 0 → l = []) := by
  unfold pickNeighbors at h
  simp only [R.bind_eq_ok] at h
  obtain ⟨r, hr, h⟩ := h
  obtain ⟨h1, h2, h3⟩ := moveLoop_spec hg hs _ (shuffled_keys hg maxN i rs) hr (by simp) (by simp)
  split at h
  · rename_i hc
    simp only [Bool.and_eq_true, decide_eq_true_eq] at hc
    obtain ⟨h4, h5⟩ := fillLoop_spec hg hs _ h h1
    refine ⟨h4, by rw [if_pos hc.1]; omega, fun h0 => by omega⟩
  · cases h; exact ⟨h1, h2, fun h0 => h3 h0 rfl⟩

/-! ### Hill climbing -/

theorem announced_append (l l' : List Event) : announced (l ++ l') = announced l ++ announced l' := by
  simp [announced]

@[simp] theorem best?_ofAssignments (w n : Nat) : (Event.ofAssignments w n).best? = none := rfl
@[simp] theorem best?_ofIterations (w n : Nat) : (Event.ofIterations w n).best? = none := rfl
@[simp] theorem best?_ofBest (w : Nat) (s : Solution) (x : Score) : (Event.ofBest w s x).best? = some (s, x) := rfl

/-- What is known about the best solution and about everything announced; `F` is a property of schedulings that follows
from the feasibility check. -/
structure Good (pr : HProblem) (F : Scheduling → Prop) (x : Solution × Score) : Prop where
  eval : pr.scoring.evaluate pr.input x.1 = .ok x.2
  fin : x.2.isFinite = true
  mode : x.2.InMode pr.scoring.greedy
  whole : ∃ s a, x.1 = .complete s a ∧ SchedShape pr.input s ∧ Shape pr.input s a ∧ F s

/-- A strictly improving sequence. -/
def Improving (g : Bool) (l : List (Solution × Score)) : Prop := l.Pairwise (fun x y => y.2.rank g < x.2.rank g)

/-- The effect of a stretch of hill climbing that starts with best solution `b` and ends with `b'`. -/
structure Stretch (pr : HProblem) (F : Scheduling → Prop) (w : Nat) (b b' : Solution × Score) (evs : List Event) (count count' : Nat) : Prop where
  good : ∀ x ∈ announced evs, Good pr F x
  improving : Improving pr.scoring.greedy (b :: announced evs)
  last : (b :: announced evs).getLast? = some b'
  worker : ∀ e ∈ evs, e.worker = w
  grows : count ≤ count'
  counted : evs.filterMap (·.assignments) = List.range' (count + 1) (count' - count)
  quiet : evs.filterMap (·.iterations) = []

theorem Stretch.refl {pr : HProblem} {F : Scheduling → Prop} {w : Nat} {b : Solution × Score} {n : Nat} : Stretch pr F w b b [] n n :=
  ⟨by simp [announced], by simp [announced, Improving], by simp [announced], by simp, Nat.le_refl _, by simp, rfl⟩

theorem Stretch.trans {pr : HProblem} {F : Scheduling → Prop} {w : Nat} {a b c : Solution × Score} {e1 e2 : List Event} {n1 n2 n3 : Nat}
    (h1 : Stretch pr F w a b e1 n1 n2) (h2 : Stretch pr F w b c e2 n2 n3) : Stretch pr F w a c (e1 ++ e2) n1 n3 := by
  have hle : ∀ x ∈ a :: announced e1, b.2.rank pr.scoring.greedy ≤ x.2.rank pr.scoring.greedy := by
    intro x hx
    obtain ⟨ys, hys⟩ := List.getLast?_eq_some_iff.1 h1.last
    have hp := h1.improving
    rw [hys] at hp hx
    unfold Improving at hp
    rw [List.pairwise_append] at hp
    rw [List.mem_append] at hx
    rcases hx with hx | hx
    · exact Nat.le_of_lt (hp.2.2 x hx b (by simp))
    · simp at hx; subst hx; exact Nat.le_refl _
  have h2p := h2.improving
  unfold Improving at h2p
  rw [List.pairwise_cons] at h2p
  refine ⟨?_, ?_, ?_, ?_, Nat.le_trans h1.grows h2.grows, ?_, ?_⟩
  · intro x hx
    rw [announced_append, List.mem_append] at hx
    rcases hx with hx | hx
    · exact h1.good x hx
    · exact h2.good x hx
  · unfold Improving
    rw [announced_append, ← List.cons_append, List.pairwise_append]
    refine ⟨h1.improving, h2p.2, ?_⟩
    intro x hx y hy
    exact Nat.lt_of_lt_of_le (h2p.1 y hy) (hle x hx)
  · rw [announced_append]
    cases h : announced e2 with
    | nil =>
      have := h2.last
      rw [h] at this
      simp only [List.getLast?_singleton, Option.some.injEq] at this
      rw [List.append_nil, h1.last, this]
    | cons y ys =>
      have := h2.last
      rw [h, List.getLast?_cons_cons] at this
      rw [← List.cons_append, List.getLast?_append, this]
      rfl
  · intro e he
    rw [List.mem_append] at he
    rcases he with he | he
    · exact h1.worker e he
    · exact h2.worker e he
  · have c1 := h1.grows
    have c2 := h2.grows
    rw [List.filterMap_append, h1.counted, h2.counted]
    have e1 : n2 + 1 = n1 + 1 + 1 * (n2 - n1) := by omega
    have e2 : n3 - n1 = (n2 - n1) + (n3 - n2) := by omega
    rw [e2, e1, List.range'_append]
  · rw [List.filterMap_append, h1.quiet, h2.quiet]; rfl

/-- Events that only announce LPs of this worker. -/
structure LpOnly (w : Nat) (evs : List Event) : Prop where
  silent : announced evs = []
  worker : ∀ e ∈ evs, e.worker = w
  assignments : evs.filterMap (·.assignments) = []
  iterations : evs.filterMap (·.iterations) = []

theorem lpEvents_only (w a b : Nat) : LpOnly w (lpEvents w a b) := by
  unfold lpEvents
  generalize List.range' (a + 1) (b - a) = l
  induction l with
  | nil => exact ⟨rfl, by simp, rfl, rfl⟩
  | cons x l ih =>
    refine ⟨ih.silent, ?_, ih.assignments, ih.iterations⟩
    intro e he
    rcases List.mem_cons.1 he with rfl | he
    · rfl
    · exact ih.worker e he

theorem Stretch.lp {pr : HProblem} {F : Scheduling → Prop} {w : Nat} {b : Solution × Score} {n : Nat} {evs : List Event} (h : LpOnly w evs) :
    Stretch pr F w b b evs n n :=
  ⟨by simp [h.silent], by simp [h.silent, Improving], by simp [h.silent], h.worker, Nat.le_refl _, by simp [h.assignments], h.iterations⟩

theorem Stretch.ticked {pr : HProblem} {F : Scheduling → Prop} {w : Nat} {b : Solution × Score} {n : Nat} :
    Stretch pr F w b b [Event.ofAssignments w (n + 1)] n (n + 1) := by
  have ha : announced [Event.ofAssignments w (n + 1)] = [] := rfl
  refine ⟨by simp [ha], by simp [ha, Improving], by simp [ha], by simp [Event.ofAssignments], by omega, ?_, rfl⟩
  rw [Nat.add_sub_cancel_left]; rfl

theorem Stretch.better {pr : HProblem} {F : Scheduling → Prop} {w : Nat} {b x : Solution × Score} {n : Nat} (hx : Good pr F x)
    (h : x.2.rank pr.scoring.greedy < b.2.rank pr.scoring.greedy) : Stretch pr F w b x [Event.ofBest w x.1 x.2] n n := by
  have ha : announced [Event.ofBest w x.1 x.2] = [x] := rfl
  refine ⟨?_, ?_, ?_, ?_, Nat.le_refl _, ?_, rfl⟩
  · intro y hy
    rw [ha] at hy
    simp at hy; subst hy; exact hx
  · rw [ha]; simp [Improving, h]
  · rw [ha]; rfl
  · simp [Event.ofBest]
  · rw [Nat.sub_self]; rfl

variable {pr : HProblem} {env : HEnv σ τ} {Inv : τ → Prop} {F : Scheduling → Prop}

theorem solveAssignment_spec (hA : Shaped pr.input env.asolve Inv) {st st' : HState σ τ} {s : Scheduling} (hs : SchedShape pr.input s)
    (hi : Inv st.asg) {sol : Solution} (h : solveAssignment env st s = .ok (sol, st')) :
    Inv st'.asg ∧ st'.count = st.count + 1 ∧
    (∃ lps, LpOnly env.worker lps ∧ st'.events = st.events ++ (lps ++ [Event.ofAssignments env.worker (st.count + 1)])) ∧
    (∃ r t', env.asolve st.asg s = .ok (r, t') ∧ sol = (match r with
      | some a => Solution.complete s a
      | none => Solution.scheduling s)) ∧
    (∀ s' a, sol = .complete s' a → s' = s ∧ Shape pr.input s a) := by
  unfold solveAssignment at h
  rw [R.bind_eq_ok] at h
  obtain ⟨⟨r, t'⟩, hr, h⟩ := h
  cases r with
  | none =>
    cases h
    exact ⟨hA.keeps _ _ _ _ hi hs hr, rfl, ⟨lpEvents env.worker (env.lpOf st.asg) (env.lpOf t'), lpEvents_only _ _ _, by simp [publish]⟩, ⟨none, t', hr, rfl⟩, by intro s' a e; cases e⟩
  | some a =>
    cases h
    exact ⟨hA.keeps _ _ _ _ hi hs hr, rfl, ⟨lpEvents env.worker (env.lpOf st.asg) (env.lpOf t'), lpEvents_only _ _ _, by simp [publish]⟩, ⟨some a, t', hr, rfl⟩, by
      intro s' a' e; cases e; exact ⟨rfl, hA.shape _ _ _ _ hi hs hr⟩⟩

theorem good_of_finite (hw : WF pr.input) (hm : pr.input.maxPref ≤ u32Max) {s : Scheduling} (hs : SchedShape pr.input s) (hf0 : F s)
    {sol : Solution} {sc : Score} (hsh : ∀ s' a, sol = .complete s' a → s' = s ∧ Shape pr.input s a)
    (he : pr.scoring.evaluate pr.input sol = .ok sc) (hf : sc.isFinite = true) : Good pr F (sol, sc) := by
  refine ⟨he, hf, ?_, ?_⟩
  · refine evaluate_inMode hw hm ?_ he
    intro s' a e
    obtain ⟨rfl, h⟩ := hsh s' a e
    exact h
  · cases sol with
    | invalid => simp [Scoring.evaluate] at he; subst he; exact absurd hf (by decide)
    | scheduling s => simp [Scoring.evaluate] at he; subst he; exact absurd hf (by decide)
    | complete s' a =>
      obtain ⟨rfl, h⟩ := hsh s' a rfl
      exact ⟨s', a, rfl, hs, h, hf0⟩

theorem clock_eq {deadline : Bool} {st : HState σ τ} : (clock env deadline st).2.asg = st.asg ∧
    (clock env deadline st).2.count = st.count ∧ (clock env deadline st).2.events = st.events ∧
    (clock env deadline st).2.rng = st.rng := by
  unfold clock; split <;> exact ⟨rfl, rfl, rfl, rfl⟩

theorem round_spec (hw : WF pr.input) (hm : pr.input.maxPref ≤ u32Max) (hA : Shaped pr.input env.asolve Inv) {deadline : Bool} :
    ∀ (ns : List Scheduling), (∀ n ∈ ns, SchedShape pr.input n ∧ F n) → ∀ {found ret found' : Bool} {b b' : Best} {st st' : HState σ τ},
      Good pr F (b.sol, b.score) → Inv st.asg → round pr env deadline ns found b st = .ok (ret, found', b', st') →
      Inv st'.asg ∧ Good pr F (b'.sol, b'.score) ∧
      (∃ evs, st'.events = st.events ++ evs ∧ Stretch pr F env.worker (b.sol, b.score) (b'.sol, b'.score) evs st.count st'.count) ∧
      (found' = true → found = false → b'.score.rank pr.scoring.greedy < b.score.rank pr.scoring.greedy) ∧
      (found = true → found' = true) ∧ (found' = false → b' = b) := by
  intro ns
  induction ns with
  | nil =>
    intro _ found ret found' b b' st st' hb hi h
    cases h
    exact ⟨hi, hb, ⟨[], by simp, Stretch.refl⟩, (by intro h1 h2; rw [h1] at h2; cases h2), fun h => h, fun _ => rfl⟩
  | cons n ns ih =>
    intro hn found ret found' b b' st st' hb hi h
    have hn' : ∀ x ∈ ns, SchedShape pr.input x ∧ F x := fun x hx => hn x (List.mem_cons_of_mem _ hx)
    obtain ⟨hnn, hnf⟩ := hn n (by simp)
    simp only [round] at h
    obtain ⟨c1, c2, c3, _⟩ := clock_eq (env := env) (deadline := deadline) (st := st)
    split at h
    · cases h
      rw [c1, c2, c3]
      exact ⟨hi, hb, ⟨[], by simp, Stretch.refl⟩, (by intro h1 h2; rw [h1] at h2; cases h2), fun h => h, fun _ => rfl⟩
    · simp only [R.bind_eq_ok] at h
      obtain ⟨⟨sol, st1⟩, h1, sc, h2, h⟩ := h
      obtain ⟨i1, n1, ⟨lps, hlps, e1⟩, _, hsh⟩ := solveAssignment_spec hA hnn (by rw [c1]; exact hi) h1
      rw [c2] at n1 e1
      rw [c3] at e1
      have st0 : Stretch pr F env.worker (b.sol, b.score) (b.sol, b.score) (lps ++ [Event.ofAssignments env.worker (st.count + 1)])
        st.count (st.count + 1) := (Stretch.lp hlps).trans Stretch.ticked
      split at h
      · rename_i hlt
        have hmode : sc.InMode pr.scoring.greedy := evaluate_inMode hw hm (by
          intro s' a e
          obtain ⟨rfl, h⟩ := hsh s' a e
          exact h) h2
        obtain ⟨hfin, hrank⟩ := Score.lt_rank hmode hb.mode hb.fin hlt
        have hgood := good_of_finite hw hm hnn hnf hsh h2 hfin
        obtain ⟨j1, j2, ⟨evs, j3, j4⟩, j5, j6, j7⟩ := ih hn' hgood (by exact i1) h
        have st1' : Stretch pr F env.worker (b.sol, b.score) (sol, sc) [Event.ofBest env.worker sol sc]
          (st.count + 1) (st.count + 1) := Stretch.better hgood hrank
        refine ⟨j1, j2, ⟨(lps ++ [Event.ofAssignments env.worker (st.count + 1)]) ++ [Event.ofBest env.worker sol sc] ++ evs, ?_, ?_⟩,
          ?_, ?_, ?_⟩
        · rw [j3]; simp [publish, e1]
        · refine (st0.trans st1').trans ?_
          have : (publish st1 (Event.ofBest env.worker sol sc)).count = st.count + 1 := n1
          rw [this] at j4
          exact j4
        · intro _ _
          obtain ⟨ys, hys⟩ := List.getLast?_eq_some_iff.1 j4.last
          have hp := j4.improving
          unfold Improving at hp
          have hmem : (b'.sol, b'.score) ∈ (sol, sc) :: announced evs := by rw [hys]; simp
          rw [List.pairwise_cons] at hp
          rcases List.mem_cons.1 hmem with e | e
          · have : b'.score = sc := congrArg Prod.snd e
            rw [this]; exact hrank
          · exact Nat.lt_trans (hp.1 _ e) hrank
        · intro _; exact j6 rfl
        · intro hf; rw [j6 rfl] at hf; cases hf
      · obtain ⟨j1, j2, ⟨evs, j3, j4⟩, j5, j6, j7⟩ := ih hn' hb (by exact i1) h
        refine ⟨j1, j2, ⟨(lps ++ [Event.ofAssignments env.worker (st.count + 1)]) ++ evs, ?_, ?_⟩, j5, j6, j7⟩
        · rw [j3, e1]; simp
        · rw [n1] at j4
          exact st0.trans j4

theorem loop_within (hw : WF pr.input) (hm : pr.input.maxPref ≤ u32Max) (hg : env.rng.Lawful) (hA : Shaped pr.input env.asolve Inv)
    (hF : ∀ s n, SchedShape pr.input s → F s → Picked pr.input s n → F n) {deadline : Bool} : ∀ (k : Nat) {b b' : Best} {st st' : HState σ τ}, Good pr F (b.sol, b.score) → Inv st.asg →
      loop pr env deadline k b st = .ok (b', st') →
      Inv st'.asg ∧ Good pr F (b'.sol, b'.score) ∧
      ∃ evs, st'.events = st.events ++ evs ∧
        Stretch pr F env.worker (b.sol, b.score) (b'.sol, b'.score) evs st.count st'.count := by
  intro k
  induction k with
  | zero => intro b b' st st' _ _ h; simp [loop, panic'] at h
  | succ k ih =>
    intro b b' st st' hb hi h
    simp only [loop] at h
    obtain ⟨c1, c2, c3, c4⟩ := clock_eq (env := env) (deadline := deadline) (st := st)
    split at h
    · cases h
      rw [c1, c2, c3]
      exact ⟨hi, hb, [], by simp, Stretch.refl⟩
    · simp only [R.bind_eq_ok] at h
      obtain ⟨s, hs, ⟨ns, rs⟩, hns, ⟨ret, found, b1, st1⟩, hr, h⟩ := h
      obtain ⟨s', a, e, hsh, _, hfs⟩ := hb.whole
      have hss : s = s' := by
        simp only at e
        rw [e] at hs; cases hs; rfl
      subst hss
      obtain ⟨hp, _, _⟩ := pickNeighbors_spec hg hsh hns
      obtain ⟨j1, j2, ⟨evs, j3, j4⟩, _⟩ := round_spec hw hm hA ns (fun n hn => ⟨(hp n hn).1, hF s n hsh hfs (hp n hn)⟩) hb
        (by show Inv (clock env deadline st).2.asg; rw [c1]; exact hi) hr
      simp only [c2, c3] at j3 j4
      split at h
      · cases h; exact ⟨j1, j2, evs, j3, j4⟩
      · split at h
        · obtain ⟨l1, l2, evs2, l3, l4⟩ := ih j2 j1 h
          refine ⟨l1, l2, evs ++ evs2, ?_, j4.trans l4⟩
          rw [l3, j3, List.append_assoc]
        · cases h; exact ⟨j1, j2, evs, j3, j4⟩

/-- The outcome of hill climbing, within a set of schedulings that contains the first one and the neighbours of its members. -/
theorem solve_within (hw : WF pr.input) (hm : pr.input.maxPref ≤ u32Max) (hg : env.rng.Lawful) (hA : Shaped pr.input env.asolve Inv)
    (hF : ∀ s n, SchedShape pr.input s → F s → Picked pr.input s n → F n) {deadline : Bool} {st st' : HState σ τ} (hi : Inv st.asg) {s : Scheduling} (hs : SchedShape pr.input s) (hf0 : F s)
    {sol : Solution} (h : solve pr env deadline st s = .ok (sol, st')) :
    Inv st'.asg ∧ ∃ r t' sol0 sc0 lps evs, LpOnly env.worker lps ∧ env.asolve st.asg s = .ok (r, t') ∧
      sol0 = (match r with
        | some a => Solution.complete s a
        | none => Solution.scheduling s) ∧
      pr.scoring.evaluate pr.input sol0 = .ok sc0 ∧ st'.events = st.events ++ (lps ++ Event.ofAssignments env.worker (st.count + 1) :: evs) ∧
      ((sc0.isFinite = false ∧ sol = .invalid ∧ evs = [] ∧ st'.count = st.count + 1) ∨
       (sc0.isFinite = true ∧ Good pr F (sol0, sc0) ∧ ∃ sc evs', Good pr F (sol, sc) ∧
          evs = Event.ofBest env.worker sol0 sc0 :: evs' ∧
          Stretch pr F env.worker (sol0, sc0) (sol, sc) evs' (st.count + 1) st'.count)) := by
  unfold solve at h
  simp only [R.bind_eq_ok] at h
  obtain ⟨⟨sol0, st1⟩, h1, sc0, h2, h⟩ := h
  obtain ⟨i1, n1, ⟨lps, hlps, e1⟩, ⟨r, t', hr, hsol⟩, hsh⟩ := solveAssignment_spec hA hs hi h1
  cases hf : sc0.isFinite
  · rw [hf] at h
    simp only [Bool.not_false, if_true] at h
    cases h
    exact ⟨i1, r, t', sol0, sc0, lps, [], hlps, hr, hsol, h2, e1, .inl ⟨hf, rfl, rfl, n1⟩⟩
  · rw [hf] at h
    simp only [Bool.not_true, Bool.false_eq_true, if_false, R.bind_eq_ok] at h
    obtain ⟨⟨b, st2⟩, hl, h⟩ := h
    cases h
    have hgood := good_of_finite hw hm hs hf0 hsh h2 hf
    obtain ⟨j1, j2, evs, j3, j4⟩ := loop_within hw hm hg hA hF rounds (b := ⟨sol0, sc0⟩) hgood (by exact i1) hl
    refine ⟨j1, r, t', sol0, sc0, lps, Event.ofBest env.worker sol0 sc0 :: evs, hlps, hr, hsol, h2, ?_, .inr ⟨hf, hgood, b.score, evs, j2, rfl, ?_⟩⟩
    · rw [j3]; simp [publish, e1]
    · have : (publish st1 (Event.ofBest env.worker sol0 sc0)).count = st.count + 1 := n1
      rw [this] at j4
      exact j4

theorem loop_spec (hw : WF pr.input) (hm : pr.input.maxPref ≤ u32Max) (hg : env.rng.Lawful) (hA : Shaped pr.input env.asolve Inv)
    (hF : ∀ n, n.length = pr.input.nc → schedFeasible pr.input n = .ok true → F n) {deadline : Bool} : ∀ (k : Nat) {b b' : Best} {st st' : HState σ τ}, Good pr F (b.sol, b.score) → Inv st.asg →
      loop pr env deadline k b st = .ok (b', st') →
      Inv st'.asg ∧ Good pr F (b'.sol, b'.score) ∧
      ∃ evs, st'.events = st.events ++ evs ∧
        Stretch pr F env.worker (b.sol, b.score) (b'.sol, b'.score) evs st.count st'.count :=
  loop_within hw hm hg hA (fun _ n _ _ h => hF n h.1.len h.2.1)

/-- The outcome of hill climbing. -/
theorem solve_spec (hw : WF pr.input) (hm : pr.input.maxPref ≤ u32Max) (hg : env.rng.Lawful) (hA : Shaped pr.input env.asolve Inv)
    (hF : ∀ n, n.length = pr.input.nc → schedFeasible pr.input n = .ok true → F n) {deadline : Bool} {st st' : HState σ τ} (hi : Inv st.asg) {s : Scheduling} (hs : SchedShape pr.input s) (hf0 : F s)
    {sol : Solution} (h : solve pr env deadline st s = .ok (sol, st')) :
    Inv st'.asg ∧ ∃ r t' sol0 sc0 lps evs, LpOnly env.worker lps ∧ env.asolve st.asg s = .ok (r, t') ∧
      sol0 = (match r with
        | some a => Solution.complete s a
        | none => Solution.scheduling s) ∧
      pr.scoring.evaluate pr.input sol0 = .ok sc0 ∧ st'.events = st.events ++ (lps ++ Event.ofAssignments env.worker (st.count + 1) :: evs) ∧
      ((sc0.isFinite = false ∧ sol = .invalid ∧ evs = [] ∧ st'.count = st.count + 1) ∨
       (sc0.isFinite = true ∧ Good pr F (sol0, sc0) ∧ ∃ sc evs', Good pr F (sol, sc) ∧
          evs = Event.ofBest env.worker sol0 sc0 :: evs' ∧
          Stretch pr F env.worker (sol0, sc0) (sol, sc) evs' (st.count + 1) st'.count)) :=
  solve_within hw hm hg hA (fun _ n _ _ h => hF n h.1.len h.2.1) hi hs hf0 h

end Hill
end Wassign
