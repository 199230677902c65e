import Verif.Model.SchedulingSolver
import Verif.Proofs.Rng
import Verif.Proofs.FoldLemmas
import Verif.Proofs.SchedFeasible
import Mathlib.Tactic.Ring
/-
Termination of the scheduling search, and correctness of found schedulings.
-/
namespace Wassign
namespace Search
variable {σ : Type}

theorem filterM_length_le {α : Type} {l r : List α} {p : α → R Bool} (h : l.filterM p = .ok r) :
    r.length ≤ l.length := by
  have key : ∀ (l acc r : List α), List.filterAuxM p l acc = .ok r →
      r.length ≤ l.length + acc.length := by
    intro l
    induction l with
    | nil => intro acc r h; simp [List.filterAuxM] at h; subst h; simp
    | cons x xs ih =>
      intro acc r h
      simp only [List.filterAuxM, R.bind_eq_ok] at h
      obtain ⟨b, _, h⟩ := h
      have := ih _ _ h
      cases b <;> simp at this ⊢ <;> omega
  simp only [List.filterM, R.bind_eq_ok] at h
  obtain ⟨a, h1, h2⟩ := h
  have := key l [] a h1
  cases h2
  simpa using this

theorem mapM_length {α β : Type} {l : List α} {f : α → R β} {r : List β} (h : l.mapM f = .ok r) :
    r.length = l.length := by
  induction l generalizing r with
  | nil => simp at h; subst h; rfl
  | cons x xs ih =>
    simp only [List.mapM_cons, R.bind_eq_ok] at h
    obtain ⟨y, _, ys, hys, h⟩ := h
    cases h
    simp [ih hys]

theorem isort_length {α : Type} (le : α → α → Bool) (l : List α) : (isort le l).length = l.length :=
  (isort_perm le l).length_eq

theorem feasibleSlots_length {g : RngOps σ} (hg : g.Lawful) {rs : σ} {i : InputData}
    {st : SearchState} {choice : Nat} {r} (h : feasibleSlots g rs i st choice = .ok r) :
    r.1.length ≤ i.ns + 1 := by
  unfold feasibleSlots at h
  simp only [R.bind_eq_ok] at h
  obtain ⟨low, hlow, normal, hnormal, keyed, hkeyed, h⟩ := h
  obtain ⟨out, s', ho, hi⟩ := riffleShuffle_spec hg rs
    ((isort (fun (a b : Nat × Nat) => decide (a.1 < b.1 ∨ (a.1 = b.1 ∧ a.2 ≤ b.2))) keyed).map
      (fun (e : Nat × Nat) => some e.2)) low
  rw [ho] at h
  cases h
  have h1 := hi.perm.length_eq
  have h2 := mapM_length hkeyed
  have h3 := filterM_length_le hnormal
  simp only [List.length_append, List.length_map, isort_length] at h1
  have h4 : low.length ≤ 1 := by
    unfold omitCandidate at hlow
    simp only [R.bind_eq_ok] at hlow
    obtain ⟨ch, _, hlow⟩ := hlow
    split at hlow
    · simp only [R.bind_eq_ok] at hlow
      obtain ⟨ok, _, hlow⟩ := hlow
      cases hlow; split <;> simp
    · cases hlow; simp
  simp at h3
  simp only
  omega

theorem candidates_length {g : RngOps σ} (hg : g.Lawful) {i : InputData} {cs : List CriticalSet}
    {avail choice : Nat} {st : SearchState} {rs : σ} {r}
    (h : candidates g i cs avail choice st rs = .ok r) : r.1.length ≤ i.ns + 1 := by
  unfold candidates at h
  simp only [R.bind_eq_ok] at h
  obtain ⟨imp, _, h⟩ := h
  split at h
  · cases h; simp
  · simp only [R.bind_eq_ok] at h
    obtain ⟨okc, _, h⟩ := h
    split at h
    · cases h; simp
    · simp only [R.bind_eq_ok] at h
      obtain ⟨crit, _, h⟩ := h
      split at h
      · exact feasibleSlots_length hg h
      · simp only [R.bind_eq_ok] at h
        obtain ⟨ok, _, h⟩ := h
        cases h; split <;> simp
      · cases h; simp

/-- Sum of the sizes of the buckets, weighted by what one candidate may still cost. -/
def bsum (ns n : Nat) (bt : List (List (Option Nat))) : Nat :=
  rsum bt.length (fun d => (bt[d]?.getD []).length * (pend ns (n - d - 1) + 1) + 1)

/-- The potential of the loop state. -/
def pot (ns n : Nat) (m : Machine σ) : Nat :=
  bsum ns n m.bt + (if m.bt.length = m.depth then pend ns (n - m.depth) else 0)

/-- The shape of the backtracking stack. -/
structure BtInv (n : Nat) (m : Machine σ) : Prop where
  depth : m.depth ≤ n
  len : m.bt.length = m.depth ∨ (m.bt.length = m.depth + 1 ∧ m.depth < n)

theorem bsum_append (ns n : Nat) (bt : List (List (Option Nat))) (b : List (Option Nat)) :
    bsum ns n (bt ++ [b]) = bsum ns n bt + (b.length * (pend ns (n - bt.length - 1) + 1) + 1) := by
  unfold bsum
  rw [List.length_append, List.length_singleton, rsum_succ]
  congr 1
  · apply rsum_congr
    intro c hc
    rw [List.getElem?_append_left hc]
  · simp

theorem eq_append_last {α : Type} {l : List α} {d : Nat} {b : α} (hl : l.length = d + 1)
    (hb : l[d]? = some b) : l = l.dropLast ++ [b] := by
  have hne : l ≠ [] := by intro h; simp [h] at hl
  have := List.dropLast_concat_getLast hne
  have hlast : l.getLast hne = b := by
    rw [List.getLast_eq_getElem]
    have : l.length - 1 = d := by omega
    simp only [this]
    rw [List.getElem?_eq_some_iff] at hb
    exact hb.2
  rw [hlast] at this
  exact this.symm

theorem pushStep_spec {g : RngOps σ} (hg : g.Lawful) {i : InputData} {cs : List CriticalSet}
    {suffix : List Nat} {choice n : Nat} {m m' : Machine σ} (hn : m.depth < n) (hb : BtInv n m)
    (h : pushStep g i cs suffix choice m = .ok m') :
    m'.depth = m.depth ∧ m'.st = m.st ∧ m'.bt.length = m'.depth + 1 ∧
      bsum i.ns n m'.bt ≤ pot i.ns n m := by
  unfold pushStep at h
  split at h
  · rename_i hle
    have hlen : m.bt.length = m.depth := by
      rcases hb.len with h | h <;> omega
    simp only [R.bind_eq_ok] at h
    obtain ⟨avail, _, c, hc, h⟩ := h
    cases h
    have hcl := candidates_length hg hc
    refine ⟨rfl, rfl, by simp [hlen], ?_⟩
    simp only [bsum_append, pot, hlen, List.length_reverse, if_true]
    have : n - m.depth = (n - m.depth - 1) + 1 := by omega
    rw [this, pend]
    simp only [Nat.add_sub_cancel]
    have := Nat.mul_le_mul_right (pend i.ns (n - m.depth - 1) + 1) hcl
    omega
  · rename_i hgt
    cases h
    have hlen : m.bt.length = m.depth + 1 := by
      rcases hb.len with h | h <;> omega
    exact ⟨rfl, rfl, hlen, by simp [pot]⟩

theorem iter_decreases {g : RngOps σ} (hg : g.Lawful) {i : InputData} {cs : List CriticalSet}
    {scramble suffix : List Nat} {m m' : Machine σ} (hn : m.depth < scramble.length)
    (hb : BtInv scramble.length m) (h : iter g i cs scramble suffix m = .ok (.next m')) :
    BtInv scramble.length m' ∧ pot i.ns scramble.length m' < pot i.ns scramble.length m := by
  unfold iter at h
  simp only [R.bind_eq_ok] at h
  obtain ⟨choice, _, m1, hm1, bucket, hbucket, h⟩ := h
  obtain ⟨hd, _, hlen, hle⟩ := pushStep_spec hg hn hb hm1
  rw [idx_eq_ok] at hbucket
  have heq := eq_append_last hlen hbucket
  have hdl : m1.bt.dropLast.length = m.depth := by simp [hlen, hd]
  have hbs := bsum_append i.ns scramble.length m1.bt.dropLast bucket
  rw [← heq] at hbs
  rw [hdl] at hbs
  split at h
  · rename_i hlast
    split at h
    · cases h
    · rename_i hne
      simp only [R.bind_eq_ok] at h
      obtain ⟨prev, _, st, _, h⟩ := h
      cases h
      refine ⟨⟨by simp only; omega, .inr ⟨by simp only; omega, by simp only; omega⟩⟩, ?_⟩
      refine Nat.lt_of_lt_of_le ?_ hle
      simp only [pot]
      rw [if_neg (by omega)]
      omega
  · rename_i x hlast
    simp only [R.bind_eq_ok] at h
    obtain ⟨st, _, h⟩ := h
    cases h
    refine ⟨⟨by simp only; omega, .inl (by simp [hlen])⟩, ?_⟩
    have hset : m1.bt.set m1.depth bucket.dropLast = m1.bt.dropLast ++ [bucket.dropLast] := by
      rw [heq, List.set_append_right _ _ (by simp; omega)]
      simp [hlen]
    refine Nat.lt_of_lt_of_le ?_ hle
    simp only [hset, pot, bsum_append, hdl]
    rw [if_pos (by simp; omega)]
    have hpos : 0 < bucket.length := by
      cases bucket with
      | nil => simp at hlast
      | cons _ _ => simp
    rw [List.length_dropLast]
    have h1 : scramble.length - (m1.depth + 1) = scramble.length - m.depth - 1 := by omega
    rw [h1]
    obtain ⟨k, hk⟩ : ∃ k, bucket.length = k + 1 := ⟨bucket.length - 1, by omega⟩
    rw [hk] at hbs
    rw [hk]
    simp only [Nat.add_sub_cancel] at hbs ⊢
    have : (k + 1) * (pend i.ns (scramble.length - m.depth - 1) + 1) =
      k * (pend i.ns (scramble.length - m.depth - 1) + 1) +
        (pend i.ns (scramble.length - m.depth - 1) + 1) := by ring
    rw [this] at hbs
    omega

theorem choiceScramble_perm {g : RngOps σ} (hg : g.Lawful) (rs : σ) (i : InputData) :
    (choiceScramble g rs i).1.Perm (List.range i.nc) := by
  unfold choiceScramble
  exact (isort_perm _ _).trans (shuffleList_perm hg rs _)

theorem choiceScramble_length {g : RngOps σ} (hg : g.Lawful) (rs : σ) (i : InputData) :
    (choiceScramble g rs i).1.length = i.nc := by
  simpa using (choiceScramble_perm hg rs i).length_eq

/-- The loop state at the start of `solve_scheduling`. -/
def start (i : InputData) (rs : σ) : Machine σ := ⟨0, [], SearchState.new i.nc i.ns, rs⟩

theorem btInv_start (n : Nat) (i : InputData) (rs : σ) : BtInv n (start i rs) :=
  ⟨Nat.zero_le _, .inl rfl⟩

theorem pot_start (i : InputData) (rs : σ) (n : Nat) : pot i.ns n (start i rs) = pend i.ns n := by
  simp [pot, start, bsum]

theorem no_infinite_run {g : RngOps σ} (hg : g.Lawful) {i : InputData} {cs : List CriticalSet}
    {scramble suffix : List Nat} (run : Nat → Machine σ) (h0 : BtInv scramble.length (run 0))
    (hd : ∀ k, (run k).depth < scramble.length)
    (hs : ∀ k, iter g i cs scramble suffix (run k) = .ok (.next (run (k + 1)))) : False := by
  have key : ∀ k, BtInv scramble.length (run k) ∧
      pot i.ns scramble.length (run k) + k ≤ pot i.ns scramble.length (run 0) := by
    intro k
    induction k with
    | zero => exact ⟨h0, Nat.le_refl _⟩
    | succ k ih =>
      obtain ⟨hb, hp⟩ := iter_decreases hg (hd k) ih.1 (hs k)
      exact ⟨hb, by omega⟩
  have := (key (pot i.ns scramble.length (run 0) + 1)).2
  omega

/-- The number of iterations from a state is at most its potential. -/
theorem run_length_le {g : RngOps σ} (hg : g.Lawful) {i : InputData} {cs : List CriticalSet}
    {scramble suffix : List Nat} (run : Nat → Machine σ) (h0 : BtInv scramble.length (run 0))
    (n : Nat) (hd : ∀ k < n, (run k).depth < scramble.length)
    (hs : ∀ k < n, iter g i cs scramble suffix (run k) = .ok (.next (run (k + 1)))) :
    BtInv scramble.length (run n) ∧
    pot i.ns scramble.length (run n) + n ≤ pot i.ns scramble.length (run 0) := by
  induction n with
  | zero => exact ⟨h0, Nat.le_refl _⟩
  | succ n ih =>
    have ih := ih (fun k hk => hd k (by omega)) (fun k hk => hs k (by omega))
    obtain ⟨hb, hp⟩ := iter_decreases hg (hd n (by omega)) ih.1 (hs n (by omega))
    exact ⟨hb, by omega⟩

theorem loop_fuel {g : RngOps σ} (hg : g.Lawful) {i : InputData} {cs : List CriticalSet}
    {scramble suffix : List Nat} {late : Nat → Bool} :
    ∀ (f1 f2 k : Nat) (m : Machine σ), BtInv scramble.length m →
      pot i.ns scramble.length m < f1 → pot i.ns scramble.length m < f2 →
      loop g i cs scramble suffix late f1 k m = loop g i cs scramble suffix late f2 k m := by
  intro f1
  induction f1 with
  | zero => intro f2 k m _ h; omega
  | succ f1 ih =>
    intro f2 k m hb h1 h2
    obtain ⟨f2, rfl⟩ : ∃ f, f2 = f + 1 := ⟨f2 - 1, by omega⟩
    unfold loop
    split
    · rename_i hd
      split
      · rfl
      · cases hit : iter g i cs scramble suffix m with
        | error e => rfl
        | ok r =>
          cases r with
          | exhausted r => rfl
          | next m' =>
            obtain ⟨hb', hp⟩ := iter_decreases hg hd hb hit
            exact ih f2 (k + 1) m' hb' (by omega) (by omega)
    · rfl

/-- Whatever the loop reports about a leaf was decided by the final check. -/
theorem loop_found {g : RngOps σ} {i : InputData} {cs : List CriticalSet}
    {scramble suffix : List Nat} {late : Nat → Bool} :
    ∀ (fuel k : Nat) (m : Machine σ) (slots : List (List Nat)) (r : σ),
      loop g i cs scramble suffix late fuel k m = .ok (.found slots, r) →
      ∃ st, finish i st = .ok (.found slots) := by
  intro fuel
  induction fuel with
  | zero => intro k m slots r h; simp [loop, panic'] at h
  | succ fuel ih =>
    intro k m slots r h
    unfold loop at h
    split at h
    · split at h
      · cases h
      · simp only [R.bind_eq_ok] at h
        obtain ⟨res, _, h⟩ := h
        cases res with
        | exhausted r => cases h
        | next m' => exact ih _ _ _ _ h
    · simp only [R.bind_eq_ok] at h
      obtain ⟨o, ho, h⟩ := h
      cases h
      exact ⟨_, ho⟩

theorem finish_found {i : InputData} {st : SearchState} {slots : List (List Nat)}
    (h : finish i st = .ok (.found slots)) :
    ∃ s, toScheduling i slots = .ok s ∧ s.length = i.nc ∧ schedFeasible i s = .ok true := by
  unfold finish at h
  simp only [R.bind_eq_ok] at h
  obtain ⟨res, _, d, hd, sch, hsch, ok, hok, h⟩ := h
  unfold Scheduling.withData at hsch
  split at hsch
  · cases hsch
    cases ok with
    | false => cases h
    | true => cases h; exact ⟨d, hd, by assumption, hok⟩
  · cases hsch

theorem solve_found {g : RngOps σ} {i : InputData} {cs : List CriticalSet} {late : Nat → Bool}
    {rs r : σ} {slots : List (List Nat)} (h : solve g i cs late rs = .ok (.found slots, r)) :
    ∃ s, toScheduling i slots = .ok s ∧ s.length = i.nc ∧ schedFeasible i s = .ok true := by
  unfold solve at h
  simp only [R.bind_eq_ok] at h
  obtain ⟨suffix, _, h⟩ := h
  obtain ⟨st, hst⟩ := loop_found _ _ _ _ _ h
  exact finish_found hst

theorem limitLoop_found {g : RngOps σ} {i : InputData} {sets : Nat → List CriticalSet}
    {late : Nat → Nat → Bool} : ∀ (fuel limit : Nat) (rs : σ) (slots : List (List Nat)) (r : σ),
    limitLoop g i sets late fuel limit rs = .ok (some slots, r) →
    ∃ s, toScheduling i slots = .ok s ∧ s.length = i.nc ∧ schedFeasible i s = .ok true := by
  intro fuel
  induction fuel with
  | zero => intro limit rs slots r h; simp [limitLoop, panic'] at h
  | succ fuel ih =>
    intro limit rs slots r h
    unfold limitLoop at h
    simp only [R.bind_eq_ok] at h
    obtain ⟨o, ho, h⟩ := h
    split at h
    · cases h
      obtain ⟨o1, o2⟩ := o
      cases o1 with
      | found slots => exact solve_found ho
      | rejected _ => rename_i he; simp [Outcome.slots] at he
      | exhausted => rename_i he; simp [Outcome.slots] at he
      | timeout => rename_i he; simp [Outcome.slots] at he
    · split at h
      · cases h
      · exact ih _ _ _ _ h

theorem nextScheduling_feasible {g : RngOps σ} {i : InputData} {bound : Nat}
    {sets : Nat → List CriticalSet} {late : Nat → Nat → Bool} {rs r : σ} {s : Scheduling}
    (h : nextScheduling g i bound sets late rs = .ok (some s, r)) :
    s.length = i.nc ∧ schedFeasible i s = .ok true := by
  unfold nextScheduling at h
  simp only [R.bind_eq_ok] at h
  obtain ⟨x, _, res, hres, h⟩ := h
  obtain ⟨slots?, r'⟩ := res
  cases slots? with
  | none => cases h
  | some slots =>
    simp only [R.bind_eq_ok] at h
    obtain ⟨d, hd, sch, hsch, h⟩ := h
    obtain ⟨s', h1, h2, h3⟩ := limitLoop_found _ _ _ _ _ hres
    rw [h1] at hd
    cases hd
    unfold Scheduling.withData at hsch
    rw [if_pos h2] at hsch
    cases hsch
    cases h
    exact ⟨h2, h3⟩

end Search
end Wassign
