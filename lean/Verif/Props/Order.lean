import Verif.Proofs.Order
import Verif.Props.Search
/-
Property theorems about the order of the scheduling search: C71.
-/
namespace Wassign
open Spec Search

/-- One iteration of the loop of `solve_scheduling` (scheduling_solver.rs:519-579) that does not end it. -/
def Search.Step {σ : Type} (g : RngOps σ) (i : InputData) (cs : List CriticalSet) (scr suf : List Nat) (m m' : Machine σ) : Prop :=
  m.depth < scr.length ∧ iter g i cs scr suf m = .ok (.next m')

/-- The state of a search that has been started with the random state `rs` (scheduling_solver.rs:506-517). -/
structure Search.At {σ : Type} (g : RngOps σ) (i : InputData) (cs : List CriticalSet) (rs : σ) (suf : List Nat) (m : Machine σ) : Prop where
  suffix : maxSuffix i (choiceScramble g rs i).1 = .ok suf
  reached : Reached (Search.Step g i cs (choiceScramble g rs i).1 suf) ⟨0, [], SearchState.new i.nc i.ns, (choiceScramble g rs i).2⟩ m

/-- **C71**: the order in which the choices are handled contains every choice once, and a choice with more scheduling
constraints comes before one with fewer. -/
theorem C71_most_constrained_first {σ : Type} (g : RngOps σ) (hg : g.Lawful) (i : InputData) (rs : σ) :
    (choiceScramble g rs i).1.Perm (List.range i.nc) ∧
    (choiceScramble g rs i).1.Pairwise (fun a b => (i.schedConsFor b).length ≤ (i.schedConsFor a).length) := by
  refine ⟨choiceScramble_perm hg rs i, ?_⟩
  have := isort_pairwise (le := fun a b => decide ((i.schedConsFor b).length ≤ (i.schedConsFor a).length))
    (by simp; omega) (by simp; omega) (shuffleList g rs (List.range i.nc)).1
  exact this.imp (fun h => of_decide_eq_true h)

section
variable {σ : Type} (g : RngOps σ) (hg : g.Lawful) (i : InputData) (hw : WF i) (hz : Sizes i) (hr : SearchReady i)
  (cs : List CriticalSet) (hcs : ∀ set ∈ cs, ∀ e ∈ set.data, e < i.nc) (rs : σ) (suf : List Nat)

theorem sufOk_of {i : InputData} (hz : Sizes i) {g : RngOps σ} (hg : g.Lawful) {rs : σ} {suf : List Nat}
    (h : maxSuffix i (choiceScramble g rs i).1 = .ok suf) : SufOk i (choiceScramble g rs i).1 suf := by
  have hp := choiceScramble_perm hg rs i
  have hsum : ((choiceScramble g rs i).1.map (valOf i (·.max))).sum ≤ u32Max := by
    have := rsum_scr hp (valOf i (·.max)) 0
    rw [rsum_valOf] at this
    simp only [List.take_zero, List.map_nil, List.sum_nil, Nat.zero_add, List.drop_zero] at this
    rw [← this]
    exact hz.sumMax
  obtain ⟨suf', hs1, hs2⟩ := maxSuffix_spec (i := i) (choiceScramble g rs i).1
    (fun c hc => by simpa using hp.mem_iff.1 hc) hsum
  rw [hs1] at h
  cases h
  exact hs2

include hg hw hz hr hcs

/-- **C71**: at every moment of a search the choices decided on are the first ones of that order, as many as the depth says. -/
theorem C71_decided_in_order (m : Machine σ) (h : Search.At g i cs rs suf m) (c : Nat) (hc : c < i.nc) :
    m.depth ≤ i.nc ∧
    (m.st.decisions[c]? ≠ some .undecided ↔ c ∈ (choiceScramble g rs i).1.take m.depth) := by
  have hp := choiceScramble_perm hg rs i
  obtain ⟨hm, -⟩ := reached_inv hg hw hz hr hcs (sufOk_of hz hg h.suffix) hp h.reached
  refine ⟨?_, ?_⟩
  · have := hm.bt.depth
    rwa [choiceScramble_length hg] at this
  · have := hm.ord.und c hc
    unfold Und at this
    rw [ne_eq, this, Classical.not_not]

/-- **C71**: emptier slots are tried first. If the search places choice `c` in slot `a` and, some time later, without having
revised an earlier decision in between, comes back to the same choice and places it in slot `b`, then it does so given the
same earlier decisions, and slot `a` was less full than `b`, or as full and listed before it. -/
theorem C71_emptier_slots_first (m m1 m2 m3 : Machine σ) (h : Search.At g i cs rs suf m)
    (h1 : Search.Step g i cs (choiceScramble g rs i).1 suf m m1) (hf : m1.depth = m.depth + 1)
    (hs : Stays (Search.Step g i cs (choiceScramble g rs i).1 suf) (·.depth) m.depth m1 m2) (hb : m2.depth = m.depth)
    (h3 : Search.Step g i cs (choiceScramble g rs i).1 suf m2 m3) (hf3 : m3.depth = m2.depth + 1)
    (c a b : Nat) (hc : (choiceScramble g rs i).1[m.depth]? = some c)
    (ha : m1.st.decisions[c]? = some (.slot a)) (hb' : m3.st.decisions[c]? = some (.slot b)) :
    m2.st.decisions = m.st.decisions ∧ Emptier i (m.st.decisions.map Decision.slot?) a b := by
  have hp := choiceScramble_perm hg rs i
  have hsuf := sufOk_of hz hg h.suffix
  obtain ⟨hm, ho⟩ := reached_inv hg hw hz hr hcs hsuf hp h.reached
  have hn := hm.ord.nodup
  obtain ⟨bt, bucket, hl, hbk, _, _, hord, hcase⟩ := iter_cases hg hw hz hr hcs hsuf hm h1.1 h1.2
  rcases hcase with ⟨_, hcase⟩ | ⟨choice, x, hget, hpl⟩
  · have := hcase.depth; omega
  rw [hc] at hget
  cases hget
  have hm1 := iter_next_minv hg hw hz hr hcs hsuf hm h1.1 h1.2
  have hbt1 : m1.bt[m.depth]? = some bucket.dropLast := by rw [hpl.bts, List.getElem?_set_self (by omega)]
  obtain ⟨hm2, _, hpre, b2, hb2, hpf⟩ := stays_prefix hg hw hz hr hcs hsuf hm1 hbt1 hs
  obtain ⟨bt', bucket', hl', hbk', hsame, _, _, hcase'⟩ := iter_cases hg hw hz hr hcs hsuf hm2 h3.1 h3.2
  rcases hcase' with ⟨_, hcase'⟩ | ⟨choice', y, hget', hpl'⟩
  · have := hcase'.depth; omega
  rw [hb, hc] at hget'
  cases hget'
  have hcl : c < i.nc := hm.ord.lt (List.mem_of_getElem? hc)
  have hx : x = some a := by
    rw [hpl.dec, List.getElem?_set_self (by rw [hm.st.len]; exact hcl)] at ha
    cases x <;> simp [ofSlot] at ha
    rw [ha]
  have hy : y = some b := by
    rw [hpl'.dec, List.getElem?_set_self (by rw [hm2.st.len]; exact hcl)] at hb'
    cases y <;> simp [ofSlot] at hb'
    rw [hb']
  have hlt : m2.depth < m2.bt.length := by rw [hb]; exact (List.getElem?_eq_some_iff.1 hb2).1
  rw [hsame hlt, hb, hb2] at hbk'
  cases hbk'
  have hymem : y ∈ bucket.dropLast := hpf.subset (List.mem_of_getLast? hpl'.last)
  have hsplit : bucket = bucket.dropLast ++ [x] := by
    have hne : bucket ≠ [] := by rintro rfl; have := hpl.last; simp at this
    have := List.dropLast_concat_getLast hne
    have hl := hpl.last
    rw [List.getLast?_eq_some_getLast hne] at hl
    cases hl
    exact this.symm
  have hpair := hord ho
  rw [hsplit, List.reverse_append, List.reverse_singleton, List.singleton_append, List.pairwise_cons] at hpair
  refine ⟨?_, (hpair.1 y (by simpa using hymem)).2 a b hx hy⟩
  have e1 : pre (choiceScramble g rs i).1 m.depth m2.st.decisions = m2.st.decisions := by
    have := pre_eq hm2.ord hm2.st.len
    rwa [hb] at this
  have e2 : pre (choiceScramble g rs i).1 m.depth m1.st.decisions = m.st.decisions := by
    rw [hpl.dec, pre_set hn (Nat.le_refl _) hc, pre_eq hm.ord hm.st.len]
  rw [← e1, hpre, e2]

end

namespace OrderEx

/-- Five choices in two slots: `P` must be in the first slot, `Y` in the second, `X` not with `Y`. -/
def inp : InputData where
  choices := [⟨['X'], 0, 3, none, false⟩, ⟨['Y'], 0, 3, none, false⟩, ⟨['P'], 0, 3, none, false⟩,
              ⟨['U'], 0, 3, none, true⟩, ⟨['V'], 0, 3, none, true⟩]
  choosers := [⟨['p'], [0, 0, 0, 0, 0]⟩, ⟨['q'], [0, 0, 0, 0, 0]⟩]
  slots := [['s'], ['t']]
  schedCons := [⟨.choicesAreNotInSameSlot, 0, .choice 1, .none⟩, ⟨.choiceIsInSlot, 1, .slot 1, .none⟩,
                ⟨.choiceIsInSlot, 2, .slot 0, .none⟩, ⟨.choiceIsNotInSlot, 2, .slot 1, .none⟩,
                ⟨.choicesAreNotInSameSlot, 0, .choice 3, .none⟩, ⟨.choicesAreNotInSameSlot, 0, .choice 4, .none⟩,
                ⟨.choicesAreNotInSameSlot, 2, .choice 3, .none⟩, ⟨.choicesAreNotInSameSlot, 2, .choice 4, .none⟩]
  asgCons := []
  depGroups := [[0], [1], [2], [3], [4]]
  prefLevels := [0]
  maxPref := 0
  choiceConMap := [
    (0, [⟨.choicesAreNotInSameSlot, 0, .choice 1, .none⟩, ⟨.choicesAreNotInSameSlot, 0, .choice 3, .none⟩,
      ⟨.choicesAreNotInSameSlot, 0, .choice 4, .none⟩]),
    (1, [⟨.choicesAreNotInSameSlot, 0, .choice 1, .none⟩, ⟨.choiceIsInSlot, 1, .slot 1, .none⟩]),
    (2, [⟨.choiceIsInSlot, 2, .slot 0, .none⟩, ⟨.choiceIsNotInSlot, 2, .slot 1, .none⟩,
      ⟨.choicesAreNotInSameSlot, 2, .choice 3, .none⟩, ⟨.choicesAreNotInSameSlot, 2, .choice 4, .none⟩]),
    (3, [⟨.choicesAreNotInSameSlot, 0, .choice 3, .none⟩, ⟨.choicesAreNotInSameSlot, 2, .choice 3, .none⟩]),
    (4, [⟨.choicesAreNotInSameSlot, 0, .choice 4, .none⟩, ⟨.choicesAreNotInSameSlot, 2, .choice 4, .none⟩])]
  chooserConMap := []

theorem wf : WF inp := by decide
theorem sizes : Sizes inp := by constructor <;> decide

theorem ready : SearchReady inp where
  limits := by
    intro k hk n hn
    simp only [inp, List.mem_cons, List.not_mem_nil, or_false] at hk
    rcases hk with rfl | rfl | rfl | rfl | rfl | rfl | rfl | rfl <;> simp at hn
  offsets := by
    intro k hk o ho
    simp only [inp, List.mem_cons, List.not_mem_nil, or_false] at hk
    rcases hk with rfl | rfl | rfl | rfl | rfl | rfl | rfl | rfl <;> simp at ho
  slots := by decide
  conMap := by
    intro c hc k
    have : c < 5 := hc
    have hall : ∀ c' ∈ [0, 1, 2, 3, 4], (∀ k ∈ inp.schedConsFor c', k ∈ inp.schedCons ∧ Concerns k c') ∧
        (∀ k ∈ inp.schedCons, Concerns k c' → k ∈ inp.schedConsFor c') := by decide
    have := hall c (by simp; omega)
    exact ⟨this.1 k, fun h => this.2 k h.1 h.2⟩

/-- The order of the choices, the sums of maxima of the choices left, and the state after `n` iterations. -/
def scr : List Nat := (choiceScramble Ex.rng 0 inp).1
def suf : List Nat := [15, 12, 9, 6, 3, 0]
def first : Machine Nat := ⟨0, [], SearchState.new inp.nc inp.ns, (choiceScramble Ex.rng 0 inp).2⟩

def next (m : Machine Nat) : Option (Machine Nat) :=
  match iter Ex.rng inp [] scr suf m with
  | .ok (.next m') => some m'
  | _ => none

def after : Nat → Machine Nat
  | 0 => first
  | n + 1 => (next (after n)).getD first

theorem step (n : Nat) (h1 : (after n).depth < scr.length) (h2 : (next (after n)).isSome = true) :
    Search.Step Ex.rng inp [] scr suf (after n) (after (n + 1)) := by
  refine ⟨h1, ?_⟩
  show _ = Except.ok (StepResult.next ((next (after n)).getD first))
  unfold next at h2 ⊢
  cases hi : iter Ex.rng inp [] scr suf (after n) with
  | error e => rw [hi] at h2; cases h2
  | ok r =>
    cases r with
    | next m' => rfl
    | exhausted r => rw [hi] at h2; cases h2

theorem steps : ∀ n, n < 8 → Search.Step Ex.rng inp [] scr suf (after n) (after (n + 1)) := by
  intro n hn
  have h : ∀ n ∈ List.range 8, (after n).depth < scr.length ∧ (next (after n)).isSome = true := by decide +kernel
  obtain ⟨h1, h2⟩ := h n (by simpa using hn)
  exact step n h1 h2

theorem reach : ∀ n, n ≤ 8 → Reached (Search.Step Ex.rng inp [] scr suf) first (after n) := by
  intro n
  induction n with
  | zero => intro _; exact .start
  | succ n ih => intro h; exact .step (ih (by omega)) (steps n (by omega))

theorem deep : ∀ n, n < 8 → 0 < n → 1 ≤ (after n).depth := by
  intro n hn h0
  have h : ∀ n ∈ List.range 8, 0 < n → 1 ≤ (after n).depth := by decide +kernel
  exact h n (by simpa using hn) h0

theorem stays : ∀ n, n ≤ 5 → Stays (Search.Step Ex.rng inp [] scr suf) (·.depth) 1 (after 2) (after (2 + n)) := by
  intro n
  induction n with
  | zero => intro _; exact .refl (deep 2 (by omega) (by omega))
  | succ n ih => intro h; exact .step (ih (by omega)) (steps (2 + n) (by omega)) (deep (2 + n + 1) (by omega) (by omega))

/-- `X` is tried in the empty second slot first, then, five iterations later, in the first slot, where `P` is. -/
theorem tried : Emptier inp [none, none, some 0, none, none] 1 0 :=
  (C71_emptier_slots_first Ex.rng Ex.rng_lawful inp wf sizes ready [] (by decide) 0 suf (after 1) (after 2) (after 7) (after 8)
    ⟨by decide +kernel, reach 1 (by omega)⟩ (steps 1 (by omega)) (by decide +kernel)
    (stays 5 (by omega)) (by decide +kernel) (steps 7 (by omega)) (by decide +kernel) 0 1 0 (by decide +kernel) (by decide +kernel)
    (by decide +kernel)).2

/-- The most constrained choice, `P`, comes first, `X` second. -/
example : scr = [2, 0, 4, 3, 1] ∧ (inp.schedConsFor 2).length = 4 ∧ (inp.schedConsFor 0).length = 3 := by decide +kernel

end OrderEx
end Wassign
