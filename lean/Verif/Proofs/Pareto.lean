import Verif.Spec.Pareto
import Verif.Proofs.CostCounts
/-
The total cost, level by level.
-/
namespace Wassign
open Spec
variable {i : InputData} {s : Scheduling} {a : Assignment}

/-- The sum of a function over all cells. -/
def cells (i : InputData) (f : Nat → Nat → Int) : Int := isum (List.range i.np) fun p => isum (List.range i.ns) fun k => f p k

theorem value_ent (h : Shape i s a) {p k : Nat} (hp : p < i.np) (hk : k < i.ns) : value i a p k = (pref i p (ent a p k)).getD 0 := by
  unfold value
  rw [entry_some h hp hk]
  rfl

theorem value_le (hw : WF i) (p k : Nat) : value i a p k ≤ i.maxPref := by
  unfold value
  cases h : entry a p k with
  | none => simp
  | some c =>
    simp only [Option.bind_some]
    cases h2 : pref i p c with
    | none => simp
    | some x =>
      have : p < i.np ∧ c < i.nc := by
        unfold pref at h2
        cases h3 : i.choosers[p]? with
        | none => simp [h3] at h2
        | some q =>
          rw [h3] at h2
          simp only [Option.bind_some] at h2
          obtain ⟨hp, e⟩ := List.getElem?_eq_some_iff.1 h3
          obtain ⟨hc, _⟩ := List.getElem?_eq_some_iff.1 h2
          have := hw.prefLen q (by rw [← e]; exact List.getElem_mem hp)
          exact ⟨hp, by omega⟩
      obtain ⟨y, hy, hym⟩ := pref_some hw this.1 this.2
      rw [hy] at h2
      cases h2
      exact hym

theorem rowCost_value (h : Shape i s a) (hn : RowNodup i a) (he : EntriesInRange i a) (cost : Nat → Int) {p : Nat} (hp : p < i.np) :
    isum (List.range i.nc) (fun c => if attendsB a p c = true then cost ((pref i p c).getD 0) else 0) =
      isum (List.range i.ns) (fun k => cost (value i a p k)) := by
  have s1 : isum (List.range i.nc) (fun c => if attendsB a p c = true then cost ((pref i p c).getD 0) else 0) =
      isum (List.range i.nc) (fun c => isum (List.range i.ns) (fun k => if ent a p k = c then cost ((pref i p c).getD 0) else 0)) := by
    refine isum_congr fun c _ => ?_
    by_cases hat : attendsB a p c = true
    · obtain ⟨k, hk, hkc⟩ := (attends_iff h hp).1 ((attendsB_iff a p c).1 hat)
      rw [if_pos hat, isum_range_single hk, if_pos hkc]
      intro j hj hne
      rw [if_neg]
      intro e
      exact hne (hn p hp j k hj hk (e.trans hkc.symm))
    · rw [if_neg hat, isum_zero]
      intro k hk
      rw [if_neg]
      intro e
      exact hat ((attendsB_iff a p c).2 ((attends_iff h hp).2 ⟨k, by simpa using hk, e⟩))
  rw [s1, isum_comm]
  refine isum_congr fun k hk => ?_
  have hk : k < i.ns := by simpa using hk
  rw [isum_range_single (he p hp k hk) (f := fun c => if ent a p k = c then cost ((pref i p c).getD 0) else 0), if_pos rfl,
    value_ent h hp hk]
  intro c _ hne
  rw [if_neg (Ne.symm hne)]

/-- The total cost is the sum of the costs of the values in all cells. -/
theorem totalCost_cells (h : Shape i s a) (hv : AsgValid i s a) (cost : Nat → Int) :
    totalCost i cost a = cells i fun p k => cost (value i a p k) :=
  isum_congr fun _ hp => rowCost_value h (rowNodup_of_valid h hv.onePerSlot hv.onlyScheduled)
    (entriesInRange_of_valid h hv.onlyScheduled) cost (by simpa using hp)

theorem isum_mul_left {α : Type} (l : List α) (f : α → Int) (c : Int) : isum l (fun x => c * f x) = c * isum l f := by
  rw [Int.mul_comm, ← isum_mul_right]
  exact isum_congr fun _ _ => Int.mul_comm _ _

theorem isum_lt {α : Type} {l : List α} {f g : α → Int} (h : ∀ x ∈ l, f x ≤ g x) {y : α} (hy : y ∈ l) (hlt : f y < g y) :
    isum l f < isum l g := by
  induction l with
  | nil => cases hy
  | cons x l ih =>
    rw [isum_cons, isum_cons]
    have h1 := h x (by simp)
    have h2 : isum l f ≤ isum l g := isum_le fun z hz => h z (by simp [hz])
    rcases List.mem_cons.1 hy with e | e
    · subst e; omega
    · have := ih (fun z hz => h z (by simp [hz])) e
      omega

/-- Levels with positive weights, of which the cost is the weighted sum: the cost of less is less. -/
theorem cost_lt_of_levels {cost : Nat → Int} {weight : Nat → Int} {m : Nat → Nat → Int} (hw : WF i)
    (hcost : ∀ x ≤ i.maxPref, cost x = cost 0 + isum (List.range i.maxPref) fun l => weight l * m l x)
    (hpos : ∀ l < i.maxPref, 0 < weight l) {a a' : Assignment} {s s' : Scheduling} (h : Shape i s a) (hv : AsgValid i s a)
    (h' : Shape i s' a') (hv' : AsgValid i s' a')
    (hle : ∀ l < i.maxPref, cells i (fun p k => m l (value i a' p k)) ≤ cells i (fun p k => m l (value i a p k))) {l : Nat}
    (hl : l < i.maxPref) (hlt : cells i (fun p k => m l (value i a' p k)) < cells i (fun p k => m l (value i a p k))) :
    totalCost i cost a' < totalCost i cost a := by
  have key : ∀ (b : Assignment), cells i (fun p k => cost (value i b p k)) = cells i (fun _ _ => cost 0) +
      isum (List.range i.maxPref) (fun l => weight l * cells i (fun p k => m l (value i b p k))) := by
    intro b
    have e1 : cells i (fun p k => cost (value i b p k)) =
        cells i (fun p k => cost 0 + isum (List.range i.maxPref) fun l => weight l * m l (value i b p k)) :=
      isum_congr fun p _ => isum_congr fun k _ => hcost _ (value_le hw p k)
    rw [e1]
    unfold cells
    have e2 : ∀ p ∈ List.range i.np, isum (List.range i.ns) (fun k => cost 0 + isum (List.range i.maxPref) fun l => weight l * m l (value i b p k)) =
        isum (List.range i.ns) (fun _ => cost 0) + isum (List.range i.maxPref) (fun l => weight l * isum (List.range i.ns) fun k => m l (value i b p k)) := by
      intro p _
      rw [isum_add, isum_comm]
      congr 1
      exact isum_congr fun l _ => isum_mul_left _ _ _
    rw [isum_congr e2, isum_add, isum_comm (List.range i.np) (List.range i.maxPref)]
    congr 1
    exact isum_congr fun l _ => isum_mul_left _ _ _
  rw [totalCost_cells h hv, totalCost_cells h' hv', key a, key a']
  have : isum (List.range i.maxPref) (fun l => weight l * cells i (fun p k => m l (value i a' p k))) <
      isum (List.range i.maxPref) (fun l => weight l * cells i (fun p k => m l (value i a p k))) := by
    refine isum_lt (y := l) ?_ (by simpa using hl) ?_
    · intro j hj
      have hj : j < i.maxPref := by simpa using hj
      exact Int.mul_le_mul_of_nonneg_left (hle j hj) (Int.le_of_lt (hpos j hj))
    · exact Int.mul_lt_mul_of_pos_left hlt (hpos l hl)
  omega

/-- Steps. -/
theorem cost_steps (cost : Nat → Int) (m : Nat) : ∀ x ≤ m,
    cost x = cost 0 + isum (List.range m) fun l => (cost (l + 1) - cost l) * (if l < x then 1 else 0) := by
  intro x
  induction x with
  | zero =>
    intro _
    rw [isum_zero (fun l _ => by simp)]
    omega
  | succ x ih =>
    intro hx
    have e : ∀ l ∈ List.range m, (cost (l + 1) - cost l) * (if l < x + 1 then 1 else 0) =
        (cost (l + 1) - cost l) * (if l < x then 1 else 0) + (if l = x then cost (l + 1) - cost l else 0) := by
      intro l _
      by_cases h1 : l < x
      · rw [if_pos h1, if_pos (by omega), if_neg (by omega)]; omega
      · by_cases h2 : l = x
        · subst h2; simp
        · rw [if_neg h1, if_neg (by omega), if_neg h2]; omega
    rw [isum_congr e, isum_add, isum_range_single (show x < m by omega) (f := fun l => if l = x then cost (l + 1) - cost l else 0), if_pos rfl]
    · have := ih (by omega)
      omega
    · intro j _ hne; exact if_neg hne

/-- The weight of level `l` in the second decomposition. -/
def bend (cost : Nat → Int) : Nat → Int
  | 0 => cost 1 - cost 0
  | l + 1 => (cost (l + 2) - cost (l + 1)) - (cost (l + 1) - cost l)

theorem bend_sum (cost : Nat → Int) : ∀ x, isum (List.range (x + 1)) (bend cost) = cost (x + 1) - cost x := by
  intro x
  induction x with
  | zero => simp [isum, bend]
  | succ x ih =>
    rw [List.range_succ, isum_append, ih]
    simp only [isum_cons, isum_nil, bend]
    rw [show x + 1 + 1 = x + 2 from rfl]
    omega

theorem isum_range_if {x m : Nat} (h : x ≤ m) (f : Nat → Int) : isum (List.range m) (fun l => if l < x then f l else 0) = isum (List.range x) f := by
  induction m with
  | zero => have : x = 0 := by omega
            subst this; rfl
  | succ m ih =>
    rw [List.range_succ, isum_append]
    simp only [isum_cons, isum_nil]
    by_cases hx : x ≤ m
    · rw [ih hx, if_neg (by omega)]; omega
    · have : x = m + 1 := by omega
      subst this
      rw [if_pos (by omega), List.range_succ, isum_append]
      simp only [isum_cons, isum_nil]
      rw [isum_congr (g := f) (fun l hl => by
        have : l < m := by simpa using hl
        exact if_pos (show l < m + 1 by omega))]

/-- Bends. -/
theorem cost_bends (cost : Nat → Int) (m : Nat) : ∀ x ≤ m,
    cost x = cost 0 + isum (List.range m) fun l => bend cost l * ((x - l : Nat) : Int) := by
  intro x
  induction x with
  | zero =>
    intro _
    rw [isum_zero (fun l _ => by simp)]
    omega
  | succ x ih =>
    intro hx
    have e : ∀ l ∈ List.range m, bend cost l * ((x + 1 - l : Nat) : Int) = bend cost l * ((x - l : Nat) : Int) + (if l < x + 1 then bend cost l else 0) := by
      intro l _
      by_cases h : l < x + 1
      · rw [if_pos h, show x + 1 - l = (x - l) + 1 by omega, Int.natCast_add, Int.mul_add]; simp
      · rw [if_neg h, show x + 1 - l = 0 by omega, show x - l = 0 by omega]; simp
    rw [isum_congr e, isum_add, isum_range_if hx, bend_sum]
    have := ih (by omega)
    omega

theorem bend_pos {cost : Nat → Int} {m : Nat} (h : Accelerating cost m) : ∀ l < m, 0 < bend cost l := by
  intro l hl
  cases l with
  | zero => have : cost 0 < cost 1 := h.1 0 hl
            simp only [bend]; omega
  | succ l => have := h.2 l (by omega); simp only [bend]; omega

theorem cells_worse (p l : Nat) : isum (List.range i.ns) (fun k => if l < value i a p k then 1 else 0) = (worseThan i a p l : Int) :=
  isum_count _ _

theorem cells_overshoot (l : Nat) : cells i (fun p k => ((value i a p k - l : Nat) : Int)) = (overshoot i a l : Int) := by
  unfold cells overshoot
  rw [isum_congr (fun p _ => isum_range_natCast i.ns (fun k => value i a p k - l))]
  exact isum_range_natCast _ _

theorem worseThan_max (hw : WF i) (p : Nat) {l : Nat} (h : i.maxPref ≤ l) : worseThan i a p l = 0 := by
  unfold worseThan
  rw [List.countP_eq_zero]
  intro k _
  have := value_le (a := a) hw p k
  simp only [decide_eq_true_eq]
  omega

theorem overshoot_max (hw : WF i) {l : Nat} (h : i.maxPref ≤ l) : overshoot i a l = 0 := by
  have : cells i (fun p k => ((value i a p k - l : Nat) : Int)) = 0 := isum_zero fun p _ => isum_zero fun k _ => by
    have := value_le (a := a) hw p k
    show ((value i a p k - l : Nat) : Int) = 0
    rw [show value i a p k - l = 0 by omega]; rfl
  rw [cells_overshoot] at this
  omega

/-- What is better for everybody is cheaper, if the cost increases. -/
theorem cheaper_of_better {cost : Nat → Int} (hw : WF i) (hc : Increasing cost i.maxPref) {a a' : Assignment} {s s' : Scheduling}
    (h : Shape i s a) (hv : AsgValid i s a) (h' : Shape i s' a') (hv' : AsgValid i s' a') (hb : BetterForAll i a' a) :
    totalCost i cost a' < totalCost i cost a := by
  obtain ⟨hle, p, hp, l, hlt⟩ := hb
  have hl : l < i.maxPref := by
    apply Nat.lt_of_not_le
    intro hge
    rw [worseThan_max (a := a) hw p hge] at hlt
    omega
  have hle' : ∀ l, ∀ p ∈ List.range i.np, isum (List.range i.ns) (fun k => if l < value i a' p k then (1 : Int) else 0) ≤
      isum (List.range i.ns) (fun k => if l < value i a p k then 1 else 0) := by
    intro l p hp
    rw [cells_worse, cells_worse]
    exact Int.ofNat_le.2 (hle p (by simpa using hp) l)
  refine cost_lt_of_levels hw (cost_steps cost i.maxPref) (fun l hl => by have := hc l hl; omega) h hv h' hv' ?_ hl ?_
  · intro l _
    exact isum_le (hle' l)
  · refine isum_lt (hle' l) (y := p) (by simpa using hp) ?_
    rw [cells_worse, cells_worse]
    exact Int.ofNat_lt.2 hlt

/-- What is more even is cheaper, if the cost accelerates. -/
theorem cheaper_of_even {cost : Nat → Int} (hw : WF i) (hc : Accelerating cost i.maxPref) {a a' : Assignment} {s s' : Scheduling}
    (h : Shape i s a) (hv : AsgValid i s a) (h' : Shape i s' a') (hv' : AsgValid i s' a') (hb : MoreEven i a' a) :
    totalCost i cost a' < totalCost i cost a := by
  obtain ⟨hle, l, hlt⟩ := hb
  have hl : l < i.maxPref := by
    apply Nat.lt_of_not_le
    intro hge
    rw [overshoot_max (a := a) hw hge] at hlt
    omega
  refine cost_lt_of_levels hw (cost_bends cost i.maxPref) (bend_pos hc) h hv h' hv' ?_ hl ?_
  · intro l _
    rw [cells_overshoot, cells_overshoot]
    exact Int.ofNat_le.2 (hle l)
  · rw [cells_overshoot, cells_overshoot]
    exact Int.ofNat_lt.2 hlt

end Wassign

namespace Wassign
open Spec
variable {i : InputData} {s : Scheduling} {a a' : Assignment}

theorem value_of_attends (h : Shape i s a) {p c x : Nat} (hat : Attends a p c) (hx : pref i p c = some x) :
    ∃ k < i.ns, p < i.np ∧ value i a p k = x := by
  obtain ⟨k, hk⟩ := hat
  obtain ⟨hp, hks⟩ := entry_lt h hk
  refine ⟨k, hks, hp, ?_⟩
  unfold value
  rw [hk]
  simp [hx]

theorem value_within {l : Nat} (hl : WithinLimit i a l) (p k : Nat) : value i a p k ≤ l := by
  unfold value
  cases h : entry a p k with
  | none => simp
  | some c =>
    simp only [Option.bind_some]
    cases h2 : pref i p c with
    | none => simp
    | some x => exact hl p c x ⟨k, h⟩ h2

/-- What is better for everybody respects the same limits. -/
theorem within_of_better (h' : Shape i s a') {l : Nat} (hl : WithinLimit i a l) (hb : BetterForAll i a' a) : WithinLimit i a' l := by
  intro p c x hat hx
  obtain ⟨k, hk, hp, hv⟩ := value_of_attends h' hat hx
  apply Nat.le_of_not_lt
  intro hlt
  have h0 : worseThan i a p l = 0 := by
    unfold worseThan
    rw [List.countP_eq_zero]
    intro j _
    have := value_within hl p j
    simp only [decide_eq_true_eq]
    omega
  have h1 := hb.1 p hp l
  have h2 : 0 < worseThan i a' p l := by
    unfold worseThan
    rw [List.countP_pos_iff]
    exact ⟨k, by simpa using hk, by simp [hv, hlt]⟩
  omega

/-- What is more even respects the same limits. -/
theorem within_of_even (h' : Shape i s a') {l : Nat} (hl : WithinLimit i a l) (hb : MoreEven i a' a) : WithinLimit i a' l := by
  intro p c x hat hx
  obtain ⟨k, hk, hp, hv⟩ := value_of_attends h' hat hx
  apply Nat.le_of_not_lt
  intro hlt
  have h0 : cells i (fun p k => ((value i a p k - l : Nat) : Int)) = 0 := isum_zero fun p _ => isum_zero fun k _ => by
    show ((value i a p k - l : Nat) : Int) = 0
    have := value_within hl p k
    rw [show value i a p k - l = 0 by omega]; rfl
  rw [cells_overshoot] at h0
  have h1 := hb.1 l
  have h2 : (0 : Int) < cells i (fun p k => ((value i a' p k - l : Nat) : Int)) := by
    have e : (0 : Int) = isum (List.range i.np) (fun _ => 0) := (isum_zero fun _ _ => rfl).symm
    rw [e]
    refine isum_lt (fun q _ => isum_nonneg fun j _ => Int.natCast_nonneg _) (y := p) (by simpa using hp) ?_
    have e' : (0 : Int) = isum (List.range i.ns) (fun _ => 0) := (isum_zero fun _ _ => rfl).symm
    rw [e']
    refine isum_lt (fun j _ => Int.natCast_nonneg _) (y := k) (by simpa using hk) ?_
    show (0 : Int) < ((value i a' p k - l : Nat) : Int)
    rw [hv]
    omega
  rw [cells_overshoot] at h2
  omega

end Wassign

namespace Wassign
open Spec
variable {i : InputData} {a a' : Assignment}

theorem cells_single {p k : Nat} (hp : p < i.np) (hk : k < i.ns) (v : Int) :
    cells i (fun x y => if x = p ∧ y = k then v else 0) = v := by
  unfold cells
  rw [isum_range_single hp (f := fun x => isum (List.range i.ns) fun y => if x = p ∧ y = k then v else 0)]
  · rw [isum_range_single hk (f := fun y => if p = p ∧ y = k then v else 0)]
    · simp
    · intro j _ hne; exact if_neg fun h => hne h.2
  · intro x _ hne
    exact isum_zero fun y _ => if_neg fun h => hne h.1

theorem cells_add (f g : Nat → Nat → Int) : cells i (fun x y => f x y + g x y) = cells i f + cells i g := by
  unfold cells
  rw [← isum_add]
  exact isum_congr fun p _ => isum_add _ _ _

/-- Changing two cells changes the sum by what these two change. -/
theorem cells_two {f g : Nat → Nat → Int} {p k q j : Nat} (hp : p < i.np) (hk : k < i.ns) (hq : q < i.np) (hj : j < i.ns)
    (hne : ¬ (p = q ∧ k = j)) (h : ∀ x < i.np, ∀ y < i.ns, ¬ (x = p ∧ y = k) → ¬ (x = q ∧ y = j) → f x y = g x y) :
    cells i f = cells i g + (f p k - g p k) + (f q j - g q j) := by
  have e : cells i f = cells i (fun x y => g x y + ((if x = p ∧ y = k then f p k - g p k else 0) + (if x = q ∧ y = j then f q j - g q j else 0))) := by
    refine isum_congr fun x hx => isum_congr fun y hy => ?_
    have hx : x < i.np := by simpa using hx
    have hy : y < i.ns := by simpa using hy
    simp only
    by_cases h1 : x = p ∧ y = k
    · rw [if_pos h1, if_neg (by rintro ⟨e1, e2⟩; exact hne ⟨h1.1.symm.trans e1, h1.2.symm.trans e2⟩), h1.1, h1.2]; omega
    · by_cases h2 : x = q ∧ y = j
      · rw [if_neg h1, if_pos h2, h2.1, h2.2]; omega
      · rw [if_neg h1, if_neg h2, h x hx y hy h1 h2]; omega
  rw [e, cells_add, cells_add, cells_single hp hk, cells_single hq hj]
  omega

/-- Moving two values towards each other makes an assignment more even. -/
theorem even_of_exchange {p k q j : Nat} (hp : p < i.np) (hk : k < i.ns) (hq : q < i.np) (hj : j < i.ns) (hne : ¬ (p = q ∧ k = j))
    (h : ∀ x < i.np, ∀ y < i.ns, ¬ (x = p ∧ y = k) → ¬ (x = q ∧ y = j) → value i a' x y = value i a x y)
    (hsum : value i a' p k + value i a' q j ≤ value i a p k + value i a q j)
    (hmax : max (value i a' p k) (value i a' q j) < max (value i a p k) (value i a q j)) : MoreEven i a' a := by
  have key : ∀ l, (overshoot i a' l : Int) = overshoot i a l +
      (((value i a' p k - l : Nat) : Int) - ((value i a p k - l : Nat) : Int)) + (((value i a' q j - l : Nat) : Int) - ((value i a q j - l : Nat) : Int)) := by
    intro l
    rw [← cells_overshoot, ← cells_overshoot]
    exact cells_two hp hk hq hj hne fun x hx y hy h1 h2 => by rw [h x hx y hy h1 h2]
  constructor
  · intro l
    have := key l
    omega
  · refine ⟨max (value i a' p k) (value i a' q j), ?_⟩
    have := key (max (value i a' p k) (value i a' q j))
    omega

end Wassign
