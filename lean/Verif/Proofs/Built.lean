import Verif.Proofs.Build
/-
The facts of `Built` in terms of `Spec.IsWritten`.
-/
namespace Wassign
open Spec Build

theorem walkParts_congr {d d' : InputData} (h : d.choices.map (·.continuation) = d'.choices.map (·.continuation)) :
    ∀ m k c, walkParts d m k c = walkParts d' m k c := by
  intro m k
  induction k with
  | zero => intro c; rfl
  | succ k ih =>
    intro c
    unfold walkParts
    have hlen : d.choices.length = d'.choices.length := by simpa using congrArg List.length h
    by_cases hc : c < d.choices.length
    · rw [idx_ok hc, idx_ok (by omega), R.bind_ok, R.bind_ok]
      have hcc : d.choices[c].continuation = (d'.choices[c]'(by omega)).continuation := by
        have := congrArg (fun l => l[c]?) h
        simpa [List.getElem?_eq_getElem hc, List.getElem?_eq_getElem (show c < d'.choices.length by omega)] using this
      rw [hcc]
      split
      · rfl
      · exact ih _
    · have e1 : d.choices[c]? = none := List.getElem?_eq_none (by omega)
      have e2 : d'.choices[c]? = none := List.getElem?_eq_none (by omega)
      unfold idx; rw [e1, e2]; rfl

theorem buildExpr_congr {d d' : InputData} (h1 : d.slots = d'.slots) (h2 : d.choices.map (·.name) = d'.choices.map (·.name))
    (h3 : d.choices.map (·.continuation) = d'.choices.map (·.continuation))
    (h4 : d.choosers.map (·.name) = d'.choosers.map (·.name)) (e : CExpr) : buildExpr d e = buildExpr d' e := by
  have hr : ∀ a, resolveAccessor d a = resolveAccessor d' a := by
    intro a
    unfold resolveAccessor
    rw [h1, h2, h4]
    simp only [walkParts_congr h3]
  have hrr : ∀ a, resolveRight d a = resolveRight d' a := by
    intro a; unfold resolveRight; simp only [hr]
  have ha : ∀ e k x, addConstraint d e k x = addConstraint d' e k x := by
    intro e k x; unfold addConstraint; simp only [hr, hrr]
  unfold buildExpr
  simp only [ha]

/-- Expressions mean the same for the final data as for the data they were compiled with. -/
theorem Built.exprSame {raw : Raw} {d d1 : InputData} {m : Nat} {written : List Constraint} (hb : Built raw d m written)
    (hsl : d1.slots = d.slots) (hch : d1.choices = blocks 0 raw.choices)
    (hcs : d1.choosers.map (·.name) = raw.choosers.map (·.name)) : ∀ e, buildExpr d1 e = buildExpr d e := by
  intro e
  refine buildExpr_congr hsl ?_ ?_ ?_ e
  · rw [hch]
    apply List.ext_getElem?
    intro c
    rw [List.getElem?_map, List.getElem?_map]
    by_cases hc : c < d.nc
    · obtain ⟨ch, ch1, e1, e2, e3, _⟩ := hb.choice c hc
      rw [e1, e2]; simp [e3]
    · rw [List.getElem?_eq_none (by rw [length_blocks, ← hb.nc]; omega), List.getElem?_eq_none (by show d.nc ≤ c; omega)]
  · rw [hch]
    apply List.ext_getElem?
    intro c
    rw [List.getElem?_map, List.getElem?_map]
    by_cases hc : c < d.nc
    · obtain ⟨ch, ch1, e1, e2, _, e3, _⟩ := hb.choice c hc
      rw [e1, e2]; simp [e3]
    · rw [List.getElem?_eq_none (by rw [length_blocks, ← hb.nc]; omega), List.getElem?_eq_none (by show d.nc ≤ c; omega)]
  · rw [hcs]
    apply List.ext_getElem?
    intro p
    rw [List.getElem?_map, List.getElem?_map]
    by_cases hp : p < raw.choosers.length
    · obtain ⟨ch, e1, e2, _⟩ := hb.names p hp
      rw [e1, List.getElem?_eq_getElem hp]; simp [e2]
    · rw [List.getElem?_eq_none (by omega), List.getElem?_eq_none (by show d.np ≤ p; rw [hb.np]; omega)]

/-- The constraints the builder collects are the written ones. -/
theorem Built.isWritten {raw : Raw} {d : InputData} {m : Nat} {written : List Constraint} (hb : Built raw d m written) :
    ∀ c, c ∈ written ↔ IsWritten raw d c := by
  obtain ⟨d1, hdim, hsl, hch, hcs, hw⟩ := hb.stage
  have hexpr := hb.exprSame hsl hch hcs
  unfold writtenConstraints at hw
  rw [R.bind_eq_ok] at hw
  obtain ⟨ex, hex, hw⟩ := hw
  rw [R.bind_eq_ok] at hw
  obtain ⟨pc, hpc, hw⟩ := hw
  cases hw
  obtain ⟨pc', hpc1, hpc2⟩ := partConstraints_spec (ps := raw.choices) (by rw [← hb.nc]; exact hb.ncI32)
  rw [hch, hpc1] at hpc
  cases hpc
  intro c
  rw [List.mem_append, mapM_flatten_mem hex, hpc2]
  constructor
  · rintro (⟨e, he, r, h1, h2⟩ | ⟨k, j1, j2, x, y, h1, h2, h3, h4⟩)
    · exact .expr he (by rw [← hexpr]; exact h1) h2
    · rcases h4 with h4 | h4
      · rw [h4]; exact .sameChoosers h1 h2 h3
      · rw [h4]; exact .distance h1 h2 h3
  · intro h
    cases h with
    | expr he h1 h2 => exact .inl ⟨_, he, _, by rw [hexpr]; exact h1, h2⟩
    | sameChoosers h1 h2 h3 => exact .inr ⟨_, _, _, _, _, h1, h2, h3, .inl rfl⟩
    | distance h1 h2 h3 => exact .inr ⟨_, _, _, _, _, h1, h2, h3, .inr rfl⟩

/-- Every expression of an accepted input compiles. -/
theorem Built.compiled {raw : Raw} {d : InputData} {m : Nat} {written : List Constraint} (hb : Built raw d m written) :
    ∀ e ∈ raw.exprs, ∃ L, buildExpr d e = .ok L := by
  obtain ⟨d1, hdim, hsl, hch, hcs, hw⟩ := hb.stage
  have hexpr := hb.exprSame hsl hch hcs
  unfold writtenConstraints at hw
  rw [R.bind_eq_ok] at hw
  obtain ⟨ex, hex, hw⟩ := hw
  clear hw
  intro e he
  rw [← hexpr]
  clear hexpr
  revert ex he
  generalize raw.exprs = l
  induction l with
  | nil => intro ex _ he; cases he
  | cons a t ih =>
    intro ex hex he
    rw [List.mapM_cons, R.bind_eq_ok] at hex
    obtain ⟨r, hr, hex⟩ := hex
    rw [R.bind_eq_ok] at hex
    obtain ⟨rs, hrs, _⟩ := hex
    rcases List.mem_cons.1 he with rfl | he
    · exact ⟨r, hr⟩
    · exact ih rs hrs he

theorem Built.linked {raw : Raw} {d : InputData} {m : Nat} {written : List Constraint} (hb : Built raw d m written) :
    SameLink written = Linked raw d := by
  funext x y
  apply propext
  constructor
  · rintro ⟨c, h1, h2⟩; exact ⟨c, (hb.isWritten c).1 h1, h2⟩
  · rintro ⟨c, h1, h2⟩; exact ⟨c, (hb.isWritten c).2 h1, h2⟩

theorem Built.together {raw : Raw} {d : InputData} {m : Nat} {written : List Constraint} (hb : Built raw d m written) :
    Connected (SameLink written) = Together raw d := by unfold Together; rw [hb.linked]

theorem Built.demanded {raw : Raw} {d : InputData} {m : Nat} {written : List Constraint} (hb : Built raw d m written)
    (p c : Nat) : Demanded written p c ↔ MustAttend raw d p c := by
  unfold Demanded MustAttend
  rw [hb.together]
  constructor
  · rintro ⟨y, h1, k, h2, h3⟩; exact ⟨y, h1, k, (hb.isWritten k).1 h2, h3⟩
  · rintro ⟨y, h1, k, h2, h3⟩; exact ⟨y, h1, k, (hb.isWritten k).2 h2, h3⟩

/-- Every valid solution of the data satisfies everything written. -/
theorem Built.enforced {raw : Raw} {d : InputData} {m : Nat} {written : List Constraint} (hb : Built raw d m written)
    {s : Scheduling} {a : Assignment} (hs : ∀ c ∈ d.schedCons, SchedHolds d s c) (ha : ∀ c ∈ d.asgCons, AsgHolds s a c) :
    ∀ c ∈ written, Holds d s a c := by
  obtain ⟨red, hr, h1, h2⟩ := hb.reduced
  intro c hc
  by_cases hk : c.kind = .slotsHaveSameChoices
  · have := hb.notInf c hc hk
    left
    unfold SchedHolds
    rw [hk, this]
    intro x; exact Iff.rfl
  · obtain ⟨c', hc', hiff⟩ := hr.kept c hc hk
    refine (hiff s a).1 ?_
    rcases hr.wf c' hc' with hw | hw
    · exact .inl (hs c' ((h1 c').2 ⟨.given hc', hw⟩))
    · exact .inr (ha c' ((h2 c').2 ⟨.given hc', hw⟩))

theorem Built.wf {raw : Raw} {d : InputData} {m : Nat} {written : List Constraint} (hb : Built raw d m written) : WF d := by
  obtain ⟨red, hr, h1, h2⟩ := hb.reduced
  refine ⟨fun c hc => ((h1 c).1 hc).2, fun c hc => ((h2 c).1 hc).2, ?_, ?_⟩
  · intro ch hc
    obtain ⟨p, hp⟩ := List.mem_iff_getElem?.1 hc
    have hlt := (List.getElem?_eq_some_iff.1 hp).1
    obtain ⟨ch', e1, _, e2⟩ := hb.names p (by rw [← hb.np]; exact hlt)
    rw [hp] at e1; cases e1; exact e2
  · intro ch hc x hx
    obtain ⟨p, hp⟩ := List.mem_iff_getElem?.1 hc
    have hlt := (List.getElem?_eq_some_iff.1 hp).1
    have hlt' : p < raw.choosers.length := by rw [← hb.np]; exact hlt
    obtain ⟨c, hcx⟩ := List.mem_iff_getElem?.1 hx
    have hcl := (List.getElem?_eq_some_iff.1 hcx).1
    obtain ⟨ch', e1, _, e2⟩ := hb.names p hlt'
    rw [hp] at e1; cases e1
    rw [e2] at hcl
    have hpref : pref d p c = some x := by unfold pref; rw [hp]; exact hcx
    obtain ⟨q1, q2⟩ := hb.prefs p c hlt' hcl
    rw [hb.maxPref]
    by_cases hd : Demanded written p c
    · rw [q1 hd] at hpref; cases hpref; omega
    · obtain ⟨v, e3, e4⟩ := q2 hd
      rw [e3] at hpref; cases hpref
      obtain ⟨y, hy, _, he⟩ := e4.attained
      rw [hb.nc] at hy
      obtain ⟨k, j, p', r1, r2, r3⟩ := isPart_exists hy
      have hl : (mirrored m raw.choosers[p]).prefs.length = raw.choices.length := by
        simp only [mirrored, List.length_map]; exact hb.prefCount _ (List.getElem_mem _)
      rw [r3, expandAll_get hl r1 r2] at he
      simp only [mirrored, List.getElem?_map] at he
      cases hg : raw.choosers[p].prefs[k]? with
      | none => rw [hg] at he; simp at he; omega
      | some z => rw [hg] at he; simp at he; omega

theorem blocks_min {ps : List Proto} {k j y : Nat} {p : Proto} (h : IsPart ps k j y) (hp : ps[k]? = some p) :
    ((blocks 0 ps)[y]?.map (·.min)).getD 0 = p.min ∧ ((blocks 0 ps)[y]?.map (·.max)).getD 0 = p.max := by
  obtain ⟨p', h1, h2, h3⟩ := h
  rw [hp] at h1; cases h1
  rw [h3, blocks_get hp h2 0]
  exact ⟨rfl, rfl⟩

end Wassign
