import Verif.Proofs.Constraints
/-
constraints.rs `reduce_and_optimize`: normalisation followed by expansion.
-/
namespace Wassign
open Spec

/-- What one normalisation step yields for a well-formed written constraint. -/
theorem reduceOne_spec {i : InputData} {c : Constraint} (h : WrittenWF i c) :
    (∃ c', reduceOne c = .ok (some c', false) ∧ (SchedConWF i c' ∨ AsgConWF i c') ∧
      (∀ s a, Holds i s a c' ↔ Holds i s a c) ∧ inPair? c' = demand? c ∧
      (c'.kind = .choicesHaveSameChoosers ↔ c.kind = .choicesHaveSameChoosers) ∧
      (c.kind = .choicesHaveSameChoosers → c' = c) ∧
      (c'.kind = .chooserIsNotInChoice → ∃ y, c'.right = .choice y) ∧
      (c'.kind = .chooserIsInChoice → ∃ y, c'.right = .choice y)) ∨
    (c.kind = .slotsHaveSameChoices ∧ ∃ t, c.right = .slot t ∧ c.left < i.ns ∧ t < i.ns ∧
      reduceOne c = .ok (none, c.left != t)) := by
  obtain ⟨k, l, r, e⟩ := c
  cases k <;> cases r <;> simp only [WrittenWF] at h <;>
    first
    | exact h.elim
    | (right; exact ⟨rfl, _, rfl, h.1, h.2, rfl⟩)
    | (left
       refine ⟨_, rfl, ?_, ?_, ?_, ?_, ?_, ?_, ?_⟩
       · first
         | (left; simp only [SchedConWF]; first | exact h | exact ⟨h.2, h.1⟩)
         | (right; simp only [AsgConWF]; first | exact h | exact ⟨h.2, h.1⟩)
         | (cases e <;> first | exact h.elim | (left; simp only [SchedConWF]; exact h))
       · intro s a
         simp [Holds, SchedHolds, AsgHolds]
       · rfl
       · simp
       · simp
       · simp
       · simp)

/-- The normalised constraints. -/
structure Reduced (i : InputData) (L red : List Constraint) : Prop where
  wf : ∀ c ∈ red, SchedConWF i c ∨ AsgConWF i c
  kept : ∀ c ∈ L, c.kind ≠ .slotsHaveSameChoices → ∃ c' ∈ red, ∀ s a, Holds i s a c' ↔ Holds i s a c
  source : ∀ c' ∈ red, ∃ c ∈ L, reduceOne c = .ok (some c', false) ∧ ∀ s a, Holds i s a c' ↔ Holds i s a c
  image : ∀ c ∈ L, ∀ c', reduceOne c = .ok (some c', false) → c' ∈ red
  demands : red.filterMap inPair? = L.filterMap demand?
  links : ∀ a b, SameLink red a b ↔ SameLink L a b

theorem reduce_spec {i : InputData} : ∀ (L : List Constraint), (∀ c ∈ L, WrittenWF i c) →
    ∀ acc : List Constraint × Bool, ∃ red inf, L.foldlM reduceStep acc = .ok (acc.1 ++ red, acc.2 || inf) ∧
      Reduced i L red ∧
      (inf = true ↔ ∃ c ∈ L, c.kind = .slotsHaveSameChoices ∧ c.right ≠ .slot c.left) := by
  intro L
  induction L with
  | nil =>
    intro _ acc
    refine ⟨[], false, by simp [List.foldlM], ⟨by simp, by simp, by simp, by simp, rfl, by simp [SameLink]⟩, by simp⟩
  | cons c L ih =>
    intro hw acc
    have hwL : ∀ c' ∈ L, WrittenWF i c' := fun c' h => hw c' (List.mem_cons_of_mem _ h)
    rw [List.foldlM_cons]
    rcases reduceOne_spec (hw c List.mem_cons_self) with
      ⟨c', hr, hwf, hholds, hdem, hsame, hsame', hnot, hin⟩ | ⟨hk, t, ht, hl, htn, hr⟩
    · have hstep : reduceStep acc c = .ok (acc.1 ++ [c'], acc.2 || false) := by
        unfold reduceStep; rw [hr, R.bind_ok]; rfl
      obtain ⟨red, inf, h1, h2, h3⟩ := ih hwL (acc.1 ++ [c'], acc.2 || false)
      have hkind : c.kind ≠ .slotsHaveSameChoices := by
        intro h
        unfold reduceOne at hr
        rw [h] at hr
        simp only [R.bind_eq_ok] at hr
        obtain ⟨_, _, h'⟩ := hr
        simp [pure, Except.pure] at h'
      refine ⟨c' :: red, inf, ?_, ?_, ?_⟩
      · rw [hstep, R.bind_ok, h1]; simp
      · refine ⟨?_, ?_, ?_, ?_, ?_, ?_⟩
        · intro d hd
          rcases List.mem_cons.1 hd with rfl | hd'
          · exact hwf
          · exact h2.wf d hd'
        · intro d hd hdk
          rcases List.mem_cons.1 hd with he | hd'
          · exact ⟨c', List.mem_cons_self, by rw [he]; exact hholds⟩
          · obtain ⟨d', h4, h5⟩ := h2.kept d hd' hdk
            exact ⟨d', List.mem_cons_of_mem _ h4, h5⟩
        · intro d hd
          rcases List.mem_cons.1 hd with he | hd'
          · exact ⟨c, List.mem_cons_self, by rw [he]; exact hr, by rw [he]; exact hholds⟩
          · obtain ⟨d', h4, h5⟩ := h2.source d hd'
            exact ⟨d', List.mem_cons_of_mem _ h4, h5⟩
        · intro d hd d' hd'
          rcases List.mem_cons.1 hd with he | hd''
          · rw [he, hr] at hd'
            cases hd'; exact List.mem_cons_self
          · exact List.mem_cons_of_mem _ (h2.image d hd'' d' hd')
        · rw [List.filterMap_cons, List.filterMap_cons, hdem, h2.demands]
        · intro a b
          have e1 := h2.links a b
          constructor
          · rintro ⟨d, hd, k1, k2, k3⟩
            rcases List.mem_cons.1 hd with he | hd'
            · rw [he] at k1 k2 k3
              have hc := hsame' (hsame.1 k1)
              rw [hc] at k1 k2 k3
              exact ⟨c, List.mem_cons_self, k1, k2, k3⟩
            · obtain ⟨d2, h4, h5⟩ := e1.1 ⟨d, hd', k1, k2, k3⟩
              exact ⟨d2, List.mem_cons_of_mem _ h4, h5⟩
          · rintro ⟨d, hd, k1, k2, k3⟩
            rcases List.mem_cons.1 hd with he | hd'
            · rw [he] at k1 k2 k3
              have hc := hsame' k1
              exact ⟨c', List.mem_cons_self, by rw [hc]; exact ⟨k1, k2, k3⟩⟩
            · obtain ⟨d2, h4, h5⟩ := e1.2 ⟨d, hd', k1, k2, k3⟩
              exact ⟨d2, List.mem_cons_of_mem _ h4, h5⟩
      · rw [h3]
        simp only [List.mem_cons, exists_eq_or_imp]
        constructor
        · intro h; exact .inr h
        · rintro (⟨h, _⟩ | h)
          · exact absurd h hkind
          · exact h
    · have hstep : reduceStep acc c = .ok (acc.1 ++ [], acc.2 || (c.left != t)) := by
        unfold reduceStep; rw [hr, R.bind_ok]; rfl
      obtain ⟨red, inf, h1, h2, h3⟩ := ih hwL (acc.1 ++ [], acc.2 || (c.left != t))
      have hdem : demand? c = none := by unfold demand?; rw [hk]
      refine ⟨red, (c.left != t) || inf, ?_, ?_, ?_⟩
      · rw [hstep, R.bind_ok, h1]; simp [Bool.or_assoc]
      · refine ⟨h2.wf, ?_, ?_, ?_, ?_, ?_⟩
        · intro d hd hdk
          rcases List.mem_cons.1 hd with he | hd'
          · rw [he] at hdk; exact absurd hk hdk
          · exact h2.kept d hd' hdk
        · intro d hd
          obtain ⟨d', h4, h5⟩ := h2.source d hd
          exact ⟨d', List.mem_cons_of_mem _ h4, h5⟩
        · intro d hd d' hd'
          rcases List.mem_cons.1 hd with he | hd''
          · rw [he, hr] at hd'; cases hd'
          · exact h2.image d hd'' d' hd'
        · rw [List.filterMap_cons, hdem, h2.demands]
        · intro a b
          rw [h2.links a b]
          constructor
          · rintro ⟨d, hd, h5⟩
            exact ⟨d, List.mem_cons_of_mem _ hd, h5⟩
          · rintro ⟨d, hd, k1, h5⟩
            rcases List.mem_cons.1 hd with he | hd'
            · rw [he, hk] at k1; cases k1
            · exact ⟨d, hd', k1, h5⟩
      · simp only [Bool.or_eq_true, h3, List.mem_cons, exists_eq_or_imp, hk, true_and, ht, ne_eq, Target.slot.injEq,
          bne_iff_ne]
        constructor
        · rintro (h | h)
          · exact .inl (fun e => h e.symm)
          · exact .inr h
        · rintro (h | h)
          · exact .inl (fun e => h e.symm)
          · exact .inr h

/-- Facts about well-formed reduced constraints used by the expansion. -/
theorem depWF_of {i : InputData} {red : List Constraint} (h : ∀ c ∈ red, SchedConWF i c ∨ AsgConWF i c) :
    DepWF i.nc red ∧ InWF red ∧ InRange i.nc red := by
  refine ⟨?_, ?_, ?_⟩
  · intro c hc hk
    rcases h c hc with h | h
    · unfold SchedConWF at h; rw [hk] at h; simp at h
    · unfold AsgConWF at h
      split at h <;> simp_all
  · intro c hc hk
    rcases h c hc with h | h
    · unfold SchedConWF at h; rcases hk with hk | hk <;> rw [hk] at h <;> simp at h
    · unfold AsgConWF at h
      split at h <;> simp_all
  · intro c hc hk y hy
    rcases h c hc with h | h
    · unfold SchedConWF at h; rcases hk with hk | hk <;> rw [hk] at h <;> simp at h
    · unfold AsgConWF at h
      split at h <;> simp_all

theorem reduceAndOptimize_spec {i : InputData} (hn : i.nc ≤ i32Max) {L : List Constraint}
    (hw : ∀ c ∈ L, WrittenWF i c) : ∃ red res inf, reduceAndOptimize L i.nc = .ok (res, inf) ∧
      Reduced i L red ∧ res.Nodup ∧ (∀ c, c ∈ res ↔ Derived i.nc red c) ∧
      (inf = true ↔ ∃ c ∈ L, c.kind = .slotsHaveSameChoices ∧ c.right ≠ .slot c.left) := by
  obtain ⟨red, inf, h1, h2, h3⟩ := reduce_spec L hw ([], false)
  obtain ⟨hd, hi, hr⟩ := depWF_of h2.wf
  obtain ⟨res, h4, h5, h6⟩ := expandDependent_spec hn hd hi hr
  refine ⟨red, res, inf, ?_, h2, h5, h6, h3⟩
  unfold reduceAndOptimize
  rw [h1, R.bind_ok]
  simp only [List.nil_append, Bool.false_or]
  rw [h4, R.bind_ok]
  rfl

/-- Everything in the result is in the form the solver understands. -/
theorem derived_wf {i : InputData} {red : List Constraint} (hw : ∀ c ∈ red, SchedConWF i c ∨ AsgConWF i c)
    {c : Constraint} (h : Derived i.nc red c) : SchedConWF i c ∨ AsgConWF i c := by
  obtain ⟨hd, hi, hr⟩ := depWF_of hw
  cases h with
  | given h => exact hw c h
  | sepDep hxy hyn _ => exact .inl ⟨by show _ < _; simp only [notSame]; omega, hyn⟩
  | sepMand hs =>
    rename_i p x y
    have hmem : ∀ z, (p, z) ∈ red.filterMap inPair? → z < i.nc := by
      intro z hz
      obtain ⟨d, hd', hp⟩ := List.mem_filterMap.1 hz
      unfold inPair? at hp
      split at hp
      · rename_i hk hrt
        cases hp
        exact hr d hd' (.inl hk) _ hrt
      · cases hp
    exact .inl ⟨hmem x (hs.subset (by simp)), hmem y (hs.subset (by simp))⟩
  | copy hc hk hy hne hxn hcon =>
    rename_i d x y
    right
    have hp : d.left < i.np := by
      rcases hw d hc with h | h
      · unfold SchedConWF at h; rcases hk with hk | hk <;> rw [hk] at h <;> simp at h
      · unfold AsgConWF at h
        split at h <;> simp_all
    rcases hk with hk | hk <;> rw [hk] <;> exact ⟨hp, hxn⟩

/-- Membership in the attendance lists is transported along same-chooser chains, if everything is scheduled. -/
theorem attends_connected {i : InputData} {s : Scheduling} {a : Assignment} {red : List Constraint}
    (hw : ∀ c ∈ red, SchedConWF i c ∨ AsgConWF i c) (hs : ∀ c, c < i.nc → slotAt s c ≠ none)
    (hh : ∀ c ∈ red, Holds i s a c) {x y : Nat} (h : Connected (SameLink red) x y) (p : Nat) :
    Attends a p x ↔ Attends a p y := by
  refine Connected.least (P := fun x y => ∀ p, Attends a p x ↔ Attends a p y) ?_ (fun _ _ => Iff.rfl)
    (fun _ _ h p => (h p).symm) (fun _ _ _ h1 h2 p => (h1 p).trans (h2 p)) h p
  rintro b c ⟨d, hd, k1, k2, k3⟩ p
  have hwf := (depWF_of hw).1 d hd k1
  obtain ⟨y', hy', hl, hyn⟩ := hwf
  rw [k3] at hy'
  cases hy'
  rcases hh d hd with h | h
  · unfold SchedHolds at h; rw [k1] at h; simp at h
  · unfold AsgHolds at h; rw [k1, k3] at h
    simp only [k2] at h hl
    exact h (hs _ hl) (hs _ hyn) p

/-- The expansion forbids nothing in populated solutions. -/
theorem derived_holds {i : InputData} {s : Scheduling} {a : Assignment} {red : List Constraint}
    (hw : ∀ c ∈ red, SchedConWF i c ∨ AsgConWF i c) (hp : Populated i s a)
    (hnd : (red.filterMap inPair?).Nodup) (hh : ∀ c ∈ red, Holds i s a c) {c : Constraint}
    (h : Derived i.nc red c) : Holds i s a c := by
  have hs : ∀ c, c < i.nc → slotAt s c ≠ none := by
    intro c hc h0
    obtain ⟨t, _, ht⟩ := hp.scheduled c hc
    rw [h0] at ht; cases ht
  have hdis : ∀ p x y, p < i.np → x < i.nc → x ≠ y → Attends a p x → Attends a p y →
      Holds i s a (notSame (x, y)) := by
    intro p x y hpn hxn hne hx hy
    left
    show ∀ t, ¬ _
    rintro t ⟨h1, h2⟩
    obtain ⟨t', ht', hst⟩ := hp.scheduled x hxn
    have : t = t' := by
      simp only [notSame] at h1
      rw [h1] at hst; cases hst; rfl
    subst this
    obtain ⟨c0, _, huniq⟩ := hp.onePerSlot p hpn t ht'
    exact hne ((huniq x hx h1).trans (huniq y hy h2).symm)
  cases h with
  | given h => exact hh c h
  | sepDep hxy hyn hcon =>
    rename_i x y
    obtain ⟨p, hpn, hpx⟩ := hp.attended x (by omega)
    exact hdis p x y hpn (by omega) (by omega) hpx ((attends_connected hw hs hh hcon p).1 hpx)
  | sepMand hsub =>
    rename_i p x y
    have hne : x ≠ y := by
      have := hnd.sublist hsub
      rintro rfl
      simp at this
    have hmem : ∀ z, (p, z) ∈ red.filterMap inPair? → p < i.np ∧ z < i.nc ∧ Attends a p z := by
      intro z hz
      obtain ⟨d, hd', hpz⟩ := List.mem_filterMap.1 hz
      unfold inPair? at hpz
      split at hpz
      · rename_i hk hrt
        cases hpz
        rcases hw d hd' with h | h
        · unfold SchedConWF at h; rw [hk] at h; simp at h
        · unfold AsgConWF at h; rw [hk, hrt] at h
          refine ⟨h.1, h.2, ?_⟩
          rcases hh d hd' with h' | h'
          · unfold SchedHolds at h'; rw [hk] at h'; simp at h'
          · unfold AsgHolds at h'; rw [hk, hrt] at h'
            exact h' (hs _ h.2)
      · cases hpz
    have h1 := hmem x (hsub.subset (by simp))
    have h2 := hmem y (hsub.subset (by simp))
    exact hdis p x y h1.1 h1.2.1 hne h1.2.2 h2.2.2
  | copy hc hk hy hne hxn hcon =>
    rename_i d x y
    have hat := attends_connected hw hs hh hcon d.left
    have hyn := (depWF_of hw).2.2 d hc hk y hy
    right
    rcases hk with hk | hk
    · rcases hh d hc with h' | h'
      · unfold SchedHolds at h'; rw [hk] at h'; simp at h'
      · unfold AsgHolds at h'; rw [hk, hy] at h'
        rw [hk]
        exact fun _ => hat.2 (h' (hs _ hyn))
    · rcases hh d hc with h' | h'
      · unfold SchedHolds at h'; rw [hk] at h'; simp at h'
      · unfold AsgHolds at h'; rw [hk, hy] at h'
        rw [hk]
        exact fun hx => h' (hat.1 hx)

end Wassign
