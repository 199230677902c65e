import Verif.Model.InputBuilder
import Verif.Spec.WF
import Verif.Proofs.FoldLemmas
import Mathlib.Data.List.Nodup
/-
build_constraint_maps.
-/
namespace Wassign
open Spec Build

theorem pushAt_map {f : Nat → List Constraint} {k : Nat} {v : Constraint} : ∀ {l : List Nat}, l.Nodup → k ∈ l →
    pushAt k v (l.map (fun c => (c, f c))) = .ok (l.map (fun c => (c, if c = k then f c ++ [v] else f c))) := by
  intro l
  induction l with
  | nil => intro _ h; cases h
  | cons x l ih =>
    intro hnd hk
    rw [List.nodup_cons] at hnd
    simp only [List.map_cons, pushAt]
    by_cases hx : x = k
    · subst hx
      simp only [if_true, R.pure_eq, Except.ok.injEq, List.cons.injEq, true_and]
      apply List.map_congr_left
      intro c hc
      rw [if_neg (by rintro rfl; exact hnd.1 hc)]
    · rw [if_neg hx, ih hnd.2 (by rcases List.mem_cons.1 hk with e | e; exact absurd e.symm hx; exact e), R.bind_ok]
      simp [hx]

/-- A choice map. -/
def asMap (n : Nat) (f : Nat → List Constraint) : List (Nat × List Constraint) := (List.range n).map (fun c => (c, f c))

theorem pushAt_asMap {n k : Nat} {v : Constraint} {f : Nat → List Constraint} (hk : k < n) :
    pushAt k v (asMap n f) = .ok (asMap n (fun c => if c = k then f c ++ [v] else f c)) :=
  pushAt_map List.nodup_range (List.mem_range.2 hk)

theorem pushAll_asMap {n : Nat} {v : Constraint} : ∀ (l : List Nat) (f : Nat → List Constraint), (∀ x ∈ l, x < n) →
    ∃ g, l.foldlM (fun a x => pushAt x v a) (asMap n f) = .ok (asMap n g) ∧
      ∀ c k, k ∈ g c ↔ k ∈ f c ∨ (k = v ∧ c ∈ l) := by
  intro l
  induction l with
  | nil => intro f _; exact ⟨f, rfl, by simp⟩
  | cons x l ih =>
    intro f hl
    obtain ⟨g, h1, h2⟩ := ih (fun c => if c = x then f c ++ [v] else f c) (fun y hy => hl y (by simp [hy]))
    refine ⟨g, by rw [List.foldlM_cons, pushAt_asMap (hl x (by simp)), R.bind_ok, h1], ?_⟩
    intro c k
    rw [h2]
    by_cases hc : c = x
    · subst hc; simp; intro h _; exact .inr h
    · simp [hc]

theorem mapStep_spec {nc np : Nat} {f : Nat → List Constraint} {b : List (Nat × List Constraint)} {i : InputData}
    (hi : i.nc = nc) {k : Constraint} (hk : SchedConWF i k) :
    ∃ g, mapStep nc np (asMap nc f, b) k = .ok (asMap nc g, b) ∧ ∀ c, c < nc → ∀ k', k' ∈ g c ↔ k' ∈ f c ∨ (k' = k ∧ Concerns k c) := by
  obtain ⟨kind, left, right, extra⟩ := k
  have one : left < nc → (∀ c, Concerns ⟨kind, left, right, extra⟩ c ↔ left = c) →
      ∃ g, (do let a ← pushAt left ⟨kind, left, right, extra⟩ (asMap nc f); (Except.ok (a, b) : R _)) = .ok (asMap nc g, b) ∧
        ∀ c, c < nc → ∀ k', k' ∈ g c ↔ k' ∈ f c ∨ (k' = ⟨kind, left, right, extra⟩ ∧ Concerns ⟨kind, left, right, extra⟩ c) := by
    intro hl hcon
    refine ⟨_, by rw [pushAt_asMap hl, R.bind_ok], ?_⟩
    intro c _ k'
    rw [hcon]
    by_cases hc : c = left
    · subst hc; simp
    · simp [hc, eq_comm (a := left)]
  have two : ∀ y, right = .choice y → left < nc → y < nc → (∀ c, Concerns ⟨kind, left, right, extra⟩ c ↔ left = c ∨ y = c) →
      ∃ g, (do let a ← pushAt left ⟨kind, left, right, extra⟩ (asMap nc f)
               let z ← Constraint.otherChoice ⟨kind, left, right, extra⟩
               let a ← pushAt z ⟨kind, left, right, extra⟩ a
               (Except.ok (a, b) : R _)) = .ok (asMap nc g, b) ∧
        ∀ c, c < nc → ∀ k', k' ∈ g c ↔ k' ∈ f c ∨ (k' = ⟨kind, left, right, extra⟩ ∧ Concerns ⟨kind, left, right, extra⟩ c) := by
    intro y hy hl hyn hcon
    subst hy
    refine ⟨_, by rw [pushAt_asMap hl, R.bind_ok]; simp only [Constraint.otherChoice, R.bind_ok]; rw [pushAt_asMap hyn, R.bind_ok], ?_⟩
    intro c _ k'
    rw [hcon]
    by_cases hc : c = left <;> by_cases hc' : c = y
    · subst hc; subst hc'; simp
    · subst hc; simp [hc']
    · subst hc'; simp [hc]
    · simp [hc, hc', eq_comm (a := left), eq_comm (a := y)]
  cases kind <;> simp only [SchedConWF] at hk <;> (try exact hk.elim) <;> cases right <;> (try exact hk.elim) <;>
    simp only [mapStep, R.pure_eq]
  · exact one (hi ▸ hk.1) (fun c => by simp [Concerns])
  · exact one (hi ▸ hk.1) (fun c => by simp [Concerns])
  · exact two _ rfl (hi ▸ hk.1) (hi ▸ hk.2) (fun c => by simp [Concerns])
  · exact two _ rfl (hi ▸ hk.1) (hi ▸ hk.2) (fun c => by simp [Concerns])
  · cases extra <;> simp only at hk
    exact two _ rfl (hi ▸ hk.1) (hi ▸ hk.2) (fun c => by simp [Concerns])
  · obtain ⟨g, h1, h2⟩ := pushAll_asMap (n := nc) (v := ⟨.slotHasLimitedSize, left, .limit _, extra⟩) (List.range nc) f
      (fun x hx => List.mem_range.1 hx)
    refine ⟨g, by rw [h1, R.bind_ok], ?_⟩
    intro c hc k'
    rw [h2]
    simp [Concerns, hc]

theorem constraintMaps_spec {i : InputData} {np : Nat} : ∀ {sched : List Constraint}, (∀ k ∈ sched, SchedConWF i k) →
    ∃ g b, constraintMaps i.nc np sched = .ok (asMap i.nc g, b) ∧ ∀ c, c < i.nc → ∀ k, k ∈ g c ↔ k ∈ sched ∧ Concerns k c := by
  have key : ∀ (sched : List Constraint) (f : Nat → List Constraint) (b : List (Nat × List Constraint)),
      (∀ k ∈ sched, SchedConWF i k) → ∃ g, sched.foldlM (mapStep i.nc np) (asMap i.nc f, b) = .ok (asMap i.nc g, b) ∧
        ∀ c, c < i.nc → ∀ k, k ∈ g c ↔ k ∈ f c ∨ (k ∈ sched ∧ Concerns k c) := by
    intro sched
    induction sched with
    | nil => intro f b _; exact ⟨f, rfl, by simp⟩
    | cons k sched ih =>
      intro f b hw
      obtain ⟨g1, h1, h2⟩ := mapStep_spec (np := np) (f := f) (b := b) rfl (hw k (by simp))
      obtain ⟨g2, h3, h4⟩ := ih g1 b (fun k hk => hw k (by simp [hk]))
      refine ⟨g2, by rw [List.foldlM_cons, h1, R.bind_ok, h3], ?_⟩
      intro c hc k'
      rw [h4 c hc, h2 c hc]
      constructor
      · rintro ((h | ⟨h, h'⟩) | ⟨h, h'⟩)
        · exact .inl h
        · exact .inr ⟨by simp [h], h ▸ h'⟩
        · exact .inr ⟨by simp [h], h'⟩
      · rintro (h | ⟨h, h'⟩)
        · exact .inl (.inl h)
        · rcases List.mem_cons.1 h with e | e
          · exact .inl (.inr ⟨e, e ▸ h'⟩)
          · exact .inr ⟨e, h'⟩
  intro sched hw
  obtain ⟨g, h1, h2⟩ := key sched (fun _ => []) ((List.range np).map (fun p => (p, []))) hw
  refine ⟨g, _, h1, ?_⟩
  intro c hc k
  rw [h2 c hc]
  simp

theorem asMap_lookup {n c : Nat} {f : Nat → List Constraint} (hc : c < n) : (asMap n f).lookup c = some (f c) := by
  unfold asMap
  have : ∀ l : List Nat, c ∈ l → (l.map (fun c => (c, f c))).lookup c = some (f c) := by
    intro l
    induction l with
    | nil => intro h; cases h
    | cons x l ih =>
      intro h
      by_cases hx : c = x
      · subst hx; simp
      · have hb : (c == x) = false := by simp [hx]
        rw [List.map_cons, List.lookup, hb]
        have := ih (by rcases List.mem_cons.1 h with e | e; exact absurd e hx; exact e)
        exact this
  exact this _ (List.mem_range.2 hc)

end Wassign
