import Verif.Proofs.Expr
/-
Every constraint compiled from an expression refers to existing objects of the right kind.
-/
namespace Wassign
open Spec

theorem walkParts_lt {d : InputData} (hc : ∀ c ∈ d.choices, ∀ n, c.continuation = some n → n < d.nc) {asked : Nat} :
    ∀ (k c c' : Nat), c < d.nc → walkParts d asked k c = .ok c' → c' < d.nc := by
  intro k
  induction k with
  | zero => intro c c' h he; cases he; exact h
  | succ k ih =>
    intro c c' h he
    unfold walkParts at he
    rw [idx_ok h, R.bind_ok] at he
    split at he
    · cases he
    · rename_i n hn
      exact ih n c' (hc _ (List.getElem_mem h) n hn) he

theorem resolveAccessor_lt {d : InputData} (hc : ∀ c ∈ d.choices, ∀ n, c.continuation = some n → n < d.nc)
    {a : Accessor} {n : Nat} (h : resolveAccessor d a = .ok (some n)) :
    (a.kind = .slot → n < d.ns) ∧ (a.kind = .choice → n < d.nc) ∧ (a.kind = .chooser → n < d.np) := by
  unfold resolveAccessor at h
  refine ⟨?_, ?_, ?_⟩ <;> intro hk <;> rw [hk] at h <;> simp only at h
  · exact findName_lt h
  · rw [R.bind_eq_ok] at h
    obtain ⟨r, h1, h2⟩ := h
    cases r with
    | none => cases h2
    | some c =>
      simp only [R.bind_eq_ok] at h2
      obtain ⟨c', h3, h4⟩ := h2
      cases h4
      have := findName_lt h1
      simp at this
      exact walkParts_lt hc _ _ _ this h3
  · have := findName_lt h
    simpa using this

theorem resolveRight_lt {d : InputData} (hc : ∀ c ∈ d.choices, ∀ n, c.continuation = some n → n < d.nc)
    {a : Accessor} {t : Target} (h : resolveRight d a = .ok (some t)) :
    (a.kind = .slot → ∃ n, t = .slot n ∧ n < d.ns) ∧ (a.kind = .choice → ∃ n, t = .choice n ∧ n < d.nc) ∧
    (a.kind = .chooser → ∃ n, t = .chooser n ∧ n < d.np) ∧ (a.kind = .integer → ∃ n, t = .limit n ∧ n ≤ u32Max) := by
  unfold resolveRight at h
  refine ⟨?_, ?_, ?_, ?_⟩ <;> intro hk <;> rw [hk] at h <;> simp only [R.bind_eq_ok] at h <;>
    obtain ⟨r, h1, h2⟩ := h
  · cases r with
    | none => cases h2
    | some n => cases h2; exact ⟨n, rfl, (resolveAccessor_lt hc h1).1 hk⟩
  · cases r with
    | none => cases h2
    | some n => cases h2; exact ⟨n, rfl, (resolveAccessor_lt hc h1).2.1 hk⟩
  · cases r with
    | none => cases h2
    | some n => cases h2; exact ⟨n, rfl, (resolveAccessor_lt hc h1).2.2 hk⟩
  · cases r with
    | none => cases h2
    | some n =>
      simp only [R.bind_eq_ok] at h2
      obtain ⟨l, h3, h4⟩ := h2
      cases h4
      rw [toU32_eq_ok] at h3
      exact ⟨l, rfl, by omega⟩

set_option maxHeartbeats 2000000 in
theorem addConstraint_wf {d : InputData} (hc : ∀ c ∈ d.choices, ∀ n, c.continuation = some n → n < d.nc)
    {e : CExpr} {ke : Kind × Extra} (ht : tableKind e = some ke) {L : List Constraint}
    (h : addConstraint d e ke.1 ke.2 = .ok L) : ∀ c ∈ L, WrittenWF d c := by
  unfold addConstraint at h
  rw [R.bind_eq_ok] at h
  obtain ⟨r, h1, h⟩ := h
  cases r with
  | none => cases h; simp
  | some t =>
    simp only [R.bind_eq_ok] at h
    obtain ⟨l, h2, h⟩ := h
    cases l with
    | none => cases h; simp
    | some n =>
      cases h
      simp only [List.mem_singleton, forall_eq]
      obtain ⟨a1, a2, a3⟩ := resolveAccessor_lt hc h2
      obtain ⟨b1, b2, b3, b4⟩ := resolveRight_lt hc h1
      unfold tableKind at ht
      split at ht <;> simp only [Option.some.injEq, reduceCtorEq] at ht <;> subst ht <;> simp_all only [forall_const] <;>
        first
        | (obtain ⟨m, rfl, hm⟩ := b1; exact ⟨a2, hm⟩)
        | (obtain ⟨m, rfl, hm⟩ := b1; exact ⟨a1, hm⟩)
        | (obtain ⟨m, rfl, hm⟩ := b2; exact ⟨a1, hm⟩)
        | (obtain ⟨m, rfl, hm⟩ := b2; exact ⟨a2, hm⟩)
        | (obtain ⟨m, rfl, hm⟩ := b2; exact ⟨a3, hm⟩)
        | (obtain ⟨m, rfl, hm⟩ := b3; exact ⟨a3, hm⟩)
        | (obtain ⟨m, rfl, hm⟩ := b3; exact ⟨a2, hm⟩)
        | (obtain ⟨m, rfl, hm⟩ := b4; exact a1)

theorem buildExpr_wf {d : InputData} (hc : ∀ c ∈ d.choices, ∀ n, c.continuation = some n → n < d.nc)
    {e : CExpr} {L : List Constraint} (h : buildExpr d e = .ok L) : ∀ c ∈ L, WrittenWF d c := by
  unfold buildExpr at h
  split at h
  · rename_i k x ht
    exact addConstraint_wf hc ht h
  · split at h
    · rename_i k x ht
      exact addConstraint_wf hc ht h
    · cases h

end Wassign
