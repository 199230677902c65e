import Verif.Proofs.SchedFeasible
/-
What the feasibility check of a scheduling implies without any assumption on sizes.
-/
namespace Wassign
open Spec

/-- A scheduling that passes the feasibility check has its slots in range. -/
theorem schedFeasible_range {i : InputData} {s : Scheduling} (hs : s.length = i.nc) (h : schedFeasible i s = .ok true) :
    SlotsInRange i s := by
  unfold schedFeasible at h
  simp only [R.bind_eq_ok] at h
  obtain ⟨r, hr, h⟩ := h
  have key := foldlM_inv (l := s.zipIdx) (Inv := fun k acc => match acc with
      | none => True
      | some (p : List Nat × List Nat) => p.1.length = i.ns ∧ ∀ c t, c < k → slotAt s c = some t → t < i.ns) (r := r) ?_ ?_ hr
  · cases r with
    | none => cases h
    | some p =>
      intro c t hct
      have hc : c < s.length := by
        apply Classical.byContradiction
        intro hn
        rw [slotAt, List.getElem?_eq_none (by omega)] at hct
        cases hct
      exact key.2 c t (by simpa using hc) hct
  · intro k hk acc acc' hinv hstep
    have hk' : k < s.length := by simpa using hk
    rw [zipIdx_get] at hstep
    have hsk := slotAt_get hk'
    cases acc with
    | none => simp at hstep; subst hstep; trivial
    | some p =>
      obtain ⟨mn, mx⟩ := p
      obtain ⟨hl, hm⟩ := hinv
      simp only [R.bind_eq_ok, idx_eq_ok] at hstep
      obtain ⟨ch, hch, hstep⟩ := hstep
      cases hsv : s[k] with
      | none =>
        rw [hsv] at hsk
        simp only [hsv] at hstep
        cases hopt : ch.isOptional
        · simp [hopt] at hstep; subst hstep; trivial
        · simp [hopt] at hstep; subst hstep
          refine ⟨hl, ?_⟩
          intro c t hc hct
          by_cases e : c = k
          · subst e; rw [hsk] at hct; cases hct
          · exact hm c t (by omega) hct
      | some t0 =>
        rw [hsv] at hsk
        simp only [hsv, R.bind_eq_ok, idx_eq_ok, addU32_eq_ok] at hstep
        obtain ⟨m, hmm, m', ⟨_, rfl⟩, x, hx, x', ⟨_, rfl⟩, hstep⟩ := hstep
        simp at hstep; subst hstep
        have ht : t0 < i.ns := by
          have := (List.getElem?_eq_some_iff.1 hmm).1
          have hl : mn.length = i.ns := hl
          omega
        refine ⟨by simpa using hl, ?_⟩
        intro c t hc hct
        by_cases e : c = k
        · subst e; rw [hsk] at hct; cases hct; exact ht
        · exact hm c t (by omega) hct
  · exact ⟨by simp, by intro c t hc; omega⟩

/-- A scheduling that passes the feasibility check has every choice that is not optional scheduled. -/
theorem schedFeasible_placed {i : InputData} {s : Scheduling} (hs : s.length = i.nc) (h : schedFeasible i s = .ok true) :
    Placed i s := by
  unfold schedFeasible at h
  simp only [R.bind_eq_ok] at h
  obtain ⟨r, hr, h⟩ := h
  have key := foldlM_inv (l := s.zipIdx) (Inv := fun k acc => match acc with
      | none => True
      | some (_ : List Nat × List Nat) => ∀ c (h : c < i.nc), c < k → (i.choices[c]).isOptional = false → slotAt s c ≠ none)
      (r := r) ?_ ?_ hr
  · cases r with
    | none => cases h
    | some p =>
      intro c hc
      exact key c hc (by simp only [List.length_zipIdx]; omega)
  · intro k hk acc acc' hinv hstep
    have hk' : k < s.length := by simpa using hk
    rw [zipIdx_get] at hstep
    have hsk := slotAt_get hk'
    cases acc with
    | none => simp at hstep; subst hstep; trivial
    | some p =>
      obtain ⟨mn, mx⟩ := p
      simp only [R.bind_eq_ok, idx_eq_ok] at hstep
      obtain ⟨ch, hch, hstep⟩ := hstep
      cases hsv : s[k] with
      | none =>
        rw [hsv] at hsk
        simp only [hsv] at hstep
        cases hopt : ch.isOptional
        · simp [hopt] at hstep; subst hstep; trivial
        · simp [hopt] at hstep; subst hstep
          intro c hc hck hco
          by_cases e : c = k
          · subst e
            rw [List.getElem?_eq_getElem hc] at hch
            cases hch
            rw [hopt] at hco; cases hco
          · exact hinv c hc (by omega) hco
      | some t0 =>
        rw [hsv] at hsk
        simp only [hsv, R.bind_eq_ok, idx_eq_ok, addU32_eq_ok] at hstep
        obtain ⟨m, hmm, m', ⟨_, rfl⟩, x, hx, x', ⟨_, rfl⟩, hstep⟩ := hstep
        simp at hstep; subst hstep
        intro c hc hck hco
        by_cases e : c = k
        · subst e; rw [hsk]; simp
        · exact hinv c hc (by omega) hco
  · intro c hc h; omega

end Wassign
