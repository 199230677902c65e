import Verif.Proofs.Attend
import Verif.Proofs.ScoreOrder
/-
What `Scoring::evaluate` returns.
-/
namespace Wassign
open Spec

section
variable {i : InputData} {s : Scheduling} {a : Assignment}

theorem IsWorst.unique {w w' : Nat} (h : IsWorst i a w) (h' : IsWorst i a w') : w = w' := by
  have h1 : w ≤ w' := by
    rcases h.attained with rfl | ⟨p, c, hc, hp⟩
    · omega
    · exact h'.upper p c w hc hp
  have h2 : w' ≤ w := by
    rcases h'.attained with rfl | ⟨p, c, hc, hp⟩
    · omega
    · exact h.upper p c w' hc hp
  omega

theorem cellPref_ok_iff (h : Shape i s a) {p k : Nat} (hp : p < i.np) (hk : k < i.ns) {x : Nat} :
    Scoring.cellPref i a p k = .ok x ↔ pref i p (ent a p k) = some x := by
  unfold Scoring.cellPref pref
  rw [choiceOf_ok h hp hk]
  simp only [R.bind_ok, R.bind_eq_ok, idx_eq_ok, Option.bind_eq_some_iff]

/-- Worst preference over a prefix (choosers `< p`, and columns `< k` of chooser `p`). -/
structure WorstUpTo (i : InputData) (a : Assignment) (p k w : Nat) : Prop where
  upper : ∀ q j x, (q < p ∧ j < i.ns ∨ q = p ∧ j < k) → pref i q (ent a q j) = some x → x ≤ w
  attained : w = 0 ∨ ∃ q j, (q < p ∧ j < i.ns ∨ q = p ∧ j < k) ∧ pref i q (ent a q j) = some w

theorem evaluateMajor_spec (h : Shape i s a) {m : Nat} (hm : Scoring.evaluateMajor i a = .ok m) :
    IsWorst i a m := by
  unfold Scoring.evaluateMajor at hm
  have key := foldlM_inv (l := List.range i.np) (Inv := fun p m => WorstUpTo i a p 0 m) (r := m) ?_ ?_ hm
  · rw [List.length_range] at key
    constructor
    · intro p c x ha hx
      have hp := attends_lt h ha
      obtain ⟨k, hk, rfl⟩ := (attends_iff h hp).1 ha
      exact key.upper p k x (Or.inl ⟨hp, hk⟩) hx
    · rcases key.attained with h0 | ⟨q, j, hq, hx⟩
      · exact Or.inl h0
      · right
        have hq : q < i.np ∧ j < i.ns := by omega
        exact ⟨q, ent a q j, (attends_iff h hq.1).2 ⟨j, hq.2, rfl⟩, hx⟩
  · intro p hp m m' hinv hf
    have hp : p < i.np := by simpa using hp
    simp only [List.getElem_range] at hf
    have inner := foldlM_inv (l := List.range i.ns) (Inv := fun k m => WorstUpTo i a p k m) (r := m') ?_ hinv hf
    · rw [List.length_range] at inner
      constructor
      · intro q j x hq hx
        exact inner.upper q j x (by omega) hx
      · rcases inner.attained with h0 | ⟨q, j, hq, hx⟩
        · exact Or.inl h0
        · exact Or.inr ⟨q, j, by omega, hx⟩
    · intro k hk m m' hinv hf
      have hk : k < i.ns := by simpa using hk
      simp only [List.getElem_range, R.bind_eq_ok] at hf
      obtain ⟨x, hx, hf⟩ := hf
      rw [cellPref_ok_iff h hp hk] at hx
      simp at hf; subst hf
      constructor
      · intro q j y hq hy
        by_cases e : q = p ∧ j = k
        · obtain ⟨rfl, rfl⟩ := e
          rw [hx] at hy; cases hy; omega
        · have := hinv.upper q j y (by omega) hy; omega
      · by_cases hle : x ≤ m
        · rw [Nat.max_eq_left hle]
          rcases hinv.attained with h0 | ⟨q, j, hq, hx⟩
          · exact Or.inl h0
          · exact Or.inr ⟨q, j, by omega, hx⟩
        · rw [Nat.max_eq_right (by omega)]
          exact Or.inr ⟨p, k, by omega, hx⟩
  · exact ⟨fun q j x hq _ => by omega, Or.inl rfl⟩

/-- Every entry of the assignment is an existing choice. -/
def EntriesInRange (i : InputData) (a : Assignment) : Prop :=
  ∀ p, p < i.np → ∀ k, k < i.ns → ent a p k < i.nc

theorem pref_some (hw : WF i) {p c : Nat} (hp : p < i.np) (hc : c < i.nc) :
    ∃ x, pref i p c = some x ∧ x ≤ i.maxPref := by
  have hm : i.choosers[p] ∈ i.choosers := List.getElem_mem hp
  have hl := hw.prefLen _ hm
  have hc' : c < i.choosers[p].prefs.length := by omega
  refine ⟨i.choosers[p].prefs[c], ?_, hw.prefMax _ hm _ (List.getElem_mem hc')⟩
  simp [pref, hp, hc']

theorem pref_le (hw : WF i) {p c x : Nat} (h : pref i p c = some x) : x ≤ i.maxPref := by
  unfold pref at h
  rw [Option.bind_eq_some_iff] at h
  obtain ⟨ch, hch, hx⟩ := h
  exact hw.prefMax ch (List.mem_of_getElem? hch) x (List.mem_of_getElem? hx)

theorem pref_lt_of_some {p c x : Nat} (h : pref i p c = some x) : p < i.np := by
  unfold pref at h
  rw [Option.bind_eq_some_iff] at h
  obtain ⟨ch, hch, hx⟩ := h
  exact (List.getElem?_eq_some_iff.1 hch).1

theorem evaluateMajor_total (h : Shape i s a) (hw : WF i) (he : EntriesInRange i a) :
    ∃ m, Scoring.evaluateMajor i a = .ok m := by
  unfold Scoring.evaluateMajor
  obtain ⟨r, hr, _⟩ := foldlM_total (l := List.range i.np) (Inv := fun _ (_ : Nat) => True)
    (f := fun m p => (List.range i.ns).foldlM (fun m k => do
      let x ← Scoring.cellPref i a p k
      pure (max m x)) m) (s := 0) (by
        intro p hp m _
        have hp : p < i.np := by simpa using hp
        simp only [List.getElem_range]
        obtain ⟨r, hr, _⟩ := foldlM_total (l := List.range i.ns) (Inv := fun _ (_ : Nat) => True)
          (f := fun m k => do
            let x ← Scoring.cellPref i a p k
            pure (max m x)) (s := m) (by
              intro k hk m _
              have hk : k < i.ns := by simpa using hk
              simp only [List.getElem_range]
              obtain ⟨x, hx, _⟩ := pref_some hw hp (he p hp k hk)
              rw [(cellPref_ok_iff h hp hk).2 hx]
              exact ⟨_, rfl, trivial⟩) trivial
        exact ⟨r, hr, trivial⟩) trivial
  exact ⟨r, hr⟩

theorem prefCounts_total (h : Shape i s a) (hw : WF i) (hz : Sizes i) (he : EntriesInRange i a) :
    ∃ m, Scoring.prefCounts i a = .ok m := by
  unfold Scoring.prefCounts
  have h1 : i.maxPref + 1 ≤ u32Max := hz.maxPref
  rw [addU32_eq_ok.2 ⟨h1, rfl⟩]
  simp only [R.bind_ok]
  -- all counts are bounded by the number of processed cells
  obtain ⟨r, hr, _⟩ := foldlM_total (l := List.range i.np)
    (Inv := fun p (cnt : List Nat) => cnt.length = i.maxPref + 1 ∧ ∀ x ∈ cnt, x ≤ p * i.ns)
    (f := fun cnt p => (List.range i.ns).foldlM (fun cnt k => do
      let x ← Scoring.cellPref i a p k
      let c ← idx cnt x "pref_count[pref]"
      let c' ← addU32 c 1 "pref_count += 1"
      pure (cnt.set x c')) cnt) (s := List.replicate (i.maxPref + 1) 0) (by
        intro p hp cnt hinv
        have hp : p < i.np := by simpa using hp
        simp only [List.getElem_range]
        obtain ⟨r, hr, hi⟩ := foldlM_total (l := List.range i.ns)
          (Inv := fun k (cnt : List Nat) => cnt.length = i.maxPref + 1 ∧ ∀ x ∈ cnt, x ≤ p * i.ns + k)
          (f := fun cnt k => do
            let x ← Scoring.cellPref i a p k
            let c ← idx cnt x "pref_count[pref]"
            let c' ← addU32 c 1 "pref_count += 1"
            pure (cnt.set x c')) (s := cnt) (by
              intro k hk cnt hinv
              have hk : k < i.ns := by simpa using hk
              simp only [List.getElem_range]
              obtain ⟨x, hx, hxm⟩ := pref_some hw hp (he p hp k hk)
              rw [(cellPref_ok_iff h hp hk).2 hx]
              have hlt : x < cnt.length := by rw [hinv.1]; omega
              simp only [R.bind_ok, idx_ok hlt]
              have hb := hinv.2 _ (List.getElem_mem hlt)
              have h4 : (p+1) * i.ns ≤ i.np * i.ns := Nat.mul_le_mul_right _ hp
              rw [Nat.succ_mul] at h4
              have := hz.attendances
              rw [addU32_eq_ok.2 ⟨by omega, rfl⟩]
              refine ⟨_, rfl, by simp [hinv.1], ?_⟩
              intro y hy
              rcases List.mem_or_eq_of_mem_set hy with hy | rfl
              · have := hinv.2 y hy; omega
              · omega) (by simpa using hinv)
        rw [List.length_range] at hi
        refine ⟨r, hr, hi.1, ?_⟩
        intro x hx
        have := hi.2 x hx
        rw [Nat.succ_mul]; exact this)
    ⟨by simp, by intro x hx; have := List.eq_of_mem_replicate hx; omega⟩
  exact ⟨r, hr⟩

theorem entriesInRange_of_valid (h : Shape i s a) (hv : OnlyScheduled i s a) : EntriesInRange i a := by
  intro p hp k hk
  obtain ⟨t, _, ht⟩ := hv p hp _ ((attends_iff h hp).2 ⟨k, hk, rfl⟩)
  rw [← h.schedLen]
  apply Nat.lt_of_not_le
  intro hge
  rw [slotAt_none_of_ge hge] at ht; cases ht

/-- On a valid solution `evaluate` returns; the major part is the worst preference. -/
theorem evaluate_valid (sc : Scoring) (h : Shape i s a) (hz : Sizes i) (hw : WF i)
    (hr : SlotsInRange i s) (hv : Valid i s a) :
    ∃ w cnt, IsWorst i a w ∧ w ≤ i.maxPref ∧ Scoring.prefCounts i a = .ok cnt ∧
      sc.evaluate i (.complete s a) = .ok
        (if (sc.minorOf cnt).isFinite then
          ⟨if sc.greedy then F32.nan else F32.ofU32 w, sc.minorOf cnt⟩ else Score.infinite) := by
  have he := entriesInRange_of_valid h hv.onlyScheduled
  obtain ⟨m, hm⟩ := evaluateMajor_total h hw he
  obtain ⟨cnt, hcnt⟩ := prefCounts_total h hw hz he
  have hworst := evaluateMajor_spec h hm
  have hmle : m ≤ i.maxPref := by
    rcases hworst.attained with h0 | ⟨p, c, _, hx⟩
    · omega
    · exact pref_le hw hx
  have hmu : m ≤ u32Max := by have := hz.maxPref; omega
  refine ⟨m, cnt, hworst, hmle, hcnt, ?_⟩
  simp only [Scoring.evaluate, Solution.isInvalid, Bool.false_eq_true, if_false, if_true, Scoring.evaluateMinor, Scoring.majorPart]
  rw [isFeasibleC_complete h hz hw hr hv]
  simp only [hm, R.bind_ok, hcnt, Bool.not_true, Bool.false_eq_true, if_false, R.pure_eq]
  have nanNaN : F32.nan.isNaN = true := by decide
  cases hg : sc.greedy
  · simp [F32.ofU32_isFinite hmu]; split <;> rfl
  · simp [nanNaN]; split <;> rfl

/-- A finite score is only given to valid complete solutions. -/
theorem evaluate_finite_valid (sc : Scoring) (hw : WF i) (hn : i.nc ≤ u32Max) {sol : Solution}
    {score : Score} (hsh : ∀ s a, sol = .complete s a → Shape i s a)
    (he : sc.evaluate i sol = .ok score) (hf : score.isFinite = true) :
    ∃ s a, sol = .complete s a ∧ Valid i s a := by
  cases sol with
  | invalid => simp [Scoring.evaluate] at he; subst he; exact absurd hf (by decide)
  | scheduling s => simp [Scoring.evaluate] at he; subst he; exact absurd hf (by decide)
  | complete s a =>
    refine ⟨s, a, rfl, ?_⟩
    have h := hsh s a rfl
    simp only [Scoring.evaluate, Solution.isInvalid, Bool.false_eq_true, if_false] at he
    simp only [R.bind_eq_ok] at he
    obtain ⟨major, _, minor, hmin, he⟩ := he
    split at he
    · next hcond =>
      unfold Scoring.evaluateMinor at hmin
      simp only [R.bind_eq_ok] at hmin
      obtain ⟨ok, hok, hmin⟩ := hmin
      cases ok with
      | true => exact (isFeasibleC_spec h hn hw hok).1 rfl
      | false =>
        simp at hmin; subst hmin
        have : F32.infinity.isFinite = false := by decide
        simp [this] at hcond
    · simp at he; subst he; exact absurd hf (by decide)

end
end Wassign
