import Verif.Proofs.SchedCons
import Verif.Proofs.FoldLemmas
/-
`Scheduling::is_feasible` decides `Spec.SchedValid`.
-/
namespace Wassign
open Spec

/-- Contribution of choice `c` to slot `t`. -/
def contrib (i : InputData) (s : Scheduling) (f : Choice → Nat) (t c : Nat) : Nat :=
  if slotAt s c = some t then (i.choices[c]?.map f).getD 0 else 0

theorem slotSum_eq (i : InputData) (s : Scheduling) (f : Choice → Nat) (t : Nat) :
    slotSum i s f t = rsum i.nc (contrib i s f t) := rfl

/-- The partial sums after `k` choices. -/
def psums (i : InputData) (s : Scheduling) (f : Choice → Nat) (k : Nat) : List Nat :=
  (List.range i.ns).map (fun t => rsum k (contrib i s f t))

@[simp] theorem psums_length (i s f k) : (psums i s f k).length = i.ns := by simp [psums]

theorem psums_get {i s f k t} (h : t < i.ns) :
    (psums i s f k)[t]? = some (rsum k (contrib i s f t)) := by
  simp [psums, h]

theorem psums_zero (i s f) : psums i s f 0 = List.replicate i.ns 0 := by
  apply List.ext_getElem <;> simp [psums]

/-- `contrib` of a choice scheduled in `t`, resp. unscheduled. -/
theorem contrib_hit {i : InputData} {s f t k ch} (h : i.choices[k]? = some ch)
    (hs : slotAt s k = some t) : contrib i s f t k = f ch := by simp [contrib, hs, h]

theorem contrib_miss {i : InputData} {s f t k} (hs : slotAt s k ≠ some t) :
    contrib i s f t k = 0 := by simp [contrib, hs]

theorem psums_succ_none {i s f k} (h : slotAt s k = none) : psums i s f (k+1) = psums i s f k := by
  simp [psums, contrib, h]

theorem psums_succ_some {i : InputData} {s f k t ch} (ht : t < i.ns) (hc : i.choices[k]? = some ch)
    (h : slotAt s k = some t) :
    psums i s f (k+1) = (psums i s f k).set t (rsum k (contrib i s f t) + f ch) := by
  apply List.ext_getElem
  · simp
  · intro n h1 h2
    have hn : n < i.ns := by simpa using h1
    rw [List.getElem_set]
    split
    · next e => subst e; simp [psums, contrib_hit hc h]
    · next e =>
      have : slotAt s k ≠ some n := by rw [h]; simpa using e
      simp [psums, contrib_miss this]

def SumInv (i : InputData) (s : Scheduling) (k : Nat) : Option (List Nat × List Nat) → Prop
  | none => ∃ c, ∃ h : c < i.nc, c < k ∧ (i.choices[c]).isOptional = false ∧ slotAt s c = none
  | some (mn, mx) =>
      (∀ c (h : c < i.nc), c < k → (i.choices[c]).isOptional = false → slotAt s c ≠ none) ∧
      mn = psums i s (·.min) k ∧ mx = psums i s (·.max) k

theorem zipIdx_get {α : Type} (l : List α) (k : Nat) (h : k < l.zipIdx.length) :
    l.zipIdx[k] = (l[k]'(by simpa using h), k) := by simp

theorem slotAt_get {s : Scheduling} {k : Nat} (h : k < s.length) : slotAt s k = s[k] := by
  simp [slotAt, h]

theorem schedSums_spec {i : InputData} {s : Scheduling} {r} (hs : s.length = i.nc)
    (h : schedSums i s = .ok r) : SumInv i s i.nc r := by
  have key := foldlM_inv (l := s.zipIdx) (Inv := SumInv i s) (r := r) ?_ ?_ h
  · simpa [hs] using key
  · intro k hk acc acc' hinv hstep
    have hk' : k < s.length := by simpa using hk
    rw [zipIdx_get] at hstep
    have hsk := slotAt_get hk'
    cases acc with
    | none =>
      simp at hstep; subst hstep
      obtain ⟨c, hc, hck, h1, h2⟩ := hinv
      exact ⟨c, hc, by omega, h1, h2⟩
    | some p =>
      obtain ⟨mn, mx⟩ := p
      obtain ⟨hm, rfl, rfl⟩ := hinv
      simp only [R.bind_eq_ok, idx_eq_ok] at hstep
      obtain ⟨ch, hch, hstep⟩ := hstep
      have hknc : k < i.nc := by omega
      have hche : i.choices[k] = ch := by
        have := List.getElem?_eq_some_iff.1 hch; obtain ⟨_, h⟩ := this; exact h
      cases hsv : s[k] with
      | none =>
        rw [hsv] at hsk
        simp only [hsv] at hstep
        cases hopt : ch.isOptional
        · simp [hopt] at hstep; subst hstep
          exact ⟨k, hknc, by omega, by rw [hche]; exact hopt, hsk⟩
        · simp [hopt] at hstep; subst hstep
          refine ⟨?_, ?_, ?_⟩
          · intro c hc hck hno
            by_cases e : c = k
            · subst e; rw [hche, hopt] at hno; cases hno
            · exact hm c hc (by omega) hno
          · rw [psums_succ_none hsk]
          · rw [psums_succ_none hsk]
      | some t =>
        rw [hsv] at hsk
        simp only [hsv, R.bind_eq_ok, idx_eq_ok, addU32_eq_ok] at hstep
        obtain ⟨m, hmm, m', ⟨_, rfl⟩, x, hx, x', ⟨_, rfl⟩, hstep⟩ := hstep
        simp at hstep; subst hstep
        have ht : t < i.ns := by
          have := (List.getElem?_eq_some_iff.1 hmm).1; simpa using this
        rw [psums_get ht] at hmm hx
        simp at hmm hx; subst hmm; subst hx
        refine ⟨?_, ?_, ?_⟩
        · intro c hc hck hno
          by_cases e : c = k
          · subst e; rw [hsk]; simp
          · exact hm c hc (by omega) hno
        · rw [psums_succ_some ht hch hsk]
        · rw [psums_succ_some ht hch hsk]
  · refine ⟨?_, ?_, ?_⟩
    · intro c _ h; omega
    · rw [psums_zero]
    · rw [psums_zero]

/-- When it returns, `is_feasible` returns whether the scheduling is feasible. -/
theorem schedFeasible_spec {i : InputData} {s : Scheduling} {b : Bool}
    (hs : s.length = i.nc) (hn : i.nc ≤ u32Max) (hp : i.np ≤ u32Max)
    (hw : ∀ c ∈ i.schedCons, SchedConWF i c)
    (h : schedFeasible i s = .ok b) : b = true ↔ SchedValid i s := by
  unfold schedFeasible at h
  simp only [R.bind_eq_ok, satU32_eq hp] at h
  obtain ⟨r, hr, h⟩ := h
  have hinv := schedSums_spec hs hr
  cases r with
  | none =>
    simp at h; subst h
    obtain ⟨c, hc, _, h1, h2⟩ := hinv
    simp
    intro hv; exact hv.mandatory c hc h1 h2
  | some q =>
    obtain ⟨mn, mx⟩ := q
    obtain ⟨hm, rfl, rfl⟩ := hinv
    simp only [R.bind_eq_ok] at h
    obtain ⟨ok, hok, h⟩ := h
    have hok' : ok = true ↔ ∀ t ∈ List.range i.ns,
        slotSum i s (·.min) t ≤ i.np ∧ i.np ≤ slotSum i s (·.max) t := by
      refine allM_ok_iff ?_ hok
      intro t ht b hb
      have ht : t < i.ns := by simpa using ht
      simp [R.bind_eq_ok, idx_eq_ok, psums_get ht] at hb
      rw [← hb]; simp [slotSum_eq]
    cases ok
    · simp at h; subst h
      simp at hok'
      obtain ⟨t, ht, hh⟩ := hok'
      simp
      intro hv
      exact absurd (hv.maximum t ht) (by have := hh (hv.minimum t ht); omega)
    · simp at h hok'
      rw [satSched_spec hs hn hw h]
      constructor
      · intro hc
        exact ⟨fun c hc' h => hm c hc' hc' h, fun t ht => (hok' t ht).1, fun t ht => (hok' t ht).2, hc⟩
      · intro hv; exact hv.cons

theorem contrib_le {i : InputData} {s f t c} : contrib i s f t c ≤ (i.choices[c]?.map f).getD 0 := by
  unfold contrib; split <;> simp

theorem rsum_contrib_le {i : InputData} {s f t k} (hk : k ≤ i.nc) :
    rsum k (contrib i s f t) ≤ (i.choices.map f).sum := by
  refine Nat.le_trans (rsum_mono hk _) ?_
  have : rsum i.choices.length (fun c => (i.choices[c]?.map f).getD 0) = (i.choices.map f).sum :=
    rsum_eq_list_sum _ _ _ (fun k hk => by simp [hk])
  rw [← this]
  exact rsum_le_rsum (fun c _ => contrib_le)

theorem schedSums_total {i : InputData} {s : Scheduling} (hs : s.length = i.nc)
    (hr : SlotsInRange i s)
    (hmin : (i.choices.map (·.min)).sum ≤ u32Max) (hmax : (i.choices.map (·.max)).sum ≤ u32Max) :
    ∃ r, schedSums i s = .ok r := by
  have key := foldlM_total (l := s.zipIdx) (Inv := SumInv i s)
    (f := fun acc e =>
    match acc with
    | none => pure none
    | some (mn, mx) => do
      let ch ← idx i.choices e.2 "choices[choice_index]"
      match e.1 with
      | none => if ch.isOptional then pure (some (mn, mx)) else pure none
      | some t => do
        let m ← idx mn t "slot_min[slot]"
        let m' ← addU32 m ch.min "slot_min += min"
        let x ← idx mx t "slot_max[slot]"
        let x' ← addU32 x ch.max "slot_max += max"
        pure (some (mn.set t m', mx.set t x')))
    (s := some (List.replicate i.ns 0, List.replicate i.ns 0)) ?_ ?_
  · obtain ⟨r, hr, _⟩ := key; exact ⟨r, hr⟩
  · intro k hk acc hinv
    have hk' : k < s.length := by simpa using hk
    rw [zipIdx_get]
    have hsk := slotAt_get hk'
    have hknc : k < i.nc := by omega
    have hch : i.choices[k]? = some i.choices[k] := by simp [hknc]
    cases acc with
    | none =>
      obtain ⟨c, hc, hck, h1, h2⟩ := hinv
      exact ⟨none, rfl, c, hc, by omega, h1, h2⟩
    | some p =>
      obtain ⟨mn, mx⟩ := p
      obtain ⟨hm, rfl, rfl⟩ := hinv
      simp only [idx_ok hknc, R.bind_ok]
      cases hsv : s[k] with
      | none =>
        rw [hsv] at hsk
        cases hopt : i.choices[k].isOptional
        · exact ⟨none, by simp, k, hknc, by omega, hopt, hsk⟩
        · refine ⟨some _, by simp; rfl, ?_, ?_, ?_⟩
          · intro c hc hck hno
            by_cases e : c = k
            · subst e; rw [hopt] at hno; cases hno
            · exact hm c hc (by omega) hno
          · rw [psums_succ_none hsk]
          · rw [psums_succ_none hsk]
      | some t =>
        rw [hsv] at hsk
        have ht : t < i.ns := hr k t hsk
        have l1 : t < (psums i s (·.min) k).length := by simpa using ht
        have l2 : t < (psums i s (·.max) k).length := by simpa using ht
        have b1 : rsum k (contrib i s (·.min) t) + i.choices[k].min ≤ u32Max := by
          have := rsum_contrib_le (i := i) (s := s) (f := (·.min)) (t := t) (k := k+1) (by omega)
          rw [rsum_succ, contrib_hit hch hsk] at this; omega
        have b2 : rsum k (contrib i s (·.max) t) + i.choices[k].max ≤ u32Max := by
          have := rsum_contrib_le (i := i) (s := s) (f := (·.max)) (t := t) (k := k+1) (by omega)
          rw [rsum_succ, contrib_hit hch hsk] at this; omega
        have g1 : (psums i s (·.min) k)[t] = rsum k (contrib i s (·.min) t) := by simp [psums]
        have g2 : (psums i s (·.max) k)[t] = rsum k (contrib i s (·.max) t) := by simp [psums]
        simp only [idx_ok l1, idx_ok l2, R.bind_ok, g1, g2, addU32_eq_ok.2 ⟨b1, rfl⟩,
          addU32_eq_ok.2 ⟨b2, rfl⟩]
        refine ⟨some _, rfl, ?_, ?_, ?_⟩
        · intro c hc hck hno
          by_cases e : c = k
          · subst e; rw [hsk]; simp
          · exact hm c hc (by omega) hno
        · rw [psums_succ_some ht hch hsk]
        · rw [psums_succ_some ht hch hsk]
  · refine ⟨?_, ?_, ?_⟩
    · intro c _ h; omega
    · rw [psums_zero]
    · rw [psums_zero]

/-- `is_feasible` does not panic on well-formed data of representable size. -/
theorem schedFeasible_total {i : InputData} {s : Scheduling} (hs : s.length = i.nc)
    (hr : SlotsInRange i s) (hz : Sizes i) (hw : ∀ c ∈ i.schedCons, SchedConWF i c) :
    ∃ b, schedFeasible i s = .ok b := by
  obtain ⟨r, hr'⟩ := schedSums_total hs hr hz.sumMin hz.sumMax
  have hinv := schedSums_spec hs hr'
  unfold schedFeasible
  simp only [hr', R.bind_ok]
  cases r with
  | none => exact ⟨false, rfl⟩
  | some q =>
    obtain ⟨mn, mx⟩ := q
    obtain ⟨hm, rfl, rfl⟩ := hinv
    have hall : ∃ b, allRange i.ns (fun t => do
      let m ← idx (psums i s (·.min) i.nc) t "slot_min"
      let x ← idx (psums i s (·.max) i.nc) t "slot_max"
      pure (!(decide (satU32 i.np < m) || decide (x < satU32 i.np)))) = .ok b := by
      apply allM_total
      intro t ht
      have ht : t < i.ns := by simpa using ht
      rw [idx_ok (by simpa using ht), idx_ok (by simpa using ht)]
      exact ⟨_, rfl⟩
    obtain ⟨b, hb⟩ := hall
    simp only [hb, R.bind_ok]
    cases b
    · exact ⟨false, rfl⟩
    · exact satSched_total hs hr hz.slots hw

end Wassign
