import Verif.Proofs.SearchTerm
/-
The slot totals kept by the scheduling search always describe the current decisions.
-/
namespace Wassign
namespace Search
open Spec
variable {σ : Type}

/-- The partial scheduling described by the decisions. -/
def decS (D : List Decision) : Scheduling := D.map Decision.slot?

@[simp] theorem decS_length (D : List Decision) : (decS D).length = D.length := by simp [decS]

theorem slotAt_decS (D : List Decision) (c : Nat) : slotAt (decS D) c = D[c]?.bind Decision.slot? := by
  simp only [slotAt, decS, List.getElem?_map]
  cases D[c]? <;> rfl

/-- The decision that a candidate becomes. -/
def ofSlot : Option Nat → Decision
  | none => .omitted
  | some t => .slot t

@[simp] theorem ofSlot_slot? (x : Option Nat) : (ofSlot x).slot? = x := by cases x <;> rfl
theorem ofSlot_ne (x : Option Nat) : ofSlot x ≠ .undecided := by cases x <;> simp [ofSlot]

theorem decS_set (D : List Decision) (c : Nat) (d : Decision) :
    decS (D.set c d) = (decS D).set c d.slot? := by
  simp [decS, List.map_set]

theorem slotAt_set_self {s : Scheduling} {c : Nat} (h : c < s.length) (x : Option Nat) :
    slotAt (s.set c x) c = x := by simp [slotAt, h]

theorem slotAt_set_ne {s : Scheduling} {c k : Nat} (h : c ≠ k) (x : Option Nat) :
    slotAt (s.set c x) k = slotAt s k := by simp [slotAt, h]

structure StInv (i : InputData) (st : SearchState) : Prop where
  len : st.decisions.length = i.nc
  range : SlotsInRange i (decS st.decisions)
  smin : st.slotMin = psums i (decS st.decisions) (·.min) i.nc
  smax : st.slotMax = psums i (decS st.decisions) (·.max) i.nc
  scnt : st.slotCnt = psums i (decS st.decisions) (fun _ => 1) i.nc

theorem slotSize_eq_rsum (i : InputData) (s : Scheduling) (t : Nat) :
    slotSize i s t = rsum i.nc (contrib i s (fun _ => 1) t) := by
  unfold slotSize
  rw [countP_range_eq_rsum]
  apply rsum_congr
  intro c hc
  simp [contrib, hc]

theorem rsum_contrib_set {i : InputData} {s : Scheduling} {f : Choice → Nat} {c : Nat}
    (hc : c < i.nc) (x : Option Nat) (t : Nat) :
    rsum i.nc (contrib i (s.set c x) f t) + contrib i s f t c =
      rsum i.nc (contrib i s f t) + contrib i (s.set c x) f t c := by
  apply rsum_update hc
  intro k _ hk
  simp only [contrib, slotAt_set_ne (Ne.symm hk)]

theorem psums_set_some {i : InputData} {s : Scheduling} {f : Choice → Nat} {c t : Nat} {ch : Choice}
    (hs : s.length = i.nc) (hc : c < i.nc) (hch : i.choices[c]? = some ch)
    (hn : slotAt s c = none) :
    psums i (s.set c (some t)) f i.nc =
      (psums i s f i.nc).set t (rsum i.nc (contrib i s f t) + f ch) := by
  apply List.ext_getElem
  · simp
  · intro n h1 h2
    have hn' : n < i.ns := by simpa using h1
    have := rsum_contrib_set (s := s) (f := f) hc (some t) n
    rw [contrib_miss (by simp [hn])] at this
    rw [List.getElem_set]
    simp only [psums, List.getElem_map, List.getElem_range]
    by_cases htn : t = n
    · subst htn
      rw [contrib_hit hch (slotAt_set_self (by omega) _)] at this
      simp; omega
    · rw [contrib_miss (by rw [slotAt_set_self (by omega)]; simpa using htn)] at this
      simp [htn]; omega

theorem psums_set_none {i : InputData} {s : Scheduling} {f : Choice → Nat} {c t : Nat} {ch : Choice}
    (hs : s.length = i.nc) (hc : c < i.nc) (hch : i.choices[c]? = some ch)
    (hn : slotAt s c = some t) :
    f ch ≤ rsum i.nc (contrib i s f t) ∧
    psums i (s.set c none) f i.nc =
      (psums i s f i.nc).set t (rsum i.nc (contrib i s f t) - f ch) := by
  have hle : f ch ≤ rsum i.nc (contrib i s f t) := by
    have := rsum_single_le hc (contrib i s f t)
    rwa [contrib_hit hch hn] at this
  refine ⟨hle, ?_⟩
  apply List.ext_getElem
  · simp
  · intro n h1 h2
    have hn' : n < i.ns := by simpa using h1
    have := rsum_contrib_set (s := s) (f := f) hc none n
    rw [contrib_miss (s := s.set c none) (by rw [slotAt_set_self (by omega)]; simp)] at this
    rw [List.getElem_set]
    simp only [psums, List.getElem_map, List.getElem_range]
    by_cases htn : t = n
    · subst htn
      rw [contrib_hit hch hn] at this
      simp; omega
    · rw [contrib_miss (by simpa [hn] using htn)] at this
      simp [htn]; omega

theorem psums_set_same {i : InputData} {s : Scheduling} {f : Choice → Nat} {c : Nat}
    (hn : slotAt s c = none) : psums i (s.set c none) f i.nc = psums i s f i.nc := by
  unfold psums
  apply List.map_congr_left
  intro t _
  apply rsum_congr
  intro k _
  simp only [contrib]
  by_cases hk : c = k
  · subst hk
    by_cases hl : c < s.length
    · rw [slotAt_set_self hl, hn]
    · rw [hn]; simp [slotAt, hl]
  · rw [slotAt_set_ne hk]

theorem range_set {i : InputData} {s : Scheduling} {c : Nat} {x : Option Nat}
    (h : SlotsInRange i s) (hc : c < s.length) (hx : ∀ t, x = some t → t < i.ns) :
    SlotsInRange i (s.set c x) := by
  intro k t hk
  by_cases h1 : c = k
  · subst h1
    rw [slotAt_set_self hc] at hk
    exact hx t hk
  · rw [slotAt_set_ne h1] at hk
    exact h k t hk

theorem sum_ones (l : List Choice) : (l.map (fun _ => 1)).sum = l.length := by
  induction l with
  | nil => rfl
  | cons _ _ ih => simp [ih]; omega

theorem stInv_new (i : InputData) : StInv i (SearchState.new i.nc i.ns) := by
  have hd : decS (List.replicate i.nc Decision.undecided) = List.replicate i.nc none := by
    simp [decS, Decision.slot?]
  have hs : ∀ c, slotAt (List.replicate i.nc none) c = none := by
    intro c
    unfold slotAt
    cases h : (List.replicate i.nc (none : Option Nat))[c]? with
    | none => rfl
    | some x => rw [List.getElem?_replicate] at h; split at h <;> simp_all
  have hp : ∀ f, psums i (List.replicate i.nc none) f i.nc = List.replicate i.ns 0 := by
    intro f
    rw [← psums_zero i (List.replicate i.nc none) f]
    unfold psums
    apply List.map_congr_left
    intro t _
    rw [rsum_congr (g := fun _ => 0) (fun c _ => contrib_miss (by rw [hs]; simp))]
    simp
  refine ⟨by simp [SearchState.new], ?_, ?_, ?_, ?_⟩
  · intro c t h
    simp only [SearchState.new, hd, hs] at h
    cases h
  all_goals simp only [SearchState.new, hd, hp]

theorem applyDecision_spec {i : InputData} (hz : Sizes i) {st : SearchState} (h : StInv i st)
    {c : Nat} (hc : st.decisions[c]? = some .undecided) {x : Option Nat}
    (hx : ∀ t, x = some t → t < i.ns) :
    ∃ st', applyDecision i st c x = .ok st' ∧ StInv i st' ∧
      st'.decisions = st.decisions.set c (ofSlot x) := by
  have hcl : c < i.nc := by
    have := (List.getElem?_eq_some_iff.1 hc).1
    rw [h.len] at this; exact this
  have hn : slotAt (decS st.decisions) c = none := by rw [slotAt_decS, hc]; rfl
  have hlen : (decS st.decisions).length = i.nc := by simp [h.len]
  unfold applyDecision
  rw [idx_eq_ok.2 hc]
  simp only [R.bind_ok, R.pure_eq]
  cases x with
  | none =>
    refine ⟨_, rfl, ?_, rfl⟩
    refine ⟨by simp [h.len], ?_, ?_, ?_, ?_⟩ <;> simp only [decS_set, Decision.slot?]
    · exact range_set h.range (by omega) (by simp)
    · rw [psums_set_same hn, h.smin]
    · rw [psums_set_same hn, h.smax]
    · rw [psums_set_same hn, h.scnt]
  | some t =>
    have ht := hx t rfl
    have hch : i.choices[c]? = some i.choices[c] := by simp [hcl]
    have hsum : ∀ f : Choice → Nat, rsum i.nc (contrib i (decS st.decisions) f t) + f i.choices[c] ≤
        (i.choices.map f).sum := by
      intro f
      have h1 := rsum_contrib_set (s := decS st.decisions) (f := f) hcl (some t) t
      rw [contrib_miss (by simp [hn]), contrib_hit hch (slotAt_set_self (by omega) _)] at h1
      have h2 := rsum_contrib_le (i := i) (s := (decS st.decisions).set c (some t)) (f := f) (t := t)
        (Nat.le_refl i.nc)
      omega
    have h1 := hsum (·.min)
    have h2 := hsum (·.max)
    have h3 := hsum (fun _ => 1)
    have z1 := hz.sumMin
    have z2 := hz.sumMax
    have z3 := hz.choices
    rw [sum_ones] at h3
    simp only [i32Max] at z3
    have hadd : addTo i st c t = .ok { st with
        slotMin := st.slotMin.set t (rsum i.nc (contrib i (decS st.decisions) (·.min) t) + i.choices[c].min)
        slotMax := st.slotMax.set t (rsum i.nc (contrib i (decS st.decisions) (·.max) t) + i.choices[c].max)
        slotCnt := st.slotCnt.set t (rsum i.nc (contrib i (decS st.decisions) (fun _ => 1) t) + 1) } := by
      unfold addTo
      rw [idx_eq_ok.2 hch]
      simp only [R.bind_ok]
      rw [h.smin, idx_eq_ok.2 (psums_get ht)]
      simp only [R.bind_ok]
      rw [addU32_eq_ok.2 ⟨by omega, rfl⟩]
      simp only [R.bind_ok]
      rw [h.smax, idx_eq_ok.2 (psums_get ht)]
      simp only [R.bind_ok]
      rw [addU32_eq_ok.2 ⟨by omega, rfl⟩]
      simp only [R.bind_ok]
      rw [h.scnt, idx_eq_ok.2 (psums_get ht)]
      simp only [R.bind_ok]
      rw [addU32_eq_ok.2 ⟨by simp only [u32Max]; simp only [InputData.nc] at *; omega, rfl⟩]
      rfl
    simp only [hadd, R.bind_ok]
    refine ⟨_, rfl, ?_, rfl⟩
    refine ⟨by simp [h.len], ?_, ?_, ?_, ?_⟩ <;> simp only [decS_set, Decision.slot?]
    · exact range_set h.range (by omega) (by simpa using ht)
    · rw [psums_set_some hlen hcl hch hn, h.smin]
    · rw [psums_set_some hlen hcl hch hn, h.smax]
    · rw [psums_set_some hlen hcl hch hn, h.scnt]

theorem clearDecision_spec {i : InputData} {st : SearchState} (h : StInv i st) {c : Nat}
    (hcl : c < i.nc) :
    ∃ st', clearDecision i st c = .ok st' ∧ StInv i st' ∧
      st'.decisions = st.decisions.set c .undecided := by
  have hlen : (decS st.decisions).length = i.nc := by simp [h.len]
  have hget : st.decisions[c]? = some (st.decisions[c]'(by rw [h.len]; exact hcl)) := by simp [h.len, hcl]
  generalize st.decisions[c]'(by rw [h.len]; exact hcl) = d at hget
  have hsl : slotAt (decS st.decisions) c = d.slot? := by rw [slotAt_decS, hget]; rfl
  unfold clearDecision
  rw [idx_eq_ok.2 hget]
  simp only [R.bind_ok, R.pure_eq]
  have hnone : d.slot? = none → ∃ st', (Except.ok { st with decisions := st.decisions.set c .undecided } : R SearchState) = Except.ok st' ∧ StInv i st' ∧
      st'.decisions = st.decisions.set c .undecided := by
    intro hd
    rw [hd] at hsl
    refine ⟨_, rfl, ?_, rfl⟩
    refine ⟨by simp [h.len], ?_, ?_, ?_, ?_⟩ <;> simp only [decS_set, Decision.slot?]
    · exact range_set h.range (by omega) (by simp)
    · rw [psums_set_same hsl, h.smin]
    · rw [psums_set_same hsl, h.smax]
    · rw [psums_set_same hsl, h.scnt]
  cases d with
  | undecided => exact hnone rfl
  | omitted => exact hnone rfl
  | slot t =>
    have ht : t < i.ns := h.range c t hsl
    have hch : i.choices[c]? = some i.choices[c] := by simp [hcl]
    have m1 := psums_set_none (f := (·.min)) hlen hcl hch hsl
    have m2 := psums_set_none (f := (·.max)) hlen hcl hch hsl
    have m3 := psums_set_none (f := (fun _ => 1)) hlen hcl hch hsl
    have hrem : removeFrom i st c t = .ok { st with
        slotMin := st.slotMin.set t (rsum i.nc (contrib i (decS st.decisions) (·.min) t) - i.choices[c].min)
        slotMax := st.slotMax.set t (rsum i.nc (contrib i (decS st.decisions) (·.max) t) - i.choices[c].max)
        slotCnt := st.slotCnt.set t (rsum i.nc (contrib i (decS st.decisions) (fun _ => 1) t) - 1) } := by
      unfold removeFrom
      rw [idx_eq_ok.2 hch]
      simp only [R.bind_ok]
      rw [h.smin, idx_eq_ok.2 (psums_get ht)]
      simp only [R.bind_ok]
      rw [subU_eq_ok.2 ⟨m1.1, rfl⟩]
      simp only [R.bind_ok]
      rw [h.smax, idx_eq_ok.2 (psums_get ht)]
      simp only [R.bind_ok]
      rw [subU_eq_ok.2 ⟨m2.1, rfl⟩]
      simp only [R.bind_ok]
      rw [h.scnt, idx_eq_ok.2 (psums_get ht)]
      simp only [R.bind_ok]
      rw [subU_eq_ok.2 ⟨m3.1, rfl⟩]
      rfl
    simp only [hrem, R.bind_ok]
    refine ⟨_, rfl, ?_, rfl⟩
    refine ⟨by simp [h.len], ?_, ?_, ?_, ?_⟩ <;> simp only [decS_set, Decision.slot?]
    · exact range_set h.range (by omega) (by simp)
    · rw [m1.2, h.smin]
    · rw [m2.2, h.smax]
    · rw [m3.2, h.scnt]

end Search
end Wassign
