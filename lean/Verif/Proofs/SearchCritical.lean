import Verif.Proofs.SearchChecks
import Verif.Proofs.Pigeon
/-
The critical-set check of the scheduling search.
-/
namespace Wassign
namespace Search
open Spec

/-- Slot `t` is taken by a decided element of `data`. -/
def covB (D : List Decision) (data : List Nat) (t : Nat) : Bool :=
  data.any (fun e => D[e]? == some (.slot t))

def covered (ns : Nat) (D : List Decision) (data : List Nat) : Nat :=
  (List.range ns).countP (covB D data)

def missing (D : List Decision) (data : List Nat) : Nat :=
  data.countP (fun e => D[e]? == some .undecided)

theorem csOk_spec {i : InputData} {D : List Decision} (hlen : D.length = i.nc)
    (hr : SlotsInRange i (decS D)) {set : CriticalSet} (hs : ∀ e ∈ set.data, e < i.nc) :
    Decides (csOk i D set) (i.ns ≤ covered i.ns D set.data + missing D set.data) := by
  have key := foldlM_total (l := set.data)
    (f := csStep D)
    (s := (List.replicate i.ns false, 0, 0))
    (Inv := fun k acc => acc = ((List.range i.ns).map (covB D (set.data.take k)),
      covered i.ns D (set.data.take k), missing D (set.data.take k))) ?_ ?_
  · obtain ⟨r, h1, h2⟩ := key
    unfold csOk
    rw [h1, R.bind_ok]
    refine ⟨_, rfl, ?_⟩
    subst h2
    simp
  · intro k hk acc hacc
    subst hacc
    have he : set.data[k] < i.nc := hs _ (List.getElem_mem hk)
    have htake : set.data.take (k + 1) = set.data.take k ++ [set.data[k]] := by
      rw [List.take_succ_eq_append_getElem hk]
    have hget : D[set.data[k]]? = some (D[set.data[k]]'(by omega)) := by simp [hlen, he]
    generalize D[set.data[k]]'(by omega) = d at hget
    have hcov : ∀ t, covB D (set.data.take (k + 1)) t = (covB D (set.data.take k) t || d == .slot t) := by
      intro t
      unfold covB
      rw [htake, List.any_append]
      simp only [List.any_cons, List.any_nil, Bool.or_false, hget]
      rfl
    have hmiss : missing D (set.data.take (k + 1)) =
        missing D (set.data.take k) + if d = .undecided then 1 else 0 := by
      unfold missing
      rw [htake, List.countP_append]
      simp only [List.countP_cons, List.countP_nil, hget]
      cases d <;> simp
    unfold csStep
    rw [idx_eq_ok.2 hget]
    simp only [R.bind_ok]
    cases d with
    | undecided =>
      refine ⟨_, rfl, ?_⟩
      have : covB D (set.data.take (k + 1)) = covB D (set.data.take k) := by
        funext t; simp [hcov]
      simp [this, hmiss, covered]
    | omitted =>
      refine ⟨_, rfl, ?_⟩
      have : covB D (set.data.take (k + 1)) = covB D (set.data.take k) := by
        funext t; simp [hcov]
      simp [this, hmiss, covered]
    | slot t =>
      have ht : t < i.ns := hr set.data[k] t (by rw [slotAt_decS, hget]; rfl)
      have hi : idx ((List.range i.ns).map (covB D (set.data.take k))) t "covered_slots[slot]" =
          .ok (covB D (set.data.take k) t) := by
        rw [idx_eq_ok]; simp [ht]
      simp only [hi, R.bind_ok]
      cases hb : covB D (set.data.take k) t with
      | true =>
        refine ⟨_, rfl, ?_⟩
        have : covB D (set.data.take (k + 1)) = covB D (set.data.take k) := by
          funext t'
          rw [hcov]
          by_cases htt : t = t'
          · subst htt; simp [hb]
          · simp [htt]
        simp [this, hmiss, covered]
      | false =>
        refine ⟨_, rfl, ?_⟩
        have hc : covered i.ns D (set.data.take (k + 1)) = covered i.ns D (set.data.take k) + 1 := by
          unfold covered
          rw [countP_range_eq_rsum, countP_range_eq_rsum]
          have := rsum_update (k := i.ns) (j := t)
            (f := fun c => if covB D (set.data.take (k + 1)) c then 1 else 0)
            (g := fun c => if covB D (set.data.take k) c then 1 else 0) ht
            (by
              intro c _ hne
              have : (t = c) = False := by simp [Ne.symm hne]
              simp [hcov, this])
          simp [hb, hcov] at this
          simp [hcov]
          omega
        have hm : (List.range i.ns).map (covB D (set.data.take (k + 1))) =
            ((List.range i.ns).map (covB D (set.data.take k))).set t true := by
          apply List.ext_getElem
          · simp
          · intro n h1 h2
            rw [List.getElem_set]
            simp only [List.getElem_map, List.getElem_range, hcov]
            by_cases htn : t = n
            · simp [htn]
            · simp [htn]
        simp [hm, hc, hmiss]
  · simp only [List.take_zero]
    congr 1
    · apply List.ext_getElem <;> simp [covB]
    · have : covB D [] = fun _ => false := by funext t; simp [covB]
      simp [covered, missing, this]

/-- Every slot is taken by an element of the set. -/
def Covers (i : InputData) (T : Scheduling) (set : CriticalSet) : Prop :=
  ∀ t, t < i.ns → ∃ e ∈ set.data, slotAt T e = some t

/-- `T` agrees with all decisions made so far. -/
def Ext (D : List Decision) (T : Scheduling) : Prop :=
  ∀ c d, D[c]? = some d → d ≠ .undecided → slotAt T c = d.slot?

/-- If a scheduling covers every slot by the set, then every partial decision state leading to it has
enough covered slots and undecided elements. -/
theorem covered_missing_of_covers {i : InputData} {D : List Decision} (hlen : D.length = i.nc)
    {T : Scheduling} (hT : Ext D T) {set : CriticalSet} (hs : ∀ e ∈ set.data, e < i.nc)
    (hc : Covers i T set) : i.ns ≤ covered i.ns D set.data + missing D set.data := by
  -- the uncovered slots
  let unc := (List.range i.ns).filter (fun t => !covB D set.data t)
  let und := set.data.filter (fun e => D[e]? == some .undecided)
  have h1 : covered i.ns D set.data + unc.length = i.ns := by
    have := List.length_eq_countP_add_countP (covB D set.data) (l := List.range i.ns)
    simp only [List.length_range] at this
    simp only [covered, unc, List.countP_eq_length_filter] at this ⊢
    simpa using this.symm
  have h2 : und.length = missing D set.data := by
    simp [und, missing, List.countP_eq_length_filter]
  have h3 : unc.map some ⊆ und.map (slotAt T) := by
    intro x hx
    rw [List.mem_map] at hx
    obtain ⟨t, ht, rfl⟩ := hx
    simp only [unc, List.mem_filter, List.mem_range, Bool.not_eq_true'] at ht
    obtain ⟨e, he, hte⟩ := hc t ht.1
    rw [List.mem_map]
    refine ⟨e, ?_, hte⟩
    simp only [und, List.mem_filter]
    refine ⟨he, ?_⟩
    have hget : D[e]? = some (D[e]'(by have := hs e he; omega)) := by simp [hlen, hs e he]
    generalize D[e]'(by have := hs e he; omega) = d at hget
    cases d with
    | undecided => simp [hget]
    | omitted =>
      have := hT e _ hget (by simp)
      rw [hte] at this; cases this
    | slot t' =>
      have := hT e _ hget (by simp)
      rw [hte] at this
      cases this
      have hcov : covB D set.data t = true := by
        simp only [covB, List.any_eq_true]
        exact ⟨e, he, by simp [hget]⟩
      rw [hcov] at ht
      simp at ht
  have h4 : (unc.map some).Nodup := by
    have hn : unc.Nodup := List.nodup_range.filter _
    exact List.Pairwise.map _ (fun a b hab h => hab (Option.some.inj h)) hn
  have h5 := h4.length_le_of_subset h3
  simp only [List.length_map] at h5
  omega

theorem satCritical_of_covers {i : InputData} {D : List Decision} (hlen : D.length = i.nc)
    (hr : SlotsInRange i (decS D)) {T : Scheduling} (hT : Ext D T) {cs : List CriticalSet}
    (hs : ∀ set ∈ cs, ∀ e ∈ set.data, e < i.nc) (hc : ∀ set ∈ cs, Covers i T set) :
    satCritical i D cs = .ok true := by
  refine (Decides.allM (Q := fun set => i.ns ≤ covered i.ns D set.data + missing D set.data)
    (fun set hset => csOk_spec hlen hr (hs set hset))).true_of ?_
  intro set hset
  exact covered_missing_of_covers hlen hT (hs set hset) (hc set hset)

theorem satCritical_total {i : InputData} {D : List Decision} (hlen : D.length = i.nc)
    (hr : SlotsInRange i (decS D)) {cs : List CriticalSet}
    (hs : ∀ set ∈ cs, ∀ e ∈ set.data, e < i.nc) : ∃ b, satCritical i D cs = .ok b := by
  obtain ⟨b, h, _⟩ := Decides.allM (p := csOk i D)
    (fun set hset => csOk_spec hlen hr (hs set hset))
  exact ⟨b, h⟩

end Search
end Wassign
