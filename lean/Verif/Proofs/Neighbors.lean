import Verif.Model.HillClimbing
import Verif.Spec.Moves
import Verif.Proofs.Rng
import Verif.Proofs.FoldLemmas
/-
Neighbours of a scheduling.
-/
namespace Wassign.Hill
open Spec

/-- The slot that a key's quotient stands for, given the present slot. -/
def target (q : Nat) (cur : Option Nat) : Option Nat :=
  let slot : Option Nat := if q = 0 then none else some (q - 1)
  if optGe slot cur then
    (match slot with
      | some t => some (t + 1)
      | none => some 0)
  else slot

theorem target_form (q : Nat) (cur : Option Nat) : target q cur =
    match cur with
    | none => some q
    | some k => if q = 0 then none else if k < q then some q else some (q - 1) := by
  unfold target
  by_cases hq : q = 0
  · cases cur <;> simp [hq, optGe]
  · cases cur with
    | none => simp [hq, optGe]; omega
    | some k =>
      by_cases hk : k < q
      · have : k ≤ q - 1 := by omega
        simp [hq, optGe, hk, this]; omega
      · have : ¬ k ≤ q - 1 := by omega
        simp [hq, optGe, hk, this]

theorem target_ne (q : Nat) (cur : Option Nat) : target q cur ≠ cur := by
  rw [target_form]
  cases cur with
  | none => simp
  | some k =>
    show (if q = 0 then none else if k < q then some q else some (q - 1)) ≠ some k
    split
    · simp
    · split <;> (intro h; injection h with h; omega)

theorem target_range {q n : Nat} {cur : Option Nat} (hq : q < n) {t : Nat} (h : target q cur = some t) : t < n := by
  rw [target_form] at h
  cases cur with
  | none => injection h with h; omega
  | some k =>
    replace h : (if q = 0 then none else if k < q then some q else some (q - 1)) = some t := h
    split at h
    · cases h
    · split at h <;> (injection h with h; omega)

theorem target_inj {q q' : Nat} {cur : Option Nat} (h : target q cur = target q' cur) : q = q' := by
  rw [target_form, target_form] at h
  cases cur with
  | none => injection h
  | some k =>
    replace h : (if q = 0 then none else if k < q then some q else some (q - 1))
      = (if q' = 0 then none else if k < q' then some q' else some (q' - 1)) := h
    grind

theorem target_surj {n : Nat} {cur x : Option Nat} (hc : ∀ t, cur = some t → t < n) (hx : ∀ t, x = some t → t < n)
    (hne : x ≠ cur) (hn : 0 < n) : ∃ q, q < n ∧ target q cur = x := by
  unfold target
  cases cur with
  | none =>
    cases x with
    | none => exact absurd rfl hne
    | some t =>
      refine ⟨t, hx t rfl, ?_⟩
      by_cases h0 : t = 0
      · simp [h0, optGe]
      · simp [h0, optGe]; omega
  | some k =>
    have hk := hc k rfl
    cases x with
    | none => exact ⟨0, hn, by simp [optGe]⟩
    | some t =>
      have ht := hx t rfl
      have hne' : t ≠ k := fun e => hne (by rw [e])
      by_cases hlt : t < k
      · refine ⟨t + 1, by omega, ?_⟩
        simp [optGe]; omega
      · refine ⟨t, ht, ?_⟩
        have h0 : t ≠ 0 := by omega
        have : k ≤ t - 1 := by omega
        simp [optGe, h0, this]; omega

theorem slotAt_eq {s : Scheduling} {c : Nat} (h : c < s.length) : slotAt s c = s[c] := by
  simp [slotAt, h]

theorem slotAt_set {s : Scheduling} {c : Nat} (h : c < s.length) (x : Option Nat) (c' : Nat) :
    slotAt (s.set c x) c' = if c' = c then x else slotAt s c' := by
  unfold slotAt
  rw [List.getElem?_set]
  by_cases e : c = c'
  · subst e; simp [h]
  · simp [e, Ne.symm e]

/-- What a key does. -/
theorem neighbor_eq {i : InputData} {s : Scheduling} (hl : s.length = i.nc) (hn : 0 < i.nc) (key : Nat) :
    neighbor i s key = .ok (s.set (key % i.nc) (target (key / i.nc) (slotAt s (key % i.nc)))) := by
  have hc : key % i.nc < s.length := by rw [hl]; exact Nat.mod_lt _ hn
  unfold neighbor slotOf
  rw [if_neg (by omega)]
  simp only [idx_ok hc, R.bind_ok]
  rw [setIdx_eq_ok.2 ⟨hc, rfl⟩]
  simp only [R.bind_ok]
  unfold Scheduling.withData
  rw [if_pos (by simpa using hl), slotAt_eq hc]
  rfl

theorem schedShape_set {i : InputData} {s : Scheduling} (hs : SchedShape i s) {c : Nat} (hc : c < i.nc) {x : Option Nat}
    (hx : ∀ t, x = some t → t < i.ns) : SchedShape i (s.set c x) := by
  refine ⟨by simpa using hs.len, ?_⟩
  intro c' t h
  rw [slotAt_set (by rw [hs.len]; exact hc)] at h
  split at h
  · exact hx t h
  · exact hs.range c' t h

theorem neighbor_move {i : InputData} {s : Scheduling} (hs : SchedShape i s) {key : Nat} (hk : key < maxKey i) :
    ∃ s', neighbor i s key = .ok s' ∧ SingleMove i s s' := by
  unfold maxKey at hk
  have hn : 0 < i.nc := by
    apply Nat.pos_of_ne_zero; intro h; rw [h] at hk; simp at hk
  have hq : key / i.nc < i.ns := (Nat.div_lt_iff_lt_mul hn).2 (by rw [Nat.mul_comm]; exact hk)
  have hc : key % i.nc < i.nc := Nat.mod_lt _ hn
  have hc' : key % i.nc < s.length := by rw [hs.len]; exact hc
  refine ⟨_, neighbor_eq hs.len hn key, schedShape_set hs hc (fun t ht => target_range hq ht),
    _, hc, ?_, ?_⟩
  · rw [slotAt_set hc', if_pos rfl]; exact target_ne _ _
  · intro c' hne; rw [slotAt_set hc', if_neg hne]

theorem sched_ext {s s' : Scheduling} (hl : s.length = s'.length) (h : ∀ c, slotAt s c = slotAt s' c) : s = s' := by
  apply List.ext_getElem hl
  intro c h1 h2
  have := h c
  rw [slotAt_eq h1, slotAt_eq h2] at this
  exact this

theorem move_neighbor {i : InputData} {s s' : Scheduling} (hs : SchedShape i s) (h : SingleMove i s s') :
    ∃ key, (key < maxKey i ∧ neighbor i s key = .ok s') ∧
      ∀ key', key' < maxKey i ∧ neighbor i s key' = .ok s' → key' = key := by
  obtain ⟨hsh, c, hc, hne, hoth⟩ := h
  have hn : 0 < i.nc := by omega
  have hcs : c < s.length := by rw [hs.len]; exact hc
  have hpos : 0 < i.ns := by
    cases h1 : slotAt s' c with
    | some t => have := hsh.range c t h1; omega
    | none =>
      cases h2 : slotAt s c with
      | some t => have := hs.range c t h2; omega
      | none => rw [h1, h2] at hne; exact absurd rfl hne
  obtain ⟨q, hq, ht⟩ := target_surj (fun t h => hs.range c t h) (fun t h => hsh.range c t h) hne hpos
  refine ⟨q * i.nc + c, ⟨?_, ?_⟩, ?_⟩
  · unfold maxKey
    calc q * i.nc + c < q * i.nc + i.nc := by omega
      _ = (q + 1) * i.nc := by rw [Nat.add_mul, Nat.one_mul]
      _ ≤ i.ns * i.nc := Nat.mul_le_mul_right _ hq
      _ = i.nc * i.ns := Nat.mul_comm _ _
  · rw [neighbor_eq hs.len hn]
    have e1 : (q * i.nc + c) % i.nc = c := by
      rw [Nat.mul_comm, Nat.mul_add_mod, Nat.mod_eq_of_lt hc]
    have e2 : (q * i.nc + c) / i.nc = q := by
      rw [Nat.mul_comm, Nat.mul_add_div hn, Nat.div_eq_of_lt hc, Nat.add_zero]
    rw [e1, e2, ht]
    congr 1
    apply sched_ext
    · simp [hs.len, hsh.len]
    · intro c'
      rw [slotAt_set hcs]
      split
      · rename_i e; rw [e]
      · exact (hoth c' (by assumption)).symm
  · rintro key' ⟨hk', he⟩
    rw [neighbor_eq hs.len hn] at he
    injection he with he
    have hc2 : key' % i.nc < s.length := by rw [hs.len]; exact Nat.mod_lt _ hn
    have hcc : key' % i.nc = c := by
      apply Classical.byContradiction
      intro hx
      have h1 := congrArg (fun l => slotAt l c) he
      simp only [slotAt_set hc2] at h1
      rw [if_neg (fun e => hx e.symm)] at h1
      exact hne h1.symm
    have h1 := congrArg (fun l => slotAt l c) he
    simp only [slotAt_set hc2] at h1
    rw [hcc, if_pos rfl, ← ht] at h1
    have := target_inj h1
    rw [← this, ← hcc, Nat.mul_comm]
    exact (Nat.div_add_mod key' i.nc).symm

/-! ### Swap neighbours -/

variable {σ : Type}

theorem drawIndex_spec {g : RngOps σ} (hg : g.Lawful) (rs : σ) {n : Nat} (hn : 0 < n) (hmax : n ≤ i32Max) :
    ∃ v, drawIndex g rs n = .ok (v, (g.sample rs).2) ∧ v < n := by
  unfold drawIndex
  rw [toI32_eq_ok.2 ⟨hmax, rfl⟩]
  have hm : (n : Int) ≤ 2147483647 := by
    have : i32Max = 2147483647 := rfl
    omega
  obtain ⟨v, h, h1, h2⟩ := nextInRange_spec hg rs 0 n (by omega) hm (by omega) (by omega)
  simp only [R.bind_ok, h]
  rw [if_neg (by omega)]
  exact ⟨v.toNat, rfl, by omega⟩

theorem drawIndex_lt {g : RngOps σ} (hg : g.Lawful) {rs rs' : σ} {n v : Nat} (h : drawIndex g rs n = .ok (v, rs')) :
    v < n := by
  unfold drawIndex at h
  simp only [R.bind_eq_ok] at h
  obtain ⟨m, hm, r, hr, h⟩ := h
  rw [toI32_eq_ok] at hm
  obtain ⟨hm, rfl⟩ := hm
  have hm' : (n : Int) ≤ 2147483647 := by
    have : i32Max = 2147483647 := rfl
    omega
  by_cases h0 : n = 0
  · subst h0
    simp [nextInRange, chkI32, panic'] at hr
  · obtain ⟨v', h', h1, h2⟩ := nextInRange_spec hg rs 0 n (by omega) hm' (by omega) (by omega)
    rw [h'] at hr
    cases hr
    rw [if_neg (by omega)] at h
    cases h
    omega

theorem drawFresh_spec {g : RngOps σ} (hg : g.Lawful) {n : Nat} {used : List Nat} :
    ∀ (k : Nat) {rs rs' : σ} {v : Nat}, drawFresh g n used k rs = .ok (v, rs') → v < n ∧ v ∉ used := by
  intro k
  induction k with
  | zero => intro rs rs' v h; simp [drawFresh, panic'] at h
  | succ k ih =>
    intro rs rs' v h
    simp only [drawFresh, R.bind_eq_ok] at h
    obtain ⟨r, hr, h⟩ := h
    split at h
    · exact ih h
    · rename_i hc
      cases h
      exact ⟨drawIndex_lt hg hr, by simpa using hc⟩

theorem growCycle_spec {g : RngOps σ} (hg : g.Lawful) {draws n : Nat} :
    ∀ (k : Nat) {cyc cyc' : List Nat} {rs rs' : σ}, growCycle g draws n k cyc rs = .ok (cyc', rs') →
      cyc.Nodup → (∀ x ∈ cyc, x < n) → cyc ≠ [] → cyc'.Nodup ∧ (∀ x ∈ cyc', x < n) ∧ cyc' ≠ [] := by
  intro k
  induction k with
  | zero => intro cyc cyc' rs rs' h; simp [growCycle, panic'] at h
  | succ k ih =>
    intro cyc cyc' rs rs' h hnd hlt hne
    simp only [growCycle, R.bind_eq_ok] at h
    obtain ⟨r, _, h⟩ := h
    split at h
    · rw [R.bind_eq_ok] at h
      obtain ⟨c, hc, h⟩ := h
      obtain ⟨h1, h2⟩ := drawFresh_spec hg draws hc
      refine ih h ?_ ?_ (by simp)
      · rw [List.nodup_append]
        refine ⟨hnd, by simp, ?_⟩
        intro a ha b hb
        simp at hb; subst hb
        intro e; subst e; exact h2 ha
      · intro x hx
        rw [List.mem_append] at hx
        rcases hx with hx | hx
        · exact hlt x hx
        · simp at hx; subst hx; exact h1
    · cases h
      exact ⟨hnd, hlt, hne⟩

/-- Passing values along distinct positions: carried value and list together stay a permutation. -/
theorem rotFold_perm : ∀ (cyc : List Nat) {acc r : Option Nat × List (Option Nat)},
    cyc.foldlM rotStep acc = .ok r → (r.1 :: r.2).Perm (acc.1 :: acc.2) := by
  intro cyc
  induction cyc with
  | nil => intro acc r h; cases h; exact List.Perm.refl _
  | cons k ks ih =>
    intro acc r h
    rw [List.foldlM_cons, R.bind_eq_ok] at h
    obtain ⟨m, hm, h⟩ := h
    refine (ih h).trans ?_
    unfold rotStep at hm
    rw [R.bind_eq_ok] at hm
    obtain ⟨x, hx, hm⟩ := hm
    cases hm
    rw [idx_eq_ok] at hx
    obtain ⟨hk, rfl⟩ := List.getElem?_eq_some_iff.1 hx
    show (acc.2[k] :: acc.2.set k acc.1).Perm (acc.1 :: acc.2)
    have e1 : (acc.2.set k acc.1).Perm (acc.1 :: acc.2.eraseIdx k) := by
      rw [List.set_eq_take_append_cons_drop, if_pos hk]
      refine List.perm_middle.trans ?_
      rw [List.eraseIdx_eq_take_drop_succ]
    have e2 : acc.2.Perm (acc.2[k] :: acc.2.eraseIdx k) := by
      have h3 : acc.2 = acc.2.take k ++ acc.2[k] :: acc.2.drop (k + 1) := by simp
      rw [List.eraseIdx_eq_take_drop_succ]
      exact (List.Perm.of_eq h3).trans List.perm_middle
    refine (e1.cons _).trans ((List.Perm.swap _ _ _).trans ?_)
    exact (e2.symm).cons _

theorem rotStep_length {acc r : Option Nat × List (Option Nat)} {k : Nat} (h : rotStep acc k = .ok r) :
    r.2.length = acc.2.length := by
  unfold rotStep at h
  rw [R.bind_eq_ok] at h
  obtain ⟨x, _, h⟩ := h
  cases h
  simp

/-- The carried value after a pass over distinct positions is what stood at the last one. -/
theorem rotFold_carry : ∀ (cyc : List Nat) {acc r : Option Nat × List (Option Nat)} {z : Nat},
    cyc.foldlM rotStep acc = .ok r → cyc.Nodup → cyc.getLast? = some z → acc.2[z]? = some r.1 := by
  intro cyc
  induction cyc with
  | nil => intro acc r z _ _ hz; simp at hz
  | cons k ks ih =>
    intro acc r z h hnd hz
    rw [List.foldlM_cons, R.bind_eq_ok] at h
    obtain ⟨m, hm, h⟩ := h
    unfold rotStep at hm
    rw [R.bind_eq_ok] at hm
    obtain ⟨x, hx, hm⟩ := hm
    cases hm
    rw [idx_eq_ok] at hx
    rw [List.nodup_cons] at hnd
    cases ks with
    | nil =>
      simp at hz; subst hz
      cases h
      exact hx
    | cons k' ks' =>
      rw [List.getLast?_cons_cons] at hz
      have h1 := ih h hnd.2 hz
      have hmem : z ∈ k' :: ks' := List.mem_of_getLast? hz
      have hne : k ≠ z := fun e => hnd.1 (e ▸ hmem)
      simpa [List.getElem?_set, hne] using h1

theorem rotate_perm {data d : List (Option Nat)} {cyc : List Nat} (hnd : cyc.Nodup) (h : rotate data cyc = .ok d) :
    d.Perm data := by
  unfold rotate at h
  cases hz : cyc.getLast? with
  | none => simp [hz, panic'] at h
  | some z =>
    simp only [hz, R.bind_eq_ok] at h
    obtain ⟨carry, hc, r, hr, h⟩ := h
    cases h
    rw [idx_eq_ok] at hc
    have h1 := rotFold_perm cyc hr
    have h2 := rotFold_carry cyc hr hnd hz
    simp only at h1 h2
    rw [hc] at h2
    injection h2 with h2
    rw [h2] at h1
    exact List.Perm.cons_inv h1

theorem swapNeighbor_perm {g : RngOps σ} (hg : g.Lawful) {draws : Nat} {i : InputData} {s s' : Scheduling} {rs rs' : σ}
    (h : swapNeighbor g draws i s rs = .ok (s', rs')) : s'.Perm s := by
  unfold swapNeighbor at h
  simp only [R.bind_eq_ok] at h
  obtain ⟨f, hf, cyc, hcyc, d, hd, w, hw, h⟩ := h
  cases h
  obtain ⟨hnd, _, _⟩ := growCycle_spec hg _ hcyc (by simp) (by simpa using drawIndex_lt hg hf) (by simp)
  unfold Scheduling.withData at hw
  split at hw
  · cases hw; exact rotate_perm hnd hd
  · simp [panic'] at hw

theorem slotAt_mem {s : Scheduling} {c t : Nat} (h : slotAt s c = some t) : some t ∈ s := by
  unfold slotAt at h
  cases hc : s[c]? with
  | none => simp [hc] at h
  | some x =>
    rw [hc] at h
    simp at h
    subst h
    exact List.mem_of_getElem? hc

theorem mem_slotAt {s : Scheduling} {t : Nat} (h : some t ∈ s) : ∃ c, slotAt s c = some t := by
  obtain ⟨c, hc, e⟩ := List.mem_iff_getElem.1 h
  exact ⟨c, by rw [slotAt_eq hc, e]⟩

theorem slotSize_count {i : InputData} {s : Scheduling} (hl : s.length = i.nc) (t : Nat) :
    slotSize i s t = s.count (some t) := by
  unfold slotSize
  rw [← hl]
  have : ∀ (l : List (Option Nat)), (List.range l.length).countP (fun c => slotAt l c == some t) = l.count (some t) := by
    intro l
    induction l with
    | nil => rfl
    | cons x l ih =>
      rw [List.length_cons, List.range_succ_eq_map, List.countP_cons, List.countP_map, List.count_cons, ← ih]
      congr 1
  exact this s

theorem swap_shape {g : RngOps σ} (hg : g.Lawful) {draws : Nat} {i : InputData} {s s' : Scheduling} {rs rs' : σ}
    (hs : SchedShape i s) (h : swapNeighbor g draws i s rs = .ok (s', rs')) : SchedShape i s' := by
  have hp := swapNeighbor_perm hg h
  refine ⟨by rw [hp.length_eq, hs.len], ?_⟩
  intro c t ht
  obtain ⟨c', hc'⟩ := mem_slotAt (hp.subset (slotAt_mem ht))
  exact hs.range c' t hc'

end Wassign.Hill
