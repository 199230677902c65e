import Verif.Proofs.SearchState
import Verif.Proofs.Static
import Mathlib.Data.List.Nodup
/-
The incrementally maintained schedule state of the assignment solver.
-/
namespace Wassign
open Spec Asg Search

/-! ### swap_remove -/

theorem swapRemove_perm (l : List Nat) (k : Nat) (h : k < l.length) : (swapRemove l k).Perm (l.eraseIdx k) := by
  rcases List.eq_nil_or_concat l with rfl | ⟨l', z, rfl⟩
  · simp at h
  · unfold swapRemove
    simp only [List.concat_eq_append, List.getLast?_append, List.getLast?_singleton, Option.some_or]
    simp only [List.concat_eq_append, List.length_append, List.length_cons, List.length_nil] at h
    by_cases hk : k < l'.length
    · rw [List.set_append_left _ _ hk, List.dropLast_concat, List.eraseIdx_append_of_lt_length hk]
      have e1 : l' = l'.take k ++ l'[k] :: l'.drop (k + 1) := by
        rw [List.getElem_cons_drop, List.take_append_drop]
      have e2 : l'.set k z = l'.take k ++ z :: l'.drop (k + 1) := by
        rw [List.set_eq_take_append_cons_drop, if_pos hk]
      rw [e2, List.eraseIdx_eq_take_drop_succ, List.append_assoc]
      refine List.Perm.append_left _ ?_
      exact (List.perm_append_singleton _ _).symm
    · have : k = l'.length := by omega
      subst this
      rw [List.set_append_right _ _ (by omega), List.eraseIdx_append_of_length_le (by omega)]
      simp

theorem takeOut_spec {l : List Nat} (hn : l.Nodup) (c : Nat) :
    (takeOut l c).Nodup ∧ ∀ x, x ∈ takeOut l c ↔ x ∈ l ∧ x ≠ c := by
  unfold takeOut
  cases h : l.findIdx? (fun x => x == c) with
  | none =>
    refine ⟨hn, ?_⟩
    intro x
    rw [List.findIdx?_eq_none_iff] at h
    constructor
    · intro hx; exact ⟨hx, by simpa using h x hx⟩
    · exact fun hx => hx.1
  | some k =>
    rw [List.findIdx?_eq_some_iff_getElem] at h
    obtain ⟨hk, hc, _⟩ := h
    have hc' : l[k] = c := by simpa using hc
    have hp := swapRemove_perm l k hk
    have hn2 : (l.eraseIdx k).Nodup := hn.sublist (List.eraseIdx_sublist l k)
    refine ⟨hp.nodup_iff.2 hn2, ?_⟩
    intro x
    show x ∈ swapRemove l k ↔ _
    rw [hp.mem_iff, ← hc', List.mem_eraseIdx_iff_getElem]
    constructor
    · rintro ⟨j, hj, hne, rfl⟩
      refine ⟨List.getElem_mem hj, ?_⟩
      intro e
      exact hne ((List.Nodup.getElem_inj_iff hn).1 e)
    · rintro ⟨hx, hne⟩
      obtain ⟨j, hj, rfl⟩ := List.getElem_of_mem hx
      exact ⟨j, hj, by rintro rfl; exact hne rfl, rfl⟩

/-! ### The per-slot lists and counters -/

/-- The per-slot lists and covered counts describe scheduling `m`. -/
structure Slotted (i : InputData) (m : Scheduling) (acc : List (List Nat) × List Nat) : Prop where
  len : acc.1.length = i.ns
  lists : ∀ t l, acc.1[t]? = some l → l.Nodup ∧ ∀ c, c ∈ l ↔ slotAt m c = some t
  cov : acc.2 = psums i m (·.min) i.nc

theorem slotted_empty (i : InputData) : Slotted i (List.replicate i.nc none) (List.replicate i.ns [], List.replicate i.ns 0) := by
  have hs : ∀ c, slotAt (List.replicate i.nc (none : Option Nat)) c = none := by
    intro c
    unfold slotAt
    rw [List.getElem?_replicate]
    split <;> rfl
  refine ⟨by simp, ?_, ?_⟩
  · intro t l h
    rw [List.getElem?_replicate] at h
    split at h
    · simp at h; subst h; simp [hs]
    · cases h
  · show List.replicate i.ns 0 = _
    rw [← psums_zero i (List.replicate i.nc none) (·.min)]
    unfold psums
    apply List.map_congr_left
    intro t _
    have : ∀ k, rsum k (contrib i (List.replicate i.nc none) (·.min) t) = 0 := by
      intro k
      rw [rsum_congr (g := fun _ => 0)]
      · simp
      · intro c _; simp [contrib, hs]
    rw [this, this]

/-- Adding choice `c` to slot `t`. -/
theorem slotted_add {i : InputData} {m : Scheduling} {acc : List (List Nat) × List Nat} (h : Slotted i m acc)
    (hm : m.length = i.nc) {c t : Nat} (hc : c < i.nc) (ht : t < i.ns) (hno : slotAt m c = none) :
    (∀ acc', addChoice i acc (some t) c = .ok acc' → Slotted i (m.set c (some t)) acc') ∧
    ((i.choices.map (·.min)).sum ≤ u32Max → ∃ acc', addChoice i acc (some t) c = .ok acc') := by
  unfold addChoice
  simp only
  have hl : t < acc.1.length := by rw [h.len]; exact ht
  have hg : acc.1[t]? = some acc.1[t] := by simp [hl]
  have hch : i.choices[c]? = some i.choices[c] := by simp
  have hcov : acc.2[t]? = some (rsum i.nc (contrib i m (·.min) t)) := by rw [h.cov]; exact psums_get ht
  have hpush : MipFlow.pushAt acc.1 t c "scheduled_choices_by_slot[slot]" = .ok (acc.1.set t (acc.1[t] ++ [c])) := by
    unfold MipFlow.pushAt
    rw [idx_eq_ok.2 hg, R.bind_ok, setIdx_eq_ok.2 ⟨hl, rfl⟩]
  rw [hpush, R.bind_ok, idx_eq_ok.2 hcov, R.bind_ok, idx_eq_ok.2 hch, R.bind_ok]
  constructor
  · intro acc' ha
    rw [R.bind_eq_ok] at ha
    obtain ⟨n', hn', ha⟩ := ha
    obtain ⟨_, rfl⟩ := addU32_eq_ok.1 hn'
    simp only [R.pure_eq, Except.ok.injEq] at ha
    subst ha
    refine ⟨by simp [h.len], ?_, ?_⟩
    · intro t' l hl'
      by_cases e : t = t'
      · subst e
        rw [List.getElem?_set_self hl] at hl'
        simp only [Option.some.injEq] at hl'
        subst hl'
        obtain ⟨h1, h2⟩ := h.lists t _ hg
        have hnc : c ∉ acc.1[t] := by rw [h2, hno]; simp
        refine ⟨?_, ?_⟩
        · rw [List.nodup_append]
          refine ⟨h1, by simp, ?_⟩
          intro a ha b hb
          simp at hb; subst hb
          rintro rfl; exact hnc ha
        · intro x
          rw [List.mem_append, List.mem_singleton]
          by_cases e : c = x
          · subst e; rw [slotAt_set_self (by omega)]; simp
          · rw [slotAt_set_ne e, h2]
            constructor
            · rintro (h | h)
              · exact h
              · exact absurd h.symm e
            · exact .inl
      · rw [List.getElem?_set_ne e] at hl'
        obtain ⟨h1, h2⟩ := h.lists t' l hl'
        refine ⟨h1, ?_⟩
        intro x
        rw [h2]
        by_cases e' : c = x
        · subst e'; rw [slotAt_set_self (by omega), hno]; simp [e]
        · rw [slotAt_set_ne e']
    · rw [psums_set_some hm hc hch hno, ← h.cov]
  · intro hsum
    have hle : rsum i.nc (contrib i m (·.min) t) + i.choices[c].min ≤ u32Max := by
      have h1 := rsum_contrib_set (s := m) (f := (·.min)) hc (some t) t
      rw [contrib_miss (s := m) (by rw [hno]; simp), contrib_hit hch (slotAt_set_self (by omega) _)] at h1
      have h2 := rsum_contrib_le (i := i) (s := m.set c (some t)) (f := (·.min)) (t := t) (Nat.le_refl i.nc)
      omega
    rw [addU32_eq_ok.2 ⟨hle, rfl⟩]
    exact ⟨_, rfl⟩

/-- Removing choice `c` from its slot `t`. -/
theorem slotted_remove {i : InputData} {m : Scheduling} {acc : List (List Nat) × List Nat} (h : Slotted i m acc)
    (hm : m.length = i.nc) {c t : Nat} (hc : c < i.nc) (ht : t < i.ns) (hin : slotAt m c = some t) :
    ∃ acc', dropChoice i acc (some t) c = .ok acc' ∧ Slotted i (m.set c none) acc' := by
  unfold dropChoice
  simp only
  have hl : t < acc.1.length := by rw [h.len]; exact ht
  have hg : acc.1[t]? = some acc.1[t] := by simp [hl]
  have hch : i.choices[c]? = some i.choices[c] := by simp
  have hcov : acc.2[t]? = some (rsum i.nc (contrib i m (·.min) t)) := by rw [h.cov]; exact psums_get ht
  obtain ⟨hle, hps⟩ := psums_set_none (f := (·.min)) hm hc hch hin
  rw [idx_eq_ok.2 hg, R.bind_ok, idx_eq_ok.2 hcov, R.bind_ok, idx_eq_ok.2 hch, R.bind_ok, subU_eq_ok.2 ⟨hle, rfl⟩, R.bind_ok]
  refine ⟨_, rfl, by simp [h.len], ?_, ?_⟩
  · intro t' l hl'
    by_cases e : t = t'
    · subst e
      rw [List.getElem?_set_self hl] at hl'
      simp only [Option.some.injEq] at hl'
      subst hl'
      obtain ⟨h1, h2⟩ := h.lists t _ hg
      obtain ⟨h3, h4⟩ := takeOut_spec h1 c
      refine ⟨h3, ?_⟩
      intro x
      rw [h4, h2]
      by_cases e : c = x
      · subst e; rw [slotAt_set_self (by omega)]; simp
      · rw [slotAt_set_ne e]; simp [Ne.symm e]
    · rw [List.getElem?_set_ne e] at hl'
      obtain ⟨h1, h2⟩ := h.lists t' l hl'
      refine ⟨h1, ?_⟩
      intro x
      rw [h2]
      by_cases e' : c = x
      · subst e'; rw [slotAt_set_self (by omega), hin]; simp [e]
      · rw [slotAt_set_ne e']
  · rw [hps, ← h.cov]

/-! ### The mixed scheduling after `k` choices -/

def mix (s0 s : Scheduling) (k : Nat) : Scheduling := s.take k ++ s0.drop k

theorem mix_zero (s0 s : Scheduling) : mix s0 s 0 = s0 := by simp [mix]

theorem mix_all {s0 s : Scheduling} (h : s0.length = s.length) : mix s0 s s.length = s := by
  simp [mix, h]

theorem mix_length {s0 s : Scheduling} (h : s0.length = s.length) (k : Nat) : (mix s0 s k).length = s.length := by
  simp [mix, h]; omega

theorem mix_succ {s0 s : Scheduling} (h : s0.length = s.length) {k : Nat} (hk : k < s.length) :
    mix s0 s (k + 1) = (mix s0 s k).set k s[k] := by
  apply List.ext_getElem?
  intro j
  unfold mix
  rw [List.getElem?_append, List.getElem?_set]
  simp only [List.length_take, List.length_append, List.length_drop]
  by_cases e : k = j
  · subst e
    rw [if_pos (by omega), if_pos rfl, if_pos (by omega), List.getElem?_take_of_lt (by omega)]
    simp [hk]
  · rw [if_neg e, List.getElem?_append]
    simp only [List.length_take]
    by_cases e2 : j < k
    · rw [if_pos (by omega), if_pos (by omega), List.getElem?_take_of_lt (by omega), List.getElem?_take_of_lt (by omega)]
    · rw [if_neg (by omega), if_neg (by omega), List.getElem?_drop, List.getElem?_drop]
      congr 1; omega

theorem slotAt_mix {s0 s : Scheduling} (_h : s0.length = s.length) {k : Nat} (hk : k < s.length) :
    slotAt (mix s0 s k) k = slotAt s0 k := by
  unfold slotAt mix
  rw [List.getElem?_append_right (by simp), List.getElem?_drop]
  congr 2
  simp; omega

theorem scratch_fold {i : InputData} {s : Scheduling} (hs : SchedShape i s) :
    (∀ acc, s.zipIdx.foldlM (scratchStep i) (List.replicate i.ns [], List.replicate i.ns 0) = .ok acc → Slotted i s acc) ∧
    ((i.choices.map (·.min)).sum ≤ u32Max →
      ∃ acc, s.zipIdx.foldlM (scratchStep i) (List.replicate i.ns [], List.replicate i.ns 0) = .ok acc) := by
  have hl0 : (List.replicate i.nc (none : Option Nat)).length = s.length := by simp [hs.len]
  have := foldlM_both (l := s.zipIdx) (f := scratchStep i)
    (fun k acc => Slotted i (mix (List.replicate i.nc none) s k) acc) (fun _ => (i.choices.map (·.min)).sum ≤ u32Max)
    (s := (List.replicate i.ns [], List.replicate i.ns 0))
    (by
      intro k hk acc hi
      have hk' : k < s.length := by simpa using hk
      rw [zipIdx_get]
      have hno : slotAt (mix (List.replicate i.nc none) s k) k = none := by
        rw [slotAt_mix hl0 hk']
        unfold slotAt
        rw [List.getElem?_replicate]
        split <;> rfl
      rw [mix_succ hl0 hk']
      unfold scratchStep
      have hsk := slotAt_get hk'
      cases hx : s[k] with
      | none =>
        simp only [addChoice]
        constructor
        · intro s' h'
          simp only [R.pure_eq, Except.ok.injEq] at h'
          subst h'
          have : (mix (List.replicate i.nc none) s k).set k none = mix (List.replicate i.nc none) s k := by
            apply List.ext_getElem?
            intro j
            rw [List.getElem?_set]
            split
            · rename_i e; subst e
              have hlt : k < (mix (List.replicate i.nc none) s k).length := by rw [mix_length hl0]; exact hk'
              rw [if_pos hlt, List.getElem?_eq_getElem hlt]
              have := slotAt_get hlt
              rw [hno] at this
              rw [← this]
            · rfl
          rw [this]; exact hi
        · intro _; exact ⟨_, rfl⟩
      | some t =>
        have ht : t < i.ns := hs.range k t (by rw [hsk, hx])
        exact slotted_add hi (by rw [mix_length hl0, hs.len]) (by rw [← hs.len]; exact hk') ht hno)
    (by rw [mix_zero]; exact slotted_empty i)
  refine ⟨?_, ?_⟩
  · intro acc ha
    have h1 := this.1 acc ha
    rw [List.length_zipIdx, mix_all hl0] at h1
    exact h1
  · intro hsum
    exact this.2 (fun _ _ => hsum)

theorem update_fold {i : InputData} {s0 s : Scheduling} (hs0 : SchedShape i s0) (hs : SchedShape i s)
    {acc0 : List (List Nat) × List Nat} (h0 : Slotted i s0 acc0) :
    (∀ acc, (s0.zip s).zipIdx.foldlM (updateStep i) acc0 = .ok acc → Slotted i s acc) ∧
    ((i.choices.map (·.min)).sum ≤ u32Max → ∃ acc, (s0.zip s).zipIdx.foldlM (updateStep i) acc0 = .ok acc) := by
  have hl0 : s0.length = s.length := by rw [hs0.len, hs.len]
  have hzl : (s0.zip s).length = s.length := by simp [hl0]
  have := foldlM_both (l := (s0.zip s).zipIdx) (f := updateStep i)
    (fun k acc => Slotted i (mix s0 s k) acc) (fun _ => (i.choices.map (·.min)).sum ≤ u32Max)
    (s := acc0)
    (by
      intro k hk acc hi
      have hk' : k < s.length := by simpa [hl0] using hk
      have hk0 : k < s0.length := by omega
      rw [zipIdx_get]
      rw [List.getElem_zip]
      have hno : slotAt (mix s0 s k) k = s0[k] := by rw [slotAt_mix hl0 hk', slotAt_get hk0]
      have hml : (mix s0 s k).length = i.nc := by rw [mix_length hl0, hs.len]
      have hkc : k < i.nc := by rw [← hs.len]; exact hk'
      rw [mix_succ hl0 hk']
      have hsk := slotAt_get hk'
      have hsk0 := slotAt_get hk0
      have hsame : (mix s0 s k).set k s0[k] = mix s0 s k := by
        apply List.ext_getElem?
        intro j
        rw [List.getElem?_set]
        split
        · rename_i e; subst e
          have hlt : k < (mix s0 s k).length := by omega
          rw [if_pos hlt, List.getElem?_eq_getElem hlt]
          have := slotAt_get hlt
          rw [hno] at this
          rw [← this]
        · rfl
      unfold updateStep
      simp only
      by_cases heq : s0[k] = s[k]
      · rw [if_pos heq]
        constructor
        · intro s' h'
          simp only [R.pure_eq, Except.ok.injEq] at h'
          subst h'
          rw [← heq, hsame]; exact hi
        · intro _; exact ⟨_, rfl⟩
      · rw [if_neg heq]
        -- the state after the removal
        have hrem : ∃ acc1, dropChoice i acc s0[k] k = .ok acc1 ∧
            Slotted i ((mix s0 s k).set k none) acc1 := by
          cases hx : s0[k] with
          | none => exact ⟨acc, rfl, by rw [hx] at hsame; rw [hsame]; exact hi⟩
          | some t =>
            have ht : t < i.ns := hs0.range k t (by rw [hsk0, hx])
            exact slotted_remove hi hml hkc ht (by rw [hno, hx])
        obtain ⟨acc1, he1, hi1⟩ := hrem
        rw [he1, R.bind_ok]
        cases hx : s[k] with
        | none =>
          simp only [addChoice]
          constructor
          · intro s' h'
            simp only [R.pure_eq, Except.ok.injEq] at h'
            subst h'
            exact hi1
          · intro _; exact ⟨_, rfl⟩
        | some t =>
          have ht : t < i.ns := hs.range k t (by rw [hsk, hx])
          have := slotted_add hi1 (by simp [hml]) hkc ht (slotAt_set_self (by omega) _)
          rw [List.set_set] at this
          exact this)
    (by rw [mix_zero]; exact h0)
  refine ⟨?_, ?_⟩
  · intro acc ha
    have h1 := this.1 acc ha
    rw [List.length_zipIdx, hzl, mix_all hl0] at h1
    exact h1
  · intro hsum
    exact this.2 (fun _ _ => hsum)

/-! ### Blocked edges -/

/-- Chooser `p` must not be sent to choice `c` in slot `t`: another choice of the slot is compulsory, or the
choice is forbidden. -/
def BlockedIn (i : InputData) (s : Scheduling) (p t c : Nat) : Prop :=
  (∃ k ∈ i.asgCons, k.kind = .chooserIsInChoice ∧ k.left = p ∧ ∃ y, k.right = .choice y ∧ slotAt s y = some t ∧
    c ≠ y ∧ slotAt s c = some t) ∨
  ∃ k ∈ i.asgCons, k.kind = .chooserIsNotInChoice ∧ k.left = p ∧ k.right = .choice c

/-- The schedule state describes scheduling `s`. -/
structure StOk (i : InputData) (s : Scheduling) (st : ScheduleState) : Prop where
  slots : st.slots = s
  slotted : Slotted i s (st.bySlot, st.covered)
  blocked : ∀ p t c, p < i.np → t < i.ns → c < i.nc →
    ((nP i p t, nC i c) ∈ st.blocked ↔ BlockedIn i s p t c)

theorem blockedOf_spec {i : InputData} {sd : StaticData} (hsd : IsStatic i sd) {s : Scheduling} (hs : SchedShape i s)
    {bySlot : List (List Nat)} {cov : List Nat} (hb : Slotted i s (bySlot, cov)) {k : Constraint} (hk : AsgConWF i k) :
    ∃ l, blockedOf i sd s bySlot k = .ok l ∧ ∀ p t c, p < i.np → t < i.ns → c < i.nc →
      ((nP i p t, nC i c) ∈ l ↔
        (k.kind = .chooserIsInChoice ∧ k.left = p ∧ ∃ y, k.right = .choice y ∧ slotAt s y = some t ∧ c ≠ y ∧ slotAt s c = some t) ∨
        (k.kind = .chooserIsNotInChoice ∧ k.left = p ∧ k.right = .choice c)) := by
  obtain ⟨kd, lf, rt, ex⟩ := k
  unfold AsgConWF at hk
  unfold blockedOf
  cases kd <;> (simp only at hk ⊢; try (exact hk.elim))
  case choicesHaveSameChoosers => exact ⟨[], rfl, by simp⟩
  case choosersHaveSameChoices => exact ⟨[], rfl, by simp⟩
  case chooserIsInChoice =>
    cases rt <;> (simp only at hk; try (exact hk.elim))
    rename_i y
    obtain ⟨hp, hy⟩ := hk
    have hsy : s[y]? = some (s[y]'(by rw [hs.len]; exact hy)) := by simp [hs.len, hy]
    have hsl := slotAt_get (s := s) (k := y) (by rw [hs.len]; exact hy)
    simp only [Constraint.otherChoice, R.bind_ok]
    rw [idx_eq_ok.2 hsy, R.bind_ok]
    cases hy0 : s[y]'(by rw [hs.len]; exact hy) with
    | none =>
      refine ⟨[], rfl, ?_⟩
      intro p t c _ _ _
      simp only [List.not_mem_nil, true_and, false_iff]
      rintro (⟨_, y', e, h1, _⟩ | ⟨h, _⟩)
      · cases e; rw [hsl, hy0] at h1; cases h1
      · cases h
    | some t0 =>
      have ht0 : t0 < i.ns := hs.range y t0 (by rw [hsl, hy0])
      have hl0 : t0 < bySlot.length := by have := hb.len; simp at this; omega
      have hg : bySlot[t0]? = some bySlot[t0] := by simp [hl0]
      simp only
      rw [hsd.chooser lf t0 hp ht0, R.bind_ok, idx_eq_ok.2 hg, R.bind_ok]
      obtain ⟨hnd, hmem⟩ := hb.lists t0 _ hg
      have hin : ∀ x ∈ bySlot[t0], x < i.nc := by
        intro x hx
        have := (hmem x).1 hx
        unfold slotAt at this
        by_cases h : x < s.length
        · rw [← hs.len]; exact h
        · rw [List.getElem?_eq_none (by omega)] at this; cases this
      refine ⟨_, mapM_eq_ok_of (g := fun x => (nP i lf t0, nC i x)) ?_, ?_⟩
      · intro x hx
        rw [hsd.choice x (hin x (List.mem_filter.1 hx).1)]
        rfl
      · intro p t c hp' ht hc
        rw [List.mem_map]
        constructor
        · rintro ⟨x, hx, e⟩
          simp only [Prod.mk.injEq] at e
          obtain ⟨e1, e2⟩ := nP_inj ht0 ht e.1
          have e3 := nC_inj e.2
          subst e1; subst e2; subst e3
          rw [List.mem_filter] at hx
          refine .inl ⟨trivial, rfl, y, rfl, by rw [hsl, hy0], by simpa using hx.2, (hmem x).1 hx.1⟩
        · rintro (⟨_, e, y', ey, h1, h2, h3⟩ | ⟨h, _⟩)
          · cases ey
            subst e
            rw [hsl, hy0] at h1
            cases h1
            exact ⟨c, by rw [List.mem_filter]; exact ⟨(hmem c).2 h3, by simpa using h2⟩, rfl⟩
          · cases h
  case chooserIsNotInChoice =>
    cases rt <;> (simp only at hk; try (exact hk.elim))
    rename_i y
    obtain ⟨hp, hy⟩ := hk
    simp only [Constraint.otherChoice, R.bind_ok]
    rw [hsd.choice y hy, R.bind_ok]
    refine ⟨_, mapM_eq_ok_of (g := fun t => (nP i lf t, nC i y)) ?_, ?_⟩
    · intro t ht
      rw [hsd.chooser lf t hp (by simpa using ht)]
      rfl
    · intro p t c hp' ht hc
      rw [List.mem_map]
      constructor
      · rintro ⟨x, hx, e⟩
        simp only [Prod.mk.injEq] at e
        obtain ⟨e1, e2⟩ := nP_inj (by simpa using hx) ht e.1
        have e3 := nC_inj e.2
        subst e1; subst e2; subst e3
        exact .inr ⟨trivial, rfl, rfl⟩
      · rintro (⟨h, _⟩ | ⟨_, e, e2⟩)
        · cases h
        · subst e; cases e2
          exact ⟨t, by simpa using ht, rfl⟩

theorem blockedEdges_spec {i : InputData} {sd : StaticData} (hsd : IsStatic i sd) (hw : WF i) {s : Scheduling} (hs : SchedShape i s)
    {bySlot : List (List Nat)} {cov : List Nat} (hb : Slotted i s (bySlot, cov)) :
    ∃ l, blockedEdges i sd s bySlot = .ok l ∧ ∀ p t c, p < i.np → t < i.ns → c < i.nc →
      ((nP i p t, nC i c) ∈ l ↔ BlockedIn i s p t c) := by
  unfold blockedEdges
  rw [hsd.cons]
  have hall : ∀ (cs : List Constraint), (∀ k ∈ cs, AsgConWF i k) → ∃ ls, cs.mapM (blockedOf i sd s bySlot) = .ok ls ∧
      ∀ p t c, p < i.np → t < i.ns → c < i.nc → ((nP i p t, nC i c) ∈ ls.flatten ↔
        (∃ k ∈ cs, k.kind = .chooserIsInChoice ∧ k.left = p ∧ ∃ y, k.right = .choice y ∧ slotAt s y = some t ∧ c ≠ y ∧ slotAt s c = some t) ∨
        ∃ k ∈ cs, k.kind = .chooserIsNotInChoice ∧ k.left = p ∧ k.right = .choice c) := by
    intro cs
    induction cs with
    | nil => intro _; exact ⟨[], rfl, by simp⟩
    | cons k cs ih =>
      intro h
      obtain ⟨l, h1, h2⟩ := blockedOf_spec hsd hs hb (h k (by simp))
      obtain ⟨ls, h3, h4⟩ := ih (fun k' hk' => h k' (by simp [hk']))
      refine ⟨l :: ls, by rw [List.mapM_cons, h1, R.bind_ok, h3]; rfl, ?_⟩
      intro p t c hp ht hc
      rw [List.flatten_cons, List.mem_append, h2 p t c hp ht hc, h4 p t c hp ht hc]
      constructor
      · rintro ((h | h) | (⟨k', hk', h⟩ | ⟨k', hk', h⟩))
        · exact .inl ⟨k, by simp, h⟩
        · exact .inr ⟨k, by simp, h⟩
        · exact .inl ⟨k', by simp [hk'], h⟩
        · exact .inr ⟨k', by simp [hk'], h⟩
      · rintro (⟨k', hk', hh⟩ | ⟨k', hk', hh⟩) <;> rcases List.mem_cons.1 hk' with rfl | hk'
        · exact .inl (.inl hh)
        · exact .inr (.inl ⟨k', hk', hh⟩)
        · exact .inl (.inr hh)
        · exact .inr (.inr ⟨k', hk', hh⟩)
  obtain ⟨ls, h1, h2⟩ := hall _ hw.asg
  rw [h1, R.bind_ok]
  exact ⟨_, rfl, h2⟩

/-- The state kept by the solver, if any, is right for some scheduling. -/
def KeptOk (i : InputData) (sv : ASolver) : Prop :=
  ∀ st, sv.state = some st → ∃ s, SchedShape i s ∧ StOk i s st

theorem prepare_spec {pr : AProblem} (hsd : IsStatic pr.input pr.static) (hw : WF pr.input) {sv : ASolver}
    (hk : KeptOk pr.input sv) {s : Scheduling} (hs : SchedShape pr.input s) :
    (∀ st, prepare pr sv s = .ok st → StOk pr.input s st) ∧
    ((pr.input.choices.map (·.min)).sum ≤ u32Max → ∃ st, prepare pr sv s = .ok st) := by
  unfold prepare
  cases h : sv.state with
  | none =>
    simp only
    have hf := scratch_fold hs
    unfold fromScratch
    simp only
    constructor
    · intro st hst
      rw [R.bind_eq_ok] at hst
      obtain ⟨acc, ha, hst⟩ := hst
      have hsl := hf.1 acc ha
      obtain ⟨l, hl, hb⟩ := blockedEdges_spec hsd hw hs hsl
      rw [hl, R.bind_ok] at hst
      simp only [R.pure_eq, Except.ok.injEq] at hst
      subst hst
      exact ⟨rfl, hsl, hb⟩
    · intro hsum
      obtain ⟨acc, ha⟩ := hf.2 hsum
      obtain ⟨l, hl, hb⟩ := blockedEdges_spec hsd hw hs (hf.1 acc ha)
      rw [ha, R.bind_ok, hl]
      exact ⟨_, rfl⟩
  | some prev =>
    simp only
    obtain ⟨s0, hs0, hprev⟩ := hk prev h
    have hf := update_fold hs0 hs hprev.slotted
    unfold update
    rw [hprev.slots]
    constructor
    · intro st hst
      rw [R.bind_eq_ok] at hst
      obtain ⟨acc, ha, hst⟩ := hst
      have hsl := hf.1 acc ha
      obtain ⟨l, hl, hb⟩ := blockedEdges_spec hsd hw hs hsl
      rw [hl, R.bind_ok] at hst
      simp only [R.pure_eq, Except.ok.injEq] at hst
      subst hst
      exact ⟨rfl, hsl, hb⟩
    · intro hsum
      obtain ⟨acc, ha⟩ := hf.2 hsum
      obtain ⟨l, hl, hb⟩ := blockedEdges_spec hsd hw hs (hf.1 acc ha)
      rw [ha, R.bind_ok, hl]
      exact ⟨_, rfl⟩

end Wassign
