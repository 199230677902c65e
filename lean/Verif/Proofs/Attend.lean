import Verif.Proofs.AsgCons
import Verif.Proofs.SchedFeasible
/-
The attendance loop of `Scoring::is_feasible` and the exactness of the whole check.
-/
namespace Wassign
open Spec

section
variable {i : InputData} {s : Scheduling} {a : Assignment}

/-- Columns of chooser `p` below `k` lie in pairwise different existing slots. -/
def ColOk (i : InputData) (s : Scheduling) (a : Assignment) (p k : Nat) : Prop :=
  (∀ j, j < k → ∃ t, t < i.ns ∧ slotAt s (ent a p j) = some t) ∧
  (∀ j j', j < k → j' < k → slotAt s (ent a p j) = slotAt s (ent a p j') → j = j')

/-- Number of columns below `k` in which chooser `p` has choice `c`. -/
def hits (a : Assignment) (c p k : Nat) : Nat := rsum k (fun j => if ent a p j = c then 1 else 0)

/-- Participant counts after `p` full choosers and `k` columns of the next. -/
def countTab (i : InputData) (a : Assignment) (p k : Nat) : List Nat :=
  (List.range i.nc).map (fun c => rsum p (fun q => hits a c q i.ns) + hits a c p k)

def rowTab (i : InputData) (s : Scheduling) (a : Assignment) (p k : Nat) : List Bool :=
  (List.range i.ns).map (fun t => (List.range k).any (fun j => slotAt s (ent a p j) == some t))

theorem rowTab_zero (p) : rowTab i s a p 0 = List.replicate i.ns false := by
  apply List.ext_getElem <;> simp [rowTab]

theorem countTab_succ_row (p) : countTab i a p i.ns = countTab i a (p+1) 0 := by
  simp [countTab, hits]

theorem countTab_zero : countTab i a 0 0 = List.replicate i.nc 0 := by
  apply List.ext_getElem <;> simp [countTab, hits]

theorem countTab_step {p k c : Nat} (hc : ent a p k = c) :
    (countTab i a p k).set c (rsum p (fun q => hits a c q i.ns) + hits a c p k + 1)
      = countTab i a p (k+1) := by
  apply List.ext_getElem
  · simp [countTab]
  · intro n h1 h2
    rw [List.getElem_set]
    split
    · next e => subst e; simp [countTab, hits, hc]; omega
    · next e =>
      have : ¬ ent a p k = n := by rw [hc]; exact e
      simp [countTab, hits, this]

theorem rowTab_step {p k t : Nat} (ht : slotAt s (ent a p k) = some t) :
    (rowTab i s a p k).set t true = rowTab i s a p (k+1) := by
  apply List.ext_getElem
  · simp [rowTab]
  · intro n h1 h2
    rw [List.getElem_set]
    split
    · next e => subst e; simp [rowTab, List.range_succ, ht]
    · next e => simp [rowTab, List.range_succ, ht, e]

theorem rowTab_get {p k t : Nat} (ht : t < i.ns) :
    (rowTab i s a p k)[t]? = some ((List.range k).any (fun j => slotAt s (ent a p j) == some t)) := by
  simp [rowTab, ht]

theorem countTab_get {p k c : Nat} (hc : c < i.nc) :
    (countTab i a p k)[c]? = some (rsum p (fun q => hits a c q i.ns) + hits a c p k) := by
  simp [countTab, hc]

/-- The body of the inner loop (scoring.rs:53-59). -/
def attendInner (s : Scheduling) (a : Assignment) (p : Nat)
    (acc : Option (List Bool × List Nat)) (k : Nat) : R (Option (List Bool × List Nat)) :=
  match acc with
  | none => pure none
  | some (row, counts) => do
    let c ← choiceOf a p k
    let so ← idx s c "slots[choice]"
    match so with
    | none => panic' "choice must be scheduled"
    | some t => do
      let b ← idx row t "slots_in[scheduled_slot]"
      if b then pure none
      else do
        let n ← idx counts c "part_counts[choice]"
        let n' ← addU32 n 1 "part_counts += 1"
        pure (some (row.set t true, counts.set c n'))

def InnerInv (i : InputData) (s : Scheduling) (a : Assignment) (p k : Nat) :
    Option (List Bool × List Nat) → Prop
  | none => ¬ ColOk i s a p i.ns
  | some (row, counts) => ColOk i s a p k ∧ row = rowTab i s a p k ∧ counts = countTab i a p k

theorem inner_step (h : Shape i s a) {p k : Nat} (hp : p < i.np) (hk : k < i.ns)
    {acc acc'} (hinv : InnerInv i s a p k acc) (hf : attendInner s a p acc k = .ok acc') :
    InnerInv i s a p (k+1) acc' := by
  cases acc with
  | none => simp [attendInner] at hf; subst hf; exact hinv
  | some q =>
    obtain ⟨row, counts⟩ := q
    obtain ⟨hcol, rfl, rfl⟩ := hinv
    simp only [attendInner, choiceOf_ok h hp hk, R.bind_ok, R.bind_eq_ok, idx_eq_ok] at hf
    obtain ⟨so, hso, hf⟩ := hf
    have hslot := slotAt_of_get hso
    have hclt : ent a p k < i.nc := by
      have := (List.getElem?_eq_some_iff.1 hso).1; rw [← h.schedLen]; exact this
    cases so with
    | none => simp [panic'] at hf
    | some t =>
      simp only [R.bind_eq_ok, idx_eq_ok] at hf
      obtain ⟨b, hb, hf⟩ := hf
      have ht : t < i.ns := by
        have := (List.getElem?_eq_some_iff.1 hb).1; simpa [rowTab] using this
      rw [rowTab_get ht] at hb
      cases b with
      | true =>
        simp at hf; subst hf
        simp at hb
        obtain ⟨j, hj, hjt⟩ := hb
        intro hc
        have := hc.2 j k (by omega) hk (by rw [hjt, hslot])
        omega
      | false =>
        simp only [Bool.false_eq_true, if_false, R.bind_eq_ok, idx_eq_ok, addU32_eq_ok] at hf
        obtain ⟨n, hn, n', ⟨_, rfl⟩, hf⟩ := hf
        rw [countTab_get hclt] at hn
        simp at hn hf; subst hf; subst hn
        refine ⟨⟨?_, ?_⟩, ?_, ?_⟩
        · intro j hj
          by_cases e : j = k
          · subst e; exact ⟨t, ht, hslot⟩
          · exact hcol.1 j (by omega)
        · have hno : ∀ j, j < k → slotAt s (ent a p j) ≠ some t := by
            intro j hj e
            simp at hb
            exact hb j hj e
          intro j j' hj hj' he
          by_cases e : j = k
          · by_cases e' : j' = k
            · omega
            · subst e; rw [hslot] at he
              exact absurd he.symm (hno j' (by omega))
          · by_cases e' : j' = k
            · subst e'; rw [hslot] at he
              exact absurd he (hno j (by omega))
            · exact hcol.2 j j' (by omega) (by omega) he
        · exact rowTab_step hslot
        · exact countTab_step rfl

theorem inner_total (h : Shape i s a) {p k : Nat} (hp : p < i.np) (hk : k < i.ns)
    (hent : ∀ j, j < i.ns → ∃ t, t < i.ns ∧ slotAt s (ent a p j) = some t)
    (hsz : i.np * i.ns ≤ u32Max)
    {acc} (hinv : InnerInv i s a p k acc) :
    ∃ acc', attendInner s a p acc k = .ok acc' ∧ InnerInv i s a p (k+1) acc' := by
  suffices hh : ∃ acc', attendInner s a p acc k = .ok acc' by
    obtain ⟨acc', h'⟩ := hh
    exact ⟨acc', h', inner_step h hp hk hinv h'⟩
  cases acc with
  | none => exact ⟨none, rfl⟩
  | some q =>
    obtain ⟨row, counts⟩ := q
    obtain ⟨hcol, rfl, rfl⟩ := hinv
    obtain ⟨t, ht, hslot⟩ := hent k hk
    have hclt : ent a p k < s.length := by
      apply Nat.lt_of_not_le; intro hge
      rw [slotAt_none_of_ge hge] at hslot; cases hslot
    have hclt' : ent a p k < i.nc := by rw [← h.schedLen]; exact hclt
    have hget : s[ent a p k]? = some (some t) := by
      rw [← hslot, slotAt_get hclt]; simp
    simp only [attendInner, choiceOf_ok h hp hk, R.bind_ok, idx_eq_ok.2 hget, idx_eq_ok.2 (rowTab_get ht)]
    split
    · exact ⟨none, rfl⟩
    · have hb : rsum p (fun q => hits a (ent a p k) q i.ns) + hits a (ent a p k) p k + 1 ≤ u32Max := by
        have h1 : ∀ q m, hits a (ent a p k) q m ≤ m := by
          intro q m
          have : hits a (ent a p k) q m ≤ rsum m (fun _ => 1) :=
            rsum_le_rsum (fun j _ => by split <;> omega)
          rw [rsum_const] at this; omega
        have h2 : rsum p (fun q => hits a (ent a p k) q i.ns) ≤ p * i.ns := by
          rw [← rsum_const]; exact rsum_le_rsum (fun q _ => h1 q _)
        have h3 := h1 p k
        have h4 : (p+1) * i.ns ≤ i.np * i.ns := Nat.mul_le_mul_right _ hp
        rw [Nat.succ_mul] at h4
        omega
      simp only [idx_eq_ok.2 (countTab_get hclt'), R.bind_ok, addU32_eq_ok.2 ⟨hb, rfl⟩]
      exact ⟨_, rfl⟩

/-- The body of the outer loop. -/
def attendOuter (i : InputData) (s : Scheduling) (a : Assignment)
    (acc : Option (List Nat)) (p : Nat) : R (Option (List Nat)) :=
  match acc with
  | none => pure none
  | some counts => do
    let st ← (List.range i.ns).foldlM (attendInner s a p) (some (List.replicate i.ns false, counts))
    pure (st.map (·.2))

theorem attend_eq (slots : List (Option Nat)) :
    Scoring.attend i slots a = (List.range i.np).foldlM (attendOuter i slots a)
      (some (List.replicate i.nc 0)) := rfl

def OuterInv (i : InputData) (s : Scheduling) (a : Assignment) (p : Nat) : Option (List Nat) → Prop
  | none => ¬ ∀ q, q < i.np → ColOk i s a q i.ns
  | some counts => (∀ q, q < p → ColOk i s a q i.ns) ∧ counts = countTab i a p 0

theorem attend_spec (h : Shape i s a) {r} (hr : Scoring.attend i s a = .ok r) :
    OuterInv i s a i.np r := by
  rw [attend_eq] at hr
  have key := foldlM_inv (l := List.range i.np) (Inv := OuterInv i s a) (r := r) ?_ ?_ hr
  · simpa using key
  · intro p hp acc acc' hinv hf
    have hp : p < i.np := by simpa using hp
    simp only [List.getElem_range] at hf
    cases acc with
    | none => simp [attendOuter] at hf; subst hf; exact hinv
    | some counts =>
      obtain ⟨hcol, rfl⟩ := hinv
      simp only [attendOuter, R.bind_eq_ok] at hf
      obtain ⟨st, hst, hf⟩ := hf
      have inner := foldlM_inv (l := List.range i.ns) (Inv := InnerInv i s a p) (r := st) ?_ ?_ hst
      · rw [List.length_range] at inner
        simp at hf; subst hf
        cases st with
        | none => exact fun hall => inner (hall p hp)
        | some q =>
          obtain ⟨row, counts⟩ := q
          obtain ⟨h1, h2, rfl⟩ := inner
          refine ⟨?_, ?_⟩
          · intro q hq
            by_cases e : q = p
            · subst e; exact h1
            · exact hcol q (by omega)
          · exact countTab_succ_row p
      · intro k hk acc acc' hinv hf
        have hk : k < i.ns := by simpa using hk
        simp only [List.getElem_range] at hf
        exact inner_step h hp hk hinv hf
      · refine ⟨⟨?_, ?_⟩, (rowTab_zero p).symm, rfl⟩
        · intro j hj; omega
        · intro j j' hj; omega
  · exact ⟨fun q hq => by omega, countTab_zero.symm⟩

theorem attend_total (h : Shape i s a)
    (hent : ∀ p, p < i.np → ∀ j, j < i.ns → ∃ t, t < i.ns ∧ slotAt s (ent a p j) = some t)
    (hsz : i.np * i.ns ≤ u32Max) : ∃ r, Scoring.attend i s a = .ok r := by
  rw [attend_eq]
  have key := foldlM_total (l := List.range i.np) (f := attendOuter i s a) (Inv := OuterInv i s a)
    (s := some (List.replicate i.nc 0)) ?_ ?_
  · obtain ⟨r, hr, _⟩ := key; exact ⟨r, hr⟩
  · intro p hp acc hinv
    have hp : p < i.np := by simpa using hp
    simp only [List.getElem_range]
    cases acc with
    | none => exact ⟨none, rfl, hinv⟩
    | some counts =>
      obtain ⟨hcol, rfl⟩ := hinv
      obtain ⟨st, hst, inner⟩ := foldlM_total (l := List.range i.ns) (f := attendInner s a p)
        (Inv := InnerInv i s a p) (s := some (List.replicate i.ns false, countTab i a p 0))
        (by
          intro k hk acc hinv
          have hk : k < i.ns := by simpa using hk
          simp only [List.getElem_range]
          exact inner_total h hp hk (hent p hp) hsz hinv)
        (by
          refine ⟨⟨?_, ?_⟩, (rowTab_zero p).symm, rfl⟩
          · intro j hj; omega
          · intro j j' hj; omega)
      rw [List.length_range] at inner
      refine ⟨st.map (·.2), by simp [attendOuter, hst], ?_⟩
      cases st with
      | none => exact fun hall => inner (hall p hp)
      | some q =>
        obtain ⟨row, counts⟩ := q
        obtain ⟨h1, h2, rfl⟩ := inner
        refine ⟨?_, ?_⟩
        · intro q hq
          by_cases e : q = p
          · subst e; exact h1
          · exact hcol q (by omega)
        · exact countTab_succ_row p
  · exact ⟨fun q hq => by omega, countTab_zero.symm⟩

/-! ### Column-wise form versus the specification -/

theorem colOk_of_spec (h : Shape i s a) (h1 : OnePerSlot i s a) (h2 : OnlyScheduled i s a) :
    ∀ p, p < i.np → ColOk i s a p i.ns := by
  intro p hp
  have hsched : ∀ j, j < i.ns → ∃ t, t < i.ns ∧ slotAt s (ent a p j) = some t :=
    fun j hj => h2 p hp _ ((attends_iff h hp).2 ⟨j, hj, rfl⟩)
  refine ⟨hsched, ?_⟩
  have hinj := inj_of_surj (n := i.ns) (f := fun j => (slotAt s (ent a p j)).getD 0) (by
    intro t ht
    obtain ⟨c, ⟨hc, hct⟩, _⟩ := h1 p hp t ht
    obtain ⟨k, hk, rfl⟩ := (attends_iff h hp).1 hc
    exact ⟨k, hk, by simp [hct]⟩)
  intro j j' hj hj' he
  exact hinj j j' hj hj' (by simp [he])

theorem spec_of_colOk (h : Shape i s a) (hc : ∀ p, p < i.np → ColOk i s a p i.ns) :
    OnePerSlot i s a ∧ OnlyScheduled i s a ∧ RowNodup i a := by
  refine ⟨?_, ?_, ?_⟩
  · intro p hp t ht
    obtain ⟨hs, hi⟩ := hc p hp
    have hsurj := surj_of_inj (n := i.ns) (f := fun j => (slotAt s (ent a p j)).getD 0)
      (by intro k hk; obtain ⟨t, ht, he⟩ := hs k hk; simp [he, ht])
      (by
        intro x y hx hy he
        obtain ⟨tx, _, hx'⟩ := hs x hx
        obtain ⟨ty, _, hy'⟩ := hs y hy
        simp [hx', hy'] at he
        exact hi x y hx hy (by rw [hx', hy', he]))
    obtain ⟨k, hk, hkt⟩ := hsurj t ht
    obtain ⟨u, _, hu⟩ := hs k hk
    have hkt' : slotAt s (ent a p k) = some t := by simp [hu] at hkt; rw [hu, hkt]
    refine ⟨ent a p k, ⟨(attends_iff h hp).2 ⟨k, hk, rfl⟩, hkt'⟩, ?_⟩
    intro c' hc' ht'
    obtain ⟨k', hk', rfl⟩ := (attends_iff h hp).1 hc'
    rw [hi k' k hk' hk (by rw [ht', hkt'])]
  · intro p hp c hcc
    obtain ⟨k, hk, rfl⟩ := (attends_iff h hp).1 hcc
    exact (hc p hp).1 k hk
  · intro p hp j k hj hk he
    exact (hc p hp).2 j k hj hk (by rw [he])

theorem hits_eq (h : Shape i s a) (hr : RowNodup i a) {p : Nat} (hp : p < i.np) (c : Nat) :
    hits a c p i.ns = if attendsB a p c then 1 else 0 := by
  have h1 : hits a c p i.ns = (cols i a c p).length := by
    unfold hits cols
    rw [← List.countP_eq_length_filter, countP_range_eq_rsum]
    apply rsum_congr
    intro j _; simp
  rw [h1, cols_length hr hp]
  have := (attendsB_iff a p c).trans (attends_iff h hp)
  by_cases hb : attendsB a p c = true
  · rw [if_pos (this.1 hb), if_pos hb]
  · rw [if_neg (fun e => hb (this.2 e)), if_neg hb]

theorem participants_eq (h : Shape i s a) (hr : RowNodup i a) (c : Nat) :
    rsum i.np (fun q => hits a c q i.ns) = participants i a c := by
  unfold participants
  rw [countP_range_eq_rsum]
  exact rsum_congr (fun p hp => hits_eq h hr hp c)

theorem slots_mapM (hs : s.length = i.nc) :
    (List.range i.nc).mapM (fun c => slotOf s c) = (Except.ok s : R _) := by
  rw [mapM_eq_ok_of (g := slotAt s)]
  · congr 1
    apply List.ext_getElem
    · simp [hs]
    · intro n h1 h2; simp [slotAt_get h2]
  · intro c hc
    exact slotOf_ok (by rw [hs]; simpa using hc)

theorem satAsg_spec (h : Shape i s a) (hr : RowNodup i a) (hw : ∀ c ∈ i.asgCons, AsgConWF i c)
    {b : Bool} (hb : satAsg i s a = .ok b) : b = true ↔ ∀ c ∈ i.asgCons, AsgHolds s a c := by
  refine allM_ok_iff ?_ hb
  intro c hc b hb
  obtain ⟨b', hb', hiff⟩ := asgConOk_spec h hr (hw c hc)
  rw [hb'] at hb; cases hb; exact hiff

theorem boundsLoop_spec (h : Shape i s a) (hr : RowNodup i a) :
    ∃ b, (countTab i a i.np 0).zipIdx.allM (fun e => do
          let so ← slotOf s e.2
          match so with
          | none => pure true
          | some _ => do
            let ch ← idx i.choices e.2 "choices[choice_index]"
            pure (!(decide (e.1 < ch.min) || decide (ch.max < e.1)))) = .ok b ∧
      (b = true ↔ WithinBounds i s a) := by
  have hmem : ∀ e ∈ (countTab i a i.np 0).zipIdx, e.2 < i.nc ∧ e.1 = participants i a e.2 := by
    rintro ⟨x, k⟩ he
    rw [List.mem_zipIdx_iff_getElem?] at he
    have hk : k < i.nc := by
      have := (List.getElem?_eq_some_iff.1 he).1; simpa [countTab] using this
    rw [countTab_get hk] at he
    simp [hits] at he
    refine ⟨hk, ?_⟩
    rw [← participants_eq h hr k]; simp [hits, ← he]
  have hex : ∀ e ∈ (countTab i a i.np 0).zipIdx, ∃ b, (do
          let so ← slotOf s e.2
          match so with
          | none => pure true
          | some _ => do
            let ch ← idx i.choices e.2 "choices[choice_index]"
            pure (!(decide (e.1 < ch.min) || decide (ch.max < e.1)))) = (.ok b : R Bool) ∧
          (b = true ↔ (∀ hk : e.2 < i.nc, slotAt s e.2 ≠ none →
            (i.choices[e.2]).min ≤ participants i a e.2 ∧
              participants i a e.2 ≤ (i.choices[e.2]).max)) := by
    intro e he
    obtain ⟨hk, hv⟩ := hmem e he
    rw [slotOf_ok (by rw [h.schedLen]; exact hk)]
    simp only [R.bind_ok]
    cases hsl : slotAt s e.2 with
    | none => exact ⟨true, rfl, by simp⟩
    | some t =>
      simp only [idx_ok hk, R.bind_ok]
      refine ⟨_, rfl, ?_⟩
      simp only [hv]
      simp [hk]
  obtain ⟨b, hb⟩ := allM_total (fun e he => (hex e he).imp (fun _ h => h.1))
  refine ⟨b, hb, ?_⟩
  rw [allM_ok_iff (Q := fun e => ∀ hk : e.2 < i.nc, slotAt s e.2 ≠ none →
            (i.choices[e.2]).min ≤ participants i a e.2 ∧
              participants i a e.2 ≤ (i.choices[e.2]).max) ?_ hb]
  · constructor
    · intro hall c hc hsl
      refine hall (participants i a c, c) ?_ hc hsl
      rw [List.mem_zipIdx_iff_getElem?, countTab_get hc]
      simp [hits, ← participants_eq h hr c]
    · intro hall e _ hk hsl
      exact hall e.2 hk hsl
  · intro e he b hb
    obtain ⟨b', hb', hiff⟩ := hex e he
    rw [hb'] at hb; cases hb; exact hiff

/-- When `Scoring::is_feasible` returns, it returns whether the solution is valid. -/
theorem isFeasibleC_spec (h : Shape i s a) (hn : i.nc ≤ u32Max) (hw : WF i) {b : Bool}
    (hb : Scoring.isFeasibleC i s a = .ok b) : b = true ↔ Valid i s a := by
  unfold Scoring.isFeasibleC at hb
  simp only [slots_mapM h.schedLen, R.bind_ok, R.bind_eq_ok] at hb
  obtain ⟨bs, hbs, hb⟩ := hb
  have hS := satSched_spec h.schedLen hn hw.sched hbs
  cases bs with
  | false =>
    simp at hb; subst hb
    constructor
    · intro h; cases h
    · intro hv; exact absurd hv.sched (fun hh => by simpa using hS.2 hh)
  | true =>
    simp only [Bool.not_true, Bool.false_eq_true, if_false, R.bind_eq_ok] at hb
    obtain ⟨ba, hba, hb⟩ := hb
    cases ba with
    | false =>
      simp at hb; subst hb
      constructor
      · intro h; cases h
      · intro hv
        have hcol := colOk_of_spec h hv.onePerSlot hv.onlyScheduled
        have hA := satAsg_spec h (spec_of_colOk h hcol).2.2 hw.asg hba
        exact absurd (hA.2 hv.asg) (by simp)
    | true =>
      simp only [Bool.not_true, Bool.false_eq_true, if_false, R.bind_eq_ok] at hb
      obtain ⟨r, hr, hb⟩ := hb
      have hinv := attend_spec h hr
      cases r with
      | none =>
        simp at hb; subst hb
        constructor
        · intro h; cases h
        · intro hv; exact absurd (colOk_of_spec h hv.onePerSlot hv.onlyScheduled) hinv
      | some counts =>
        obtain ⟨hcol, rfl⟩ := hinv
        obtain ⟨h1, h2, hrow⟩ := spec_of_colOk h hcol
        have hA := satAsg_spec h hrow hw.asg hba
        obtain ⟨b', hb', hiff⟩ := boundsLoop_spec h hrow
        have : b' = b := by
          have := hb'.symm.trans hb; cases this; rfl
        subst this
        rw [hiff]
        constructor
        · intro hbnd; exact ⟨hS.1 rfl, hA.1 rfl, h1, h2, hbnd⟩
        · intro hv; exact hv.bounds

/-- A valid solution passes the check (no panic, result true). -/
theorem isFeasibleC_complete (h : Shape i s a) (hz : Sizes i) (hw : WF i)
    (hr : SlotsInRange i s) (hv : Valid i s a) : Scoring.isFeasibleC i s a = .ok true := by
  have hcol := colOk_of_spec h hv.onePerSlot hv.onlyScheduled
  obtain ⟨_, _, hrow⟩ := spec_of_colOk h hcol
  have hn : i.nc ≤ u32Max := Nat.le_trans hz.choices (by decide)
  suffices hx : ∃ b, Scoring.isFeasibleC i s a = .ok b by
    obtain ⟨b, hb⟩ := hx
    rw [hb, (isFeasibleC_spec h hn hw hb).2 hv]
  unfold Scoring.isFeasibleC
  simp only [slots_mapM h.schedLen, R.bind_ok]
  obtain ⟨bs, hbs⟩ := satSched_total h.schedLen hr hz.slots hw.sched
  have hS := satSched_spec h.schedLen hn hw.sched hbs
  have : bs = true := hS.2 hv.sched
  subst this
  simp only [hbs, R.bind_ok, Bool.not_true, Bool.false_eq_true, if_false]
  obtain ⟨ba, hba⟩ : ∃ b, satAsg i s a = .ok b := by
    apply allM_total
    intro c hc
    obtain ⟨b', hb', _⟩ := asgConOk_spec h hrow (hw.asg c hc)
    exact ⟨b', hb'⟩
  have : ba = true := (satAsg_spec h hrow hw.asg hba).2 hv.asg
  subst this
  simp only [hba, R.bind_ok, Bool.not_true, Bool.false_eq_true, if_false]
  obtain ⟨r, hr'⟩ := attend_total h (fun p hp => (hcol p hp).1) hz.attendances
  simp only [hr', R.bind_ok]
  have hinv := attend_spec h hr'
  cases r with
  | none => exact ⟨false, rfl⟩
  | some counts =>
    obtain ⟨_, rfl⟩ := hinv
    obtain ⟨b', hb', _⟩ := boundsLoop_spec h hrow
    exact ⟨b', hb'⟩

end
end Wassign
