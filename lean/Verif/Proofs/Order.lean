import Verif.Spec.Order
import Verif.Proofs.SearchLeaf
/-
The order of the scheduling search.
-/
namespace Wassign
namespace Search
open Spec
variable {σ : Type}

/-- The order of two candidates: they differ, and slots are ordered by how full they are. -/
def Before (i : InputData) (D : List Decision) (x y : Option Nat) : Prop :=
  x ≠ y ∧ ∀ a b, x = some a → y = some b → Emptier i (decS D) a b

theorem interleaving_pairwise {α : Type} {R : α → α → Prop} {l r out : List α} (h : Interleaving l r out)
    (hl : l.Pairwise R) (hr : r.Pairwise R) (hc : ∀ x ∈ r, ∀ y ∈ l, R x y ∧ R y x) : out.Pairwise R := by
  induction h with
  | nil => exact List.Pairwise.nil
  | left h' ih =>
    rw [List.pairwise_cons] at hl ⊢
    refine ⟨fun z hz => ?_, ih hl.2 hr (fun x hx y hy => hc x hx y (by simp [hy]))⟩
    rcases List.mem_append.1 (h'.perm.mem_iff.1 hz) with hz | hz
    · exact hl.1 z hz
    · exact (hc z hz _ (by simp)).2
  | right h' ih =>
    rw [List.pairwise_cons] at hr ⊢
    refine ⟨fun z hz => ?_, ih hl hr.2 (fun x hx y hy => hc x (by simp [hx]) y hy)⟩
    rcases List.mem_append.1 (h'.perm.mem_iff.1 hz) with hz | hz
    · exact (hc _ (by simp) z hz).1
    · exact hr.1 z hz

theorem omitCandidate_none {i : InputData} {st : SearchState} {choice : Nat} {low : List (Option Nat)}
    (h : omitCandidate i st choice = .ok low) : low = [] ∨ low = [none] := by
  unfold omitCandidate at h
  rw [R.bind_eq_ok] at h
  obtain ⟨ch, _, h⟩ := h
  split at h
  · rw [R.bind_eq_ok] at h
    obtain ⟨ok, _, h⟩ := h
    cases h
    cases ok <;> simp
  · cases h; exact .inl rfl

theorem filterM_sublist {α : Type} {p : α → R Bool} {l r : List α} (h : l.filterM p = .ok r) : r.Sublist l := by
  have key : ∀ (l acc r : List α), List.filterAuxM p l acc = .ok r → ∃ r', r'.Sublist l ∧ r.reverse = acc.reverse ++ r' := by
    intro l
    induction l with
    | nil => intro acc r h; simp [List.filterAuxM] at h; subst h; exact ⟨[], List.Sublist.refl _, by simp⟩
    | cons x xs ih =>
      intro acc r h
      simp only [List.filterAuxM, R.bind_eq_ok] at h
      obtain ⟨b, _, h⟩ := h
      obtain ⟨r', h1, h2⟩ := ih _ _ h
      cases b
      · exact ⟨r', h1.cons _, h2⟩
      · exact ⟨x :: r', h1.cons_cons _, by rw [h2]; simp⟩
  simp only [List.filterM, R.bind_eq_ok] at h
  obtain ⟨a, h1, h2⟩ := h
  obtain ⟨r', h3, h4⟩ := key l [] a h1
  cases h2
  rw [h4]
  simpa using h3

theorem feasibleSlots_order {g : RngOps σ} (hg : g.Lawful) {i : InputData} {st : SearchState} (h : StInv i st) {choice : Nat}
    {rs : σ} {r : List (Option Nat) × σ} (hr : feasibleSlots g rs i st choice = .ok r) : r.1.Pairwise (Before i st.decisions) := by
  unfold feasibleSlots at hr
  simp only [R.bind_eq_ok] at hr
  obtain ⟨low, hlow, normal, hnorm, keyed, hkey, hr⟩ := hr
  obtain ⟨out, s', ho, hi⟩ := riffleShuffle_spec hg rs
    ((isort (fun (a b : Nat × Nat) => decide (a.1 < b.1 ∨ (a.1 = b.1 ∧ a.2 ≤ b.2))) keyed).map (fun e => some e.2)) low
  rw [ho] at hr
  cases hr
  have hsub := filterM_sublist hnorm
  have hnd : normal.Nodup := hsub.nodup List.nodup_range
  have hkeyed : keyed = normal.map (fun t => (fullness i (decS st.decisions) t, t)) := by
    have := mapM_eq_ok_of (l := normal)
      (f := fun t => do
        let m ← idx st.slotMax t "slot_max[slot]"
        pure (m, t))
      (g := fun t => (fullness i (decS st.decisions) t, t))
      (by
        intro t ht
        have ht : t < i.ns := by simpa using hsub.subset ht
        rw [idx_eq_ok.2 (slotMax_get h ht)]
        rfl)
    rw [this] at hkey
    cases hkey
    rfl
  have hsort := isort_pairwise (le := fun (a b : Nat × Nat) => decide (a.1 < b.1 ∨ (a.1 = b.1 ∧ a.2 ≤ b.2)))
    (by simp; omega) (by simp; omega) keyed
  have hperm := isort_perm (fun (a b : Nat × Nat) => decide (a.1 < b.1 ∨ (a.1 = b.1 ∧ a.2 ≤ b.2))) keyed
  generalize isort (fun (a b : Nat × Nat) => decide (a.1 < b.1 ∨ (a.1 = b.1 ∧ a.2 ≤ b.2))) keyed = sorted at *
  have hsnd : sorted.Pairwise (fun a b => a.2 ≠ b.2) := by
    have h1 : (sorted.map Prod.snd).Nodup := by
      rw [(hperm.map Prod.snd).nodup_iff, hkeyed, List.map_map]
      simpa [Function.comp_def] using hnd
    exact List.pairwise_map.1 h1
  have hfst : ∀ e ∈ sorted, e.1 = fullness i (decS st.decisions) e.2 := by
    intro e he
    have := hperm.mem_iff.1 he
    rw [hkeyed, List.mem_map] at this
    obtain ⟨t, _, rfl⟩ := this
    rfl
  refine interleaving_pairwise hi ?_ ?_ ?_
  · rw [List.pairwise_map]
    refine List.Pairwise.imp_of_mem ?_ (hsort.and hsnd)
    intro a b ha hb hab
    refine ⟨fun e => hab.2 (Option.some.inj e), ?_⟩
    intro x y hx hy
    cases hx
    cases hy
    have h1 := of_decide_eq_true hab.1
    rw [hfst a ha, hfst b hb] at h1
    rcases h1 with h1 | ⟨h1, h2⟩
    · exact .inl h1
    · exact .inr ⟨h1, Nat.lt_of_le_of_ne h2 hab.2⟩
  · rcases omitCandidate_none hlow with rfl | rfl <;> simp
  · intro x hx y hy
    have : x = none := by
      rcases omitCandidate_none hlow with rfl | rfl
      · cases hx
      · simpa using hx
    subst this
    obtain ⟨e, _, rfl⟩ := List.mem_map.1 hy
    refine ⟨⟨by simp, ?_⟩, ⟨by simp, ?_⟩⟩
    · intro a b e _; cases e
    · intro a b _ e; cases e

theorem candidates_order {g : RngOps σ} (hg : g.Lawful) {i : InputData} {cs : List CriticalSet} {avail choice : Nat}
    {st : SearchState} (h : StInv i st) {rs : σ} {r : List (Option Nat) × σ}
    (hr : candidates g i cs avail choice st rs = .ok r) : r.1.Pairwise (Before i st.decisions) := by
  unfold candidates at hr
  rw [R.bind_eq_ok] at hr
  obtain ⟨imp, _, hr⟩ := hr
  split at hr
  · cases hr; exact List.Pairwise.nil
  rw [R.bind_eq_ok] at hr
  obtain ⟨okc, _, hr⟩ := hr
  split at hr
  · cases hr; exact List.Pairwise.nil
  rw [R.bind_eq_ok] at hr
  obtain ⟨crit, _, hr⟩ := hr
  split at hr
  · exact feasibleSlots_order hg h hr
  · rw [R.bind_eq_ok] at hr
    obtain ⟨ok, _, hr⟩ := hr
    cases hr
    cases ok
    · exact List.Pairwise.nil
    · exact List.pairwise_singleton _ _
  · cases hr; exact List.Pairwise.nil

/-- The untried candidates of every depth are in order. -/
def Ordered (i : InputData) (scr : List Nat) (m : Machine σ) : Prop :=
  ∀ (d : Nat) (b : List (Option Nat)), m.bt[d]? = some b → b.reverse.Pairwise (Before i (pre scr d m.st.decisions))

/-- What an iteration does: either it goes back, or it places the choice of this depth. -/
structure Placing (i : InputData) (scr : List Nat) (m m' : Machine σ) (bt : List (List (Option Nat))) (bucket : List (Option Nat))
    (choice : Nat) (x : Option Nat) : Prop where
  last : bucket.getLast? = some x
  depth : m'.depth = m.depth + 1
  bts : m'.bt = bt.set m.depth bucket.dropLast
  dec : m'.st.decisions = m.st.decisions.set choice (ofSlot x)

structure Retreat (i : InputData) (scr : List Nat) (m m' : Machine σ) (bt : List (List (Option Nat))) : Prop where
  depth : m'.depth + 1 = m.depth
  bts : m'.bt = bt.dropLast
  dec : ∃ prev, scr[m'.depth]? = some prev ∧ m'.st.decisions = m.st.decisions.set prev .undecided

theorem iter_cases {g : RngOps σ} (hg : g.Lawful) {i : InputData} (hw : WF i) (hz : Sizes i)
    (hr : SearchReady i) {cs : List CriticalSet} (hcs : ∀ set ∈ cs, ∀ e ∈ set.data, e < i.nc)
    {scr suf : List Nat} (hsuf : SufOk i scr suf) {m m' : Machine σ} (hm : MInv i scr m)
    (hd : m.depth < scr.length) (h : iter g i cs scr suf m = .ok (.next m')) :
    ∃ bt bucket, bt.length = m.depth + 1 ∧ bt[m.depth]? = some bucket ∧ (m.depth < m.bt.length → bt = m.bt) ∧
      (∀ d, d < m.depth → bt[d]? = m.bt[d]?) ∧
      (Ordered i scr m → bucket.reverse.Pairwise (Before i m.st.decisions)) ∧
      ((bucket = [] ∧ Retreat i scr m m' bt) ∨ ∃ choice x, scr[m.depth]? = some choice ∧ Placing i scr m m' bt bucket choice x) := by
  have hget : scr[m.depth]? = some scr[m.depth] := by simp [hd]
  generalize hch : scr[m.depth] = choice at hget
  obtain ⟨m1, h1, hdep, hst, hlen, hcand, -⟩ := pushStep_total hg hw hz hr hcs hsuf hm hget
  have hbl : m.depth < m1.bt.length := by omega
  have hbk : m1.bt[m1.depth]? = some m1.bt[m.depth] := by simp [hdep, hbl]
  generalize hbd : m1.bt[m.depth] = bucket at hbk
  have hbk' : m1.bt[m.depth]? = some bucket := by rw [← hdep]; exact hbk
  have hpush : (m.depth < m.bt.length → m1.bt = m.bt) ∧ (∀ d, d < m.depth → m1.bt[d]? = m.bt[d]?) ∧
      (Ordered i scr m → bucket.reverse.Pairwise (Before i m.st.decisions)) := by
    unfold pushStep at h1
    by_cases hle : m.bt.length ≤ m.depth
    · rw [if_pos hle] at h1
      simp only [R.bind_eq_ok] at h1
      obtain ⟨avail, _, c, hc, h1⟩ := h1
      cases h1
      have hml : m.bt.length = m.depth := by rcases hm.bt.len with h | h <;> omega
      refine ⟨fun h' => absurd h' (by omega), fun d hd' => ?_, fun _ => ?_⟩
      · simp only; rw [List.getElem?_append_left (by omega)]
      · simp only at hbk'
        rw [List.getElem?_append_right (by omega), hml] at hbk'
        simp at hbk'
        rw [← hbk', List.reverse_reverse]
        exact candidates_order hg hm.st hc
    · rw [if_neg hle] at h1
      cases h1
      refine ⟨fun _ => rfl, fun d _ => rfl, fun ho => ?_⟩
      have := ho _ _ hbk'
      rwa [pre_eq hm.ord hm.st.len] at this
  refine ⟨m1.bt, bucket, hlen, hbk', hpush.1, hpush.2.1, hpush.2.2, ?_⟩
  unfold iter at h
  rw [idx_eq_ok.2 hget, R.bind_ok, h1, R.bind_ok, idx_eq_ok.2 hbk, R.bind_ok] at h
  cases hlast : bucket.getLast? with
  | none =>
    left
    simp only [hlast] at h
    have hbnil : bucket = [] := List.getLast?_eq_none_iff.1 hlast
    refine ⟨hbnil, ?_⟩
    by_cases h0 : m1.depth = 0
    · rw [if_pos h0] at h; cases h
    · rw [if_neg h0] at h
      simp only [R.bind_eq_ok] at h
      obtain ⟨prev, hprev, st', hst', h⟩ := h
      have hprev := idx_eq_ok.1 hprev
      have hpl : prev < i.nc := hm.ord.lt (List.mem_of_getElem? hprev)
      obtain ⟨st2, hc1, hc2, hc3⟩ := clearDecision_spec (i := i) (st := m1.st) (by rw [hst]; exact hm.st) hpl
      rw [hc1] at hst'
      cases hst'
      cases h
      refine ⟨by simp only; omega, rfl, prev, hprev, ?_⟩
      simp only
      rw [hc3, hst]
  | some x =>
    right
    simp only [hlast] at h
    rw [R.bind_eq_ok] at h
    obtain ⟨st', hst', h⟩ := h
    have hgood := hcand m.depth bucket hbk' choice hget x (List.mem_of_getLast? hlast)
    have hund : m1.st.decisions[choice]? = some .undecided := by
      rw [hst]
      exact (hm.ord.und choice (hm.ord.lt (List.mem_of_getElem? hget))).2
        (not_mem_take_of_get hm.ord.nodup (Nat.le_refl _) hget)
    obtain ⟨st2, hc1, hc2, hc3⟩ := applyDecision_spec hz (i := i) (st := m1.st) (by rw [hst]; exact hm.st) hund hgood.range
    rw [hc1] at hst'
    cases hst'
    cases h
    refine ⟨choice, x, hget, hlast, by simp only; omega, by simp only [hdep], ?_⟩
    simp only
    rw [hc3, hst]

section
variable {g : RngOps σ} (hg : g.Lawful) {i : InputData} (hw : WF i) (hz : Sizes i) (hr : SearchReady i)
  {cs : List CriticalSet} (hcs : ∀ set ∈ cs, ∀ e ∈ set.data, e < i.nc) {scr suf : List Nat} (hsuf : SufOk i scr suf)
include hg hw hz hr hcs hsuf

theorem iter_next_minv {m m' : Machine σ} (hm : MInv i scr m) (hd : m.depth < scr.length)
    (h : iter g i cs scr suf m = .ok (.next m')) : MInv i scr m' := by
  rcases iter_spec hg hw hz hr hcs hsuf hm hd with ⟨r, h', _⟩ | ⟨m2, h', h2, _⟩
  · rw [h] at h'; cases h'
  · rw [h] at h'; cases h'; exact h2

theorem iter_ordered {m m' : Machine σ} (hm : MInv i scr m) (ho : Ordered i scr m) (hd : m.depth < scr.length)
    (h : iter g i cs scr suf m = .ok (.next m')) : Ordered i scr m' := by
  obtain ⟨bt, bucket, hl, hb, _, hlow, hord, hc⟩ := iter_cases hg hw hz hr hcs hsuf hm hd h
  have hn := hm.ord.nodup
  rcases hc with ⟨_, hc⟩ | ⟨choice, x, hget, hc⟩
  · obtain ⟨prev, hprev, hdec⟩ := hc.dec
    intro d b hb'
    rw [hc.bts, List.getElem?_dropLast] at hb'
    split at hb'
    · rename_i hlt
      have hdd : d < m.depth := by omega
      rw [hlow d hdd] at hb'
      rw [hdec, pre_set hn (by have := hc.depth; omega) hprev]
      exact ho d b hb'
    · cases hb'
  · intro d b hb'
    rw [hc.bts] at hb'
    have hdl : d ≤ m.depth := by
      have := (List.getElem?_eq_some_iff.1 hb').1
      simp at this; omega
    rw [hc.dec, pre_set hn hdl hget]
    by_cases hdd : d = m.depth
    · rw [hdd, List.getElem?_set_self (by omega)] at hb'
      cases hb'
      rw [hdd, pre_eq hm.ord hm.st.len]
      exact (hord ho).sublist (List.reverse_sublist.2 (List.dropLast_sublist _))
    · rw [List.getElem?_set_ne (Ne.symm hdd), hlow d (by omega)] at hb'
      exact ho d b hb'

/-- A step of the search loop. -/
theorem reached_inv (hp : scr.Perm (List.range i.nc)) {rs : σ} {m : Machine σ}
    (h : Reached (fun m m' : Machine σ => m.depth < scr.length ∧ iter g i cs scr suf m = .ok (.next m')) (start i rs) m) :
    MInv i scr m ∧ Ordered i scr m := by
  induction h with
  | start => exact ⟨minv_start hp rs, fun d b hb => by simp [start] at hb⟩
  | step _ hs ih =>
    exact ⟨iter_next_minv hg hw hz hr hcs hsuf ih.1 hs.1 hs.2, iter_ordered hg hw hz hr hcs hsuf ih.1 ih.2 hs.1 hs.2⟩

/-- While the search does not go back behind depth `d`, the candidates of that depth only get fewer. -/
theorem stays_prefix {d : Nat} {m m' : Machine σ} (hm : MInv i scr m) {b : List (Option Nat)} (hb : m.bt[d]? = some b)
    (h : Stays (fun m m' : Machine σ => m.depth < scr.length ∧ iter g i cs scr suf m = .ok (.next m')) (·.depth) d m m') :
    MInv i scr m' ∧ d ≤ m'.depth ∧ pre scr d m'.st.decisions = pre scr d m.st.decisions ∧
      ∃ b', m'.bt[d]? = some b' ∧ b' <+: b := by
  induction h with
  | refl h => exact ⟨hm, h, rfl, b, hb, List.prefix_refl _⟩
  | step _ hs hd ih =>
    rename_i m1 m2 _
    obtain ⟨i1, i2, i3, b1, i4, i5⟩ := ih
    refine ⟨iter_next_minv hg hw hz hr hcs hsuf i1 hs.1 hs.2, hd, ?_⟩
    obtain ⟨bt, bucket, hl, hb', hsame, hlow, _, hc⟩ := iter_cases hg hw hz hr hcs hsuf i1 hs.1 hs.2
    have hn := hm.ord.nodup
    rcases hc with ⟨_, hc⟩ | ⟨choice, x, hget, hc⟩
    · have hdp := hc.depth
      obtain ⟨prev, hprev, hdec⟩ := hc.dec
      refine ⟨by rw [hdec, pre_set hn hd hprev, i3], b1, ?_, i5⟩
      rw [hc.bts, List.getElem?_dropLast, if_pos (by omega), hlow d (by omega)]
      exact i4
    · refine ⟨by rw [hc.dec, pre_set hn i2 hget, i3], ?_⟩
      by_cases hdd : d = m1.depth
      · have hlt : m1.depth < m1.bt.length := by
          rw [← hdd]; exact (List.getElem?_eq_some_iff.1 i4).1
        rw [hsame hlt, ← hdd, i4] at hb'
        cases hb'
        refine ⟨b1.dropLast, ?_, (List.dropLast_prefix _).trans i5⟩
        rw [hc.bts, hdd, List.getElem?_set_self (by omega)]
      · refine ⟨b1, ?_, i5⟩
        rw [hc.bts, List.getElem?_set_ne (Ne.symm hdd), hlow d (by omega)]
        exact i4

end
end Search
end Wassign
