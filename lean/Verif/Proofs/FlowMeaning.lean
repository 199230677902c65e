import Verif.Proofs.FlowBuild
/-
The constraints of the flow problem in terms of the values of its edges.
-/
namespace Wassign
open Spec Asg

section
variable {pr : AProblem} {s : Scheduling} {st : ScheduleState} {limit : Nat}

/-- Chooser `p` may be sent to `c` in slot `t`: `c` takes place there, is good enough and is not blocked. -/
def Allow (pr : AProblem) (s : Scheduling) (limit p t c : Nat) : Prop :=
  slotAt s c = some t ∧ prefN pr.input p c ≤ limit ∧ ¬ BlockedIn pr.input s p t c

/-- The edge from scheduled choice `c` to slot `t`. -/
def wE (pr : AProblem) (c t : Nat) : Edge := ⟨nC pr.input c, nS pr.input t, (maxN pr.input c : Int) - minN pr.input c, 0⟩

theorem allowB_iff (h : Setting pr s st) {p t c : Nat} (hp : p < pr.input.np) (ht : t < pr.input.ns) (hc : c < pr.input.nc) :
    allowB pr (st.blocked ++ pr.static.blockedEdges) limit p t c = true ↔
      prefN pr.input p c ≤ limit ∧ ¬ BlockedIn pr.input s p t c := by
  unfold allowB
  rw [h.sd.blocked, List.append_nil]
  simp only [Bool.and_eq_true, decide_eq_true_eq, Bool.not_eq_true', List.contains_eq_mem, decide_eq_false_iff_not]
  rw [h.ok.blocked p t c hp ht hc]

open Classical in
/-- Sums over all edges. -/
theorem sum_all (h : Setting pr s st) (G : Edge → Int) :
    isum (allEdges pr s st limit) G =
      isum (List.range pr.input.np) (fun p => isum (List.range pr.input.ns) (fun t => isum (List.range pr.input.nc) (fun c =>
        if Allow pr s limit p t c then G (mkEdge pr p t c) else 0))) +
      isum (List.range pr.input.nc) (fun c => match slotAt s c with | some t => G (wE pr c t) | none => 0) := by
  unfold allEdges
  rw [isum_append]
  congr 1
  · unfold chEdges
    rw [isum_flatMap]
    refine isum_congr ?_
    intro p hp
    have hp' : p < pr.input.np := by simpa using hp
    unfold rowEdges
    rw [isum_flatMap]
    rw [isum_zipIdx st.bySlot (fun l t => isum (cellEdges pr _ limit p t l) G), h.ok.slotted.len]
    refine isum_congr ?_
    intro t ht
    have ht' : t < pr.input.ns := by simpa using ht
    obtain ⟨l, hl, hn, hlt, hm⟩ := h.bySlot ht'
    rw [hl]
    simp only
    unfold cellEdges
    rw [isum_map, isum_filter]
    have hperm : l.Perm ((List.range pr.input.nc).filter (fun c => slotAt s c == some t)) := by
      rw [List.perm_ext_iff_of_nodup hn (List.Nodup.sublist List.filter_sublist List.nodup_range)]
      intro c
      simp only [List.mem_filter, List.mem_range, beq_iff_eq]
      constructor
      · intro hc; exact ⟨hlt c hc, (hm c).1 hc⟩
      · intro hc; exact (hm c).2 hc.2
    rw [isum_perm hperm, isum_filter]
    refine isum_congr ?_
    intro c hc
    have hc' : c < pr.input.nc := by simpa using hc
    have hb := allowB_iff (limit := limit) h hp' ht' hc'
    unfold Allow
    by_cases h1 : slotAt s c = some t
    · simp only [h1, beq_self_eq_true, if_true, true_and]
      by_cases h2 : allowB pr (st.blocked ++ pr.static.blockedEdges) limit p t c = true
      · rw [if_pos h2, if_pos (hb.1 h2)]
      · rw [if_neg h2, if_neg (fun h3 => h2 (hb.2 h3))]
    · rw [if_neg (by simpa using h1), if_neg (fun h2 => h1 h2.1)]
  · unfold wEdges
    have hw : isum (s.zipIdx.filterMap (wEdge pr)) G = isum s.zipIdx (fun e => match e.1 with | some t => G (wE pr e.2 t) | none => 0) := by
      induction s.zipIdx with
      | nil => rfl
      | cons e l ih =>
        obtain ⟨so, c⟩ := e
        cases so with
        | none => rw [List.filterMap_cons]; simp only [wEdge, Option.map_none]; rw [ih, isum_cons]; simp
        | some t => rw [List.filterMap_cons]; simp only [wEdge, Option.map_some]; rw [isum_cons, ih, isum_cons]; rfl
    rw [hw, isum_zipIdx s (fun so c => match so with | some t => G (wE pr c t) | none => 0), h.shape.len]
    refine isum_congr ?_
    intro c hc
    have hc' : c < s.length := by rw [h.shape.len]; simpa using hc
    rw [slotAt_get hc']
    simp [hc']

theorem mem_allEdges (h : Setting pr s st) {e : Edge} : e ∈ allEdges pr s st limit ↔
    (∃ p t c, p < pr.input.np ∧ t < pr.input.ns ∧ c < pr.input.nc ∧ Allow pr s limit p t c ∧ e = mkEdge pr p t c) ∨
    ∃ c t, c < pr.input.nc ∧ t < pr.input.ns ∧ slotAt s c = some t ∧ e = wE pr c t := by
  unfold allEdges
  rw [List.mem_append]
  refine or_congr ?_ ?_
  · unfold chEdges rowEdges
    simp only [List.mem_flatMap, List.mem_range]
    constructor
    · rintro ⟨p, hp, ⟨l, t⟩, hl, he⟩
      have hg := List.mem_zipIdx_iff_getElem?.1 hl
      simp only at hg he
      have ht : t < pr.input.ns := by
        have := (List.getElem?_eq_some_iff.1 hg).1
        have hlen := h.ok.slotted.len
        simp only at hlen; omega
      obtain ⟨c, hc, ha, rfl⟩ := mem_cellEdges.1 he
      obtain ⟨l', hl', _, hlt, hm⟩ := h.bySlot ht
      rw [hl'] at hg; cases hg
      exact ⟨p, t, c, hp, ht, hlt c hc, ⟨(hm c).1 hc, (allowB_iff h hp ht (hlt c hc)).1 ha⟩, rfl⟩
    · rintro ⟨p, t, c, hp, ht, hc, ha, rfl⟩
      obtain ⟨l, hl, _, hlt, hm⟩ := h.bySlot ht
      exact ⟨p, hp, (l, t), List.mem_zipIdx_iff_getElem?.2 hl, mem_cellEdges.2 ⟨c, (hm c).2 ha.1, (allowB_iff h hp ht hc).2 ha.2, rfl⟩⟩
  · rw [mem_wEdges]
    constructor
    · rintro ⟨c, t, hm, rfl⟩
      have hg := List.mem_zipIdx_iff_getElem?.1 hm
      simp only at hg
      have hs : slotAt s c = some t := by unfold slotAt; rw [hg]; rfl
      have hc : c < pr.input.nc := by rw [← h.shape.len]; exact (List.getElem?_eq_some_iff.1 hg).1
      exact ⟨c, t, hc, h.shape.range c t hs, hs, rfl⟩
    · rintro ⟨c, t, hc, ht, hs, rfl⟩
      refine ⟨c, t, ?_, rfl⟩
      rw [List.mem_zipIdx_iff_getElem?]
      have hcs : c < s.length := by rw [h.shape.len]; exact hc
      rw [slotAt_get hcs] at hs
      simp [hcs, hs]

theorem edges_u32 (h : Setting pr s st) : ∀ e ∈ allEdges pr s st limit, e.src ≤ u32Max ∧ e.dst ≤ u32Max := by
  intro e he
  have hsm := h.small
  unfold nodes at hsm
  rcases (mem_allEdges h).1 he with ⟨p, t, c, hp, ht, hc, _, rfl⟩ | ⟨c, t, hc, ht, _, rfl⟩
  · have := nP_lt hp ht
    simp only [mkEdge, nC]
    omega
  · simp only [wE, nC, nS]
    omega

/-! ### Values at nodes -/

section
variable {f : MipFlow} (x : List Int)

/-- The flow from chooser `p` in slot `t` to `c`. -/
abbrev X (pr : AProblem) (f : MipFlow) (x : List Int) (p t c : Nat) : Int := V f x (nP pr.input p t) (nC pr.input c)

/-- The flow from `c` to its slot. -/
abbrev Wv (pr : AProblem) (f : MipFlow) (x : List Int) (c t : Nat) : Int := V f x (nC pr.input c) (nS pr.input t)

theorem X_zero (h : Setting pr s st) (hd : FlowDesc pr s st limit f) {p t c : Nat} (hp : p < pr.input.np) (ht : t < pr.input.ns)
    (hc : c < pr.input.nc) (hn : ¬ Allow pr s limit p t c) : X pr f x p t c = 0 := by
  have hsm := h.small
  unfold nodes at hsm
  have hlt := nP_lt hp ht
  refine V_none hd.rep x (by omega) (by unfold nC; omega) ?_
  rintro e he ⟨e1, e2⟩
  rcases (mem_allEdges h).1 he with ⟨p', t', c', hp', ht', hc', ha, rfl⟩ | ⟨c', t', hc', ht', _, rfl⟩
  · simp only [mkEdge] at e1 e2
    obtain ⟨rfl, rfl⟩ := nP_inj ht' ht e1
    have := nC_inj e2
    subst this
    exact hn ha
  · simp only [wE, nC] at e1; omega

open Classical in
theorem sum_src (h : Setting pr s st) (hd : FlowDesc pr s st limit f) (P : Edge → Bool) :
    ((idxs (allEdges pr s st limit) P).map (val x)).sum =
      isum (List.range pr.input.np) (fun p => isum (List.range pr.input.ns) (fun t => isum (List.range pr.input.nc) (fun c =>
        if P (mkEdge pr p t c) = true then X pr f x p t c else 0))) +
      isum (List.range pr.input.nc) (fun c => match slotAt s c with
        | some t => if P (wE pr c t) = true then Wv pr f x c t else 0 | none => 0) := by
  rw [sum_idxs hd.rep x (edges_u32 h), isum_filter, sum_all h]
  congr 1
  refine isum_congr fun p hp => isum_congr fun t ht => isum_congr fun c hc => ?_
  simp only [List.mem_range] at hp ht hc
  by_cases ha : Allow pr s limit p t c
  · rw [if_pos ha]; rfl
  · rw [if_neg ha, X_zero x h hd hp ht hc ha]; simp

theorem node_chooser (h : Setting pr s st) (hd : FlowDesc pr s st limit f) {p t : Nat} (hp : p < pr.input.np) (ht : t < pr.input.ns) :
    ((idxs (allEdges pr s st limit) (fun e => e.dst == nP pr.input p t)).map (val x)).sum = 0 ∧
    ((idxs (allEdges pr s st limit) (fun e => e.src == nP pr.input p t)).map (val x)).sum =
      isum (List.range pr.input.nc) (fun c => X pr f x p t c) := by
  have hlt := nP_lt hp ht
  constructor
  · rw [sum_src x h hd]
    rw [isum_zero (l := List.range pr.input.np), isum_zero (l := List.range pr.input.nc)]
    · rfl
    · intro c _
      cases slotAt s c with
      | none => rfl
      | some t' => simp only; rw [if_neg]; simp only [wE, nS, beq_iff_eq]; omega
    · intro p' _
      refine isum_zero fun t' _ => isum_zero fun c _ => ?_
      rw [if_neg]; simp only [mkEdge, nC, beq_iff_eq]; omega
  · rw [sum_src x h hd]
    rw [isum_zero (l := List.range pr.input.nc) (f := fun c => match slotAt s c with
        | some t' => if (wE pr c t').src == nP pr.input p t then Wv pr f x c t' else 0 | none => 0), Int.add_zero]
    · rw [isum_range_single hp, isum_range_single ht]
      · refine isum_congr fun c _ => ?_
        rw [if_pos (by simp [mkEdge])]
      · intro t' ht' hne
        refine isum_zero fun c _ => ?_
        rw [if_neg]
        simp only [mkEdge, beq_iff_eq]
        intro e; exact hne (nP_inj ht' ht e).2
      · intro p' hp' hne
        refine isum_zero fun t' ht' => isum_zero fun c _ => ?_
        rw [if_neg]
        simp only [mkEdge, beq_iff_eq]
        intro e; exact hne (nP_inj (by simpa using ht') ht e).1
    · intro c _
      cases slotAt s c with
      | none => rfl
      | some t' => simp only; rw [if_neg]; simp only [wE, nC, beq_iff_eq]; omega

theorem node_choice (h : Setting pr s st) (hd : FlowDesc pr s st limit f) {c : Nat} (hc : c < pr.input.nc) :
    (slotAt s c = none →
      ((idxs (allEdges pr s st limit) (fun e => e.dst == nC pr.input c)).map (val x)).sum = 0 ∧
      ((idxs (allEdges pr s st limit) (fun e => e.src == nC pr.input c)).map (val x)).sum = 0) ∧
    (∀ t, slotAt s c = some t →
      ((idxs (allEdges pr s st limit) (fun e => e.dst == nC pr.input c)).map (val x)).sum =
        isum (List.range pr.input.np) (fun p => X pr f x p t c) ∧
      ((idxs (allEdges pr s st limit) (fun e => e.src == nC pr.input c)).map (val x)).sum = Wv pr f x c t) := by
  have hin : ((idxs (allEdges pr s st limit) (fun e => e.dst == nC pr.input c)).map (val x)).sum =
      isum (List.range pr.input.np) (fun p => isum (List.range pr.input.ns) (fun t => X pr f x p t c)) := by
    rw [sum_src x h hd]
    rw [isum_zero (l := List.range pr.input.nc) (f := fun c' => match slotAt s c' with
        | some t' => if (wE pr c' t').dst == nC pr.input c then Wv pr f x c' t' else 0 | none => 0), Int.add_zero]
    · refine isum_congr fun p _ => isum_congr fun t _ => ?_
      rw [isum_range_single hc]
      · rw [if_pos (by simp [mkEdge])]
      · intro c' _ hne
        rw [if_neg]
        simp only [mkEdge, beq_iff_eq]
        intro e; exact hne (nC_inj e)
    · intro c' _
      cases slotAt s c' with
      | none => rfl
      | some t' => simp only; rw [if_neg]; simp only [wE, nS, nC, beq_iff_eq]; omega
  have hout : ((idxs (allEdges pr s st limit) (fun e => e.src == nC pr.input c)).map (val x)).sum =
      (match slotAt s c with | some t => Wv pr f x c t | none => 0) := by
    rw [sum_src x h hd]
    rw [isum_zero (l := List.range pr.input.np), Int.zero_add]
    · rw [isum_range_single hc]
      · cases slotAt s c with
        | none => rfl
        | some t => simp only; rw [if_pos (by simp [wE])]
      · intro c' _ hne
        cases slotAt s c' with
        | none => rfl
        | some t' =>
          simp only
          rw [if_neg]
          simp only [wE, beq_iff_eq]
          intro e; exact hne (nC_inj e)
    · intro p hp
      refine isum_zero fun t ht => isum_zero fun c' _ => ?_
      have := nP_lt (i := pr.input) (p := p) (t := t) (by simpa using hp) (by simpa using ht)
      rw [if_neg]; simp only [mkEdge, nC, beq_iff_eq]; omega
  constructor
  · intro hs
    rw [hin, hout, hs]
    refine ⟨?_, rfl⟩
    refine isum_zero fun p hp => isum_zero fun t ht => ?_
    refine X_zero x h hd (by simpa using hp) (by simpa using ht) hc ?_
    intro ha; rw [ha.1] at hs; cases hs
  · intro t hs
    rw [hin, hout, hs]
    refine ⟨?_, rfl⟩
    refine isum_congr fun p hp => ?_
    rw [isum_range_single (h.shape.range c t hs)]
    intro t' ht' hne
    refine X_zero x h hd (by simpa using hp) ht' hc ?_
    intro ha; rw [ha.1] at hs; cases hs; exact hne rfl

theorem node_slot (h : Setting pr s st) (hd : FlowDesc pr s st limit f) {t : Nat} (ht : t < pr.input.ns) :
    ((idxs (allEdges pr s st limit) (fun e => e.dst == nS pr.input t)).map (val x)).sum =
      isum (List.range pr.input.nc) (fun c => if slotAt s c = some t then Wv pr f x c t else 0) ∧
    ((idxs (allEdges pr s st limit) (fun e => e.src == nS pr.input t)).map (val x)).sum = 0 := by
  constructor
  · rw [sum_src x h hd]
    rw [isum_zero (l := List.range pr.input.np), Int.zero_add]
    · refine isum_congr fun c _ => ?_
      cases hs : slotAt s c with
      | none => simp
      | some t' =>
        simp only [Option.some.injEq]
        by_cases e : t' = t
        · subst e; rw [if_pos (by simp [wE]), if_pos rfl]
        · rw [if_neg, if_neg e]
          simp only [wE, beq_iff_eq]
          intro h'; exact e (nS_inj h')
    · intro p _
      refine isum_zero fun t' _ => isum_zero fun c hc => ?_
      have : c < pr.input.nc := by simpa using hc
      rw [if_neg]; simp only [mkEdge, nC, nS, beq_iff_eq]; omega
  · rw [sum_src x h hd]
    rw [isum_zero (l := List.range pr.input.np), isum_zero (l := List.range pr.input.nc)]
    · rfl
    · intro c hc
      have : c < pr.input.nc := by simpa using hc
      cases slotAt s c with
      | none => rfl
      | some t' => simp only; rw [if_neg]; simp only [wE, nC, nS, beq_iff_eq]; omega
    · intro p hp
      refine isum_zero fun t' ht' => isum_zero fun c _ => ?_
      have := nP_lt (i := pr.input) (p := p) (t := t') (by simpa using hp) (by simpa using ht')
      rw [if_neg]; simp only [mkEdge, nS, beq_iff_eq]; omega

end

/-! ### The constraints -/

/-- What a solution of the program satisfies. -/
structure FlowVals (pr : AProblem) (s : Scheduling) (limit : Nat) (f : MipFlow) (x : List Int) : Prop where
  zero1 : Zero1 pr f x
  allow : ∀ p t c, p < pr.input.np → t < pr.input.ns → c < pr.input.nc → X pr f x p t c = 1 → Allow pr s limit p t c
  one : ∀ p t, p < pr.input.np → t < pr.input.ns → isum (List.range pr.input.nc) (fun c => X pr f x p t c) = 1
  bounds : ∀ c t, c < pr.input.nc → slotAt s c = some t →
    (minN pr.input c : Int) ≤ isum (List.range pr.input.np) (fun p => X pr f x p t c) ∧
    isum (List.range pr.input.np) (fun p => X pr f x p t c) ≤ maxN pr.input c
  pairs : ∀ k ∈ pr.input.asgCons, PairCond pr s f k x
  deps : ∀ g ∈ pr.input.depGroups, DepCond pr s f g x

theorem supply_chooser {p t : Nat} (hp : p < pr.input.np) (ht : t < pr.input.ns) : supplyOf pr s (nP pr.input p t) = 1 := by
  unfold supplyOf; exact if_pos (nP_lt hp ht)

theorem supply_choice {c : Nat} (hc : c < pr.input.nc) : supplyOf pr s (nC pr.input c) =
    if slotAt s c = none then 0 else -(minN pr.input c : Int) := by
  unfold supplyOf nC
  rw [if_neg (by omega), if_pos (by omega), show pr.input.np * pr.input.ns + c - pr.input.np * pr.input.ns = c by omega]

theorem supply_slot {t : Nat} : supplyOf pr s (nS pr.input t) =
    -((pr.input.np : Int) - (slotSum pr.input s (·.min) t : Nat)) := by
  unfold supplyOf nS
  rw [if_neg (by omega), if_neg (by omega)]
  congr 4; omega

theorem flowOk_vals (h : Setting pr s st) {f : MipFlow} (hd : FlowDesc pr s st limit f) {x : List Int} (hx : FlowOk f x) :
    FlowVals pr s limit f x := by
  have hsm := h.small
  have hcount : f.edgeCount = (allEdges pr s st limit).length := by unfold MipFlow.edgeCount; rw [hd.rep.max]; simp
  have hval : ∀ e ∈ allEdges pr s st limit, 0 ≤ V f x e.src e.dst ∧ V f x e.src e.dst ≤ e.max := by
    intro e he
    obtain ⟨k, hk, hg⟩ := List.getElem_of_mem he
    have hg' : (allEdges pr s st limit)[k]? = some e := by simp [hk, hg]
    have := edges_u32 h e he
    rw [V_edge hd.rep x hg' this.1 this.2]
    exact ⟨hx.lower k (by rw [hcount]; exact hk), hx.upper k e.max (by rw [hd.rep.max]; simp [hk, hg])⟩
  have hX : ∀ p t c, p < pr.input.np → t < pr.input.ns → c < pr.input.nc → Allow pr s limit p t c →
      0 ≤ X pr f x p t c ∧ X pr f x p t c ≤ 1 := by
    intro p t c hp ht hc ha
    exact hval (mkEdge pr p t c) ((mem_allEdges h).2 (.inl ⟨p, t, c, hp, ht, hc, ha, rfl⟩))
  have hz : Zero1 pr f x := by
    intro p t c hp ht hc
    by_cases ha : Allow pr s limit p t c
    · have := hX p t c hp ht hc ha
      show X pr f x p t c = 0 ∨ X pr f x p t c = 1
      omega
    · exact .inl (X_zero x h hd hp ht hc ha)
  have hnodes : f.nodeCount = nodes pr.input := by unfold MipFlow.nodeCount; exact hd.rep.outLen
  have hcons : ∀ n, n < nodes pr.input →
      ((idxs (allEdges pr s st limit) (fun e => e.dst == n)).map (val x)).sum -
      ((idxs (allEdges pr s st limit) (fun e => e.src == n)).map (val x)).sum = - supplyOf pr s n := by
    intro n hn
    exact hx.conserve n (by rw [hnodes]; exact hn) _ _ _ (hd.rep.inc n hn) (hd.rep.out n hn) (hd.sup n hn)
  have hg := (hd.groups x hz).1 ⟨hx.groups, hx.blocked⟩
  refine ⟨hz, ?_, ?_, ?_, hg.1, hg.2⟩
  · intro p t c hp ht hc h1
    by_contra ha
    rw [X_zero x h hd hp ht hc ha] at h1
    cases h1
  · intro p t hp ht
    have hlt := nP_lt hp ht
    have := hcons (nP pr.input p t) (by unfold nodes; omega)
    obtain ⟨e1, e2⟩ := node_chooser x h hd hp ht
    rw [e1, e2, supply_chooser hp ht] at this
    omega
  · intro c t hc hs
    have := hcons (nC pr.input c) (by unfold nodes nC; omega)
    obtain ⟨e1, e2⟩ := (node_choice x h hd hc).2 t hs
    rw [e1, e2, supply_choice hc, hs] at this
    simp only [reduceCtorEq, if_false] at this
    have hb := hval (wE pr c t) ((mem_allEdges h).2 (.inr ⟨c, t, hc, h.shape.range c t hs, hs, rfl⟩))
    have hb' : 0 ≤ Wv pr f x c t ∧ Wv pr f x c t ≤ (maxN pr.input c : Int) - minN pr.input c := hb
    omega

theorem vals_flowOk (h : Setting pr s st) {f : MipFlow} (hd : FlowDesc pr s st limit f) {x : List Int}
    (hlen : x.length = f.edgeCount) (hx : FlowVals pr s limit f x)
    (hw : ∀ c t, c < pr.input.nc → slotAt s c = some t →
      Wv pr f x c t = isum (List.range pr.input.np) (fun p => X pr f x p t c) - minN pr.input c) : FlowOk f x := by
  have hsm := h.small
  have hcount : f.edgeCount = (allEdges pr s st limit).length := by unfold MipFlow.edgeCount; rw [hd.rep.max]; simp
  have hedge : ∀ (k : Nat) (e : Edge), (allEdges pr s st limit)[k]? = some e → 0 ≤ val x k ∧ val x k ≤ e.max := by
    intro k e hk
    have he := List.mem_of_getElem? hk
    have hu := edges_u32 h e he
    rw [← V_edge hd.rep x hk hu.1 hu.2]
    rcases (mem_allEdges h).1 he with ⟨p, t, c, hp, ht, hc, ha, rfl⟩ | ⟨c, t, hc, ht, hs, rfl⟩
    · have := hx.zero1 p t c hp ht hc
      simp only [mkEdge]
      omega
    · have h1 := hw c t hc hs
      have h2 := hx.bounds c t hc hs
      show 0 ≤ Wv pr f x c t ∧ Wv pr f x c t ≤ (maxN pr.input c : Int) - minN pr.input c
      omega
  have hg := (hd.groups x hx.zero1).2 ⟨hx.pairs, hx.deps⟩
  refine ⟨hlen, ?_, ?_, hg.1, hg.2, ?_⟩
  · intro e he
    rw [hcount] at he
    exact (hedge e _ (by simp [he]; rfl)).1
  · intro e m hm
    rw [hd.rep.max, List.getElem?_map] at hm
    cases hk : (allEdges pr s st limit)[e]? with
    | none => rw [hk] at hm; cases hm
    | some ed =>
      rw [hk] at hm
      simp at hm
      rw [← hm]
      exact (hedge e ed hk).2
  · intro n hn inc out sup h1 h2 h3
    have hnodes : f.nodeCount = nodes pr.input := by unfold MipFlow.nodeCount; exact hd.rep.outLen
    rw [hnodes] at hn
    rw [hd.rep.inc n hn] at h1
    rw [hd.rep.out n hn] at h2
    rw [hd.sup n hn] at h3
    cases h1; cases h2; cases h3
    by_cases c1 : n < pr.input.np * pr.input.ns
    · have hns : 0 < pr.input.ns := by
        rcases Nat.eq_zero_or_pos pr.input.ns with h0 | h0
        · rw [h0, Nat.mul_zero] at c1; omega
        · exact h0
      have hp : n / pr.input.ns < pr.input.np := Nat.div_lt_of_lt_mul (by rw [Nat.mul_comm]; exact c1)
      have ht : n % pr.input.ns < pr.input.ns := Nat.mod_lt _ hns
      have hn' : n = nP pr.input (n / pr.input.ns) (n % pr.input.ns) := by
        unfold nP; rw [Nat.mul_comm]; exact (Nat.div_add_mod n pr.input.ns).symm
      obtain ⟨e1, e2⟩ := node_chooser x h hd hp ht
      rw [← hn'] at e1 e2
      rw [e1, e2, hx.one _ _ hp ht, hn', supply_chooser hp ht]
      omega
    · by_cases c2 : n < pr.input.np * pr.input.ns + pr.input.nc
      · obtain ⟨c, hc, rfl⟩ : ∃ c, c < pr.input.nc ∧ n = nC pr.input c :=
          ⟨n - pr.input.np * pr.input.ns, by omega, by unfold nC; omega⟩
        rw [supply_choice hc]
        cases hs : slotAt s c with
        | none =>
          obtain ⟨e1, e2⟩ := (node_choice x h hd hc).1 hs
          rw [e1, e2]; simp
        | some t =>
          obtain ⟨e1, e2⟩ := (node_choice x h hd hc).2 t hs
          rw [e1, e2, hw c t hc hs]
          simp only [reduceCtorEq, if_false]
          omega
      · obtain ⟨t, ht, rfl⟩ : ∃ t, t < pr.input.ns ∧ n = nS pr.input t :=
          ⟨n - (pr.input.np * pr.input.ns + pr.input.nc), by unfold nodes at hn; omega, by unfold nS; omega⟩
        obtain ⟨e1, e2⟩ := node_slot x h hd ht
        rw [e1, e2, supply_slot]
        have key : isum (List.range pr.input.nc) (fun c => if slotAt s c = some t then Wv pr f x c t else 0) =
            isum (List.range pr.input.nc) (fun c => isum (List.range pr.input.np) (fun p => X pr f x p t c)) -
            isum (List.range pr.input.nc) (fun c => ((if slotAt s c = some t then minN pr.input c else 0 : Nat) : Int)) := by
          rw [← isum_sub]
          refine isum_congr fun c hc => ?_
          have hc' : c < pr.input.nc := by simpa using hc
          by_cases hs : slotAt s c = some t
          · rw [if_pos hs, if_pos hs, hw c t hc' hs]
          · rw [if_neg hs, if_neg hs, isum_zero]
            · rfl
            · intro p hp
              exact X_zero x h hd (by simpa using hp) ht hc' (fun ha => hs ha.1)
        rw [key, isum_comm, isum_range_natCast]
        have hone : isum (List.range pr.input.np) (fun p => isum (List.range pr.input.nc) (fun c => X pr f x p t c)) = pr.input.np := by
          rw [isum_congr (g := fun _ => (1 : Int)) (fun p hp => hx.one p t (by simpa using hp) ht), isum_const]
          simp
        rw [hone]
        have hsum : rsum pr.input.nc (fun c => if slotAt s c = some t then minN pr.input c else 0) = slotSum pr.input s (·.min) t := rfl
        rw [hsum]
        omega

theorem flow_cost (h : Setting pr s st) {f : MipFlow} (hd : FlowDesc pr s st limit f) (x : List Int) :
    flowCost f x = isum (List.range pr.input.np) (fun p => isum (List.range pr.input.ns) (fun t =>
      isum (List.range pr.input.nc) (fun c => pr.cost (prefN pr.input p c) * X pr f x p t c))) := by
  classical
  rw [flowCost_eq hd.rep x (edges_u32 h), sum_all h]
  rw [isum_zero (l := List.range pr.input.nc) (f := fun c => match slotAt s c with
        | some t => (wE pr c t).cost * V f x (wE pr c t).src (wE pr c t).dst | none => 0), Int.add_zero]
  · refine isum_congr fun p hp => isum_congr fun t ht => isum_congr fun c hc => ?_
    simp only [List.mem_range] at hp ht hc
    by_cases ha : Allow pr s limit p t c
    · rw [if_pos ha]; rfl
    · rw [if_neg ha, X_zero x h hd hp ht hc ha]; simp
  · intro c _
    cases slotAt s c with
    | none => rfl
    | some t => simp [wE]

end
end Wassign
