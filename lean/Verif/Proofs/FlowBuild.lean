import Verif.Proofs.AsgState
import Verif.Proofs.FlowRep
/-
The flow problem built for a schedule state and a preference limit.
-/
namespace Wassign
open Spec Asg

/-- A chooser's preference as a number. -/
def prefN (i : InputData) (p c : Nat) : Nat := (pref i p c).getD 0

def minN (i : InputData) (c : Nat) : Nat := (i.choices[c]?.map (·.min)).getD 0
def maxN (i : InputData) (c : Nat) : Nat := (i.choices[c]?.map (·.max)).getD 0

/-- The setting: static data, a well-formed input, a scheduling and its state, few enough nodes. -/
structure Setting (pr : AProblem) (s : Scheduling) (st : ScheduleState) : Prop where
  sd : IsStatic pr.input pr.static
  wf : WF pr.input
  shape : SchedShape pr.input s
  ok : StOk pr.input s st
  small : nodes pr.input ≤ u32Max
  groups : ∀ g ∈ pr.input.depGroups, ∀ c ∈ g, c < pr.input.nc

section
variable {pr : AProblem} {s : Scheduling} {st : ScheduleState}



/-! ### Supplies -/

/-- The supply of node `n`. -/
def supplyOf (pr : AProblem) (s : Scheduling) (n : Nat) : Int :=
  if n < pr.input.np * pr.input.ns then 1
  else if n < pr.input.np * pr.input.ns + pr.input.nc then
    (if slotAt s (n - pr.input.np * pr.input.ns) = none then 0 else -(minN pr.input (n - pr.input.np * pr.input.ns) : Int))
  else -((pr.input.np : Int) - (slotSum pr.input s (·.min) (n - (pr.input.np * pr.input.ns + pr.input.nc)) : Nat))

/-- The supplies of the first `m` nodes are set; there are no edges yet. -/
structure SupInv (pr : AProblem) (s : Scheduling) (m : Nat) (f : MipFlow) : Prop where
  rep : Rep f (nodes pr.input) []
  groups : f.groups = []
  blocked : f.blocked = []
  sup : ∀ n, n < nodes pr.input → f.supply[n]? = some (if n < m then supplyOf pr s n else 0)

theorem supInv_base (h : Setting pr s st) : SupInv pr s 0 pr.static.baseFlow := by
  refine ⟨rep_base h.sd.base, h.sd.base.groups, h.sd.base.blocked, ?_⟩
  intro n hn
  rw [h.sd.base.sup]
  simp [hn]

theorem supInv_set {f : MipFlow} {m : Nat} (h : SupInv pr s m f) (hm : m < nodes pr.input) :
    ∃ f', f.setSupply m (supplyOf pr s m) = .ok f' ∧ SupInv pr s (m + 1) f' := by
  obtain ⟨h1, h2⟩ := rep_setSupply h.rep hm (supplyOf pr s m)
  refine ⟨_, h1, h2, h.groups, h.blocked, ?_⟩
  intro n hn
  show (f.supply.set m _)[n]? = _
  by_cases e : m = n
  · subst e
    rw [List.getElem?_set_self (by rw [h.rep.supLen]; exact hm)]
    simp
  · rw [List.getElem?_set_ne e, h.sup n hn]
    by_cases h3 : n < m
    · rw [if_pos h3, if_pos (by omega)]
    · rw [if_neg h3, if_neg (by omega)]

theorem supInv_skip {f : MipFlow} {m : Nat} (h : SupInv pr s m f) (h0 : supplyOf pr s m = 0) : SupInv pr s (m + 1) f := by
  refine ⟨h.rep, h.groups, h.blocked, ?_⟩
  intro n hn
  rw [h.sup n hn]
  by_cases h3 : n < m
  · rw [if_pos h3, if_pos (by omega)]
  · by_cases e : n = m
    · subst e; simp [h0]
    · rw [if_neg h3, if_neg (by omega)]

theorem chooserSupplies_spec (h : Setting pr s st) :
    ∃ f, chooserSupplies pr pr.static.baseFlow = .ok f ∧ SupInv pr s (pr.input.np * pr.input.ns) f := by
  unfold chooserSupplies
  obtain ⟨f, hf, hi⟩ := foldlM_total (l := List.range pr.input.np)
    (f := fun f p => (List.range pr.input.ns).foldlM (fun f t => do
      let n ← pr.static.chooserNode p t
      f.setSupply n 1) f)
    (fun p f => SupInv pr s (p * pr.input.ns) f)
    (by
      intro p hp f hi
      have hp' : p < pr.input.np := by simpa using hp
      have hpp : (List.range pr.input.np)[p] = p := by simp
      rw [hpp]
      obtain ⟨f', hf', hi'⟩ := foldlM_total (l := List.range pr.input.ns)
        (f := fun f t => do
          let n ← pr.static.chooserNode p t
          MipFlow.setSupply f n 1)
        (fun t f => SupInv pr s (p * pr.input.ns + t) f)
        (by
          intro t ht f hi
          have ht' : t < pr.input.ns := by simpa using ht
          have htt : (List.range pr.input.ns)[t] = t := by simp
          rw [htt, h.sd.chooser p t hp' ht', R.bind_ok]
          have hlt := nP_lt hp' ht'
          have hsup : supplyOf pr s (p * pr.input.ns + t) = 1 := by
            unfold supplyOf; exact if_pos hlt
          have := supInv_set hi (by unfold nodes; unfold nP at hlt; omega)
          rw [hsup] at this
          exact this)
        (s := f) (by simpa using hi)
      refine ⟨f', hf', ?_⟩
      rw [Nat.succ_mul]
      simpa using hi')
    (s := pr.static.baseFlow) (by simpa using supInv_base h)
  exact ⟨f, hf, by simpa using hi⟩

theorem choiceSupply_fold (h : Setting pr s st) {f : MipFlow} (hf : SupInv pr s (pr.input.np * pr.input.ns) f) :
    (∀ f', s.zipIdx.foldlM (choiceSupply pr) f = .ok f' → SupInv pr s (pr.input.np * pr.input.ns + pr.input.nc) f') ∧
    ((∀ c, c < pr.input.nc → slotAt s c ≠ none → minN pr.input c ≤ i32Max) → ∃ f', s.zipIdx.foldlM (choiceSupply pr) f = .ok f') := by
  have := foldlM_both (l := s.zipIdx) (f := choiceSupply pr) (fun k f => SupInv pr s (pr.input.np * pr.input.ns + k) f)
    (fun c => slotAt s c ≠ none → minN pr.input c ≤ i32Max) (s := f)
    (by
      intro k hk f hi
      have hk' : k < s.length := by simpa using hk
      have hkc : k < pr.input.nc := by rw [← h.shape.len]; exact hk'
      rw [zipIdx_get]
      have hsk := slotAt_get hk'
      unfold choiceSupply
      simp only
      cases hx : s[k] with
      | none =>
        constructor
        · intro f' hf'
          simp only [R.pure_eq, Except.ok.injEq] at hf'
          subst hf'
          refine supInv_skip hi ?_
          show supplyOf pr s (pr.input.np * pr.input.ns + k) = 0
          unfold supplyOf
          rw [if_neg (by omega), if_pos (by omega), show pr.input.np * pr.input.ns + k - pr.input.np * pr.input.ns = k by omega, hsk, hx]
          simp
        · intro _; exact ⟨_, rfl⟩
      | some t =>
        simp only
        rw [h.sd.choice k hkc, R.bind_ok, idx_ok hkc, R.bind_ok]
        have hmin : minN pr.input k = pr.input.choices[k].min := by simp [minN, hkc]
        have hset := supInv_set hi (show pr.input.np * pr.input.ns + k < nodes pr.input by unfold nodes; omega)
        have hsup : supplyOf pr s (pr.input.np * pr.input.ns + k) = -(minN pr.input k : Int) := by
          unfold supplyOf
          rw [if_neg (by omega), if_pos (by omega), show pr.input.np * pr.input.ns + k - pr.input.np * pr.input.ns = k by omega, hsk, hx]
          simp
        rw [hsup] at hset
        obtain ⟨f2, hf2, hi2⟩ := hset
        constructor
        · intro f' hf'
          rw [R.bind_eq_ok] at hf'
          obtain ⟨m, hm, hf'⟩ := hf'
          obtain ⟨_, rfl⟩ := toI32_eq_ok.1 hm
          rw [← hmin] at hf'
          have : f.setSupply (nC pr.input k) (-(minN pr.input k : Int)) = .ok f2 := hf2
          rw [this] at hf'
          cases hf'
          exact hi2
        · intro hok
          have := hok (by rw [hsk, hx]; simp)
          rw [hmin] at this
          rw [toI32_eq_ok.2 ⟨this, rfl⟩, R.bind_ok, ← hmin]
          exact ⟨f2, hf2⟩)
    (by simpa using hf)
  refine ⟨?_, ?_⟩
  · intro f' hf'
    have := this.1 f' hf'
    rw [List.length_zipIdx, h.shape.len] at this
    exact this
  · intro hc
    exact this.2 (fun c hc' => hc c (by simpa [h.shape.len] using hc'))

theorem slotSupply_fold (h : Setting pr s st) {f : MipFlow} (hf : SupInv pr s (pr.input.np * pr.input.ns + pr.input.nc) f) :
    (∀ f', (List.range pr.input.ns).foldlM (slotSupply pr st.covered) f = .ok f' → SupInv pr s (nodes pr.input) f') ∧
    (pr.input.np ≤ i32Max → (∀ t, t < pr.input.ns → slotSum pr.input s (·.min) t ≤ i32Max) →
      ∃ f', (List.range pr.input.ns).foldlM (slotSupply pr st.covered) f = .ok f') := by
  have := foldlM_both (l := List.range pr.input.ns) (f := slotSupply pr st.covered) (fun k f => SupInv pr s (pr.input.np * pr.input.ns + pr.input.nc + k) f)
    (fun t => pr.input.np ≤ i32Max ∧ slotSum pr.input s (·.min) t ≤ i32Max) (s := f)
    (by
      intro k hk f hi
      have hk' : k < pr.input.ns := by simpa using hk
      have hkk : (List.range pr.input.ns)[k] = k := by simp
      rw [hkk]
      unfold slotSupply
      rw [h.sd.slot k hk', R.bind_ok]
      have hcov : st.covered[k]? = some (slotSum pr.input s (·.min) k) := by
        have := h.ok.slotted.cov
        simp only at this
        rw [this, psums_get hk', slotSum_eq]
      have hset := supInv_set hi (show pr.input.np * pr.input.ns + pr.input.nc + k < nodes pr.input by unfold nodes; omega)
      have hsup : supplyOf pr s (pr.input.np * pr.input.ns + pr.input.nc + k) = -((pr.input.np : Int) - (slotSum pr.input s (·.min) k : Nat)) := by
        unfold supplyOf
        rw [if_neg (by omega), if_neg (by omega)]
        congr 4; omega
      rw [hsup] at hset
      obtain ⟨f2, hf2, hi2⟩ := hset
      constructor
      · intro f' hf'
        simp only [R.bind_eq_ok] at hf'
        obtain ⟨a, ha, cv, hcv, b, hb, d, hd, d', hd', hf'⟩ := hf'
        obtain ⟨_, rfl⟩ := toI32_eq_ok.1 ha
        rw [idx_eq_ok, hcov] at hcv
        cases hcv
        obtain ⟨_, rfl⟩ := toI32_eq_ok.1 hb
        obtain ⟨_, rfl⟩ := chkI32_eq_ok.1 hd
        obtain ⟨_, rfl⟩ := chkI32_eq_ok.1 hd'
        have : f.setSupply (nS pr.input k) (-((pr.input.np : Int) - (slotSum pr.input s (·.min) k : Nat))) = .ok f2 := hf2
        rw [this] at hf'
        cases hf'
        exact hi2
      · rintro ⟨h1, h2⟩
        unfold i32Max at h1 h2
        rw [toI32_eq_ok.2 ⟨h1, rfl⟩, R.bind_ok, idx_eq_ok.2 hcov, R.bind_ok, toI32_eq_ok.2 ⟨h2, rfl⟩, R.bind_ok,
          chkI32_eq_ok.2 ⟨(by omega), rfl⟩, R.bind_ok, chkI32_eq_ok.2 ⟨(by omega), rfl⟩, R.bind_ok]
        exact ⟨f2, hf2⟩)
    (by simpa using hf)
  refine ⟨?_, ?_⟩
  · intro f' hf'
    have := this.1 f' hf'
    rw [List.length_range] at this
    exact this
  · intro h1 h2
    exact this.2 (fun t ht => ⟨h1, h2 t (by simpa using ht)⟩)

/-! ### Edges -/

/-- Whether chooser `p` may be sent to choice `c` in slot `t`. -/
def allowB (pr : AProblem) (blocked : List (Nat × Nat)) (limit p t c : Nat) : Bool :=
  decide (prefN pr.input p c ≤ limit) && !blocked.contains (nP pr.input p t, nC pr.input c)

def mkEdge (pr : AProblem) (p t c : Nat) : Edge := ⟨nP pr.input p t, nC pr.input c, 1, pr.cost (prefN pr.input p c)⟩

/-- The edges of chooser `p` in slot `t` with choices `l`. -/
def cellEdges (pr : AProblem) (blocked : List (Nat × Nat)) (limit p t : Nat) (l : List Nat) : List Edge :=
  (l.filter (allowB pr blocked limit p t)).map (mkEdge pr p t)

/-- Two flows agree in everything but the edges. -/
def SameSup (f g : MipFlow) : Prop := g.supply = f.supply ∧ g.groups = f.groups ∧ g.blocked = f.blocked

theorem SameSup.refl (f : MipFlow) : SameSup f f := ⟨rfl, rfl, rfl⟩
theorem SameSup.trans {f g k : MipFlow} (h1 : SameSup f g) (h2 : SameSup g k) : SameSup f k :=
  ⟨h2.1.trans h1.1, h2.2.1.trans h1.2.1, h2.2.2.trans h1.2.2⟩

theorem choiceEdge_spec (h : Setting pr s st) {f : MipFlow} {E : List Edge} (hr : Rep f (nodes pr.input) E)
    (blocked : List (Nat × Nat)) (limit : Nat) {p t c : Nat} (hp : p < pr.input.np) (ht : t < pr.input.ns) (hc : c < pr.input.nc)
    (hnew : ∀ e ∈ E, ¬ (e.src = nP pr.input p t ∧ e.dst = nC pr.input c)) :
    ∃ f', choiceEdge pr blocked limit p (nP pr.input p t) f c = .ok f' ∧
      Rep f' (nodes pr.input) (E ++ cellEdges pr blocked limit p t [c]) ∧ SameSup f f' := by
  have hlen : pr.input.choosers[p].prefs.length = pr.input.nc := h.wf.prefLen _ (List.getElem_mem hp)
  have hpref : prefN pr.input p c = pr.input.choosers[p].prefs[c]'(by omega) := by
    simp [prefN, pref, hp, hlen, hc]
  have hnP := nP_lt hp ht
  have hsm := h.small
  unfold choiceEdge
  rw [idx_ok hp, R.bind_ok, idx_ok (by omega : c < _), R.bind_ok, ← hpref]
  by_cases h1 : limit < prefN pr.input p c
  · rw [if_pos h1]
    refine ⟨f, rfl, ?_, SameSup.refl f⟩
    have : allowB pr blocked limit p t c = false := by
      unfold allowB; simp; intro; omega
    simp [cellEdges, this]
    exact hr
  · rw [if_neg h1, h.sd.choice c hc, R.bind_ok]
    by_cases h2 : blocked.contains (nP pr.input p t, nC pr.input c) = true
    · rw [if_pos h2]
      refine ⟨f, rfl, ?_, SameSup.refl f⟩
      have : allowB pr blocked limit p t c = false := by
        unfold allowB; rw [h2]; simp
      simp [cellEdges, this]
      exact hr
    · rw [if_neg h2]
      have hal : allowB pr blocked limit p t c = true := by
        unfold allowB
        rw [Bool.eq_false_iff.2 h2]
        simp; omega
      have hk : edgeId (nP pr.input p t) (nC pr.input c) = .ok (makeLong (nP pr.input p t) (nC pr.input c)) := by
        unfold edgeId
        unfold nodes at hsm
        rw [toU32_eq_ok.2 ⟨(by omega : nP pr.input p t ≤ u32Max), rfl⟩, R.bind_ok,
          toU32_eq_ok.2 ⟨(by unfold nC; omega : nC pr.input c ≤ u32Max), rfl⟩]
        rfl
      rw [hk, R.bind_ok]
      obtain ⟨f', h3, h4, h5⟩ := rep_addKeyedEdge hr (a := nP pr.input p t) (b := nC pr.input c) (by unfold nodes; omega) (by unfold nodes nC; omega)
        hsm hnew 1 (pr.cost (prefN pr.input p c))
      rw [h3, R.bind_ok]
      refine ⟨f', rfl, ?_, h5⟩
      simp only [cellEdges, List.filter_cons, hal, if_true, List.filter_nil, List.map_cons, List.map_nil]
      exact h4

theorem cellEdges_append (blocked : List (Nat × Nat)) (limit p t : Nat) (l l' : List Nat) :
    cellEdges pr blocked limit p t (l ++ l') = cellEdges pr blocked limit p t l ++ cellEdges pr blocked limit p t l' := by
  simp [cellEdges]

theorem mem_cellEdges {blocked : List (Nat × Nat)} {limit p t : Nat} {l : List Nat} {e : Edge} :
    e ∈ cellEdges pr blocked limit p t l ↔ ∃ c ∈ l, allowB pr blocked limit p t c = true ∧ e = mkEdge pr p t c := by
  simp only [cellEdges, List.mem_map, List.mem_filter]
  constructor
  · rintro ⟨c, ⟨h1, h2⟩, rfl⟩; exact ⟨c, h1, h2, rfl⟩
  · rintro ⟨c, h1, h2, rfl⟩; exact ⟨c, ⟨h1, h2⟩, rfl⟩

theorem cell_fold (h : Setting pr s st) (blocked : List (Nat × Nat)) (limit : Nat) {p t : Nat} (hp : p < pr.input.np) (ht : t < pr.input.ns) :
    ∀ (l : List Nat) (f : MipFlow) (E : List Edge), Rep f (nodes pr.input) E → l.Nodup → (∀ c ∈ l, c < pr.input.nc) →
      (∀ e ∈ E, ∀ c ∈ l, ¬ (e.src = nP pr.input p t ∧ e.dst = nC pr.input c)) →
      ∃ f', l.foldlM (choiceEdge pr blocked limit p (nP pr.input p t)) f = .ok f' ∧
        Rep f' (nodes pr.input) (E ++ cellEdges pr blocked limit p t l) ∧ SameSup f f' := by
  intro l
  induction l with
  | nil => intro f E hr _ _ _; exact ⟨f, rfl, by simpa [cellEdges] using hr, SameSup.refl f⟩
  | cons c l ih =>
    intro f E hr hn hc hnew
    rw [List.nodup_cons] at hn
    obtain ⟨f1, h1, h2, h3⟩ := choiceEdge_spec h hr blocked limit hp ht (hc c (by simp)) (fun e he => hnew e he c (by simp))
    obtain ⟨f2, h4, h5, h6⟩ := ih f1 _ h2 hn.2 (fun x hx => hc x (by simp [hx])) (by
      intro e he x hx
      rcases List.mem_append.1 he with he | he
      · exact hnew e he x (by simp [hx])
      · obtain ⟨y, hy, _, rfl⟩ := mem_cellEdges.1 he
        simp only [List.mem_singleton] at hy
        subst hy
        rintro ⟨_, e2⟩
        have := nC_inj e2
        subst this
        exact hn.1 hx)
    refine ⟨f2, by rw [List.foldlM_cons, h1, R.bind_ok, h4], ?_, h3.trans h6⟩
    rw [show c :: l = [c] ++ l from rfl, cellEdges_append, ← List.append_assoc]
    exact h5

/-- The edges of chooser `p` over a list of slots. -/
def rowEdges (pr : AProblem) (blocked : List (Nat × Nat)) (limit p : Nat) (ls : List (List Nat × Nat)) : List Edge :=
  ls.flatMap (fun e => cellEdges pr blocked limit p e.2 e.1)

theorem row_fold (h : Setting pr s st) (blocked : List (Nat × Nat)) (limit : Nat) {p : Nat} (hp : p < pr.input.np) :
    ∀ (ls : List (List Nat)) (n : Nat) (f : MipFlow) (E : List Edge), n + ls.length ≤ pr.input.ns →
      (∀ l ∈ ls, l.Nodup ∧ ∀ c ∈ l, c < pr.input.nc) → Rep f (nodes pr.input) E → (∀ e ∈ E, e.src < nP pr.input p n) →
      ∃ f', (ls.zipIdx n).foldlM (slotEdges pr blocked limit p) f = .ok f' ∧
        Rep f' (nodes pr.input) (E ++ rowEdges pr blocked limit p (ls.zipIdx n)) ∧ SameSup f f' ∧
        (∀ e ∈ E ++ rowEdges pr blocked limit p (ls.zipIdx n), e.src < nP pr.input p (n + ls.length)) := by
  intro ls
  induction ls with
  | nil =>
    intro n f E _ _ hr hsrc
    exact ⟨f, rfl, by simpa [rowEdges] using hr, SameSup.refl f, by simpa [rowEdges] using hsrc⟩
  | cons l ls ih =>
    intro n f E hlen hl hr hsrc
    simp only [List.length_cons] at hlen
    have hn : n < pr.input.ns := by omega
    obtain ⟨hl1, hl2⟩ := hl l (by simp)
    obtain ⟨f1, h1, h2, h3⟩ := cell_fold h blocked limit hp hn l f E hr hl1 hl2 (by
      rintro e he c _ ⟨e1, _⟩
      have := hsrc e he
      omega)
    obtain ⟨f2, h4, h5, h6, h7⟩ := ih (n + 1) f1 _ (by omega) (fun x hx => hl x (by simp [hx])) h2 (by
      intro e he
      rcases List.mem_append.1 he with he | he
      · have := hsrc e he; unfold nP at *; omega
      · obtain ⟨y, hy, _, rfl⟩ := mem_cellEdges.1 he
        simp [mkEdge, nP])
    refine ⟨f2, ?_, ?_, h3.trans h6, ?_⟩
    · rw [List.zipIdx_cons, List.foldlM_cons]
      unfold slotEdges
      rw [h.sd.chooser p n hp hn, R.bind_ok, h1, R.bind_ok]
      exact h4
    · rw [List.zipIdx_cons]
      simp only [rowEdges, List.flatMap_cons]
      rw [← List.append_assoc]
      exact h5
    · rw [List.zipIdx_cons]
      simp only [rowEdges, List.flatMap_cons]
      rw [← List.append_assoc, List.length_cons, show n + (ls.length + 1) = n + 1 + ls.length by omega]
      exact h7

/-- The edges of the first `k` choosers. -/
def chEdges (pr : AProblem) (st : ScheduleState) (blocked : List (Nat × Nat)) (limit k : Nat) : List Edge :=
  (List.range k).flatMap (fun p => rowEdges pr blocked limit p st.bySlot.zipIdx)

theorem Setting.lists (h : Setting pr s st) : ∀ l ∈ st.bySlot, l.Nodup ∧ ∀ c ∈ l, c < pr.input.nc := by
  intro l hl
  obtain ⟨t, ht, hg⟩ := List.getElem_of_mem hl
  obtain ⟨h1, h2⟩ := h.ok.slotted.lists t l (by simp [← hg, ht])
  refine ⟨h1, ?_⟩
  intro c hc
  have := (h2 c).1 hc
  unfold slotAt at this
  by_cases hlt : c < s.length
  · rw [← h.shape.len]; exact hlt
  · rw [List.getElem?_eq_none (by omega)] at this; cases this

theorem chooserEdges_spec (h : Setting pr s st) (blocked : List (Nat × Nat)) (limit : Nat) {f : MipFlow}
    (hr : Rep f (nodes pr.input) []) : ∃ f', chooserEdges pr st blocked limit f = .ok f' ∧
      Rep f' (nodes pr.input) (chEdges pr st blocked limit pr.input.np) ∧ SameSup f f' ∧
      ∀ e ∈ chEdges pr st blocked limit pr.input.np, e.src < pr.input.np * pr.input.ns := by
  unfold chooserEdges
  have hbl : st.bySlot.length = pr.input.ns := h.ok.slotted.len
  obtain ⟨f', hf', hi⟩ := foldlM_total (l := List.range pr.input.np)
    (f := fun f p => st.bySlot.zipIdx.foldlM (slotEdges pr blocked limit p) f)
    (fun k g => Rep g (nodes pr.input) (chEdges pr st blocked limit k) ∧ SameSup f g ∧
      ∀ e ∈ chEdges pr st blocked limit k, e.src < k * pr.input.ns)
    (by
      intro k hk g hi
      have hk' : k < pr.input.np := by simpa using hk
      have hkk : (List.range pr.input.np)[k] = k := by simp
      rw [hkk]
      obtain ⟨g', h1, h2, h3, h4⟩ := row_fold h blocked limit hk' st.bySlot 0 g _ (by omega) h.lists hi.1
        (by intro e he; have := hi.2.2 e he; unfold nP; omega)
      have hE : chEdges pr st blocked limit (k + 1) = chEdges pr st blocked limit k ++ rowEdges pr blocked limit k st.bySlot.zipIdx := by
        unfold chEdges
        rw [List.range_succ, List.flatMap_append]
        simp
      refine ⟨g', h1, by rw [hE]; exact h2, hi.2.1.trans h3, ?_⟩
      rw [hE]
      intro e he
      have := h4 e he
      unfold nP at this
      rw [Nat.succ_mul]
      omega)
    (s := f) ⟨by simpa [chEdges] using hr, SameSup.refl f, by simp [chEdges]⟩
  rw [List.length_range] at hi
  exact ⟨f', hf', hi.1, hi.2.1, hi.2.2⟩

/-- The edge from a scheduled choice to its slot. -/
def wEdge (pr : AProblem) (e : Option Nat × Nat) : Option Edge :=
  e.1.map (fun t => ⟨nC pr.input e.2, nS pr.input t, (maxN pr.input e.2 : Int) - minN pr.input e.2, 0⟩)

def wEdges (pr : AProblem) (l : List (Option Nat × Nat)) : List Edge := l.filterMap (wEdge pr)

theorem mem_wEdges {l : List (Option Nat × Nat)} {e : Edge} :
    e ∈ wEdges pr l ↔ ∃ c t, (some t, c) ∈ l ∧ e = ⟨nC pr.input c, nS pr.input t, (maxN pr.input c : Int) - minN pr.input c, 0⟩ := by
  unfold wEdges wEdge
  rw [List.mem_filterMap]
  constructor
  · rintro ⟨⟨so, c⟩, h1, h2⟩
    cases so with
    | none => simp at h2
    | some t => simp at h2; exact ⟨c, t, h1, h2.symm⟩
  · rintro ⟨c, t, h1, rfl⟩
    exact ⟨(some t, c), h1, rfl⟩

theorem widthEdge_fold (h : Setting pr s st) {f : MipFlow} {E : List Edge} (hr : Rep f (nodes pr.input) E)
    (hsrc : ∀ e ∈ E, e.src < pr.input.np * pr.input.ns) :
    (∀ f', s.zipIdx.foldlM (widthEdge pr) f = .ok f' →
      Rep f' (nodes pr.input) (E ++ wEdges pr s.zipIdx) ∧ SameSup f f' ∧ ∀ c, c < pr.input.nc → slotAt s c ≠ none → minN pr.input c ≤ maxN pr.input c) ∧
    ((∀ c, c < pr.input.nc → slotAt s c ≠ none → minN pr.input c ≤ maxN pr.input c ∧ maxN pr.input c - minN pr.input c ≤ i32Max) →
      ∃ f', s.zipIdx.foldlM (widthEdge pr) f = .ok f') := by
  have := foldlM_both (l := s.zipIdx) (f := widthEdge pr)
    (fun k g => Rep g (nodes pr.input) (E ++ wEdges pr (s.zipIdx.take k)) ∧ SameSup f g ∧
      ∀ c, c < k → slotAt s c ≠ none → minN pr.input c ≤ maxN pr.input c)
    (fun c => slotAt s c ≠ none → minN pr.input c ≤ maxN pr.input c ∧ maxN pr.input c - minN pr.input c ≤ i32Max) (s := f)
    (by
      intro k hk g hi
      have hk' : k < s.length := by simpa using hk
      have hkc : k < pr.input.nc := by rw [← h.shape.len]; exact hk'
      have htake : s.zipIdx.take (k + 1) = s.zipIdx.take k ++ [(s[k], k)] := by
        rw [List.take_succ_eq_append_getElem hk, zipIdx_get]
      rw [zipIdx_get, htake]
      have hsk := slotAt_get hk'
      have hw : wEdges pr (s.zipIdx.take k ++ [(s[k], k)]) = wEdges pr (s.zipIdx.take k) ++ wEdges pr [(s[k], k)] := by
        simp [wEdges]
      rw [hw, ← List.append_assoc]
      unfold widthEdge
      simp only
      cases hx : s[k] with
      | none =>
        constructor
        · intro f' hf'
          simp only [R.pure_eq, Except.ok.injEq] at hf'
          subst hf'
          refine ⟨?_, hi.2.1, ?_⟩
          · have hz : wEdges pr [(none, k)] = [] := rfl
            rw [hz, List.append_nil]; exact hi.1
          · intro c hc hne
            by_cases e : c = k
            · subst e; rw [hsk, hx] at hne; exact absurd rfl hne
            · exact hi.2.2 c (by omega) hne
        · intro _; exact ⟨_, rfl⟩
      | some t =>
        have ht : t < pr.input.ns := h.shape.range k t (by rw [hsk, hx])
        simp only
        rw [h.sd.choice k hkc, R.bind_ok, h.sd.slot t ht, R.bind_ok]
        have hsm := h.small
        have hid : edgeId (nC pr.input k) (nS pr.input t) = .ok (makeLong (nC pr.input k) (nS pr.input t)) := by
          unfold edgeId
          unfold nodes at hsm
          rw [toU32_eq_ok.2 ⟨(by unfold nC; omega : nC pr.input k ≤ u32Max), rfl⟩, R.bind_ok,
            toU32_eq_ok.2 ⟨(by unfold nS; omega : nS pr.input t ≤ u32Max), rfl⟩]
          rfl
        rw [hid, R.bind_ok, idx_ok hkc, R.bind_ok]
        have hmin : minN pr.input k = pr.input.choices[k].min := by simp [minN, hkc]
        have hmax : maxN pr.input k = pr.input.choices[k].max := by simp [maxN, hkc]
        rw [← hmin, ← hmax]
        obtain ⟨f2, h3, h4, h5⟩ := rep_addKeyedEdge hi.1 (a := nC pr.input k) (b := nS pr.input t) (by unfold nodes nC; omega)
          (by unfold nodes nS; omega) hsm (by
            intro e he
            rcases List.mem_append.1 he with he | he
            · rintro ⟨e1, _⟩
              have := hsrc e he
              unfold nC at e1; omega
            · obtain ⟨c, t', h1, rfl⟩ := mem_wEdges.1 he
              rintro ⟨e1, _⟩
              have := nC_inj e1
              subst this
              obtain ⟨j, hj, hg⟩ := List.getElem_of_mem h1
              simp only [List.length_take, List.length_zipIdx] at hj
              rw [List.getElem_take, zipIdx_get] at hg
              simp only [Prod.mk.injEq] at hg
              omega)
          ((maxN pr.input k : Int) - minN pr.input k) 0
        constructor
        · intro f' hf'
          simp only [R.bind_eq_ok] at hf'
          obtain ⟨w, hw1, w', hw2, r, hr', hf'⟩ := hf'
          obtain ⟨hle, rfl⟩ := subU_eq_ok.1 hw1
          obtain ⟨_, rfl⟩ := toI32_eq_ok.1 hw2
          rw [show ((maxN pr.input k - minN pr.input k : Nat) : Int) = (maxN pr.input k : Int) - minN pr.input k by omega, h3] at hr'
          cases hr'
          cases hf'
          refine ⟨?_, hi.2.1.trans h5, ?_⟩
          · exact h4
          · intro c hc hne
            by_cases e : c = k
            · subst e; exact hle
            · exact hi.2.2 c (by omega) hne
        · intro hok
          obtain ⟨hle, hw⟩ := hok (by rw [hsk, hx]; simp)
          rw [subU_eq_ok.2 ⟨hle, rfl⟩, R.bind_ok, toI32_eq_ok.2 ⟨hw, rfl⟩, R.bind_ok,
            show ((maxN pr.input k - minN pr.input k : Nat) : Int) = (maxN pr.input k : Int) - minN pr.input k by omega, h3]
          exact ⟨_, rfl⟩)
    ⟨by simpa [wEdges] using hr, SameSup.refl f, by simp⟩
  refine ⟨?_, ?_⟩
  · intro f' hf'
    have := this.1 f' hf'
    rw [List.take_length, List.length_zipIdx, h.shape.len] at this
    exact this
  · intro hc
    exact this.2 (fun c hc' => hc c (by simpa [h.shape.len] using hc'))

/-! ### Groups -/

/-- All chooser edges carry 0 or 1. -/
def Zero1 (pr : AProblem) (f : MipFlow) (x : List Int) : Prop :=
  ∀ p t c, p < pr.input.np → t < pr.input.ns → c < pr.input.nc →
    V f x (nP pr.input p t) (nC pr.input c) = 0 ∨ V f x (nP pr.input p t) (nC pr.input c) = 1

/-- `g` adds, to flows that agree with `f0`, group constraints that say `C`. -/
def AddsGroups (pr : AProblem) (f0 : MipFlow) (g : MipFlow → R MipFlow) (C : List Int → Prop) : Prop :=
  ∀ f, SameButGroups f0 f → ∃ f', g f = .ok f' ∧ SameButGroups f0 f' ∧
    ∀ x, Zero1 pr f0 x → (GroupsOk f' x ↔ GroupsOk f x ∧ C x)

theorem addsGroups_id (f0 : MipFlow) : AddsGroups pr f0 (fun f => pure f) (fun _ => True) := by
  intro f hf
  exact ⟨f, rfl, hf, fun x _ => ⟨fun h => ⟨h, trivial⟩, fun h => h.1⟩⟩

theorem addsGroups_fold {α : Type} {f0 : MipFlow} {g : MipFlow → α → R MipFlow} {C : α → List Int → Prop} {l : List α}
    (h : ∀ a ∈ l, AddsGroups pr f0 (fun f => g f a) (C a)) :
    AddsGroups pr f0 (fun f => l.foldlM g f) (fun x => ∀ a ∈ l, C a x) := by
  induction l with
  | nil =>
    intro f hf
    exact ⟨f, rfl, hf, fun x _ => by simp⟩
  | cons a l ih =>
    intro f hf
    obtain ⟨f1, h1, h2, h3⟩ := h a (by simp) f hf
    obtain ⟨f2, h4, h5, h6⟩ := ih (fun b hb => h b (by simp [hb])) f1 h2
    have h1' : g f a = .ok f1 := h1
    refine ⟨f2, by simp only [List.foldlM_cons]; rw [h1', R.bind_ok]; exact h4, h5, ?_⟩
    intro x hx
    rw [h6 x hx, h3 x hx]
    simp only [List.mem_cons, forall_eq_or_imp]
    constructor
    · rintro ⟨⟨a1, a2⟩, a3⟩; exact ⟨a1, a2, a3⟩
    · rintro ⟨a1, a2, a3⟩; exact ⟨⟨a1, a2⟩, a3⟩

theorem edgeId_ok (h : Setting pr s st) {p t c : Nat} (hp : p < pr.input.np) (ht : t < pr.input.ns) (hc : c < pr.input.nc) :
    edgeId (nP pr.input p t) (nC pr.input c) = .ok (makeLong (nP pr.input p t) (nC pr.input c)) := by
  have hsm := h.small
  have hnP := nP_lt hp ht
  unfold edgeId
  unfold nodes at hsm
  rw [toU32_eq_ok.2 ⟨(by omega : nP pr.input p t ≤ u32Max), rfl⟩, R.bind_ok,
    toU32_eq_ok.2 ⟨(by unfold nC; omega : nC pr.input c ≤ u32Max), rfl⟩]
  rfl

theorem pairGroup_adds (h : Setting pr s st) (f0 : MipFlow) {p q t c : Nat} (hp : p < pr.input.np) (hq : q < pr.input.np) (ht : t < pr.input.ns)
    (hc : c < pr.input.nc) : AddsGroups pr f0 (fun f => pairGroup pr p q t f c)
      (fun x => V f0 x (nP pr.input p t) (nC pr.input c) = V f0 x (nP pr.input q t) (nC pr.input c)) := by
  intro f hf
  unfold pairGroup
  simp only
  rw [h.sd.chooser p t hp ht, R.bind_ok, h.sd.choice c hc, R.bind_ok, h.sd.chooser q t hq ht, R.bind_ok, R.bind_ok,
    edgeId_ok h hp ht hc, R.bind_ok, edgeId_ok h hq ht hc, R.bind_ok]
  refine ⟨_, rfl, hf.trans (sameButGroups_groupOrBlock _ _), ?_⟩
  intro x hx
  have := groupOrBlock_ok (f := f) [(nP pr.input p t, nC pr.input c), (nP pr.input q t, nC pr.input c)] x (by
    intro k hk
    simp only [List.mem_cons, List.not_mem_nil, or_false] at hk
    rcases hk with rfl | rfl
    · rw [hf.V]; exact hx p t c hp ht hc
    · rw [hf.V]; exact hx q t c hq ht hc)
  simp only [List.map_cons, List.map_nil] at this
  rw [this]
  have : KeysOk f x [(nP pr.input p t, nC pr.input c), (nP pr.input q t, nC pr.input c)] ↔ V f0 x (nP pr.input p t) (nC pr.input c) = V f0 x (nP pr.input q t) (nC pr.input c) := by
    unfold KeysOk
    simp only [List.mem_cons, List.not_mem_nil, or_false, forall_eq_or_imp, forall_eq, hf.V]
    constructor
    · rintro ⟨⟨_, h1⟩, _⟩; exact h1
    · intro e; exact ⟨⟨trivial, e⟩, e.symm, trivial⟩
  rw [this]

/-- What a same-choices constraint demands of the flow. -/
def PairCond (pr : AProblem) (s : Scheduling) (f0 : MipFlow) (c : Constraint) (x : List Int) : Prop :=
  ∀ q, c.kind = .choosersHaveSameChoices → c.right = .chooser q → ∀ t y, t < pr.input.ns → slotAt s y = some t →
    V f0 x (nP pr.input c.left t) (nC pr.input y) = V f0 x (nP pr.input q t) (nC pr.input y)

theorem addsGroups_congr {f0 : MipFlow} {g : MipFlow → R MipFlow} {C C' : List Int → Prop} (h : AddsGroups pr f0 g C)
    (e : ∀ x, C x ↔ C' x) : AddsGroups pr f0 g C' := by
  intro f hf
  obtain ⟨f', h1, h2, h3⟩ := h f hf
  refine ⟨f', h1, h2, ?_⟩
  intro x hx
  rw [h3 x hx, e x]

theorem Setting.bySlot (h : Setting pr s st) {t : Nat} (ht : t < pr.input.ns) :
    ∃ l, st.bySlot[t]? = some l ∧ l.Nodup ∧ (∀ c ∈ l, c < pr.input.nc) ∧ ∀ c, c ∈ l ↔ slotAt s c = some t := by
  have hl : t < st.bySlot.length := by have := h.ok.slotted.len; simp at this; omega
  have hg : st.bySlot[t]? = some st.bySlot[t] := by simp [hl]
  obtain ⟨h1, h2⟩ := h.ok.slotted.lists t _ hg
  exact ⟨_, hg, h1, (h.lists _ (List.getElem_mem hl)).2, h2⟩

theorem pairGroups_adds (h : Setting pr s st) (f0 : MipFlow) {k : Constraint} (hk : AsgConWF pr.input k) :
    AddsGroups pr f0 (fun f => pairGroups pr st f k) (PairCond pr s f0 k) := by
  by_cases hkind : k.kind = .choosersHaveSameChoices
  · obtain ⟨kd, lf, rt, ex⟩ := k
    simp only at hkind
    subst hkind
    cases rt <;> (simp only [AsgConWF] at hk; try (exact hk.elim))
    rename_i q
    obtain ⟨hp, hq⟩ := hk
    have hfold : AddsGroups pr f0 (fun f => (List.range pr.input.ns).foldlM (fun f t => do
        let choices ← idx st.bySlot t "scheduled_choices_by_slot[slot]"
        choices.foldlM (pairGroup pr lf q t) f) f)
        (fun x => ∀ t ∈ List.range pr.input.ns, ∀ y, slotAt s y = some t → V f0 x (nP pr.input lf t) (nC pr.input y) = V f0 x (nP pr.input q t) (nC pr.input y)) := by
      refine addsGroups_fold ?_
      intro t ht
      have ht' : t < pr.input.ns := by simpa using ht
      obtain ⟨l, hl, _, hl2, hl3⟩ := h.bySlot ht'
      have hf := addsGroups_fold (pr := pr) (f0 := f0) (g := pairGroup pr lf q t)
        (C := fun c x => V f0 x (nP pr.input lf t) (nC pr.input c) = V f0 x (nP pr.input q t) (nC pr.input c)) (l := l)
        (fun c hc => pairGroup_adds h f0 hp hq ht' (hl2 c hc))
      intro f hsf
      obtain ⟨f', h1, h2, h3⟩ := hf f hsf
      refine ⟨f', ?_, h2, ?_⟩
      · show (idx st.bySlot t _ >>= fun choices => choices.foldlM (pairGroup pr lf q t) f) = _
        rw [idx_eq_ok.2 hl, R.bind_ok]; exact h1
      · intro x hx
        rw [h3 x hx]
        simp only [hl3]
    intro f hsf
    obtain ⟨f', h1, h2, h3⟩ := hfold f hsf
    refine ⟨f', ?_, h2, ?_⟩
    · simp only [pairGroups, ne_eq, not_true, if_false, Constraint.otherChooser, R.bind_ok]
      exact h1
    · intro x hx
      rw [h3 x hx]
      unfold PairCond
      simp only [List.mem_range, Target.chooser.injEq]
      constructor
      · rintro ⟨a1, a2⟩
        exact ⟨a1, fun q' _ e t y ht hy => by subst e; exact a2 t ht y hy⟩
      · rintro ⟨a1, a2⟩
        exact ⟨a1, fun t ht y hy => a2 q trivial rfl t y ht hy⟩
  · intro f hsf
    refine ⟨f, by simp only [pairGroups, ne_eq, hkind, not_false_eq_true, if_true]; rfl, hsf, ?_⟩
    intro x _
    unfold PairCond
    simp [hkind]

/-- What a dependency group demands of the flow. -/
def DepCond (pr : AProblem) (s : Scheduling) (f0 : MipFlow) (g : List Nat) (x : List Int) : Prop :=
  g.length ≠ 1 → ∀ p, p < pr.input.np → ∀ c ∈ g, ∀ c' ∈ g, ∀ t t', slotAt s c = some t → slotAt s c' = some t' →
    V f0 x (nP pr.input p t) (nC pr.input c) = V f0 x (nP pr.input p t') (nC pr.input c')

theorem depKeys_spec (h : Setting pr s st) {p : Nat} (hp : p < pr.input.np) {g : List Nat} (hg : ∀ c ∈ g, c < pr.input.nc) :
    depKeys pr st p g = .ok ((g.filterMap (fun c => (slotAt s c).map (fun t => (nP pr.input p t, nC pr.input c)))).map
      (fun k => makeLong k.1 k.2)) := by
  unfold depKeys
  rw [mapM_eq_ok_of (g := fun c => (slotAt s c).map (fun t => makeLong (nP pr.input p t) (nC pr.input c)))]
  · rw [R.bind_ok, R.pure_eq]
    congr 1
    rw [List.filterMap_map, List.map_filterMap]
    congr 1
    funext c
    simp only [Function.comp, id]
    cases slotAt s c <;> rfl
  · intro c hc
    have hc' := hg c hc
    have hcs : c < s.length := by rw [h.shape.len]; exact hc'
    rw [h.ok.slots, idx_ok hcs, R.bind_ok]
    have hsl := slotAt_get hcs
    rw [hsl]
    cases hx : s[c] with
    | none => rfl
    | some t =>
      have ht : t < pr.input.ns := h.shape.range c t (by rw [hsl, hx])
      simp only
      rw [h.sd.chooser p t hp ht, R.bind_ok, h.sd.choice c hc', R.bind_ok, edgeId_ok h hp ht hc', R.bind_ok]
      rfl

theorem depGroup_adds (h : Setting pr s st) (f0 : MipFlow) {g : List Nat} (hg : ∀ c ∈ g, c < pr.input.nc) :
    AddsGroups pr f0 (fun f => depGroup pr st f g) (DepCond pr s f0 g) := by
  by_cases hlen : g.length = 1
  · intro f hf
    refine ⟨f, by simp only [depGroup, hlen, if_true]; rfl, hf, ?_⟩
    intro x _
    unfold DepCond
    simp [hlen]
  · have hfold : AddsGroups pr f0 (fun f => (List.range pr.input.np).foldlM (fun f p => do
        let ks ← depKeys pr st p g
        pure (f.groupOrBlock ks)) f) (fun x => ∀ p ∈ List.range pr.input.np, ∀ c ∈ g, ∀ c' ∈ g, ∀ t t', slotAt s c = some t → slotAt s c' = some t' →
          V f0 x (nP pr.input p t) (nC pr.input c) = V f0 x (nP pr.input p t') (nC pr.input c')) := by
      refine addsGroups_fold ?_
      intro p hp
      have hp' : p < pr.input.np := by simpa using hp
      intro f hf
      refine ⟨_, by simp only; rw [depKeys_spec h hp' hg, R.bind_ok]; rfl, hf.trans (sameButGroups_groupOrBlock _ _), ?_⟩
      intro x hx
      have hmem : ∀ k, k ∈ g.filterMap (fun c => (slotAt s c).map (fun t => (nP pr.input p t, nC pr.input c))) ↔
          ∃ c ∈ g, ∃ t, slotAt s c = some t ∧ k = (nP pr.input p t, nC pr.input c) := by
        intro k
        rw [List.mem_filterMap]
        constructor
        · rintro ⟨c, hc, e⟩
          cases hs : slotAt s c with
          | none => rw [hs] at e; cases e
          | some t => rw [hs] at e; simp at e; exact ⟨c, hc, t, hs, e.symm⟩
        · rintro ⟨c, hc, t, hs, rfl⟩
          exact ⟨c, hc, by rw [hs]; rfl⟩
      rw [groupOrBlock_ok (f := f) _ x (by
        intro k hk
        obtain ⟨c, hc, t, hs, rfl⟩ := (hmem k).1 hk
        rw [hf.V]
        exact hx p t c hp' (h.shape.range c t hs) (hg c hc))]
      have : KeysOk f x (g.filterMap (fun c => (slotAt s c).map (fun t => (nP pr.input p t, nC pr.input c)))) ↔
          ∀ c ∈ g, ∀ c' ∈ g, ∀ t t', slotAt s c = some t → slotAt s c' = some t' →
            V f0 x (nP pr.input p t) (nC pr.input c) = V f0 x (nP pr.input p t') (nC pr.input c') := by
        unfold KeysOk
        constructor
        · intro hh c hc c' hc' t t' h1 h2
          have := hh (nP pr.input p t, nC pr.input c) ((hmem _).2 ⟨c, hc, t, h1, rfl⟩)
            (nP pr.input p t', nC pr.input c') ((hmem _).2 ⟨c', hc', t', h2, rfl⟩)
          rw [hf.V, hf.V] at this
          exact this
        · intro hh k hk k' hk'
          obtain ⟨c, hc, t, h1, rfl⟩ := (hmem k).1 hk
          obtain ⟨c', hc', t', h2, rfl⟩ := (hmem k').1 hk'
          rw [hf.V, hf.V]
          exact hh c hc c' hc' t t' h1 h2
      rw [this]
    intro f hf
    obtain ⟨f', h1, h2, h3⟩ := hfold f hf
    refine ⟨f', by simp only [depGroup, hlen, if_false]; exact h1, h2, ?_⟩
    intro x hx
    rw [h3 x hx]
    unfold DepCond
    simp only [List.mem_range, ne_eq, hlen, not_false_eq_true, true_implies]

/-- The groups of the whole problem. -/
theorem edgeGroups_adds (h : Setting pr s st) (f0 : MipFlow) :
    AddsGroups pr f0 (edgeGroups pr st)
      (fun x => (∀ k ∈ pr.input.asgCons, PairCond pr s f0 k x) ∧ ∀ g ∈ pr.input.depGroups, DepCond pr s f0 g x) := by
  intro f hf
  obtain ⟨f1, h1, h2, h3⟩ := addsGroups_fold (pr := pr) (f0 := f0) (g := pairGroups pr st) (C := PairCond pr s f0)
    (l := pr.input.asgCons) (fun k hk => pairGroups_adds h f0 (h.wf.asg k hk)) f hf
  obtain ⟨f2, h4, h5, h6⟩ := addsGroups_fold (pr := pr) (f0 := f0) (g := depGroup pr st) (C := DepCond pr s f0)
    (l := pr.input.depGroups) (fun g hg => depGroup_adds h f0 (h.groups g hg)) f1 h2
  have h1' : pr.input.asgCons.foldlM (pairGroups pr st) f = .ok f1 := h1
  refine ⟨f2, by unfold edgeGroups; rw [h1', R.bind_ok]; exact h4, h5, ?_⟩
  intro x hx
  rw [h6 x hx, h3 x hx]
  exact and_assoc

/-! ### The whole flow -/

/-- All edges of the flow problem. -/
def allEdges (pr : AProblem) (s : Scheduling) (st : ScheduleState) (limit : Nat) : List Edge :=
  chEdges pr st (st.blocked ++ pr.static.blockedEdges) limit pr.input.np ++ wEdges pr s.zipIdx

/-- What is known of the finished flow `f`. -/
structure FlowDesc (pr : AProblem) (s : Scheduling) (st : ScheduleState) (limit : Nat) (f : MipFlow) : Prop where
  rep : Rep f (nodes pr.input) (allEdges pr s st limit)
  sup : ∀ n, n < nodes pr.input → f.supply[n]? = some (supplyOf pr s n)
  groups : ∀ x, Zero1 pr f x → (GroupsOk f x ↔
    (∀ k ∈ pr.input.asgCons, PairCond pr s f k x) ∧ ∀ g ∈ pr.input.depGroups, DepCond pr s f g x)
  width : ∀ c, c < pr.input.nc → slotAt s c ≠ none → minN pr.input c ≤ maxN pr.input c

/-- Conditions under which the flow can be built without a panic. -/
structure FlowFits (i' : InputData) (s : Scheduling) : Prop where
  min : ∀ c, c < i'.nc → slotAt s c ≠ none → minN i' c ≤ i32Max
  np : i'.np ≤ i32Max
  cov : ∀ t, t < i'.ns → slotSum i' s (·.min) t ≤ i32Max
  width : ∀ c, c < i'.nc → slotAt s c ≠ none → minN i' c ≤ maxN i' c ∧ maxN i' c - minN i' c ≤ i32Max

theorem buildFlow_both (h : Setting pr s st) (limit : Nat) :
    (∀ f, buildFlow pr st limit = .ok f → FlowDesc pr s st limit f) ∧
    (FlowFits pr.input s → ∃ f, buildFlow pr st limit = .ok f) := by
  obtain ⟨f1, e1, i1⟩ := chooserSupplies_spec h
  unfold buildFlow
  simp only
  rw [e1, R.bind_ok, h.ok.slots]
  have hc := choiceSupply_fold h i1
  have rest : ∀ f2, SupInv pr s (pr.input.np * pr.input.ns + pr.input.nc) f2 → ∀ f3, (List.range pr.input.ns).foldlM (slotSupply pr st.covered) f2 = .ok f3 →
      ∃ f4, chooserEdges pr st (st.blocked ++ pr.static.blockedEdges) limit f3 = .ok f4 ∧
        Rep f4 (nodes pr.input) (chEdges pr st (st.blocked ++ pr.static.blockedEdges) limit pr.input.np) ∧ SupInv pr s (nodes pr.input) f3 ∧ SameSup f3 f4 ∧
        ∀ e ∈ chEdges pr st (st.blocked ++ pr.static.blockedEdges) limit pr.input.np, e.src < pr.input.np * pr.input.ns := by
    intro f2 i2 f3 e3
    have i3 := (slotSupply_fold h i2).1 f3 e3
    obtain ⟨f4, e4, r4, s4, b4⟩ := chooserEdges_spec h (st.blocked ++ pr.static.blockedEdges) limit i3.rep
    exact ⟨f4, e4, r4, i3, s4, b4⟩
  constructor
  · intro f hf
    simp only [R.bind_eq_ok] at hf
    obtain ⟨f2, e2, f3, e3, f4, e4, f5, e5, hf⟩ := hf
    have i2 := hc.1 f2 e2
    obtain ⟨f4', e4', r4, i3, s4, b4⟩ := rest f2 i2 f3 e3
    rw [e4'] at e4; cases e4
    obtain ⟨r5, s5, w5⟩ := (widthEdge_fold h r4 b4).1 f5 e5
    obtain ⟨f6, e6, r6, g6⟩ := edgeGroups_adds h f5 f5 (SameButGroups.refl f5)
    rw [e6] at hf; cases hf
    have s45 := s4.trans s5
    refine ⟨r6.rep r5, ?_, ?_, w5⟩
    · intro n hn
      rw [r6.2.1, s45.1, i3.sup n hn, if_pos hn]
    · intro x hx
      have hx5 : Zero1 pr f5 x := by
        intro p t c hp ht hc'
        rw [← r6.V]; exact hx p t c hp ht hc'
      rw [g6 x hx5]
      have hbase : GroupsOk f5 x := by
        constructor
        · rw [s45.2.1, i3.groups]; simp
        · rw [s45.2.2, i3.blocked]; simp
      have hP : ∀ k, PairCond pr s f k x ↔ PairCond pr s f5 k x := by
        intro k; unfold PairCond; simp only [r6.V]
      have hD : ∀ g, DepCond pr s f g x ↔ DepCond pr s f5 g x := by
        intro g; unfold DepCond; simp only [r6.V]
      simp only [hP, hD, hbase, true_and]
  · intro hfit
    obtain ⟨f2, e2⟩ := hc.2 hfit.min
    have i2 := hc.1 f2 e2
    obtain ⟨f3, e3⟩ := (slotSupply_fold h i2).2 hfit.np hfit.cov
    obtain ⟨f4, e4, r4, i3, s4, b4⟩ := rest f2 i2 f3 e3
    obtain ⟨f5, e5⟩ := (widthEdge_fold h r4 b4).2 hfit.width
    obtain ⟨f6, e6, _⟩ := edgeGroups_adds h f5 f5 (SameButGroups.refl f5)
    rw [e2, R.bind_ok, e3, R.bind_ok, e4, R.bind_ok, e5, R.bind_ok, e6]
    exact ⟨f6, rfl⟩

end
end Wassign
