import Verif.Spec.Lp
import Verif.Proofs.AsgBridge
import Mathlib.Data.Rat.Floor
import Mathlib.Tactic.Linarith
/-
Flows are well indexed; the program of a well-indexed flow.
-/
namespace Wassign
open Spec Lp

/-- All edge numbers are numbers of edges, the lists have matching lengths, edge capacities are 32-bit integers and the
costs satisfy `P`. -/
structure Indexed (P : Int → Prop) (f : MipFlow) : Prop where
  incLen : f.incoming.length = f.outgoing.length
  supLen : f.supply.length = f.outgoing.length
  costLen : f.edgesCost.length = f.edgesMax.length
  out : ∀ l ∈ f.outgoing, ∀ e ∈ l, e < f.edgesMax.length
  inc : ∀ l ∈ f.incoming, ∀ e ∈ l, e < f.edgesMax.length
  map : ∀ k e, f.edgeMap.lookup k = some e → e < f.edgesMax.length
  groups : ∀ g ∈ f.groups, ∀ e ∈ g, e < f.edgesMax.length
  blocked : ∀ e ∈ f.blocked, e < f.edgesMax.length
  max : ∀ m ∈ f.edgesMax, m ≤ 2147483647
  cost : ∀ c ∈ f.edgesCost, P c

variable {P : Int → Prop}

theorem indexed_base {f : MipFlow} {n : Nat} (h : Base f n) : Indexed P f := by
  obtain ⟨h1, h2, h3, h4, h5, h6, h7, h8⟩ := h
  constructor <;> simp [h1, h2, h3, h4, h5, h6, h7, h8]

theorem indexed_setSupply {f g : MipFlow} (h : Indexed P f) {n : Nat} {v : Int} (hs : f.setSupply n v = .ok g) : Indexed P g := by
  unfold MipFlow.setSupply at hs
  obtain ⟨s, hs1, hs2⟩ := R.bind_eq_ok.1 hs
  obtain ⟨_, rfl⟩ := setIdx_eq_ok.1 hs1
  cases hs2
  exact ⟨h.incLen, by simp [h.supLen], h.costLen, h.out, h.inc, h.map, h.groups, h.blocked, h.max, h.cost⟩

theorem pushAt_mem {l l' : List (List Nat)} {i x : Nat} {site : String} (h : MipFlow.pushAt l i x site = .ok l') :
    l'.length = l.length ∧ ∀ r ∈ l', ∀ e ∈ r, (∃ r' ∈ l, e ∈ r') ∨ e = x := by
  unfold MipFlow.pushAt at h
  obtain ⟨r, hr, h⟩ := R.bind_eq_ok.1 h
  obtain ⟨_, rfl⟩ := setIdx_eq_ok.1 h
  refine ⟨by simp, ?_⟩
  intro r' hr' e he
  rcases List.mem_or_eq_of_mem_set hr' with h1 | h1
  · exact .inl ⟨r', h1, he⟩
  · subst h1
    rcases List.mem_append.1 he with h2 | h2
    · exact .inl ⟨r, List.mem_of_getElem? (idx_eq_ok.1 hr), h2⟩
    · exact .inr (by simpa using h2)

theorem indexed_addKeyedEdge {f : MipFlow} {r : MipFlow × Nat} (h : Indexed P f) {k a b : Nat} {m c : Int} (hm : m ≤ 2147483647)
    (hc : P c) (hs : f.addKeyedEdge k a b m c = .ok r) : Indexed P r.1 := by
  unfold MipFlow.addKeyedEdge at hs
  obtain ⟨r1, h1, hs⟩ := R.bind_eq_ok.1 hs
  cases hs
  unfold MipFlow.addEdge at h1
  obtain ⟨o, ho, h1⟩ := R.bind_eq_ok.1 h1
  obtain ⟨i, hi, h1⟩ := R.bind_eq_ok.1 h1
  cases h1
  obtain ⟨lo, mo⟩ := pushAt_mem ho
  obtain ⟨li, mi⟩ := pushAt_mem hi
  simp only [MipFlow.edgeCount, List.length_append, List.length_cons, List.length_nil, Nat.zero_add, Nat.add_sub_cancel] at *
  constructor
  · simp [lo, li, h.incLen]
  · simp [lo, h.supLen]
  · simp [h.costLen]
  · intro l hl e he
    simp only [List.length_append, List.length_cons, List.length_nil, Nat.zero_add]
    rcases mo l hl e he with ⟨r', h1, h2⟩ | rfl
    · have := h.out r' h1 e h2; omega
    · omega
  · intro l hl e he
    simp only [List.length_append, List.length_cons, List.length_nil, Nat.zero_add]
    rcases mi l hl e he with ⟨r', h1, h2⟩ | rfl
    · have := h.inc r' h1 e h2; omega
    · omega
  · intro k' e he
    simp only [List.length_append, List.length_cons, List.length_nil, Nat.zero_add]
    rw [List.lookup_cons] at he
    split at he
    · simp only [Option.some.injEq] at he; omega
    · have := h.map k' e he; omega
  · intro g hg e he
    have := h.groups g hg e he
    simp only [List.length_append, List.length_cons, List.length_nil, Nat.zero_add]; omega
  · intro e he
    have := h.blocked e he
    simp only [List.length_append, List.length_cons, List.length_nil, Nat.zero_add]; omega
  · intro m' hm'
    rcases List.mem_append.1 hm' with h1 | h1
    · exact h.max m' h1
    · simp at h1; subst h1; exact hm
  · intro c' hc'
    rcases List.mem_append.1 hc' with h1 | h1
    · exact h.cost c' h1
    · simp at h1; subst h1; exact hc

theorem indexed_groupOrBlock {f : MipFlow} (h : Indexed P f) (ks : List Nat) : Indexed P (f.groupOrBlock ks) := by
  have hed : ∀ e ∈ (ks.map (fun k => f.edgeMap.lookup k)).filterMap id, e < f.edgesMax.length := by
    intro e he
    simp only [List.filterMap_map, List.mem_filterMap, Function.comp, id] at he
    obtain ⟨k, _, hk⟩ := he
    exact h.map k e hk
  unfold MipFlow.groupOrBlock
  simp only
  split
  · refine ⟨h.incLen, h.supLen, h.costLen, h.out, h.inc, h.map, h.groups, ?_, h.max, h.cost⟩
    intro e he
    rcases List.mem_append.1 he with h1 | h1
    · exact h.blocked e h1
    · exact hed e h1
  · refine ⟨h.incLen, h.supLen, h.costLen, h.out, h.inc, h.map, ?_, h.blocked, h.max, h.cost⟩
    intro g hg e he
    rcases List.mem_append.1 hg with h1 | h1
    · exact h.groups g h1 e he
    · simp only [List.mem_singleton] at h1
      subst h1
      exact hed e he

/-- A loop keeps a property of flows if its body does. -/
theorem flow_keep {α : Type} {Q : MipFlow → Prop} {g : MipFlow → α → R MipFlow} : ∀ {l : List α},
    (∀ a ∈ l, ∀ f f', Q f → g f a = .ok f' → Q f') → ∀ {f f' : MipFlow}, Q f → l.foldlM g f = .ok f' → Q f'
  | [], _, f, f', hq, h => by cases h; exact hq
  | a :: l, hg, f, f', hq, h => by
    rw [List.foldlM_cons] at h
    obtain ⟨f1, h1, h2⟩ := R.bind_eq_ok.1 h
    exact flow_keep (fun b hb => hg b (by simp [hb])) (hg a (by simp) f f1 hq h1) h2

theorem indexed_buildFlow {pr : AProblem} {st : ScheduleState} {limit : Nat} {f : MipFlow} (hb : Indexed P pr.static.baseFlow)
    (h0 : P 0) (hc : ∀ x, P (pr.cost x)) (h : Asg.buildFlow pr st limit = .ok f) : Indexed P f := by
  unfold Asg.buildFlow at h
  obtain ⟨f1, e1, h⟩ := R.bind_eq_ok.1 h
  obtain ⟨f2, e2, h⟩ := R.bind_eq_ok.1 h
  obtain ⟨f3, e3, h⟩ := R.bind_eq_ok.1 h
  obtain ⟨f4, e4, h⟩ := R.bind_eq_ok.1 h
  obtain ⟨f5, e5, h⟩ := R.bind_eq_ok.1 h
  have i1 : Indexed P f1 := by
    unfold Asg.chooserSupplies at e1
    refine flow_keep ?_ hb e1
    intro p _ f f' hf e
    refine flow_keep ?_ hf e
    intro t _ f f' hf e
    obtain ⟨n, _, e⟩ := R.bind_eq_ok.1 e
    exact indexed_setSupply hf e
  have i2 : Indexed P f2 := by
    refine flow_keep ?_ i1 e2
    intro a _ f f' hf e
    unfold Asg.choiceSupply at e
    split at e
    · cases e; exact hf
    · obtain ⟨n, _, e⟩ := R.bind_eq_ok.1 e
      obtain ⟨ch, _, e⟩ := R.bind_eq_ok.1 e
      obtain ⟨m, _, e⟩ := R.bind_eq_ok.1 e
      exact indexed_setSupply hf e
  have i3 : Indexed P f3 := by
    refine flow_keep ?_ i2 e3
    intro a _ f f' hf e
    unfold Asg.slotSupply at e
    obtain ⟨_, _, e⟩ := R.bind_eq_ok.1 e
    obtain ⟨_, _, e⟩ := R.bind_eq_ok.1 e
    obtain ⟨_, _, e⟩ := R.bind_eq_ok.1 e
    obtain ⟨_, _, e⟩ := R.bind_eq_ok.1 e
    obtain ⟨_, _, e⟩ := R.bind_eq_ok.1 e
    obtain ⟨_, _, e⟩ := R.bind_eq_ok.1 e
    exact indexed_setSupply hf e
  have i4 : Indexed P f4 := by
    unfold Asg.chooserEdges at e4
    refine flow_keep ?_ i3 e4
    intro p _ f f' hf e
    refine flow_keep ?_ hf e
    intro a _ f f' hf e
    unfold Asg.slotEdges at e
    obtain ⟨_, _, e⟩ := R.bind_eq_ok.1 e
    refine flow_keep ?_ hf e
    intro c _ f f' hf e
    unfold Asg.choiceEdge at e
    obtain ⟨_, _, e⟩ := R.bind_eq_ok.1 e
    obtain ⟨_, _, e⟩ := R.bind_eq_ok.1 e
    split at e
    · cases e; exact hf
    · obtain ⟨_, _, e⟩ := R.bind_eq_ok.1 e
      split at e
      · cases e; exact hf
      · obtain ⟨_, _, e⟩ := R.bind_eq_ok.1 e
        obtain ⟨r, hr, e⟩ := R.bind_eq_ok.1 e
        cases e
        exact indexed_addKeyedEdge hf (by decide) (hc _) hr
  have i5 : Indexed P f5 := by
    refine flow_keep ?_ i4 e5
    intro a _ f f' hf e
    unfold Asg.widthEdge at e
    split at e
    · cases e; exact hf
    · obtain ⟨_, _, e⟩ := R.bind_eq_ok.1 e
      obtain ⟨_, _, e⟩ := R.bind_eq_ok.1 e
      obtain ⟨_, _, e⟩ := R.bind_eq_ok.1 e
      obtain ⟨_, _, e⟩ := R.bind_eq_ok.1 e
      obtain ⟨_, _, e⟩ := R.bind_eq_ok.1 e
      obtain ⟨w, hw, e⟩ := R.bind_eq_ok.1 e
      obtain ⟨r, hr, e⟩ := R.bind_eq_ok.1 e
      cases e
      obtain ⟨hw1, rfl⟩ := toI32_eq_ok.1 hw
      unfold i32Max at hw1
      exact indexed_addKeyedEdge hf (by omega) h0 hr
  unfold Asg.edgeGroups at h
  obtain ⟨f6, e6, h⟩ := R.bind_eq_ok.1 h
  have i6 : Indexed P f6 := by
    refine flow_keep ?_ i5 e6
    intro a _ f f' hf e
    unfold Asg.pairGroups at e
    split at e
    · cases e; exact hf
    · obtain ⟨q, _, e⟩ := R.bind_eq_ok.1 e
      refine flow_keep ?_ hf e
      intro t _ f f' hf e
      obtain ⟨_, _, e⟩ := R.bind_eq_ok.1 e
      refine flow_keep ?_ hf e
      intro c _ f f' hf e
      unfold Asg.pairGroup at e
      obtain ⟨_, _, e⟩ := R.bind_eq_ok.1 e
      obtain ⟨_, _, e⟩ := R.bind_eq_ok.1 e
      obtain ⟨_, _, e⟩ := R.bind_eq_ok.1 e
      obtain ⟨_, _, e⟩ := R.bind_eq_ok.1 e
      obtain ⟨_, _, e⟩ := R.bind_eq_ok.1 e
      obtain ⟨_, _, e⟩ := R.bind_eq_ok.1 e
      cases e
      exact indexed_groupOrBlock hf _
  refine flow_keep ?_ i6 h
  intro a _ f f' hf e
  unfold Asg.depGroup at e
  split at e
  · cases e; exact hf
  · refine flow_keep ?_ hf e
    intro t _ f f' hf e
    obtain ⟨_, _, e⟩ := R.bind_eq_ok.1 e
    cases e
    exact indexed_groupOrBlock hf _

/-! ## The program of a flow -/

/-- The program of a well-indexed flow. -/
def flowProgram (f : MipFlow) : Program where
  vars := f.edgeVars ++ f.switches
  objective := (List.range f.edgeCount).map (fun e => (f64OfI64 (f.edgesCost[e]?.getD 0), e))
  rows := (f.groups.zipIdx.map (fun g => g.1.map (fun e => (⟨[(1, e), (-1, f.edgeCount + g.2)], 0⟩ : Row)))).flatten ++
    f.blocked.map (fun e => ⟨[(1, e)], 0⟩) ++
    (List.range f.nodeCount).map (fun n => ⟨(f.incoming[n]?.getD []).map (fun v => (1, v)) ++
      (f.outgoing[n]?.getD []).map (fun v => (-1, v)), -(f.supply[n]?.getD 0)⟩)

theorem edgeVar_ok {f : MipFlow} {e : Nat} (h : e < f.edgesMax.length) : f.edgeVar e = .ok e := by
  unfold MipFlow.edgeVar MipFlow.edgeCount
  simp [h]

theorem program_eq {f : MipFlow} (h : Indexed P f) : f.program = .ok (flowProgram f) := by
  have h1 : f.objective = .ok ((List.range f.edgeCount).map (fun e => (f64OfI64 (f.edgesCost[e]?.getD 0), e))) := by
    unfold MipFlow.objective
    apply mapM_eq_ok_of
    intro e he
    have he : e < f.edgesCost.length := by rw [h.costLen]; simpa [MipFlow.edgeCount] using he
    simp [idx_ok he, he]
  have h2 : f.groups.zipIdx.mapM f.groupRows =
      .ok (f.groups.zipIdx.map (fun g => g.1.map (fun e => (⟨[(1, e), (-1, f.edgeCount + g.2)], 0⟩ : Row)))) := by
    apply mapM_eq_ok_of
    intro g hg
    unfold MipFlow.groupRows
    apply mapM_eq_ok_of
    intro e he
    have hg : g.1 ∈ f.groups := by
      obtain ⟨g, k⟩ := g
      exact List.mem_of_getElem? (List.mem_zipIdx_iff_getElem?.1 hg)
    simp [edgeVar_ok (h.groups g.1 hg e he)]
  have h3 : f.blocked.mapM f.blockedRow = .ok (f.blocked.map (fun e => ⟨[(1, e)], 0⟩)) := by
    apply mapM_eq_ok_of
    intro e he
    simp [MipFlow.blockedRow, edgeVar_ok (h.blocked e he)]
  have h4 : (List.range f.nodeCount).mapM f.nodeRow =
      .ok ((List.range f.nodeCount).map (fun n => ⟨(f.incoming[n]?.getD []).map (fun v => (1, v)) ++
      (f.outgoing[n]?.getD []).map (fun v => (-1, v)), -(f.supply[n]?.getD 0)⟩)) := by
    apply mapM_eq_ok_of
    intro n hn
    have hn : n < f.outgoing.length := by simpa [MipFlow.nodeCount] using hn
    have hi : n < f.incoming.length := by rw [h.incLen]; exact hn
    have hs : n < f.supply.length := by rw [h.supLen]; exact hn
    have m1 : (f.incoming[n]).mapM f.edgeVar = .ok f.incoming[n] := by
      have := mapM_eq_ok_of (f := f.edgeVar) (g := id) (fun e he => edgeVar_ok (h.inc _ (List.getElem_mem hi) e he))
      rw [this]; simp
    have m2 : (f.outgoing[n]).mapM f.edgeVar = .ok f.outgoing[n] := by
      have := mapM_eq_ok_of (f := f.edgeVar) (g := id) (fun e he => edgeVar_ok (h.out _ (List.getElem_mem hn) e he))
      rw [this]; simp
    simp [MipFlow.nodeRow, idx_ok hi, idx_ok hn, idx_ok hs, m1, m2, hi, hn, hs]
  unfold MipFlow.program
  simp [h1, h2, h3, h4, flowProgram]

theorem val_take {z : List Int} {E e : Nat} (h : e < E) : val (z.take E) e = val z e := by
  simp [val, h]

theorem lin_node {f : MipFlow} {n : Nat} (z : List Int) (inc out : List Nat) :
    lin (inc.map (fun v => ((1 : Int), v)) ++ out.map (fun v => ((-1 : Int), v))) z =
      (inc.map (val z)).sum - (out.map (val z)).sum := by
  have e1 : (inc.map ((fun t : Int × Nat => t.1 * val z t.2) ∘ fun v => ((1 : Int), v))) = inc.map (val z) := by
    apply List.map_congr_left; intro a _; simp
  have e2 : ((out.map ((fun t : Int × Nat => t.1 * val z t.2) ∘ fun v => ((-1 : Int), v))).sum : Int) = -(out.map (val z)).sum := by
    induction out with
    | nil => rfl
    | cons a l ih =>
      simp only [List.map_cons, List.sum_cons, Function.comp] at ih ⊢
      rw [ih]
      omega
  unfold lin
  rw [List.map_append, List.sum_append, List.map_map, List.map_map, e1, e2]
  omega

theorem solves_flowOk {f : MipFlow} (h : Indexed P f) {z : List Int} (hz : Solves (flowProgram f) z) :
    FlowOk f (z.take f.edgeCount) := by
  have hlen : z.length = f.edgesMax.length + f.groups.length := by
    have := hz.len
    simpa [flowProgram, MipFlow.edgeVars, MipFlow.switches] using this
  have hvar : ∀ e (he : e < f.edgesMax.length), (flowProgram f).vars[e]? = some ⟨0, f.edgesMax[e]⟩ := by
    intro e he
    show (f.edgeVars ++ f.switches)[e]? = _
    rw [List.getElem?_append_left (by simpa [MipFlow.edgeVars] using he)]
    simp [MipFlow.edgeVars, he]
  have hsw : ∀ k, k < f.groups.length → (flowProgram f).vars[f.edgesMax.length + k]? = some ⟨0, 1⟩ := by
    intro k hk
    show (f.edgeVars ++ f.switches)[_]? = _
    rw [List.getElem?_append_right (by simp [MipFlow.edgeVars])]
    simp [MipFlow.edgeVars, MipFlow.switches, hk]
  constructor
  · simp only [List.length_take, hlen, MipFlow.edgeCount]; omega
  · intro e he
    rw [val_take he]
    exact (hz.bounds e _ (hvar e he)).1
  · intro e m hm
    obtain ⟨he, rfl⟩ := List.getElem?_eq_some_iff.1 hm
    rw [val_take (by exact he)]
    exact (hz.bounds e _ (hvar e he)).2
  · intro g hg
    obtain ⟨k, hk, rfl⟩ := List.mem_iff_getElem.1 hg
    refine ⟨val z (f.edgesMax.length + k), ?_, ?_⟩
    · have := hz.bounds _ _ (hsw k hk)
      simp only at this
      omega
    · intro e he
      rw [val_take (show e < f.edgeCount from h.groups _ hg e he)]
      have := hz.rows ⟨[(1, e), (-1, f.edgeCount + k)], 0⟩ (by
        simp only [flowProgram, List.mem_append, List.mem_flatten, List.mem_map]
        refine .inl (.inl ⟨_, ⟨(f.groups[k], k), ?_, rfl⟩, List.mem_map.2 ⟨e, he, rfl⟩⟩)
        rw [List.mem_zipIdx_iff_getElem?]
        simp [hk])
      simp [lin, MipFlow.edgeCount] at this
      omega
  · intro e he
    rw [val_take (show e < f.edgeCount from h.blocked e he)]
    have := hz.rows ⟨[(1, e)], 0⟩ (by
      simp only [flowProgram, List.mem_append, List.mem_map]
      exact .inl (.inr ⟨e, he, rfl⟩))
    simpa [lin] using this
  · intro n hn inc out sup h1 h2 h3
    have := hz.rows _ (by
      simp only [flowProgram, List.mem_append, List.mem_map]
      exact .inr ⟨n, by simpa using hn, rfl⟩)
    simp only [h1, h2, h3, Option.getD_some] at this
    rw [lin_node (f := f) (n := n)] at this
    have e1 : inc.map (val (z.take f.edgeCount)) = inc.map (val z) := by
      apply List.map_congr_left
      intro e he
      exact val_take (h.inc _ (List.mem_of_getElem? h1) e he)
    have e2 : out.map (val (z.take f.edgeCount)) = out.map (val z) := by
      apply List.map_congr_left
      intro e he
      exact val_take (h.out _ (List.mem_of_getElem? h2) e he)
    rw [e1, e2]
    exact this

theorem val_append_left {x y : List Int} {e : Nat} (h : e < x.length) : val (x ++ y) e = val x e := by
  simp [val, List.getElem?_append_left h]

theorem flowOk_solves {f : MipFlow} (h : Indexed P f) {x : List Int} (hx : FlowOk f x) :
    ∃ sw, Solves (flowProgram f) (x ++ sw) := by
  classical
  have hlen : x.length = f.edgesMax.length := hx.len
  -- the switch of a group is its common value
  let b : List Nat → Int := fun g => if hg : g ∈ f.groups then Classical.choose (hx.groups g hg) else 0
  have hb : ∀ g ∈ f.groups, (b g = 0 ∨ b g = 1) ∧ ∀ e ∈ g, val x e = b g := by
    intro g hg
    have := Classical.choose_spec (hx.groups g hg)
    simpa [b, hg] using this
  refine ⟨f.groups.map b, ?_, ?_, ?_⟩
  · simp [flowProgram, MipFlow.edgeVars, MipFlow.switches, hlen]
  · intro k v hv
    change (f.edgeVars ++ f.switches)[k]? = some v at hv
    by_cases hk : k < f.edgesMax.length
    · rw [List.getElem?_append_left (by simpa [MipFlow.edgeVars] using hk)] at hv
      simp only [MipFlow.edgeVars, List.getElem?_map, List.getElem?_eq_getElem hk, Option.map_some, Option.some.injEq] at hv
      subst hv
      rw [val_append_left (by omega)]
      exact ⟨hx.lower k hk, hx.upper k _ (List.getElem?_eq_getElem hk)⟩
    · rw [List.getElem?_append_right (by simpa [MipFlow.edgeVars] using hk)] at hv
      simp only [MipFlow.edgeVars, MipFlow.switches, List.length_map, List.getElem?_map, Option.map_eq_some_iff] at hv
      obtain ⟨g, hg, rfl⟩ := hv
      have e : val (x ++ f.groups.map b) k = b g := by
        simp [val, List.getElem?_append_right (show x.length ≤ k by omega), hlen, hg]
      have := (hb g (List.mem_of_getElem? hg)).1
      rw [e]
      simp only
      omega
  · intro r hr
    simp only [flowProgram, List.mem_append, List.mem_flatten, List.mem_map] at hr
    rcases hr with (⟨l, ⟨g, hg, rfl⟩, hr⟩ | ⟨e, he, rfl⟩) | ⟨n, hn, rfl⟩
    · obtain ⟨e, he, rfl⟩ := List.mem_map.1 hr
      obtain ⟨g, k⟩ := g
      have hk := List.mem_zipIdx_iff_getElem?.1 hg
      simp only at hk he
      have hgm := List.mem_of_getElem? hk
      have e1 : val (x ++ f.groups.map b) (f.edgeCount + k) = b g := by
        unfold val
        rw [List.getElem?_append_right (show x.length ≤ f.edgeCount + k by unfold MipFlow.edgeCount; omega)]
        simp [hlen, MipFlow.edgeCount, hk]
      have e2 := val_append_left (y := f.groups.map b) (show e < x.length by rw [hlen]; exact h.groups g hgm e he)
      have := (hb g hgm).2 e he
      simp only [lin, List.map_cons, List.map_nil, List.sum_cons, List.sum_nil, e1, e2]
      omega
    · have e2 := val_append_left (y := f.groups.map b) (show e < x.length by rw [hlen]; exact h.blocked e he)
      have := hx.blocked e he
      simp only [lin, List.map_cons, List.map_nil, List.sum_cons, List.sum_nil, e2]
      omega
    · have hn : n < f.outgoing.length := by simpa [MipFlow.nodeCount] using hn
      have hi : n < f.incoming.length := by rw [h.incLen]; exact hn
      have hs : n < f.supply.length := by rw [h.supLen]; exact hn
      have := hx.conserve n hn _ _ _ (List.getElem?_eq_getElem hi) (List.getElem?_eq_getElem hn) (List.getElem?_eq_getElem hs)
      simp only [List.getElem?_eq_getElem hi, List.getElem?_eq_getElem hn, List.getElem?_eq_getElem hs, Option.getD_some]
      rw [lin_node (f := f) (n := n), ← this]
      congr 2
      · apply List.map_congr_left
        intro e he
        exact val_append_left (by rw [hlen]; exact h.inc _ (List.getElem_mem hi) e he)
      · apply List.map_congr_left
        intro e he
        exact val_append_left (by rw [hlen]; exact h.out _ (List.getElem_mem hn) e he)

/-- A cost that is exactly an `f64`. -/
def ExactCost (c : Int) : Prop := f64OfI64 c = c

theorem objective_eq {f : MipFlow} (h : Indexed ExactCost f) (z : List Int) :
    lin (flowProgram f).objective z = flowCost f (z.take f.edgeCount) := by
  unfold lin flowCost flowProgram
  simp only [List.map_map]
  congr 1
  apply List.map_congr_left
  intro e he
  have he : e < f.edgeCount := by simpa using he
  have hc : e < f.edgesCost.length := by rw [h.costLen]; exact he
  have := h.cost _ (List.getElem_mem hc)
  simp only [Function.comp, val_take he, List.getElem?_eq_getElem hc, Option.getD_some]
  rw [this]

/-! ## Reading the answer -/

theorem floor_near {q : Rat} {v : Int} (h1 : (v : Rat) ≤ q) (h2 : q < v + 1) : q.floor = v := by
  have : ⌊q⌋ = v := Int.floor_eq_iff.2 ⟨h1, h2⟩
  exact this

theorem roundHalf_near {q : Rat} {v : Int} (h1 : q - v < 1 / 2) (h2 : v - q < 1 / 2) : roundHalf q = v := by
  unfold roundHalf
  split
  · exact floor_near (by linarith) (by linarith)
  · rw [floor_near (v := -v) (by push_cast; linarith) (by push_cast; linarith)]
    omega

theorem solve_found {f : MipFlow} (h : Indexed P f) {solver : Program → Option Nat → Answer} {limit : Option Nat} (hl : limit ≠ some 0)
    {values : List Rat} (hs : solver (flowProgram f) limit = .found true values) {z : List Int} (hz : Solves (flowProgram f) z)
    (hn : Near values z) : f.solve solver limit = .ok (true, { f with solution := z.take f.edgeCount }) := by
  unfold MipFlow.solve
  rw [program_eq h, R.bind_ok, if_neg hl, hs]
  simp only [R.pure_eq, Except.ok.injEq, Prod.mk.injEq, true_and]
  congr 1
  have hok := solves_flowOk h hz
  apply List.ext_getElem?
  intro e
  by_cases he : e < f.edgeCount
  · have hlt : e < z.length := by
      have := hok.len
      rw [List.length_take] at this
      omega
    have hr := roundHalf_near (hn e hlt).1 (hn e hlt).2
    have lo := hok.lower e he
    have up := hok.upper e _ (List.getElem?_eq_getElem (show e < f.edgesMax.length from he))
    have mx := h.max _ (List.getElem_mem (show e < f.edgesMax.length from he))
    rw [val_take he] at lo up
    have hv : satI32 (roundHalf (values[e]?.getD 0)) = z[e] := by
      rw [hr]
      have : val z e = z[e] := by simp [val, hlt]
      unfold satI32
      omega
    rw [List.getElem?_map, List.getElem?_range he, Option.map_some, hv, List.getElem?_take, if_pos he, List.getElem?_eq_getElem hlt]
  · rw [List.getElem?_eq_none (by simpa using he), List.getElem?_eq_none (by simp; omega)]

theorem solve_not_found {f : MipFlow} (h : Indexed P f) {solver : Program → Option Nat → Answer} {limit : Option Nat}
    (hs : limit = some 0 ∨ ∀ values, solver (flowProgram f) limit ≠ .found true values) : f.solve solver limit = .ok (false, f) := by
  unfold MipFlow.solve
  rw [program_eq h, R.bind_ok]
  split
  · rfl
  · rcases hs with hs | hs
    · contradiction
    · split
      · rfl
      · rfl
      · rename_i values hv
        exact absurd hv (hs values)

/-! ## Exact costs -/

theorem nearest_of_dvd {n d : Nat} (hd : 0 < d) (h : d ∣ n) : F32.nearest n d * d = n := by
  unfold F32.nearest
  have h0 : n % d = 0 := Nat.mod_eq_zero_of_dvd h
  rw [if_neg (by rw [h0]; omega)]
  exact Nat.div_mul_cancel h

theorem exactCost_of {c : Int} (h : Representable c) : ExactCost c := by
  obtain ⟨m, e, h1, h2⟩ := h
  unfold ExactCost f64OfI64
  have hdvd : 2 ^ (Nat.log2 c.natAbs - 52) ∣ c.natAbs := by
    by_cases h0 : c.natAbs = 0
    · rw [h0]; exact Nat.dvd_zero _
    · have hlt : Nat.log2 c.natAbs < 53 + e := by
        rw [Nat.log2_lt h0, h1, Nat.pow_add]
        exact Nat.mul_lt_mul_of_pos_right h2 (Nat.pow_pos (by decide))
      rw [h1]
      rw [h1] at hlt
      exact Nat.dvd_trans (Nat.pow_dvd_pow 2 (by omega)) (Nat.dvd_mul_left _ _)
  simp only
  rw [nearest_of_dvd (Nat.pow_pos (by decide)) hdvd]
  split <;> omega

/-! ## The backend made of a MIP solver -/

variable {solver : MipSolver} {limit : Nat → Nat}

theorem lpBackend_some {f : MipFlow} (h : Indexed P f) (hacc : solver.Accurate) {n : Nat} {limited : Bool} {x : List Int}
    (hx : lpBackend solver limit n f limited = some x) : ∃ z, Best (flowProgram f) z ∧ x = z.take f.edgeCount := by
  unfold lpBackend at hx
  by_cases hs : (if limited then some (limit n) else none) = some 0 ∨
      ∀ values, solver n (flowProgram f) (if limited then some (limit n) else none) ≠ .found true values
  · rw [solve_not_found h hs] at hx
    cases hx
  · rw [not_or] at hs
    obtain ⟨h1, h2⟩ := hs
    obtain ⟨values, hv⟩ := Classical.not_forall.1 h2
    have hv := Classical.not_not.1 hv
    obtain ⟨z, hb, hn⟩ := hacc _ _ _ _ hv
    rw [solve_found h h1 hv hb.1 hn] at hx
    cases hx
    exact ⟨z, hb, rfl⟩

theorem lpBackend_sound {f : MipFlow} (h : Indexed P f) (hacc : solver.Accurate) {n : Nat} {limited : Bool} {x : List Int}
    (hx : lpBackend solver limit n f limited = some x) : FlowOk f x := by
  obtain ⟨z, hb, rfl⟩ := lpBackend_some h hacc hx
  exact solves_flowOk h hb.1

theorem lpBackend_optimal {f : MipFlow} (h : Indexed ExactCost f) (hacc : solver.Accurate) {n : Nat} {limited : Bool} {x : List Int}
    (hx : lpBackend solver limit n f limited = some x) (y : List Int) (hy : FlowOk f y) : flowCost f x ≤ flowCost f y := by
  obtain ⟨z, hb, rfl⟩ := lpBackend_some h hacc hx
  obtain ⟨sw, hsw⟩ := flowOk_solves h hy
  have := hb.2 _ hsw
  rw [objective_eq h, objective_eq h] at this
  rwa [← hy.len, List.take_left, hy.len] at this

theorem lpBackend_none {f : MipFlow} (h : Indexed P f) (hacc : solver.Accurate) {n : Nat} {limited : Bool}
    (hl : limited = true → limit n ≠ 0) (hx : lpBackend solver limit n f limited = none) :
    ∀ values, solver n (flowProgram f) (if limited then some (limit n) else none) ≠ .found true values := by
  intro values hv
  obtain ⟨z, hb, hn⟩ := hacc _ _ _ _ hv
  unfold lpBackend at hx
  rw [solve_found h (by cases limited <;> simp_all) hv hb.1 hn] at hx
  cases hx

/-- The backend made of a MIP solver on flows that are well indexed, an ideal one on others (which do not occur). -/
noncomputable def mended (P : Int → Prop) (b : Backend) : Backend := fun n f limited =>
  open Classical in if Indexed P f then b n f limited else idealBackend n f limited

theorem mended_sound (hacc : solver.Accurate) : Backend.Sound (mended P (lpBackend solver limit)) := by
  intro n f limited x hx
  unfold mended at hx
  split at hx
  · rename_i h; exact lpBackend_sound h hacc hx
  · exact ideal_sound _ _ _ _ hx

theorem mended_optimal (hacc : solver.Accurate) : Backend.Optimal (mended ExactCost (lpBackend solver limit)) := by
  intro n f limited x hx
  unfold mended at hx
  split at hx
  · rename_i h; exact lpBackend_optimal h hacc hx
  · exact ideal_optimal _ _ _ _ hx

theorem mended_complete (hacc : solver.Accurate) (hd : solver.Decides) : Backend.Complete (mended P (lpBackend solver limit)) := by
  intro n f hx y hy
  unfold mended at hx
  split at hx
  · rename_i h
    obtain ⟨sw, hsw⟩ := flowOk_solves h hy
    exact hd n _ (lpBackend_none h hacc (by simp) hx) _ hsw
  · exact ideal_complete _ _ hx y hy

theorem mended_timely (hacc : solver.Accurate) (hd : solver.Quick) (hl : ∀ n, limit n ≠ 0) :
    Backend.Timely (mended P (lpBackend solver limit)) := by
  intro n f limited hx y hy
  unfold mended at hx
  split at hx
  · rename_i h
    obtain ⟨sw, hsw⟩ := flowOk_solves h hy
    exact hd n _ _ (lpBackend_none h hacc (fun _ => hl n) hx) _ hsw
  · exact ideal_complete n f hx y hy

/-! ## The solver does not see the difference -/

theorem solveWithLimit_mended {pr : AProblem} (hb : Indexed P pr.static.baseFlow) (h0 : P 0) (hc : ∀ x, P (pr.cost x)) (env : AEnv) :
    Asg.solveWithLimit pr { env with backend := mended P env.backend } = Asg.solveWithLimit pr env := by
  funext deadline st limit sv
  unfold Asg.solveWithLimit
  have hcl : Asg.clock { env with backend := mended P env.backend } = Asg.clock env := by
    funext d s
    rfl
  rw [hcl]
  simp only
  split
  · rfl
  · cases hf : Asg.buildFlow pr st limit with
    | error e => rfl
    | ok f =>
      have hi := indexed_buildFlow hb h0 hc hf
      have hm : ∀ n l, mended P env.backend n f l = env.backend n f l := by
        intro n l
        unfold mended
        rw [if_pos hi]
      simp only [R.bind_ok, hm]

theorem solveUntil_mended {pr : AProblem} (hb : Indexed P pr.static.baseFlow) (h0 : P 0) (hc : ∀ x, P (pr.cost x)) (env : AEnv) :
    Asg.solveUntil pr { env with backend := mended P env.backend } = Asg.solveUntil pr env := by
  funext deadline sv s
  unfold Asg.solveUntil
  rw [solveWithLimit_mended hb h0 hc]

end Wassign
