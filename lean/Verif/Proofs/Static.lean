import Verif.Proofs.IntSums
import Verif.Spec.Backend
/-
The node numbering of the static flow data.
-/
namespace Wassign
open Spec

/-- Node numbers. -/
def nP (i : InputData) (p t : Nat) : Nat := p * i.ns + t
def nC (i : InputData) (c : Nat) : Nat := i.np * i.ns + c
def nS (i : InputData) (t : Nat) : Nat := i.np * i.ns + i.nc + t
def nodes (i : InputData) : Nat := i.np * i.ns + i.nc + i.ns

theorem nP_lt {i : InputData} {p t : Nat} (hp : p < i.np) (ht : t < i.ns) : nP i p t < i.np * i.ns := by
  unfold nP
  calc p * i.ns + t < p * i.ns + i.ns := by omega
    _ = (p + 1) * i.ns := by rw [Nat.add_mul, Nat.one_mul]
    _ ≤ i.np * i.ns := Nat.mul_le_mul_right _ hp

theorem nP_inj {i : InputData} {p t p' t' : Nat} (ht : t < i.ns) (ht' : t' < i.ns) (h : nP i p t = nP i p' t') :
    p = p' ∧ t = t' := by
  unfold nP at h
  have hpos : 0 < i.ns := by omega
  have h1 : (p * i.ns + t) / i.ns = p := by
    rw [Nat.add_comm, Nat.add_mul_div_right _ _ hpos, Nat.div_eq_of_lt ht]; omega
  have h2 : (p' * i.ns + t') / i.ns = p' := by
    rw [Nat.add_comm, Nat.add_mul_div_right _ _ hpos, Nat.div_eq_of_lt ht']; omega
  have : p = p' := by rw [← h1, ← h2, h]
  subst this
  exact ⟨rfl, by omega⟩

theorem nC_inj {i : InputData} {c c' : Nat} (h : nC i c = nC i c') : c = c' := by unfold nC at h; omega
theorem nS_inj {i : InputData} {c c' : Nat} (h : nS i c = nS i c') : c = c' := by unfold nS at h; omega

/-- A flow with `n` nodes and nothing else. -/
structure Base (f : MipFlow) (n : Nat) : Prop where
  out : f.outgoing = List.replicate n []
  inc : f.incoming = List.replicate n []
  sup : f.supply = List.replicate n 0
  map : f.edgeMap = []
  max : f.edgesMax = []
  cost : f.edgesCost = []
  groups : f.groups = []
  blocked : f.blocked = []

theorem base_empty : Base MipFlow.empty 0 := ⟨rfl, rfl, rfl, rfl, rfl, rfl, rfl, rfl⟩

theorem base_addKeyedNode {f : MipFlow} {n : Nat} (h : Base f n) (key : Nat) :
    Base (f.addKeyedNode key).1 (n + 1) ∧ (f.addKeyedNode key).2 = n := by
  obtain ⟨h1, h2, h3, h4, h5, h6, h7, h8⟩ := h
  refine ⟨⟨?_, ?_, ?_, ?_, ?_, ?_, ?_, ?_⟩, ?_⟩ <;>
    simp [MipFlow.addKeyedNode, MipFlow.addNode, MipFlow.nodeCount, *, List.replicate_succ']

theorem addStep_fold {key : Nat → R Nat} {f : MipFlow} {n m : Nat} (h : Base f n) :
    (∀ r, (List.range m).foldlM (StaticData.addStep key) (f, []) = .ok r →
      Base r.1 (n + m) ∧ r.2 = (List.range m).map (fun k => n + k)) ∧
    ((∀ k, k < m → ∃ x, key k = .ok x) → ∃ r, (List.range m).foldlM (StaticData.addStep key) (f, []) = .ok r) := by
  have := foldlM_both (l := List.range m) (f := StaticData.addStep key)
    (fun k r => Base r.1 (n + k) ∧ r.2 = (List.range k).map (fun k => n + k)) (fun k => ∃ x, key k = .ok x) (s := (f, []))
    (by
      intro k hk s hi
      have hk' : (List.range m)[k] = k := by simp
      rw [hk']
      constructor
      · intro s' hs
        unfold StaticData.addStep at hs
        rw [R.bind_eq_ok] at hs
        obtain ⟨x, _, hs⟩ := hs
        simp only [R.pure_eq, Except.ok.injEq] at hs
        subst hs
        obtain ⟨h1, h2⟩ := base_addKeyedNode hi.1 x
        refine ⟨h1, ?_⟩
        simp [h2, hi.2, List.range_succ]
      · rintro ⟨x, hx⟩
        unfold StaticData.addStep
        rw [hx]
        exact ⟨_, rfl⟩)
    (by simpa using h)
  simpa using this

/-- The static data of an input. -/
structure IsStatic (i : InputData) (s : StaticData) : Prop where
  base : Base s.baseFlow (nodes i)
  chooser : ∀ p t, p < i.np → t < i.ns → s.chooserNode p t = .ok (nP i p t)
  choice : ∀ c, c < i.nc → s.choiceNode c = .ok (nC i c)
  slot : ∀ t, t < i.ns → s.slotNode t = .ok (nS i t)
  cons : s.constraints = i.asgCons
  blocked : s.blockedEdges = []

theorem chooser_fold {n m : Nat} :
    (∀ r, (List.range n).foldlM (StaticData.chooserStep m) (MipFlow.empty, []) = .ok r →
      Base r.1 (n * m) ∧ r.2 = (List.range n).map (fun p => (List.range m).map (fun t => p * m + t))) ∧
    ((∀ p, p < n → ∀ k, k < m → ∃ x, nodeChooserKey p k = .ok x) →
      ∃ r, (List.range n).foldlM (StaticData.chooserStep m) (MipFlow.empty, []) = .ok r) := by
  have := foldlM_both (l := List.range n) (f := StaticData.chooserStep m)
    (fun k r => Base r.1 (k * m) ∧ r.2 = (List.range k).map (fun p => (List.range m).map (fun t => p * m + t)))
    (fun p => ∀ k, k < m → ∃ x, nodeChooserKey p k = .ok x) (s := (MipFlow.empty, []))
    (by
      intro k hk s hi
      have hk' : (List.range n)[k] = k := by simp
      rw [hk']
      have hf := addStep_fold (key := nodeChooserKey k) (m := m) hi.1
      constructor
      · intro s' hs
        unfold StaticData.chooserStep at hs
        rw [R.bind_eq_ok] at hs
        obtain ⟨x, hx, hs⟩ := hs
        simp only [R.pure_eq, Except.ok.injEq] at hs
        subst hs
        obtain ⟨h1, h2⟩ := hf.1 x hx
        refine ⟨by rw [Nat.succ_mul]; exact h1, ?_⟩
        simp [h2, hi.2, List.range_succ]
      · intro hok
        obtain ⟨r, hr⟩ := hf.2 hok
        unfold StaticData.chooserStep
        rw [hr]
        exact ⟨_, rfl⟩)
    (by simpa using base_empty)
  simpa using this

theorem static_spec {i : InputData} {s : StaticData} (h : StaticData.new i = .ok s) : IsStatic i s := by
  unfold StaticData.new at h
  simp only [R.bind_eq_ok] at h
  obtain ⟨r1, h1, r2, h2, r3, h3, h⟩ := h
  simp only [R.pure_eq, Except.ok.injEq] at h
  subst h
  obtain ⟨b1, e1⟩ := chooser_fold.1 r1 h1
  obtain ⟨b2, e2⟩ := (addStep_fold b1).1 r2 h2
  obtain ⟨b3, e3⟩ := (addStep_fold b2).1 r3 h3
  refine ⟨b3, ?_, ?_, ?_, rfl, rfl⟩
  · intro p t hp ht
    have g1 : r1.2[p]? = some ((List.range i.ns).map (fun t => p * i.ns + t)) := by simp [e1, hp]
    unfold StaticData.chooserNode
    show (idx r1.2 p _ >>= fun row => idx row t _) = _
    rw [idx_eq_ok.2 g1, R.bind_ok, idx_eq_ok]
    simp [ht, nP]
  · intro c hc
    unfold StaticData.choiceNode
    show idx r2.2 c _ = _
    rw [idx_eq_ok, e2]
    simp [hc, nC]
  · intro t ht
    unfold StaticData.slotNode
    show idx r3.2 t _ = _
    rw [idx_eq_ok, e3]
    simp [ht, nS]

/-- The static data can be built if all indices fit into a `u32`. -/
theorem static_total {i : InputData} (hp : i.np ≤ u32Max + 1) (hc : i.nc ≤ u32Max + 1) (hs : i.ns ≤ u32Max + 1) :
    ∃ s, StaticData.new i = .ok s := by
  unfold StaticData.new
  obtain ⟨r1, h1⟩ := (chooser_fold (n := i.np) (m := i.ns)).2 (by
    intro p hp' k hk
    unfold nodeChooserKey
    rw [toU32_eq_ok.2 ⟨(by omega : p ≤ u32Max), rfl⟩, R.bind_ok, toU32_eq_ok.2 ⟨(by omega : k ≤ u32Max), rfl⟩]
    exact ⟨_, rfl⟩)
  obtain ⟨b1, -⟩ := chooser_fold.1 r1 h1
  obtain ⟨r2, h2⟩ := (addStep_fold (key := nodeChoiceKey) (m := i.nc) b1).2 (by
    intro k hk
    unfold nodeChoiceKey
    rw [toU32_eq_ok.2 ⟨(by omega : k ≤ u32Max), rfl⟩]
    exact ⟨_, rfl⟩)
  obtain ⟨b2, -⟩ := (addStep_fold b1).1 r2 h2
  obtain ⟨r3, h3⟩ := (addStep_fold (key := nodeSlotKey) (m := i.ns) b2).2 (by
    intro k hk
    unfold nodeSlotKey
    rw [toU32_eq_ok.2 ⟨(by omega : k ≤ u32Max), rfl⟩]
    exact ⟨_, rfl⟩)
  rw [h1, R.bind_ok, h2, R.bind_ok, h3]
  exact ⟨_, rfl⟩

end Wassign
