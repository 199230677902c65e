import Verif.Proofs.Static
/-
A flow as a list of edges, and its constraints in terms of edge values.
-/
namespace Wassign
open Spec

structure Edge where
  src : Nat
  dst : Nat
  max : Int
  cost : Int

/-- Positions of the edges with property `P`. -/
def idxs (E : List Edge) (P : Edge → Bool) : List Nat := (E.zipIdx.filter (fun e => P e.1)).map (·.2)

theorem idxs_append (E : List Edge) (e : Edge) (P : Edge → Bool) :
    idxs (E ++ [e]) P = if P e then idxs E P ++ [E.length] else idxs E P := by
  unfold idxs
  rw [List.zipIdx_append, List.filter_append, List.map_append]
  by_cases h : P e <;> simp [h]

/-- Flow `f` has `N` nodes and edges `E`, no two of which join the same nodes. -/
structure Rep (f : MipFlow) (N : Nat) (E : List Edge) : Prop where
  outLen : f.outgoing.length = N
  incLen : f.incoming.length = N
  supLen : f.supply.length = N
  max : f.edgesMax = E.map (·.max)
  cost : f.edgesCost = E.map (·.cost)
  out : ∀ n, n < N → f.outgoing[n]? = some (idxs E (fun e => e.src == n))
  inc : ∀ n, n < N → f.incoming[n]? = some (idxs E (fun e => e.dst == n))
  map : ∀ a b, a ≤ u32Max → b ≤ u32Max → ∀ k, f.edgeMap.lookup (makeLong a b) = some k ↔
    ∃ e, E[k]? = some e ∧ e.src = a ∧ e.dst = b
  distinct : ∀ (j k : Nat) (e e' : Edge), E[j]? = some e → E[k]? = some e' → e.src = e'.src → e.dst = e'.dst → j = k

theorem makeLong_inj {a b a' b' : Nat} (hb : b ≤ u32Max) (hb' : b' ≤ u32Max) (h : makeLong a b = makeLong a' b') :
    a = a' ∧ b = b' := by
  unfold makeLong u32Max at *
  omega

theorem rep_base {f : MipFlow} {N : Nat} (h : Base f N) : Rep f N [] := by
  obtain ⟨h1, h2, h3, h4, h5, h6, h7, h8⟩ := h
  refine ⟨by simp [h1], by simp [h2], by simp [h3], by simp [h5], by simp [h6], ?_, ?_, ?_, ?_⟩
  · intro n hn; simp [h1, hn, idxs]
  · intro n hn; simp [h2, hn, idxs]
  · intro a b _ _ k; simp [h4]
  · intro j k e e' h; simp at h

theorem pushAt_eq {l : List (List Nat)} {n x : Nat} {r : List Nat} {site : String} (h : l[n]? = some r) :
    MipFlow.pushAt l n x site = .ok (l.set n (r ++ [x])) := by
  have hn : n < l.length := by
    rw [List.getElem?_eq_some_iff] at h; exact h.1
  unfold MipFlow.pushAt
  rw [idx_eq_ok.2 h, R.bind_ok, setIdx_eq_ok]
  exact ⟨hn, rfl⟩

theorem rep_addKeyedEdge {f : MipFlow} {N : Nat} {E : List Edge} (h : Rep f N E) {a b : Nat} (ha : a < N) (hb : b < N)
    (hN : N ≤ u32Max) (hnew : ∀ e ∈ E, ¬ (e.src = a ∧ e.dst = b)) (m c : Int) :
    ∃ f', f.addKeyedEdge (makeLong a b) a b m c = .ok (f', E.length) ∧ Rep f' N (E ++ [⟨a, b, m, c⟩]) ∧
      f'.supply = f.supply ∧ f'.groups = f.groups ∧ f'.blocked = f.blocked := by
  have hlen : f.edgesMax.length = E.length := by rw [h.max]; simp
  unfold MipFlow.addKeyedEdge MipFlow.addEdge
  simp only [MipFlow.edgeCount, List.length_append, List.length_cons, List.length_nil, Nat.zero_add, Nat.add_sub_cancel, hlen]
  rw [pushAt_eq (h.out a ha), R.bind_ok, pushAt_eq (h.inc b hb), R.bind_ok, R.pure_eq, R.bind_ok, R.pure_eq]
  refine ⟨_, rfl, ⟨?_, ?_, ?_, ?_, ?_, ?_, ?_, ?_, ?_⟩, rfl, rfl, rfl⟩
  · simp [h.outLen]
  · simp [h.incLen]
  · exact h.supLen
  · simp [h.max]
  · simp [h.cost]
  · intro n hn
    rw [idxs_append]
    show (f.outgoing.set a _)[n]? = _
    by_cases e : a = n
    · subst e
      rw [List.getElem?_set_self (by rw [h.outLen]; exact ha)]
      simp
    · rw [List.getElem?_set_ne e, h.out n hn]
      simp [e]
  · intro n hn
    rw [idxs_append]
    show (f.incoming.set b _)[n]? = _
    by_cases e : b = n
    · subst e
      rw [List.getElem?_set_self (by rw [h.incLen]; exact hb)]
      simp
    · rw [List.getElem?_set_ne e, h.inc n hn]
      simp [e]
  · intro a' b' ha' hb' k
    show List.lookup (makeLong a' b') ((makeLong a b, E.length) :: f.edgeMap) = some k ↔ _
    by_cases e : makeLong a' b' = makeLong a b
    · obtain ⟨e1, e2⟩ := makeLong_inj hb' (by omega) e
      subst e1; subst e2
      rw [List.lookup_cons_self]
      constructor
      · intro hk
        simp only [Option.some.injEq] at hk
        subst hk
        exact ⟨_, by simp; rfl, rfl, rfl⟩
      · rintro ⟨ed, h1, h2, h3⟩
        by_cases hk : k < E.length
        · rw [List.getElem?_append_left hk] at h1
          exact absurd ⟨h2, h3⟩ (hnew ed (List.mem_of_getElem? h1))
        · have := (List.getElem?_eq_some_iff.1 h1).1
          simp at this
          congr 1; omega
    · have hb2 : (makeLong a' b' == makeLong a b) = false := by simpa using e
      rw [List.lookup_cons, hb2]
      simp only
      rw [h.map a' b' ha' hb' k]
      constructor
      · rintro ⟨ed, h1, h2, h3⟩
        exact ⟨ed, by rw [List.getElem?_append_left (List.getElem?_eq_some_iff.1 h1).1]; exact h1, h2, h3⟩
      · rintro ⟨ed, h1, h2, h3⟩
        by_cases hk : k < E.length
        · rw [List.getElem?_append_left hk] at h1
          exact ⟨ed, h1, h2, h3⟩
        · exfalso
          have hk2 := (List.getElem?_eq_some_iff.1 h1).1
          simp at hk2
          have : k = E.length := by omega
          subst this
          simp at h1
          subst h1
          simp only at h2 h3
          subst h2; subst h3
          exact e rfl
  · intro j k e e' h1 h2 h3 h4
    by_cases hj : j < E.length
    · rw [List.getElem?_append_left hj] at h1
      by_cases hk : k < E.length
      · rw [List.getElem?_append_left hk] at h2
        exact h.distinct j k e e' h1 h2 h3 h4
      · have hk2 := (List.getElem?_eq_some_iff.1 h2).1
        simp at hk2
        have : k = E.length := by omega
        subst this
        simp at h2; subst h2
        exact absurd ⟨h3, h4⟩ (hnew e (List.mem_of_getElem? h1))
    · have hj2 := (List.getElem?_eq_some_iff.1 h1).1
      simp at hj2
      have hj3 : j = E.length := by omega
      subst hj3
      simp at h1; subst h1
      by_cases hk : k < E.length
      · rw [List.getElem?_append_left hk] at h2
        exact absurd ⟨h3.symm, h4.symm⟩ (hnew e' (List.mem_of_getElem? h2))
      · have hk2 := (List.getElem?_eq_some_iff.1 h2).1
        simp at hk2
        omega

theorem rep_setSupply {f : MipFlow} {N : Nat} {E : List Edge} (h : Rep f N E) {n : Nat} (hn : n < N) (v : Int) :
    f.setSupply n v = .ok { f with solution := [], supply := f.supply.set n v } ∧
    Rep { f with solution := [], supply := f.supply.set n v } N E := by
  constructor
  · unfold MipFlow.setSupply
    rw [setIdx_eq_ok.2 ⟨(by rw [h.supLen]; exact hn), rfl⟩]
    rfl
  · exact ⟨h.outLen, h.incLen, by simp [h.supLen], h.max, h.cost, h.out, h.inc, h.map, h.distinct⟩

/-! ### Values -/

/-- The value of the edge from `a` to `b` (0 if there is none). -/
def V (f : MipFlow) (x : List Int) (a b : Nat) : Int :=
  match f.edgeMap.lookup (makeLong a b) with
  | some k => val x k
  | none => 0

section
variable {f : MipFlow} {N : Nat} {E : List Edge}

theorem V_edge (h : Rep f N E) (x : List Int) {k : Nat} {e : Edge} (he : E[k]? = some e) (h1 : e.src ≤ u32Max) (h2 : e.dst ≤ u32Max) :
    V f x e.src e.dst = val x k := by
  unfold V
  rw [(h.map e.src e.dst h1 h2 k).2 ⟨e, he, rfl, rfl⟩]

theorem V_none (h : Rep f N E) (x : List Int) {a b : Nat} (ha : a ≤ u32Max) (hb : b ≤ u32Max)
    (hn : ∀ e ∈ E, ¬ (e.src = a ∧ e.dst = b)) : V f x a b = 0 := by
  unfold V
  cases hl : f.edgeMap.lookup (makeLong a b) with
  | none => rfl
  | some k =>
    obtain ⟨e, h1, h2, h3⟩ := (h.map a b ha hb k).1 hl
    exact absurd ⟨h2, h3⟩ (hn e (List.mem_of_getElem? h1))

/-- The sum over the edges with property `P`. -/
theorem sum_idxs (h : Rep f N E) (x : List Int) (hu : ∀ e ∈ E, e.src ≤ u32Max ∧ e.dst ≤ u32Max) (P : Edge → Bool) :
    ((idxs E P).map (val x)).sum = isum (E.filter P) (fun e => V f x e.src e.dst) := by
  have h1 : ((idxs E P).map (val x)).sum = isum (E.zipIdx.filter (fun e => P e.1)) (fun e => val x e.2) := by
    unfold idxs isum
    rw [List.map_map]; rfl
  have h2 : isum (E.zipIdx.filter (fun e => P e.1)) (fun e => val x e.2) =
      isum (E.zipIdx.filter (fun e => P e.1)) (fun e => V f x e.1.src e.1.dst) := by
    apply isum_congr
    intro e he
    have hm := (List.mem_filter.1 he).1
    have hg := List.mem_zipIdx_iff_getElem?.1 hm
    have := hu e.1 (List.mem_of_getElem? hg)
    exact (V_edge h x hg this.1 this.2).symm
  have h3 : isum (E.zipIdx.filter (fun e => P e.1)) (fun e => V f x e.1.src e.1.dst) =
      isum (E.filter P) (fun e => V f x e.src e.dst) := by
    rw [isum_filter, isum_filter]
    have : E = E.zipIdx.map (·.1) := by simp
    conv => rhs; rw [this, isum_map]
  rw [h1, h2, h3]

/-- The objective as a sum over the edges. -/
theorem flowCost_eq (h : Rep f N E) (x : List Int) (hu : ∀ e ∈ E, e.src ≤ u32Max ∧ e.dst ≤ u32Max) :
    flowCost f x = isum E (fun e => e.cost * V f x e.src e.dst) := by
  unfold flowCost
  have hlen : f.edgeCount = E.length := by unfold MipFlow.edgeCount; rw [h.max]; simp
  have h1 : E = E.zipIdx.map (·.1) := by simp
  conv => rhs; rw [h1, isum_map]
  rw [isum_zipIdx E (fun e _ => e.cost * V f x e.src e.dst), hlen]
  refine isum_congr ?_
  intro k hk
  have hk' : k < E.length := by simpa using hk
  have hg : E[k]? = some E[k] := by simp [hk']
  rw [hg, h.cost]
  have := hu E[k] (List.getElem_mem hk')
  simp only
  rw [V_edge h x hg this.1 this.2]
  simp [hk']

/-! ### Groups -/

/-- The group and blocking constraints. -/
def GroupsOk (f : MipFlow) (x : List Int) : Prop :=
  (∀ g ∈ f.groups, ∃ b : Int, (b = 0 ∨ b = 1) ∧ ∀ e ∈ g, val x e = b) ∧ ∀ e ∈ f.blocked, val x e = 0

/-- The edges named by the keys all carry the same flow. -/
def KeysOk (f : MipFlow) (x : List Int) (ks : List (Nat × Nat)) : Prop :=
  ∀ k ∈ ks, ∀ k' ∈ ks, V f x k.1 k.2 = V f x k'.1 k'.2

theorem groupOrBlock_ok (ks : List (Nat × Nat)) (x : List Int)
    (h01 : ∀ k ∈ ks, V f x k.1 k.2 = 0 ∨ V f x k.1 k.2 = 1) :
    GroupsOk (f.groupOrBlock (ks.map (fun k => makeLong k.1 k.2))) x ↔ GroupsOk f x ∧ KeysOk f x ks := by
  unfold MipFlow.groupOrBlock
  simp only [List.map_map]
  have hval : ∀ k ∈ ks, ∀ e, f.edgeMap.lookup (makeLong k.1 k.2) = some e → V f x k.1 k.2 = val x e := by
    intro k _ e he; unfold V; rw [he]
  have hnone : ∀ k ∈ ks, f.edgeMap.lookup (makeLong k.1 k.2) = none → V f x k.1 k.2 = 0 := by
    intro k _ he; unfold V; rw [he]
  have hmem : ∀ e, e ∈ ((ks.map ((fun k => f.edgeMap.lookup k) ∘ fun k => makeLong k.1 k.2)).filterMap id) ↔
      ∃ k ∈ ks, f.edgeMap.lookup (makeLong k.1 k.2) = some e := by
    intro e
    simp [List.mem_filterMap]
  split
  · rename_i hany
    have hany' : ∃ k ∈ ks, f.edgeMap.lookup (makeLong k.1 k.2) = none := by
      simpa [List.any_eq_true, Option.isNone_iff_eq_none] using hany
    obtain ⟨k0, hk0, hn0⟩ := hany'
    have e0 := hnone k0 hk0 hn0
    unfold GroupsOk
    simp only [List.mem_append, hmem]
    constructor
    · rintro ⟨h1, h2⟩
      refine ⟨⟨h1, fun e he => h2 e (.inl he)⟩, ?_⟩
      have hz : ∀ k ∈ ks, V f x k.1 k.2 = 0 := by
        intro k hk
        cases hl : f.edgeMap.lookup (makeLong k.1 k.2) with
        | none => exact hnone k hk hl
        | some e => rw [hval k hk e hl]; exact h2 e (.inr ⟨k, hk, hl⟩)
      intro k hk k' hk'
      rw [hz k hk, hz k' hk']
    · rintro ⟨⟨h1, h2⟩, h3⟩
      refine ⟨h1, ?_⟩
      rintro e (he | ⟨k, hk, hl⟩)
      · exact h2 e he
      · rw [← hval k hk e hl, h3 k hk k0 hk0, e0]
  · rename_i hany
    have hall : ∀ k ∈ ks, ∃ e, f.edgeMap.lookup (makeLong k.1 k.2) = some e := by
      intro k hk
      cases hl : f.edgeMap.lookup (makeLong k.1 k.2) with
      | some e => exact ⟨e, rfl⟩
      | none =>
        exfalso; apply hany
        simp only [List.any_eq_true, List.mem_map]
        exact ⟨none, ⟨k, hk, hl⟩, rfl⟩
    unfold GroupsOk
    simp only [List.mem_append, List.mem_singleton]
    constructor
    · rintro ⟨h1, h2⟩
      refine ⟨⟨fun g hg => h1 g (.inl hg), h2⟩, ?_⟩
      obtain ⟨b, _, hb⟩ := h1 _ (.inr rfl)
      intro k hk k' hk'
      obtain ⟨e, he⟩ := hall k hk
      obtain ⟨e', he'⟩ := hall k' hk'
      rw [hval k hk e he, hval k' hk' e' he', hb e ((hmem e).2 ⟨k, hk, he⟩), hb e' ((hmem e').2 ⟨k', hk', he'⟩)]
    · rintro ⟨⟨h1, h2⟩, h3⟩
      refine ⟨?_, h2⟩
      rintro g (hg | rfl)
      · exact h1 g hg
      · cases ks with
        | nil => exact ⟨0, .inl rfl, by simp⟩
        | cons k0 ks =>
          refine ⟨V f x k0.1 k0.2, h01 k0 (by simp), ?_⟩
          intro e he
          obtain ⟨k, hk, hl⟩ := (hmem e).1 he
          rw [← hval k hk e hl]
          exact h3 k hk k0 (by simp)

/-- Everything but groups and blocked edges is unchanged. -/
def SameButGroups (f g : MipFlow) : Prop :=
  g.edgeMap = f.edgeMap ∧ g.supply = f.supply ∧ g.outgoing = f.outgoing ∧ g.incoming = f.incoming ∧
  g.edgesMax = f.edgesMax ∧ g.edgesCost = f.edgesCost

theorem SameButGroups.refl (f : MipFlow) : SameButGroups f f := ⟨rfl, rfl, rfl, rfl, rfl, rfl⟩

theorem SameButGroups.trans {f g k : MipFlow} (h1 : SameButGroups f g) (h2 : SameButGroups g k) : SameButGroups f k := by
  obtain ⟨a1, a2, a3, a4, a5, a6⟩ := h1
  obtain ⟨b1, b2, b3, b4, b5, b6⟩ := h2
  exact ⟨b1.trans a1, b2.trans a2, b3.trans a3, b4.trans a4, b5.trans a5, b6.trans a6⟩

theorem sameButGroups_groupOrBlock (f : MipFlow) (ks : List Nat) : SameButGroups f (f.groupOrBlock ks) := by
  unfold MipFlow.groupOrBlock
  simp only
  split <;> exact ⟨rfl, rfl, rfl, rfl, rfl, rfl⟩

theorem SameButGroups.V {f g : MipFlow} (h : SameButGroups f g) (x : List Int) (a b : Nat) : V g x a b = V f x a b := by
  unfold Wassign.V; rw [h.1]

theorem SameButGroups.rep {f g : MipFlow} {N : Nat} {E : List Edge} (h : SameButGroups f g) (hr : Rep f N E) : Rep g N E := by
  obtain ⟨a1, a2, a3, a4, a5, a6⟩ := h
  exact ⟨by rw [a3]; exact hr.outLen, by rw [a4]; exact hr.incLen, by rw [a2]; exact hr.supLen, by rw [a5]; exact hr.max,
    by rw [a6]; exact hr.cost, by rw [a3]; exact hr.out, by rw [a4]; exact hr.inc, by rw [a1]; exact hr.map, hr.distinct⟩

end
end Wassign
