import Verif.Proofs.Compile
import Verif.Proofs.UnionFind
import Verif.Proofs.Constraints
import Mathlib.Data.List.Nodup
/-
compute_part_constraints: all pairs of parts of a registered choice.
-/
namespace Wassign
open Spec Build

/-- The links between consecutive parts. -/
def ContLink (choices : List Choice) (a b : Nat) : Prop := ∃ ch, choices[a]? = some ch ∧ ch.continuation = some b

theorem contFold_spec {n : Nat} : ∀ (l : List Choice) (k : Nat) (u : UF) (E : Nat → Nat → Prop),
    (∀ ch ∈ l, ∀ b, ch.continuation = some b → b < n) → k + l.length ≤ n →
    UF.Comp n u E → (∀ a b, E a b → a < n ∧ b < n) →
    ∃ u', (l.zipIdx k).foldlM contStep u = .ok u' ∧
      UF.Comp n u' (fun a b => E a b ∨ ∃ j, a = k + j ∧ ContLink l j b) := by
  intro l
  induction l with
  | nil =>
    intro k u E _ _ hc _
    refine ⟨u, rfl, hc.inv, ?_⟩
    intro a b ha hb
    rw [hc.same a b ha hb]
    constructor
    · exact Connected.mono (fun _ _ h => .inl h)
    · refine Connected.mono (fun _ _ h => ?_)
      rcases h with h | ⟨_, _, _, h, _⟩
      · exact h
      · simp at h
  | cons ch l ih =>
    intro k u E hl hk hc hE
    simp only [List.length_cons] at hk
    rw [List.zipIdx_cons, List.foldlM_cons]
    have hstep : ∃ u', contStep u (ch, k) = .ok u' ∧
        UF.Comp n u' (fun a b => E a b ∨ (a = k ∧ ch.continuation = some b)) := by
      unfold contStep
      cases hcc : ch.continuation with
      | none =>
        refine ⟨u, rfl, hc.inv, ?_⟩
        intro a b ha hb
        rw [hc.same a b ha hb]
        simp
      | some b =>
        obtain ⟨u', h1, h2⟩ := UF.comp_join hc hE (x := k) (y := b) (by omega) (hl ch (by simp) b hcc)
        refine ⟨u', h1, h2.inv, ?_⟩
        intro x y hx hy
        rw [h2.same x y hx hy]
        simp only [Option.some.injEq, eq_comm (a := b)]
    obtain ⟨u', h1, h2⟩ := hstep
    rw [h1, R.bind_ok]
    obtain ⟨u'', h3, h4⟩ := ih (k + 1) u' _ (fun c hc b hb => hl c (by simp [hc]) b hb) (by omega) h2 (by
      rintro a b (h | ⟨h, h'⟩)
      · exact hE a b h
      · exact ⟨by omega, hl ch (by simp) b h'⟩)
    refine ⟨u'', h3, h4.inv, ?_⟩
    intro a b ha hb
    rw [h4.same a b ha hb]
    have heq : (fun a b => (E a b ∨ (a = k ∧ ch.continuation = some b)) ∨ ∃ j, a = k + 1 + j ∧ ContLink l j b) =
        (fun a b => E a b ∨ ∃ j, a = k + j ∧ ContLink (ch :: l) j b) := by
      funext a b
      apply propext
      constructor
      · rintro ((h | ⟨h, h'⟩) | ⟨j, h, h'⟩)
        · exact .inl h
        · exact .inr ⟨0, by omega, ch, rfl, h'⟩
        · exact .inr ⟨j + 1, by omega, h'⟩
      · rintro (h | ⟨j, h, h'⟩)
        · exact .inl (.inl h)
        · cases j with
          | zero =>
            obtain ⟨c, hc1, hc2⟩ := h'
            simp at hc1
            subst hc1
            exact .inl (.inr ⟨by omega, hc2⟩)
          | succ j => exact .inr ⟨j, by omega, h'⟩
    rw [heq]

/-- Strictly increasing lists with the same elements are equal. -/
theorem eq_of_increasing : ∀ {l l' : List Nat}, l.Pairwise (· < ·) → l'.Pairwise (· < ·) →
    (∀ x, x ∈ l ↔ x ∈ l') → l = l' := by
  intro l
  induction l with
  | nil =>
    intro l' _ _ h
    cases l' with
    | nil => rfl
    | cons y _ => exact absurd ((h y).2 (by simp)) (by simp)
  | cons x xs ih =>
    intro l' h1 h2 h
    cases l' with
    | nil => exact absurd ((h x).1 (by simp)) (by simp)
    | cons y ys =>
      rw [List.pairwise_cons] at h1 h2
      have hxy : x = y := by
        rcases List.mem_cons.1 ((h x).1 (by simp)) with e | e
        · exact e
        · rcases List.mem_cons.1 ((h y).2 (by simp)) with e' | e'
          · exact e'.symm
          · have := h1.1 y e'
            have := h2.1 x e
            omega
      subst hxy
      congr 1
      refine ih h1.2 h2.2 (fun z => ?_)
      have := h z
      simp only [List.mem_cons] at this
      constructor
      · intro hz
        have h3 := h1.1 z hz
        rcases this.1 (.inr hz) with e | e
        · omega
        · exact e
      · intro hz
        have h3 := h2.1 z hz
        rcases this.2 (.inr hz) with e | e
        · omega
        · exact e

theorem sortNat_of_increasing {l : List Nat} (h : l.Pairwise (· < ·)) : sortNat l = l := by
  induction l with
  | nil => rfl
  | cons x xs ih =>
    rw [List.pairwise_cons] at h
    show insertBy _ x (sortNat xs) = _
    rw [ih h.2]
    cases xs with
    | nil => rfl
    | cons y ys =>
      have := h.1 y (by simp)
      simp [insertBy, Nat.le_of_lt this]

/-- The two constraints linking two parts. -/
def sameCon (x y : Nat) : Constraint := ⟨.choicesHaveSameChoosers, x, .choice y, .none⟩
def offCon (x y : Nat) (o : Nat) : Constraint := ⟨.choicesHaveOffset, x, .choice y, .offset o⟩

theorem groupPairs_spec : ∀ (w o s : Nat), w ≤ i32Max →
    ∃ cs, groupPairs ((List.range' o w).zipIdx s) = .ok cs ∧
      ∀ c, c ∈ cs ↔ ∃ j1 j2, j1 < j2 ∧ j2 < w ∧
        (c = sameCon (o + j1) (o + j2) ∨ c = offCon (o + j1) (o + j2) (j2 - j1)) := by
  intro w
  induction w with
  | zero => intro o s _; exact ⟨[], rfl, by simp⟩
  | succ w ih =>
    intro o s hw
    obtain ⟨cs, h1, h2⟩ := ih (o + 1) (s + 1) (by omega)
    rw [List.range'_succ, List.zipIdx_cons]
    unfold groupPairs
    have hm : ((List.range' (o + 1) w).zipIdx (s + 1)).mapM (partPair (o, s)) =
        .ok (((List.range' (o + 1) w).zipIdx (s + 1)).map (fun b => [sameCon o b.1, offCon o b.1 (b.2 - s)])) := by
      apply mapM_eq_ok_of
      rintro ⟨x, k⟩ hx
      rw [List.mk_mem_zipIdx_iff_le_and_getElem?_sub] at hx
      have := (List.getElem?_eq_some_iff.1 hx.2).1
      rw [List.length_range'] at this
      unfold partPair
      rw [toI32_eq_ok.2 ⟨show k - s ≤ i32Max by omega, rfl⟩]
      rfl
    rw [hm, R.bind_ok, h1, R.bind_ok]
    refine ⟨_, rfl, ?_⟩
    intro c
    rw [List.mem_append, h2]
    simp only [List.mem_flatten, List.mem_map]
    constructor
    · rintro (⟨_, ⟨⟨x, k⟩, hx, rfl⟩, hc⟩ | ⟨j1, j2, h3, h4, h5⟩)
      · rw [List.mk_mem_zipIdx_iff_le_and_getElem?_sub] at hx
        have hlt := (List.getElem?_eq_some_iff.1 hx.2).1
        rw [List.length_range'] at hlt
        have hxe := hx.2
        rw [List.getElem?_range' hlt] at hxe
        simp at hxe
        refine ⟨0, k - s, by omega, by omega, ?_⟩
        have e1 : x = o + (k - s) := by omega
        subst e1
        simpa using hc
      · refine ⟨j1 + 1, j2 + 1, by omega, by omega, ?_⟩
        rw [show o + (j1 + 1) = o + 1 + j1 by omega, show o + (j2 + 1) = o + 1 + j2 by omega,
          show j2 + 1 - (j1 + 1) = j2 - j1 by omega]
        exact h5
    · rintro ⟨j1, j2, h3, h4, h5⟩
      cases j1 with
      | zero =>
        refine .inl ⟨_, ⟨(o + j2, s + j2), ?_, rfl⟩, ?_⟩
        · rw [List.mk_mem_zipIdx_iff_le_and_getElem?_sub]
          refine ⟨by omega, ?_⟩
          rw [List.getElem?_range' (by omega)]
          simp; omega
        · rw [show s + j2 - s = j2 by omega]
          simpa using h5
      | succ j1 =>
        refine .inr ⟨j1, j2 - 1, by omega, by omega, ?_⟩
        rw [show o + 1 + j1 = o + (j1 + 1) by omega, show o + 1 + (j2 - 1) = o + j2 by omega,
          show j2 - 1 - j1 = j2 - (j1 + 1) by omega]
        exact h5

theorem blocks_link {ps : List Proto} {a b : Nat} : ContLink (blocks 0 ps) a b ↔
    ∃ k j, IsPart ps k j a ∧ IsPart ps k (j + 1) b := by
  constructor
  · rintro ⟨ch, h1, h2⟩
    have hlt := (List.getElem?_eq_some_iff.1 h1).1
    rw [length_blocks] at hlt
    obtain ⟨k, j, hp⟩ := isPart_exists hlt
    obtain ⟨p, h3, h4, h5⟩ := id hp
    rw [h5, blocks_get h3 h4 0] at h1
    cases h1
    simp only at h2
    split at h2
    · rename_i hj
      simp at h2
      exact ⟨k, j, hp, p, h3, hj, by omega⟩
    · cases h2
  · rintro ⟨k, j, ⟨p, h3, h4, h5⟩, ⟨p', h3', h4', h5'⟩⟩
    rw [h3] at h3'; cases h3'
    refine ⟨_, by rw [h5]; exact blocks_get h3 h4 0, ?_⟩
    simp only [h4', if_true]
    congr 1; omega

theorem blocks_connected {ps : List Proto} {a b : Nat} (ha : a < (ps.map width).sum) :
    Connected (ContLink (blocks 0 ps)) a b ↔ ∃ k j j', IsPart ps k j a ∧ IsPart ps k j' b := by
  constructor
  · intro h
    have := Connected.least (P := fun a b => (∀ k j, IsPart ps k j a → ∃ j', IsPart ps k j' b) ∧
        (∀ k j, IsPart ps k j b → ∃ j', IsPart ps k j' a)) ?_ (fun a => ⟨fun k j h => ⟨j, h⟩, fun k j h => ⟨j, h⟩⟩)
      (fun a b h => ⟨h.2, h.1⟩) ?_ h
    · obtain ⟨k, j, hk⟩ := isPart_exists ha
      obtain ⟨j', h'⟩ := this.1 k j hk
      exact ⟨k, j, j', hk, h'⟩
    · intro a b h
      obtain ⟨k, j, h1, h2⟩ := blocks_link.1 h
      refine ⟨fun k' j' h' => ?_, fun k' j' h' => ?_⟩
      · obtain ⟨e, _⟩ := isPart_unique h' h1
        exact ⟨j + 1, by rw [e]; exact h2⟩
      · obtain ⟨e, _⟩ := isPart_unique h' h2
        exact ⟨j, by rw [e]; exact h1⟩
    · rintro a b c ⟨h1, h2⟩ ⟨h3, h4⟩
      refine ⟨fun k j h => ?_, fun k j h => ?_⟩
      · obtain ⟨j', h'⟩ := h1 k j h
        exact h3 k j' h'
      · obtain ⟨j', h'⟩ := h4 k j h
        exact h2 k j' h'
  · rintro ⟨k, j, j', ⟨p, h1, h2, h3⟩, ⟨p', h1', h2', h3'⟩⟩
    rw [h1] at h1'; cases h1'
    have : ∀ m, m < width p → Connected (ContLink (blocks 0 ps)) (offset ps k) (offset ps k + m) := by
      intro m
      induction m with
      | zero => intro _; exact .refl _
      | succ m ih =>
        intro hm
        refine .trans (ih (by omega)) (.link (blocks_link.2 ⟨k, m, ⟨p, h1, by omega, rfl⟩, ⟨p, h1, hm, by omega⟩⟩))
    rw [h3, h3']
    exact .trans (.symm (this j h2)) (this j' h2')

/-- Constraint `c` links two parts of a registered choice. -/
def IsPartCon (ps : List Proto) (c : Constraint) : Prop :=
  ∃ k j1 j2 x y, IsPart ps k j1 x ∧ IsPart ps k j2 y ∧ j1 < j2 ∧ (c = sameCon x y ∨ c = offCon x y (j2 - j1))

theorem flatten_unique {gs : List (List Nat)} (h : gs.flatten.Nodup) {g g' : List Nat} (hg : g ∈ gs) (hg' : g' ∈ gs)
    {x : Nat} (hx : x ∈ g) (hx' : x ∈ g') : g = g' := by
  induction gs with
  | nil => cases hg
  | cons a gs ih =>
    rw [List.flatten_cons, List.nodup_append] at h
    obtain ⟨_, h2, h3⟩ := h
    rcases List.mem_cons.1 hg with e | e <;> rcases List.mem_cons.1 hg' with e' | e'
    · rw [e, e']
    · exact absurd rfl (h3 x (e ▸ hx) x (List.mem_flatten.2 ⟨g', e', hx'⟩))
    · exact absurd rfl (h3 x (e' ▸ hx') x (List.mem_flatten.2 ⟨g, e, hx⟩))
    · exact ih h2 e e'

theorem partConstraints_spec {ps : List Proto} (hn : (ps.map width).sum ≤ i32Max) :
    ∃ cs, partConstraints (blocks 0 ps) = .ok cs ∧ ∀ c, c ∈ cs ↔ IsPartCon ps c := by
  have hlen := length_blocks 0 ps
  have hlink : ∀ a b, ContLink (blocks 0 ps) a b → a < (blocks 0 ps).length ∧ b < (blocks 0 ps).length := by
    intro a b h
    obtain ⟨k, j, h1, h2⟩ := blocks_link.1 h
    rw [hlen]
    exact ⟨isPart_lt h1, isPart_lt h2⟩
  obtain ⟨u, h1, h2⟩ := UF.comp_new (n := (blocks 0 ps).length) (by rw [hlen]; exact hn)
  obtain ⟨u', h3, h4⟩ := contFold_spec (blocks 0 ps) 0 u _ (fun ch hch b hb => by
    obtain ⟨a, ha⟩ := List.mem_iff_getElem?.1 hch
    exact (hlink a b ⟨ch, ha, hb⟩).2) (by omega) h2 (fun _ _ h => h.elim)
  obtain ⟨gs, h5, hpart, hsort, hconn⟩ := UF.groups_spec h4
  have hconn' : ∀ a b, a < (ps.map width).sum → b < (ps.map width).sum →
      ((∃ g ∈ gs, a ∈ g ∧ b ∈ g) ↔ ∃ k j j', IsPart ps k j a ∧ IsPart ps k j' b) := by
    intro a b ha hb
    rw [hconn a b (by rw [hlen]; exact ha) (by rw [hlen]; exact hb), ← blocks_connected ha]
    have heq : (fun a b => False ∨ ∃ j, a = 0 + j ∧ ContLink (blocks 0 ps) j b) = ContLink (blocks 0 ps) := by
      funext a b
      apply propext
      simp
    rw [heq]
  have hmemlt : ∀ g ∈ gs, ∀ x ∈ g, x < (ps.map width).sum := by
    intro g hg x hx
    have := (hpart.covers.mem_iff (a := x)).1 (List.mem_flatten.2 ⟨g, hg, hx⟩)
    rw [List.mem_range, hlen] at this
    exact this
  -- every group is a block
  have hgroup : ∀ g ∈ gs, ∃ k p, ps[k]? = some p ∧ g = List.range' (offset ps k) (width p) := by
    intro g hg
    obtain ⟨a, ha⟩ := List.exists_mem_of_ne_nil _ (hpart.nonempty g hg)
    obtain ⟨k, j, hp⟩ := isPart_exists (hmemlt g hg a ha)
    obtain ⟨p, hp1, hp2, hp3⟩ := id hp
    refine ⟨k, p, hp1, eq_of_increasing (hsort g hg) (List.pairwise_lt_range' ..) ?_⟩
    intro x
    rw [List.mem_range'_1]
    constructor
    · intro hx
      obtain ⟨k', j', j'', e1, e2⟩ := (hconn' a x (hmemlt g hg a ha) (hmemlt g hg x hx)).1 ⟨g, hg, ha, hx⟩
      obtain ⟨e, _⟩ := isPart_unique hp e1
      subst e
      obtain ⟨p', q1, q2, q3⟩ := e2
      rw [hp1] at q1; cases q1
      omega
    · intro hx
      have hxp : IsPart ps k (x - offset ps k) x := ⟨p, hp1, by omega, by omega⟩
      obtain ⟨g', hg', m1, m2⟩ := (hconn' a x (hmemlt g hg a ha) (isPart_lt hxp)).2 ⟨k, j, _, hp, hxp⟩
      have hnd : gs.flatten.Nodup := hpart.covers.nodup_iff.2 List.nodup_range
      have : g' = g := flatten_unique hnd hg' hg m1 ha
      rwa [← this]
  have hblock : ∀ (k : Nat) p, ps[k]? = some p → List.range' (offset ps k) (width p) ∈ gs := by
    intro k p hp
    have hp0 : IsPart ps k 0 (offset ps k) := ⟨p, hp, width_pos p, by omega⟩
    obtain ⟨g, hg, m1, _⟩ := (hconn' _ _ (isPart_lt hp0) (isPart_lt hp0)).2 ⟨k, 0, 0, hp0, hp0⟩
    obtain ⟨k', p', hp', e⟩ := hgroup g hg
    rw [e, List.mem_range'_1] at m1
    obtain ⟨ek, _⟩ := isPart_unique hp0 (⟨p', hp', by omega, by omega⟩ : IsPart ps k' (offset ps k - offset ps k') (offset ps k))
    subst ek
    rw [hp] at hp'; cases hp'
    rwa [← e]
  have hw : ∀ (k : Nat) p, ps[k]? = some p → width p ≤ i32Max := by
    intro k p hp
    have : IsPart ps k (width p - 1) (offset ps k + (width p - 1)) :=
      ⟨p, hp, by have := width_pos p; omega, rfl⟩
    have := isPart_lt this
    omega
  -- the constraints of the groups
  have hmap : ∀ gs' : List (List Nat), (∀ g ∈ gs', g ∈ gs) →
      ∃ ls, gs'.mapM (fun g => groupPairs (sortNat g).zipIdx) = .ok ls ∧
        ∀ c, c ∈ ls.flatten ↔ ∃ g ∈ gs', ∃ k p j1 j2, ps[k]? = some p ∧ g = List.range' (offset ps k) (width p) ∧
          j1 < j2 ∧ j2 < width p ∧ (c = sameCon (offset ps k + j1) (offset ps k + j2) ∨
            c = offCon (offset ps k + j1) (offset ps k + j2) (j2 - j1)) := by
    intro gs'
    induction gs' with
    | nil => intro _; exact ⟨[], rfl, by simp⟩
    | cons g gs' ih =>
      intro hsub
      obtain ⟨ls, e1, e2⟩ := ih (fun g hg => hsub g (by simp [hg]))
      obtain ⟨k, p, hp, hg⟩ := hgroup g (hsub g (by simp))
      obtain ⟨cs, e3, e4⟩ := groupPairs_spec (width p) (offset ps k) 0 (hw k p hp)
      have e5 : groupPairs (sortNat g).zipIdx = .ok cs := by
        rw [sortNat_of_increasing (hsort g (hsub g (by simp))), hg]
        exact e3
      refine ⟨cs :: ls, by rw [List.mapM_cons, e5, R.bind_ok, e1]; rfl, ?_⟩
      intro c
      rw [List.flatten_cons, List.mem_append, e2, e4]
      constructor
      · rintro (⟨j1, j2, q⟩ | ⟨g', hg', q⟩)
        · exact ⟨g, by simp, k, p, j1, j2, hp, hg, q⟩
        · exact ⟨g', by simp [hg'], q⟩
      · rintro ⟨g', hg', k', p', j1, j2, q1, q2, q3⟩
        rcases List.mem_cons.1 hg' with e | e
        · left
          have e0 : IsPart ps k 0 (offset ps k) := ⟨p, hp, width_pos p, by omega⟩
          have hm : offset ps k ∈ g' := by rw [e, hg, List.mem_range'_1]; have := width_pos p; omega
          rw [q2, List.mem_range'_1] at hm
          obtain ⟨ek, _⟩ := isPart_unique e0
            (⟨p', q1, by omega, by omega⟩ : IsPart ps k' (offset ps k - offset ps k') (offset ps k))
          subst ek
          rw [hp] at q1; cases q1
          exact ⟨j1, j2, q3⟩
        · exact .inr ⟨g', e, k', p', j1, j2, q1, q2, q3⟩
  obtain ⟨ls, e1, e2⟩ := hmap gs (fun g hg => hg)
  refine ⟨ls.flatten, ?_, ?_⟩
  · unfold partConstraints
    rw [h1, R.bind_ok, h3, R.bind_ok, h5, R.bind_ok, e1]
    rfl
  · intro c
    rw [e2]
    constructor
    · rintro ⟨g, hg, k, p, j1, j2, q1, q2, q3, q4, q5⟩
      exact ⟨k, j1, j2, _, _, ⟨p, q1, by omega, rfl⟩, ⟨p, q1, q4, rfl⟩, q3, q5⟩
    · rintro ⟨k, j1, j2, x, y, ⟨p, q1, q2, q3⟩, ⟨p', q1', q2', q3'⟩, q4, q5⟩
      rw [q1] at q1'; cases q1'
      subst q3; subst q3'
      exact ⟨_, hblock k p q1, k, p, j1, j2, q1, rfl, q4, q2', q5⟩

end Wassign
