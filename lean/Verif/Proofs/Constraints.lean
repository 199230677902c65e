import Verif.Model.Constraints
import Verif.Spec.Written
import Verif.Proofs.UnionFind
import Verif.Proofs.SchedCons
/-
constraints.rs: what preprocessing does to the constraint list.
-/
namespace Wassign
open Spec

/-! ### dedup, sort -/

theorem mem_dedup {α : Type} [DecidableEq α] {l : List α} {x : α} : x ∈ dedup l ↔ x ∈ l := by
  fun_induction dedup l with
  | case1 => simp
  | case2 => simp
  | case3 y t ih => rw [ih]; simp
  | case4 a b t hne ih => simp [ih]

theorem dedup_sublist {α : Type} [DecidableEq α] (l : List α) : (dedup l).Sublist l := by
  fun_induction dedup l with
  | case1 => exact .refl _
  | case2 => exact .refl _
  | case3 y t ih => exact ih.cons _
  | case4 a b t hne ih => exact ih.cons_cons _

theorem lexLe_refl : ∀ l : List Int, lexLe l l = true := by
  intro l; induction l with
  | nil => rfl
  | cons a t ih => simp [lexLe, ih]

theorem lexLe_total : ∀ a b : List Int, (lexLe a b || lexLe b a) = true := by
  intro a
  induction a with
  | nil => intro b; cases b <;> simp [lexLe]
  | cons x xs ih =>
    intro b
    cases b with
    | nil => simp [lexLe]
    | cons y ys =>
      have := ih ys
      simp only [lexLe, Bool.or_eq_true, Bool.and_eq_true, decide_eq_true_eq] at this ⊢
      rcases Int.lt_trichotomy x y with h | h | h
      · exact .inl (.inl h)
      · rcases this with h' | h'
        · exact .inl (.inr ⟨h, h'⟩)
        · exact .inr (.inr ⟨h.symm, h'⟩)
      · exact .inr (.inl h)

theorem lexLe_trans : ∀ a b c : List Int, lexLe a b = true → lexLe b c = true → lexLe a c = true := by
  intro a
  induction a with
  | nil => intro b c _ _; simp [lexLe]
  | cons x xs ih =>
    intro b c h1 h2
    cases b with
    | nil => simp [lexLe] at h1
    | cons y ys =>
      cases c with
      | nil => simp [lexLe] at h2
      | cons z zs =>
        simp only [lexLe, Bool.or_eq_true, Bool.and_eq_true, decide_eq_true_eq] at h1 h2 ⊢
        rcases h1 with h1 | ⟨h1, h1'⟩ <;> rcases h2 with h2 | ⟨h2, h2'⟩
        · exact .inl (by omega)
        · exact .inl (by omega)
        · exact .inl (by omega)
        · exact .inr ⟨by omega, ih _ _ h1' h2'⟩

theorem lexLe_antisymm : ∀ a b : List Int, lexLe a b = true → lexLe b a = true → a = b := by
  intro a
  induction a with
  | nil => intro b _ h; cases b with
    | nil => rfl
    | cons _ _ => simp [lexLe] at h
  | cons x xs ih =>
    intro b h1 h2
    cases b with
    | nil => simp [lexLe] at h1
    | cons y ys =>
      simp only [lexLe, Bool.or_eq_true, Bool.and_eq_true, decide_eq_true_eq] at h1 h2
      rcases h1 with h1 | ⟨h1, h1'⟩ <;> rcases h2 with h2 | ⟨h2, h2'⟩
      · omega
      · omega
      · omega
      · rw [h1, ih _ h1' h2']

theorem Kind.toNat_inj {a b : Kind} (h : a.toNat = b.toNat) : a = b := by
  cases a <;> cases b <;> first | rfl | (simp [Kind.toNat] at h)

theorem Target.key_inj {a b : Target} (h : a.key = b.key) : a = b := by
  cases a <;> cases b <;> simp only [Target.key, Prod.mk.injEq] at h <;> first | rfl | (exact absurd h.1 (by decide)) | (obtain ⟨_, h⟩ := h; congr 1; omega)

theorem Extra.key_inj {a b : Extra} (h : a.key = b.key) : a = b := by
  cases a with
  | none => cases b <;> simp [Extra.key] at h <;> rfl
  | offset x => cases b <;> simp [Extra.key] at h; subst h; rfl
  | limitOp x =>
    cases b with
    | none => simp [Extra.key] at h
    | offset _ => simp [Extra.key] at h
    | limitOp y =>
      cases x <;> cases y <;> first | rfl | (simp [Extra.key, LimitOp.toInt] at h)

theorem Constraint.key_inj {a b : Constraint} (h : a.key = b.key) : a = b := by
  obtain ⟨k, l, r, e⟩ := a
  obtain ⟨k', l', r', e'⟩ := b
  simp only [Constraint.key, List.cons.injEq, and_true] at h
  obtain ⟨h1, h2, h3, h4, h5, h6⟩ := h
  rw [Kind.toNat_inj (Int.ofNat.inj h1), show l = l' from Int.ofNat.inj h2, Target.key_inj (Prod.ext h3 h4),
    Extra.key_inj (Prod.ext h5 h6)]

/-- A list sorted by a total order whose equal neighbours are removed is strictly ascending. -/
theorem dedup_sorted_nodup {l : List Constraint}
    (h : l.Pairwise (fun a b => lexLe a.key b.key = true)) : (dedup l).Nodup := by
  fun_induction dedup l with
  | case1 => simp
  | case2 => simp
  | case3 y t ih => exact ih (List.pairwise_cons.1 h).2
  | case4 a b t hne ih =>
    rw [List.pairwise_cons] at h
    refine List.pairwise_cons.2 ⟨?_, ih h.2⟩
    intro x hx
    rw [mem_dedup] at hx
    rintro rfl
    rcases List.mem_cons.1 hx with rfl | hx'
    · exact hne rfl
    · have h1 := h.1 b List.mem_cons_self
      have h2 := (List.pairwise_cons.1 h.2).1 a hx'
      exact hne (Constraint.key_inj (lexLe_antisymm _ _ h1 h2))

/-! ### dependent choices -/

/-- What `get_dependent_choices` and the other same-chooser loops rely on. -/
def DepWF (n : Nat) (cons : List Constraint) : Prop :=
  ∀ c ∈ cons, c.kind = .choicesHaveSameChoosers → ∃ y, c.right = .choice y ∧ c.left < n ∧ y < n

theorem depFold_spec {n : Nat} : ∀ (cons : List Constraint) (u : UF) (E : Nat → Nat → Prop),
    DepWF n cons → UF.Comp n u E → (∀ a b, E a b → a < n ∧ b < n) →
    ∃ u', cons.foldlM depStep u = .ok u' ∧ UF.Comp n u' (fun a b => E a b ∨ SameLink cons a b) := by
  intro cons
  induction cons with
  | nil =>
    intro u E _ hc _
    refine ⟨u, rfl, hc.inv, ?_⟩
    intro a b ha hb
    rw [hc.same a b ha hb]
    have : (fun a b => E a b ∨ SameLink [] a b) = E := by
      funext a b; simp [SameLink]
    rw [this]
  | cons c cs ih =>
    intro u E hw hc hE
    rw [List.foldlM_cons]
    by_cases hk : c.kind = .choicesHaveSameChoosers
    · obtain ⟨y, hy, hl, hyn⟩ := hw c List.mem_cons_self hk
      obtain ⟨u1, h1, h2⟩ := UF.comp_join hc hE hl hyn
      have hstep : depStep u c = .ok u1 := by
        unfold depStep
        rw [if_pos hk]
        simp only [Constraint.otherChoice, hy, R.bind_ok]
        exact h1
      rw [hstep, R.bind_ok]
      obtain ⟨u2, h3, h4⟩ := ih u1 _ (fun c' hc' => hw c' (List.mem_cons_of_mem _ hc')) h2
        (by rintro a b (h | ⟨rfl, rfl⟩)
            · exact hE a b h
            · exact ⟨hl, hyn⟩)
      refine ⟨u2, h3, h4.inv, ?_⟩
      intro a b ha hb
      rw [h4.same a b ha hb]
      have : (fun a b => (E a b ∨ (a = c.left ∧ b = y)) ∨ SameLink cs a b) =
          (fun a b => E a b ∨ SameLink (c :: cs) a b) := by
        funext a b
        refine propext ⟨?_, ?_⟩
        · rintro ((h | ⟨rfl, rfl⟩) | ⟨c', hc', h⟩)
          · exact .inl h
          · exact .inr ⟨c, List.mem_cons_self, hk, rfl, hy⟩
          · exact .inr ⟨c', List.mem_cons_of_mem _ hc', h⟩
        · rintro (h | ⟨c', hc', k1, k2, k3⟩)
          · exact .inl (.inl h)
          · rcases List.mem_cons.1 hc' with he | hc''
            · rw [he] at k2 k3
              rw [hy] at k3; cases k3
              exact .inl (.inr ⟨k2.symm, rfl⟩)
            · exact .inr ⟨c', hc'', k1, k2, k3⟩
      rw [this]
    · have hstep : depStep u c = .ok u := by unfold depStep; rw [if_neg hk]; rfl
      rw [hstep, R.bind_ok]
      obtain ⟨u2, h3, h4⟩ := ih u E (fun c' hc' => hw c' (List.mem_cons_of_mem _ hc')) hc hE
      refine ⟨u2, h3, h4.inv, ?_⟩
      intro a b ha hb
      rw [h4.same a b ha hb]
      have : (fun a b => E a b ∨ SameLink cs a b) = (fun a b => E a b ∨ SameLink (c :: cs) a b) := by
        funext a b
        refine propext ⟨?_, ?_⟩
        · rintro (h | ⟨c', hc', h⟩)
          · exact .inl h
          · exact .inr ⟨c', List.mem_cons_of_mem _ hc', h⟩
        · rintro (h | ⟨c', hc', h⟩)
          · exact .inl h
          · rcases List.mem_cons.1 hc' with rfl | hc'
            · exact absurd h.1 hk
            · exact .inr ⟨c', hc', h⟩
      rw [this]

theorem depUF_spec {n : Nat} (hn : n ≤ i32Max) {cons : List Constraint} (hw : DepWF n cons) :
    ∃ u0 u, UF.new n = .ok u0 ∧ cons.foldlM depStep u0 = .ok u ∧ UF.Comp n u (SameLink cons) := by
  obtain ⟨u0, h1, h2⟩ := UF.comp_new hn
  obtain ⟨u, h3, h4⟩ := depFold_spec cons u0 _ hw h2 (fun _ _ h => h.elim)
  refine ⟨u0, u, h1, h3, h4.inv, ?_⟩
  intro a b ha hb
  rw [h4.same a b ha hb]
  have : (fun a b => False ∨ SameLink cons a b) = SameLink cons := by funext a b; simp
  rw [this]

theorem getDependentChoices_spec {n : Nat} (hn : n ≤ i32Max) {cons : List Constraint} (hw : DepWF n cons) :
    ∃ gs, getDependentChoices cons n = .ok gs ∧ Partition n gs ∧ (∀ g ∈ gs, g.Pairwise (· < ·)) ∧
      (∀ a b, a < n → b < n → ((∃ g ∈ gs, a ∈ g ∧ b ∈ g) ↔ Connected (SameLink cons) a b)) := by
  obtain ⟨u0, u, h1, h2, h3⟩ := depUF_spec hn hw
  obtain ⟨gs, h4, h5⟩ := UF.groups_spec h3
  refine ⟨gs, ?_, h5⟩
  unfold getDependentChoices
  rw [h1, R.bind_ok, h2, R.bind_ok]
  exact h4

/-! ### mandatory sets and pairs -/

theorem mem_pairsOf {l : List Nat} {x y : Nat} : (x, y) ∈ pairsOf l ↔ [x, y].Sublist l := by
  induction l with
  | nil => simp [pairsOf]
  | cons z zs ih =>
    simp only [pairsOf, List.mem_append, List.mem_map, Prod.mk.injEq, ih]
    constructor
    · rintro (⟨w, hw, rfl, rfl⟩ | h)
      · exact (List.singleton_sublist.2 hw).cons_cons _
      · exact h.cons _
    · intro h
      cases h with
      | cons _ h => exact .inr h
      | cons_cons _ h => exact .inl ⟨y, List.singleton_sublist.1 h, rfl, rfl⟩

/-- (chooser, choice) of a chooser-in-choice constraint. -/
def inPair? (c : Constraint) : Option (Nat × Nat) :=
  match c.kind, c.right with
  | .chooserIsInChoice, .choice y => some (c.left, y)
  | _, _ => none

/-- Chooser constraints carry a choice. -/
def InWF (cons : List Constraint) : Prop :=
  ∀ c ∈ cons, (c.kind = .chooserIsInChoice ∨ c.kind = .chooserIsNotInChoice) → ∃ y, c.right = .choice y

theorem getMandatory_spec {cons : List Constraint} (hw : InWF cons) :
    ∃ ms, getMandatory cons = .ok ms ∧
      ∀ g, g ∈ ms ↔ ∃ p, g = ((cons.filterMap inPair?).filter (fun e => e.1 == p)).map (·.2) ∧ g ≠ [] := by
  have key : ∀ (cs : List Constraint) (m : List (Nat × List Nat)) (l : List (Nat × Nat)), InWF cs →
      Grouped m l → ∃ m', cs.foldlM mandStep m = .ok m' ∧ Grouped m' (l ++ cs.filterMap inPair?) := by
    intro cs
    induction cs with
    | nil => intro m l _ hg; exact ⟨m, rfl, by simpa using hg⟩
    | cons c cs ih =>
      intro m l hw hg
      rw [List.foldlM_cons]
      have hw' : InWF cs := fun c' hc' => hw c' (List.mem_cons_of_mem _ hc')
      by_cases hk : c.kind = .chooserIsInChoice
      · obtain ⟨y, hy⟩ := hw c List.mem_cons_self (.inl hk)
        have hstep : mandStep m c = .ok (mapPush m c.left y) := by
          unfold mandStep
          rw [if_pos hk]
          simp [Constraint.otherChoice, hy]
        have hpair : inPair? c = some (c.left, y) := by simp [inPair?, hk, hy]
        rw [hstep, R.bind_ok]
        obtain ⟨m', h1, h2⟩ := ih _ _ hw' (hg.push c.left y)
        refine ⟨m', h1, ?_⟩
        rw [List.filterMap_cons, hpair]
        simpa using h2
      · have hstep : mandStep m c = .ok m := by unfold mandStep; rw [if_neg hk]; rfl
        have hpair : inPair? c = none := by
          unfold inPair?
          split
          · rename_i h _; exact absurd h hk
          · rfl
        rw [hstep, R.bind_ok]
        obtain ⟨m', h1, h2⟩ := ih _ _ hw' hg
        refine ⟨m', h1, ?_⟩
        rw [List.filterMap_cons, hpair]
        exact h2
  obtain ⟨m, h1, h2⟩ := key cons [] [] hw Grouped.nil
  refine ⟨m.map (·.2), by unfold getMandatory; rw [h1]; rfl, ?_⟩
  intro g
  rw [List.mem_map]
  constructor
  · rintro ⟨⟨p, g'⟩, hm, rfl⟩
    have := (h2.mem p g').1 hm
    exact ⟨p, by simpa using this.1, this.2⟩
  · rintro ⟨p, hg, hne⟩
    exact ⟨(p, g), (h2.mem p g).2 ⟨by simpa using hg, hne⟩, rfl⟩

theorem sublist_pair_map {l : List (Nat × Nat)} {p x y : Nat} :
    [x, y].Sublist ((l.filter (fun e => e.1 == p)).map (·.2)) ↔ [(p, x), (p, y)].Sublist l := by
  induction l with
  | nil => simp
  | cons e l ih =>
    obtain ⟨q, z⟩ := e
    by_cases hq : q = p
    · subst hq
      simp only [List.filter_cons, beq_self_eq_true, if_true, List.map_cons]
      constructor
      · intro h
        cases h with
        | cons _ h => exact (ih.1 h).cons _
        | cons_cons _ h =>
          refine List.Sublist.cons_cons _ ?_
          rw [List.singleton_sublist] at h ⊢
          obtain ⟨⟨q', z'⟩, hm, rfl⟩ := List.mem_map.1 h
          rw [List.mem_filter] at hm
          have hq' : q' = q := by simpa using hm.2
          rw [← hq']; exact hm.1
      · intro h
        cases h with
        | cons _ h => exact (ih.2 h).cons _
        | cons_cons _ h =>
          refine List.Sublist.cons_cons _ ?_
          rw [List.singleton_sublist] at h ⊢
          exact List.mem_map.2 ⟨(q, y), List.mem_filter.2 ⟨h, by simp⟩, rfl⟩
    · have : ((q == p) = true) = False := by simp [hq]
      simp only [List.filter_cons, this, if_false, ih]
      constructor
      · intro h; exact h.cons _
      · intro h
        cases h with
        | cons _ h => exact h
        | cons_cons _ h => exact absurd rfl hq

/-! ### expansion -/

/-- The constraints in the expanded list. -/
inductive Derived (n : Nat) (cons : List Constraint) : Constraint → Prop
  | given {c : Constraint} : c ∈ cons → Derived n cons c
  | sepDep {x y : Nat} : x < y → y < n → Connected (SameLink cons) x y → Derived n cons (notSame (x, y))
  | sepMand {p x y : Nat} : [(p, x), (p, y)].Sublist (cons.filterMap inPair?) → Derived n cons (notSame (x, y))
  | copy {c : Constraint} {x y : Nat} : c ∈ cons → (c.kind = .chooserIsInChoice ∨ c.kind = .chooserIsNotInChoice) →
      c.right = .choice y → x ≠ y → x < n → Connected (SameLink cons) x y →
      Derived n cons ⟨c.kind, c.left, .choice x, .none⟩

theorem pair_sublist_of_lt {g : List Nat} (hg : g.Pairwise (· < ·)) {x y : Nat} (hx : x ∈ g) (hy : y ∈ g)
    (h : x < y) : [x, y].Sublist g := by
  induction g with
  | nil => cases hx
  | cons z zs ih =>
    rw [List.pairwise_cons] at hg
    rcases List.mem_cons.1 hx with hxz | hx'
    · subst hxz
      rcases List.mem_cons.1 hy with hyz | hy'
      · omega
      · exact (List.singleton_sublist.2 hy').cons_cons _
    · rcases List.mem_cons.1 hy with hyz | hy'
      · have := hg.1 x hx'; omega
      · exact (ih hg.2 hx' hy').cons _

theorem pair_lt_of_sublist {g : List Nat} (hg : g.Pairwise (· < ·)) {x y : Nat} (h : [x, y].Sublist g) : x < y := by
  have := hg.sublist h
  simpa using this

/-- Constraints about choosers mention existing choices. -/
def InRange (n : Nat) (cons : List Constraint) : Prop :=
  ∀ c ∈ cons, (c.kind = .chooserIsInChoice ∨ c.kind = .chooserIsNotInChoice) → ∀ y, c.right = .choice y → y < n

theorem expandDependent_spec {n : Nat} (hn : n ≤ i32Max) {cons : List Constraint} (hd : DepWF n cons)
    (hi : InWF cons) (hir : InRange n cons) : ∃ res, expandDependent cons n = .ok res ∧ res.Nodup ∧
      ∀ c, c ∈ res ↔ Derived n cons c := by
  obtain ⟨deps, h1, hpart, hsort, hconn⟩ := getDependentChoices_spec hn hd
  obtain ⟨mand, h2, hmand⟩ := getMandatory_spec hi
  -- groups of a choice
  have hfind : ∀ y, y < n → ∃ g, deps.find? (fun g => g.contains y) = some g ∧ g ∈ deps ∧ y ∈ g := by
    intro y hy
    have : y ∈ deps.flatten := hpart.covers.mem_iff.2 (List.mem_range.2 hy)
    obtain ⟨g, hg, hyg⟩ := List.mem_flatten.1 this
    cases hf : deps.find? (fun g => g.contains y) with
    | none =>
      have := List.find?_eq_none.1 hf g hg
      simp at this
      exact absurd hyg this
    | some g' =>
      have h3 := List.find?_some hf
      exact ⟨g', rfl, List.mem_of_find?_eq_some hf, by simpa using h3⟩
  have hlt : ∀ g ∈ deps, ∀ x ∈ g, x < n := by
    intro g hg x hx
    have := hpart.covers.mem_iff.1 (List.mem_flatten.2 ⟨g, hg, hx⟩)
    simpa using this
  -- copies
  have hcop : ∀ c ∈ cons, ∃ l, copiesOf deps c = .ok l ∧ ∀ k, k ∈ l ↔
      ∃ x y, (c.kind = .chooserIsInChoice ∨ c.kind = .chooserIsNotInChoice) ∧ c.right = .choice y ∧ x ≠ y ∧ x < n ∧
        Connected (SameLink cons) x y ∧ k = ⟨c.kind, c.left, .choice x, .none⟩ := by
    intro c hc
    unfold copiesOf
    by_cases hk : c.kind = .chooserIsInChoice ∨ c.kind = .chooserIsNotInChoice
    · rw [if_pos hk]
      obtain ⟨y, hy⟩ := hi c hc hk
      have hyn := hir c hc hk y hy
      obtain ⟨g, hf, hg, hyg⟩ := hfind y hyn
      have hoc : c.otherChoice = .ok y := by simp [Constraint.otherChoice, hy]
      rw [hoc, R.bind_ok, hf]
      refine ⟨_, rfl, ?_⟩
      intro k
      simp only [List.mem_map, List.mem_filter]
      constructor
      · rintro ⟨x, ⟨hx, hne⟩, rfl⟩
        exact ⟨x, y, hk, hy, by simpa using hne, hlt g hg x hx,
          (hconn x y (hlt g hg x hx) hyn).1 ⟨g, hg, hx, hyg⟩, rfl⟩
      · rintro ⟨x, y', _, hy', hne, hxn, hcon, rfl⟩
        rw [hy] at hy'; cases hy'
        refine ⟨x, ⟨?_, by simpa using hne⟩, rfl⟩
        obtain ⟨g', hg', hxg', hyg'⟩ := (hconn x y hxn hyn).2 hcon
        -- groups are disjoint
        have : g' = g := by
          have hnd : deps.flatten.Nodup := hpart.covers.nodup_iff.2 List.nodup_range
          unfold List.Nodup at hnd; rw [List.pairwise_flatten] at hnd
          by_contra hgg
          obtain ⟨i1, hi1, rfl⟩ := List.getElem_of_mem hg
          obtain ⟨i2, hi2, rfl⟩ := List.getElem_of_mem hg'
          have hpw := hnd.2
          rw [List.pairwise_iff_getElem] at hpw
          rcases Nat.lt_trichotomy i1 i2 with h | h | h
          · exact hpw i1 i2 hi1 hi2 h _ hyg _ hyg' rfl
          · subst h; exact hgg rfl
          · exact hpw i2 i1 hi2 hi1 h _ hyg' _ hyg rfl
        rw [← this]; exact hxg'
    · rw [if_neg hk]
      exact ⟨[], rfl, by
        intro k
        constructor
        · intro h; exact absurd h (List.not_mem_nil)
        · rintro ⟨x, y, h, _⟩
          exact absurd h hk⟩
  have hmapM : ∃ ls, cons.mapM (copiesOf deps) = .ok ls ∧ ∀ k, k ∈ ls.flatten ↔ ∃ c ∈ cons, ∃ l,
      copiesOf deps c = .ok l ∧ k ∈ l := by
    have : ∀ cs : List Constraint, (∀ c ∈ cs, ∃ l, copiesOf deps c = .ok l) →
        ∃ ls, cs.mapM (copiesOf deps) = .ok ls ∧ ∀ k, k ∈ ls.flatten ↔ ∃ c ∈ cs, ∃ l,
          copiesOf deps c = .ok l ∧ k ∈ l := by
      intro cs
      induction cs with
      | nil => intro _; exact ⟨[], rfl, by simp⟩
      | cons c cs ih =>
        intro h
        obtain ⟨l, hl⟩ := h c List.mem_cons_self
        obtain ⟨ls, h3, h4⟩ := ih (fun c' hc' => h c' (List.mem_cons_of_mem _ hc'))
        refine ⟨l :: ls, by rw [List.mapM_cons, hl, R.bind_ok, h3]; rfl, ?_⟩
        intro k
        simp only [List.flatten_cons, List.mem_append, h4, List.mem_cons, exists_eq_or_imp]
        constructor
        · rintro (h | h)
          · exact .inl ⟨l, hl, h⟩
          · exact .inr h
        · rintro (⟨l', hl', h⟩ | h)
          · rw [hl] at hl'; cases hl'; exact .inl h
          · exact .inr h
    exact this cons (fun c hc => by obtain ⟨l, h, _⟩ := hcop c hc; exact ⟨l, h⟩)
  obtain ⟨ls, h3, h4⟩ := hmapM
  unfold expandDependent
  rw [h1, R.bind_ok, h2, R.bind_ok, h3, R.bind_ok]
  refine ⟨_, rfl, dedup_sorted_nodup (isort_pairwise (le := fun a b : Constraint => lexLe a.key b.key)
    (fun a b c => lexLe_trans a.key b.key c.key) (fun a b => lexLe_total a.key b.key) _), ?_⟩
  intro c
  rw [mem_dedup, mem_isort]
  simp only [List.mem_append, List.mem_flatMap, List.mem_map, h4]
  constructor
  · rintro ((⟨g, hg, ⟨x, y⟩, hp, rfl⟩ | ⟨c', hc', l, hl, hcl⟩) | h)
    · rw [mem_pairsOf] at hp
      rcases hg with hg | hg
      · have hxy := pair_lt_of_sublist (hsort g hg) hp
        have hx : x ∈ g := hp.subset (by simp)
        have hy : y ∈ g := hp.subset (by simp)
        exact .sepDep hxy (hlt g hg y hy) ((hconn x y (hlt g hg x hx) (hlt g hg y hy)).1 ⟨g, hg, hx, hy⟩)
      · obtain ⟨p, hg', _⟩ := (hmand g).1 hg
        rw [hg', sublist_pair_map] at hp
        exact .sepMand hp
    · obtain ⟨l', hl', hmem⟩ := hcop c' hc'
      rw [hl] at hl'; cases hl'
      obtain ⟨x, y, hk, hy, hne, hxn, hcon, rfl⟩ := (hmem c).1 hcl
      exact .copy hc' hk hy hne hxn hcon
    · exact .given h
  · intro h
    cases h with
    | given h => exact .inr h
    | sepDep hxy hyn hcon =>
      rename_i x y
      obtain ⟨g, hg, hx, hy⟩ := (hconn x y (by omega) hyn).2 hcon
      exact .inl (.inl ⟨g, .inl hg, (x, y), mem_pairsOf.2 (pair_sublist_of_lt (hsort g hg) hx hy hxy), rfl⟩)
    | sepMand hs =>
      rename_i p x y
      have hs' := sublist_pair_map.2 hs
      have hne : (((cons.filterMap inPair?).filter (fun e => e.1 == p)).map (·.2)) ≠ [] := by
        intro h0; rw [h0] at hs'; simp at hs'
      exact .inl (.inl ⟨_, .inr ((hmand _).2 ⟨p, rfl, hne⟩), (x, y), mem_pairsOf.2 hs', rfl⟩)
    | copy hc hk hy hne hxn hcon =>
      rename_i c' x y
      obtain ⟨l, hl, hmem⟩ := hcop c' hc
      exact .inl (.inr ⟨c', hc, l, hl, (hmem _).2 ⟨x, y, hk, hy, hne, hxn, hcon, rfl⟩⟩)

end Wassign
