import Verif.Spec.Restate
import Verif.Proofs.Reorder
/-
The builder does not care in which order constraints are stated.
-/
namespace Wassign
open Spec Build

theorem Spec.Restated.symm {p q : Raw} (h : Restated p q) : Restated q p :=
  ⟨h.slots.symm, h.choices.symm, h.choosers.symm, fun e => (h.statements e).symm, h.attendance.symm⟩

section
variable {α β : Type} {f : α → R (List β)}

theorem mapM_ok_mem : ∀ {l : List α} {r : List (List β)}, l.mapM f = .ok r → ∀ x ∈ l, ∃ y, f x = .ok y
  | [], _, _, x, hx => by cases hx
  | a :: l, r, h, x, hx => by
    rw [List.mapM_cons, R.bind_eq_ok] at h
    obtain ⟨y, h1, h⟩ := h
    rw [R.bind_eq_ok] at h
    obtain ⟨ys, h2, _⟩ := h
    rcases List.mem_cons.1 hx with rfl | hx
    · exact ⟨y, h1⟩
    · exact mapM_ok_mem h2 x hx

theorem mapM_of_mem : ∀ {l : List α}, (∀ x ∈ l, ∃ y, f x = .ok y) → ∃ r, l.mapM f = .ok r
  | [], _ => ⟨[], rfl⟩
  | a :: l, h => by
    obtain ⟨y, h1⟩ := h a (by simp)
    obtain ⟨r, h2⟩ := mapM_of_mem (l := l) (fun x hx => h x (by simp [hx]))
    exact ⟨y :: r, by rw [List.mapM_cons, h1, R.bind_ok, h2]; rfl⟩

theorem mapM_perm {l l' : List α} (h : l'.Perm l) : ∀ {r r' : List (List β)}, l.mapM f = .ok r → l'.mapM f = .ok r' → r'.Perm r := by
  have key : ∀ {l l' : List α}, l'.Perm l → ∀ {r : List (List β)}, l.mapM f = .ok r → ∃ r', l'.mapM f = .ok r' ∧ r'.Perm r := by
    intro l l' h
    induction h with
    | nil => intro r hr; exact ⟨_, hr, .refl _⟩
    | cons a _ ih =>
      intro r hr
      rw [List.mapM_cons, R.bind_eq_ok] at hr
      obtain ⟨x, h1, hr⟩ := hr
      rw [R.bind_eq_ok] at hr
      obtain ⟨xs, h2, hr⟩ := hr
      cases hr
      obtain ⟨r', e1, e2⟩ := ih h2
      exact ⟨x :: r', by rw [List.mapM_cons, h1, R.bind_ok, e1]; rfl, e2.cons x⟩
    | swap a b l =>
      intro r hr
      rw [List.mapM_cons, R.bind_eq_ok] at hr
      obtain ⟨x, h1, hr⟩ := hr
      rw [R.bind_eq_ok] at hr
      obtain ⟨xs, h2, hr⟩ := hr
      cases hr
      rw [List.mapM_cons, R.bind_eq_ok] at h2
      obtain ⟨y, h3, hr⟩ := h2
      rw [R.bind_eq_ok] at hr
      obtain ⟨ys, h4, hr⟩ := hr
      cases hr
      exact ⟨y :: x :: ys, by rw [List.mapM_cons, h3, R.bind_ok, List.mapM_cons, h1, R.bind_ok, h4]; rfl, .swap x y ys⟩
    | trans _ _ ih1 ih2 =>
      intro r hr
      obtain ⟨r1, e1, e2⟩ := ih2 hr
      obtain ⟨r2, f1, f2⟩ := ih1 e1
      exact ⟨r2, f1, f2.trans e2⟩
  intro r r' hr hr'
  obtain ⟨r2, e1, e2⟩ := key h hr
  rw [hr'] at e1
  cases e1
  exact e2
end

/-- Only statements that demand attendance compile to demands. -/
theorem no_demand {d : InputData} {e : CExpr} {r : List Constraint} (h : buildExpr d e = .ok r) (ha : asksAttendance e = false) :
    r.filterMap demand? = [] := by
  have key : ∀ (e : CExpr) (ke : Kind × Extra), tableKind e = some ke → (ke.1 = .chooserIsInChoice ∨ ke.1 = .choiceContainsChooser) →
      asksAttendance e = true := by
    intro e ke ht hk
    unfold tableKind at ht
    unfold asksAttendance
    split at ht <;> simp only [Option.some.injEq, reduceCtorEq] at ht <;> subst ht <;> simp_all
  have hswap : asksAttendance e.swap = asksAttendance e := by
    unfold asksAttendance CExpr.swap
    simp only [Bool.or_comm]
  have hadd : ∀ (e : CExpr) (k : Kind) (x : Extra), ¬ (k = .chooserIsInChoice ∨ k = .choiceContainsChooser) → ∀ r, addConstraint d e k x = .ok r →
      r.filterMap demand? = [] := by
    intro e k x hk r hr
    unfold addConstraint at hr
    rw [R.bind_eq_ok] at hr
    obtain ⟨o, _, hr⟩ := hr
    cases o with
    | none => cases hr; rfl
    | some t =>
      simp only [R.bind_eq_ok] at hr
      obtain ⟨o, _, hr⟩ := hr
      cases o with
      | none => cases hr; rfl
      | some n =>
        cases hr
        have : demand? ⟨k, n, t, x⟩ = none := by
          unfold demand?
          cases k <;> simp_all
        simp [this]
  unfold buildExpr at h
  split at h
  · rename_i k x ht
    refine hadd e k x (fun hk => ?_) r h
    rw [key e _ ht hk] at ha; cases ha
  · split at h
    · rename_i k x ht
      refine hadd e.swap k x (fun hk => ?_) r h
      rw [← hswap, key e.swap _ ht hk] at ha; cases ha
    · cases h

theorem mapM_demands {d : InputData} : ∀ {l : List CExpr} {r : List (List Constraint)}, l.mapM (buildExpr d) = .ok r →
    ∃ r', (l.filter asksAttendance).mapM (buildExpr d) = .ok r' ∧ r.flatten.filterMap demand? = r'.flatten.filterMap demand?
  | [], _, h => by cases h; exact ⟨[], rfl, rfl⟩
  | e :: l, r, h => by
    rw [List.mapM_cons, R.bind_eq_ok] at h
    obtain ⟨y, h1, h⟩ := h
    rw [R.bind_eq_ok] at h
    obtain ⟨ys, h2, h⟩ := h
    cases h
    obtain ⟨r', e1, e2⟩ := mapM_demands h2
    cases ha : asksAttendance e with
    | true =>
      refine ⟨y :: r', ?_, ?_⟩
      · rw [List.filter_cons_of_pos ha, List.mapM_cons, h1, R.bind_ok, e1]; rfl
      · rw [List.flatten_cons, List.flatten_cons, List.filterMap_append, List.filterMap_append, e2]
    | false =>
      refine ⟨r', by rw [List.filter_cons_of_neg (by simp [ha])]; exact e1, ?_⟩
      rw [List.flatten_cons, List.filterMap_append, no_demand h1 ha, e2]; rfl

theorem pair_perm {α : Type} [DecidableEq α] {l l' : List α} (h : l'.Perm l) {a b : α} (hs : [a, b].Sublist l') : [a, b].Sublist l ∨ [b, a].Sublist l := by
  by_cases hab : a = b
  · subst hab
    left
    have h1 : List.replicate 2 a = [a, a] := rfl
    rw [← h1] at hs ⊢
    rw [List.replicate_sublist_iff] at hs ⊢
    rw [← h.count_eq]
    exact hs
  · have ha : a ∈ l := h.subset (hs.subset (by simp))
    have hb : b ∈ l := h.subset (hs.subset (by simp))
    clear hs h
    induction l with
    | nil => cases ha
    | cons z zs ih =>
      rcases List.mem_cons.1 ha with e | ha'
      · subst e
        rcases List.mem_cons.1 hb with e | hb'
        · exact absurd e.symm hab
        · exact .inl ((List.singleton_sublist.2 hb').cons_cons _)
      · rcases List.mem_cons.1 hb with e | hb'
        · subst e
          exact .inr ((List.singleton_sublist.2 ha').cons_cons _)
        · rcases ih ha' hb' with e | e
          · exact .inl (e.cons _)
          · exact .inr (e.cons _)

/-- What the data of two inputs have in common if they state the same constraints. -/
structure Same (d d' : InputData) : Prop where
  dims : SameDims d d'
  slots : d'.slots = d.slots
  sched : ∀ c ∈ d'.schedCons, c ∈ d.schedCons ∨ ∃ x y, c = notSame (x, y) ∧ notSame (y, x) ∈ d.schedCons
  asg : ∀ c ∈ d'.asgCons, c ∈ d.asgCons
  choices : d'.choices = d.choices
  prefs : ∀ p c, pref d' p c = pref d p c
  maxPref : d'.maxPref = d.maxPref

theorem restate_expr {raw raw' : Raw} {d d1 : InputData} {m : Nat} {written : List Constraint} (hb : Built raw d m written)
    (hl : Restated raw raw') (hsl : d1.slots = d.slots) (hch : d1.choices = blocks 0 raw'.choices)
    (hcs : d1.choosers.map (·.name) = raw'.choosers.map (·.name)) : buildExpr d1 = buildExpr d :=
  funext (hb.exprSame hsl (by rw [hch, hl.choices]) (by rw [hcs, hl.choosers]))

theorem restate_accepted {raw raw' : Raw} {d : InputData} (hmax : ∀ p ∈ raw.choices, p.max ≤ u32Max)
    (hl : Restated raw raw') (h : build raw = .ok d) : ∃ d', build raw' = .ok d' := by
  obtain ⟨m, written, hb⟩ := build_spec hmax h
  obtain ⟨d1, hch, hsl, hcs, _, hok⟩ := build_outcome (raw := raw') (by rw [hl.choices]; exact hmax)
    (by rw [hl.choices, ← hb.nc]; exact hb.ncI32) (by rw [hl.choices, hl.choosers]; exact hb.prefCount)
  rw [restate_expr hb hl (by rw [hsl, hb.slots, hl.slots]) hch hcs] at hok
  obtain ⟨ex, pc, h1, h2, h3⟩ := hb.lists
  obtain ⟨ex', e1⟩ := mapM_of_mem (f := buildExpr d) (l := raw'.exprs) (fun e he => mapM_ok_mem h1 e ((hl.statements e).1 he))
  refine (hok ex' e1).2 ?_
  rintro ⟨c, hc, hk, hne⟩
  obtain ⟨e, he, r, hr, hcr⟩ := (mapM_flatten_mem e1 c).1 hc
  exact hne (hb.notInf c (by
    rw [h2]
    exact List.mem_append_left _ ((mapM_flatten_mem h1 c).2 ⟨e, (hl.statements e).1 he, r, hr, hcr⟩)) hk)

theorem restate_same {raw raw' : Raw} {d d' : InputData} (hmax : ∀ p ∈ raw.choices, p.max ≤ u32Max)
    (hl : Restated raw raw') (h : build raw = .ok d) (h' : build raw' = .ok d') : Same d d' := by
  obtain ⟨m, written, hb⟩ := build_spec hmax h
  obtain ⟨m', written', hb'⟩ := build_spec (raw := raw') (by rw [hl.choices]; exact hmax) h'
  have hdims : SameDims d d' := by
    refine ⟨?_, ?_, ?_⟩
    · rw [hb.nc, hb'.nc, hl.choices]
    · rw [hb.np, hb'.np, hl.choosers]
    · show d.slots.length = d'.slots.length
      rw [hb.slots, hb'.slots, hl.slots]
  have hslots : d'.slots = d.slots := by rw [hb.slots, hb'.slots, hl.slots]
  obtain ⟨d1, _, hsl1, hch1, hcs1, _⟩ := hb'.stage
  have hex : buildExpr d' = buildExpr d := by
    rw [← restate_expr hb hl (hsl1.trans hslots) hch1 hcs1]
    funext e
    exact (hb'.exprSame hsl1 hch1 hcs1 e).symm
  obtain ⟨ex, pc, h1, h2, h3⟩ := hb.lists
  obtain ⟨ex', pc', h1', h2', h3'⟩ := hb'.lists
  rw [hex] at h1'
  have hwr : ∀ c, c ∈ written' ↔ c ∈ written := by
    intro c
    rw [h2, h2', List.mem_append, List.mem_append, h3, h3', hl.choices, mapM_flatten_mem h1, mapM_flatten_mem h1']
    simp only [hl.statements]
  have hdem : (written'.filterMap demand?).Perm (written.filterMap demand?) := by
    rw [h2, h2', demands_append h3, demands_append h3']
    obtain ⟨r, q1, q2⟩ := mapM_demands h1
    obtain ⟨r', q1', q2'⟩ := mapM_demands h1'
    rw [q2, q2']
    exact (mapM_perm hl.attendance q1 q1').flatten.filterMap _
  have hlinkw : SameLink written' = SameLink written := by
    funext x y; simp only [SameLink, hwr]
  obtain ⟨red, hr, hs, ha⟩ := hb.reduced
  obtain ⟨red', hr', hs', ha'⟩ := hb'.reduced
  have hred : ∀ c, c ∈ red' → c ∈ red := by
    intro c hc
    obtain ⟨k, hk, hrd, _⟩ := hr'.source c hc
    exact hr.image k ((hwr k).1 hk) c hrd
  have hlink : SameLink red' = SameLink red := by
    funext x y
    apply propext
    rw [hr'.links, hr.links, hlinkw]
  have hder : ∀ c, Derived d'.nc red' c → Derived d.nc red c ∨ ∃ x y, c = notSame (x, y) ∧ Derived d.nc red (notSame (y, x)) := by
    rw [← hdims.nc]
    intro c hc
    cases hc with
    | given h => exact .inl (.given (hred _ h))
    | sepDep a b e => exact .inl (.sepDep a b (by rw [← hlink]; exact e))
    | @sepMand p x y e =>
      rw [hr'.demands] at e
      rcases pair_perm hdem e with e | e
      · exact .inl (.sepMand (by rw [hr.demands]; exact e))
      · exact .inr ⟨x, y, rfl, .sepMand (by rw [hr.demands]; exact e)⟩
    | copy a b e f i j => exact .inl (.copy (hred _ a) b e f i (by rw [← hlink]; exact j))
  have hm : m' = m := by
    have a1 : m ≤ m' := by
      rcases hb.maxAttained with e | ⟨c, hc, e⟩
      · omega
      · exact hb'.maxUpper c (by rw [hl.choosers]; exact hc) m e
    have a2 : m' ≤ m := by
      rcases hb'.maxAttained with e | ⟨c, hc, e⟩
      · omega
      · exact hb.maxUpper c (by rw [← hl.choosers]; exact hc) m' e
    omega
  subst hm
  refine ⟨hdims, hslots, ?_, ?_, ?_, ?_, by rw [hb.maxPref, hb'.maxPref]⟩
  · intro c hc
    obtain ⟨q1, q2⟩ := (hs' c).1 hc
    rw [← hdims.schedWF] at q2
    rcases hder c q1 with q3 | ⟨x, y, rfl, q3⟩
    · exact .inl ((hs c).2 ⟨q3, q2⟩)
    · exact .inr ⟨x, y, rfl, (hs _).2 ⟨q3, by
        simp only [SchedConWF, notSame] at q2 ⊢
        exact ⟨q2.2, q2.1⟩⟩⟩
  · intro c hc
    obtain ⟨q1, q2⟩ := (ha' c).1 hc
    rw [← hdims.asgWF] at q2
    rcases hder c q1 with q3 | ⟨x, y, rfl, q3⟩
    · exact (ha c).2 ⟨q3, q2⟩
    · exact q2.elim
  · apply List.ext_getElem?
    intro c
    by_cases hc : c < d.nc
    · obtain ⟨x0, x1, a1, a2, a3, a4, a5, a6, a7⟩ := hb.choice c hc
      obtain ⟨y0, y1, b1, b2, b3, b4, b5, b6, b7⟩ := hb'.choice c (by rw [← hdims.nc]; exact hc)
      rw [hl.choices] at b2
      rw [a2] at b2; cases b2
      rw [hl.choices, hlinkw, ← hdims.nc] at b6 b7
      rw [a1, b1]
      congr 1
      have m1 : y0.min = x0.min := by
        obtain ⟨y, u1, u2, u3⟩ := a6.attained
        obtain ⟨y', v1, v2, v3⟩ := b6.attained
        have := a6.upper y' v1 v2
        have := b6.upper y u1 u2
        omega
      have m2 : y0.max = x0.max := by
        obtain ⟨y, u1, u2, u3⟩ := a7.attained
        obtain ⟨y', v1, v2, v3⟩ := b7.attained
        have := a7.lower y' v1 v2
        have := b7.lower y u1 u2
        omega
      obtain ⟨n1, n2, n3, n4, n5⟩ := x0
      obtain ⟨o1, o2, o3, o4, o5⟩ := y0
      simp only at a3 a4 a5 b3 b4 b5 m1 m2
      rw [m1, m2, a3, a4, a5, b3, b4, b5]
    · rw [List.getElem?_eq_none (by show d'.nc ≤ c; rw [← hdims.nc]; omega), List.getElem?_eq_none (by show d.nc ≤ c; omega)]
  · intro p c
    by_cases hp : p < raw.choosers.length
    · have hp' : p < raw'.choosers.length := by rw [hl.choosers]; exact hp
      obtain ⟨ch, n1, _, n2⟩ := hb.names p hp
      obtain ⟨ch', n1', _, n2'⟩ := hb'.names p hp'
      by_cases hc : c < d.nc
      · obtain ⟨q1, q2⟩ := hb.prefs p c hp hc
        obtain ⟨q1', q2'⟩ := hb'.prefs p c hp' (by rw [← hdims.nc]; exact hc)
        have hD : Demanded written' p c ↔ Demanded written p c := by
          unfold Demanded
          simp only [hlinkw, hwr]
        by_cases hd : Demanded written p c
        · rw [q1 hd, q1' (hD.2 hd)]
        · obtain ⟨v, e1, e2⟩ := q2 hd
          obtain ⟨v', e1', e2'⟩ := q2' (fun hh => hd (hD.1 hh))
          rw [e1, e1']
          rw [hlinkw, ← hdims.nc, hl.choices] at e2'
          simp only [hl.choosers] at e2'
          congr 1
          obtain ⟨y, b1, b2, b3⟩ := e2.attained
          obtain ⟨y', b1', b2', b3'⟩ := e2'.attained
          have c1 := e2.lower y' b1' b2'
          have c2 := e2'.lower y b1 b2
          omega
      · unfold pref
        rw [n1, n1']
        simp only [Option.bind_some]
        rw [List.getElem?_eq_none (by rw [n2', ← hdims.nc]; omega), List.getElem?_eq_none (by rw [n2]; omega)]
    · unfold pref
      rw [List.getElem?_eq_none (by show d'.np ≤ p; rw [← hdims.np, hb.np]; omega),
        List.getElem?_eq_none (by show d.np ≤ p; rw [hb.np]; omega)]

section
variable {d d' : InputData} (h : Same d d') {s : Scheduling} {a : Assignment}
include h

theorem Same.valid (hv : Valid d s a) : Valid d' s a := by
  refine ⟨?_, fun c hc => hv.asg c (h.asg c hc), ?_, ?_, ?_⟩
  · intro c hc
    refine (h.dims.schedHolds s c).1 ?_
    rcases h.sched c hc with e | ⟨x, y, rfl, e⟩
    · exact hv.sched c e
    · have := hv.sched _ e
      simp only [SchedHolds, notSame] at this ⊢
      intro t h1
      exact this t ⟨h1.2, h1.1⟩
  · intro p hp t ht
    exact hv.onePerSlot p (by rw [h.dims.np]; exact hp) t (by rw [h.dims.ns]; exact ht)
  · intro p hp c hc
    obtain ⟨t, ht, e⟩ := hv.onlyScheduled p (by rw [h.dims.np]; exact hp) c hc
    exact ⟨t, by rw [← h.dims.ns]; exact ht, e⟩
  · intro c hc hs
    have hc0 : c < d.nc := by rw [h.dims.nc]; exact hc
    have hp : participants d' a c = participants d a c := by unfold participants; rw [h.dims.np]
    rw [hp]
    have := hv.bounds c hc0 hs
    simp only [h.choices]
    exact this

theorem Same.worst {w : Nat} (hw : IsWorst d a w) : IsWorst d' a w := by
  refine ⟨fun p c x h1 h2 => hw.upper p c x h1 (by rw [← h.prefs]; exact h2), ?_⟩
  rcases hw.attained with e | ⟨p, c, e1, e2⟩
  · exact .inl e
  · exact .inr ⟨p, c, e1, by rw [h.prefs]; exact e2⟩
end

end Wassign
