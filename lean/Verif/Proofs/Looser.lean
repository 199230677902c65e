import Verif.Spec.Looser
import Verif.Proofs.Built
import Verif.Proofs.BuildTotal
/-
A looser input is accepted if the stricter one is, and its data allow everything the data of the stricter one allow.
-/
namespace Wassign
open Spec Build

section
variable {ps qs : List Proto} (h : List.Forall₂ LooserChoice ps qs)
include h

theorem looser_width : qs.map width = ps.map width := by
  induction h with
  | nil => rfl
  | cons h _ ih => simp only [List.map_cons, ih, width, h.parts]

theorem looser_offset (k : Nat) : offset qs k = offset ps k := by
  unfold offset
  rw [List.map_take, List.map_take, looser_width h]

theorem looser_get {k : Nat} {p : Proto} (hk : ps[k]? = some p) : ∃ q, qs[k]? = some q ∧ LooserChoice p q := by
  have hlen := h.length_eq
  obtain ⟨hlt, e⟩ := List.getElem?_eq_some_iff.1 hk
  refine ⟨qs[k], List.getElem?_eq_getElem (by omega), ?_⟩
  have := List.forall₂_iff_get.1 h
  have := this.2 k hlt (by omega)
  simpa [e] using this

theorem looser_get' {k : Nat} {q : Proto} (hk : qs[k]? = some q) : ∃ p, ps[k]? = some p ∧ LooserChoice p q := by
  have hlen := h.length_eq
  obtain ⟨hlt, e⟩ := List.getElem?_eq_some_iff.1 hk
  obtain ⟨q', e1, e2⟩ := looser_get h (List.getElem?_eq_getElem (show k < ps.length by omega))
  rw [hk] at e1; cases e1
  exact ⟨_, List.getElem?_eq_getElem (by omega), e2⟩

theorem looser_part {k j c : Nat} : IsPart qs k j c ↔ IsPart ps k j c := by
  constructor
  · rintro ⟨q, h1, h2, h3⟩
    obtain ⟨p, e1, e2⟩ := looser_get' h h1
    exact ⟨p, e1, by unfold width at h2 ⊢; rw [← e2.parts]; exact h2, by rw [h3, looser_offset h]⟩
  · rintro ⟨p, h1, h2, h3⟩
    obtain ⟨q, e1, e2⟩ := looser_get h h1
    exact ⟨q, e1, by unfold width at h2 ⊢; rw [e2.parts]; exact h2, by rw [h3, looser_offset h]⟩

theorem looser_block {c : Nat} {x : Choice} (hx : (blocks 0 ps)[c]? = some x) : ∃ y, (blocks 0 qs)[c]? = some y ∧
    y.name = x.name ∧ y.continuation = x.continuation ∧ y.min ≤ x.min ∧ x.max ≤ y.max ∧ (x.isOptional = true → y.isOptional = true) := by
  have hlt := (List.getElem?_eq_some_iff.1 hx).1
  rw [length_blocks] at hlt
  obtain ⟨k, j, p, h1, h2, h3⟩ := isPart_exists hlt
  obtain ⟨q, e1, e2⟩ := looser_get h h1
  rw [h3, blocks_get h1 h2 0] at hx
  cases hx
  have hw : width q = width p := by unfold width; rw [e2.parts]
  refine ⟨_, by rw [h3, ← looser_offset h]; exact blocks_get e1 (by rw [hw]; exact h2) 0, ?_, ?_, e2.min, e2.max, e2.optional⟩
  · simp only [e2.name]
  · simp only [hw, looser_offset h]

theorem looser_blocks {β : Type} (f : Choice → β) (hf : ∀ x y : Choice, y.name = x.name → y.continuation = x.continuation → f y = f x) :
    (blocks 0 qs).map f = (blocks 0 ps).map f := by
  apply List.ext_getElem?
  intro c
  rw [List.getElem?_map, List.getElem?_map]
  cases hx : (blocks 0 ps)[c]? with
  | some x =>
    obtain ⟨y, e1, e2, e3, _⟩ := looser_block h hx
    rw [e1]; simp [hf x y e2 e3]
  | none =>
    have := List.getElem?_eq_none_iff.1 hx
    rw [List.getElem?_eq_none (by rw [length_blocks, looser_width h, ← length_blocks 0]; exact this)]
end

theorem mapM_sublist {α β : Type} {f : α → R (List β)} {l l' : List α} (h : l'.Sublist l) : ∀ {r : List (List β)}, l.mapM f = .ok r →
    ∃ r', l'.mapM f = .ok r' ∧ r'.flatten.Sublist r.flatten := by
  induction h with
  | slnil => intro r hr; exact ⟨_, hr, .refl _⟩
  | cons a _ ih =>
    intro r hr
    rw [List.mapM_cons, R.bind_eq_ok] at hr
    obtain ⟨x, _, hr⟩ := hr
    rw [R.bind_eq_ok] at hr
    obtain ⟨xs, h2, hr⟩ := hr
    cases hr
    obtain ⟨r', e1, e2⟩ := ih h2
    exact ⟨r', e1, e2.trans (by rw [List.flatten_cons]; exact List.sublist_append_right _ _)⟩
  | cons_cons a _ ih =>
    intro r hr
    rw [List.mapM_cons, R.bind_eq_ok] at hr
    obtain ⟨x, h1, hr⟩ := hr
    rw [R.bind_eq_ok] at hr
    obtain ⟨xs, h2, hr⟩ := hr
    cases hr
    obtain ⟨r', e1, e2⟩ := ih h2
    refine ⟨x :: r', by rw [List.mapM_cons, h1, R.bind_ok, e1]; rfl, ?_⟩
    rw [List.flatten_cons, List.flatten_cons]
    exact (List.Sublist.refl _).append e2

/-- The expressions of the input compile to a list, and the written constraints are these and those of the parts. -/
theorem Built.lists {raw : Raw} {d : InputData} {m : Nat} {written : List Constraint} (hb : Built raw d m written) :
    ∃ ex pc, raw.exprs.mapM (buildExpr d) = .ok ex ∧ written = ex.flatten ++ pc ∧ ∀ c, c ∈ pc ↔ IsPartCon raw.choices c := by
  obtain ⟨d1, hdim, hsl, hch, hcs, hw⟩ := hb.stage
  have hexpr : buildExpr d1 = buildExpr d := funext (hb.exprSame hsl hch hcs)
  unfold writtenConstraints at hw
  rw [R.bind_eq_ok] at hw
  obtain ⟨ex, hex, hw⟩ := hw
  rw [R.bind_eq_ok] at hw
  obtain ⟨pc, hpc, hw⟩ := hw
  cases hw
  obtain ⟨pc', hpc1, hpc2⟩ := partConstraints_spec (ps := raw.choices) (by rw [← hb.nc]; exact hb.ncI32)
  rw [hch, hpc1] at hpc
  cases hpc
  exact ⟨ex, pc, by rw [← hexpr]; exact hex, rfl, hpc2⟩

theorem demands_append {ex pc : List Constraint} {ps : List Proto} (h : ∀ c, c ∈ pc ↔ IsPartCon ps c) :
    (ex ++ pc).filterMap demand? = ex.filterMap demand? := by
  rw [List.filterMap_append]
  have : pc.filterMap demand? = [] := by
    rw [List.filterMap_eq_nil_iff]
    intro c hc
    obtain ⟨_, _, _, _, _, _, _, _, rfl | rfl⟩ := (h c).1 hc <;> rfl
  rw [this, List.append_nil]

/-- What the data of two inputs have in common if the second one is looser. -/
structure Loosened (d d' : InputData) : Prop where
  dims : SameDims d d'
  slots : d'.slots = d.slots
  sched : ∀ c ∈ d'.schedCons, c ∈ d.schedCons
  asg : ∀ c ∈ d'.asgCons, c ∈ d.asgCons
  choice : ∀ (c : Nat) (x : Choice), d.choices[c]? = some x → ∃ y, d'.choices[c]? = some y ∧ y.name = x.name ∧ y.continuation = x.continuation ∧
    y.min ≤ x.min ∧ x.max ≤ y.max ∧ (x.isOptional = true → y.isOptional = true)

theorem buildExpr_looser {raw raw' : Raw} {d d1 : InputData} {m : Nat} {written : List Constraint} (hb : Built raw d m written)
    (hl : Looser raw raw') (hsl : d1.slots = d.slots) (hch : d1.choices = blocks 0 raw'.choices)
    (hcs : d1.choosers.map (·.name) = raw'.choosers.map (·.name)) : buildExpr d1 = buildExpr d := by
  obtain ⟨d0, _, hsl0, hch0, hcs0, _⟩ := hb.stage
  funext e
  rw [← hb.exprSame hsl0 hch0 hcs0]
  refine buildExpr_congr (hsl.trans hsl0.symm) ?_ ?_ ?_ e
  · rw [hch, hch0]; exact looser_blocks hl.choices _ (fun _ _ h _ => h)
  · rw [hch, hch0]; exact looser_blocks hl.choices _ (fun _ _ _ h => h)
  · rw [hcs, hcs0, hl.names]

/-- A looser input is accepted too. -/
theorem looser_accepted {raw raw' : Raw} {d : InputData} (hmax : ∀ p ∈ raw.choices, p.max ≤ u32Max)
    (hmax' : ∀ p ∈ raw'.choices, p.max ≤ u32Max) (hl : Looser raw raw') (h : build raw = .ok d) : ∃ d', build raw' = .ok d' := by
  obtain ⟨m, written, hb⟩ := build_spec hmax h
  have hsum : (raw'.choices.map width).sum ≤ i32Max := by rw [looser_width hl.choices, ← hb.nc]; exact hb.ncI32
  obtain ⟨d1, hch, hsl, hcs, _, hok⟩ := build_outcome hmax' hsum hl.wishes
  have hex := buildExpr_looser hb hl (by rw [hsl, hb.slots, hl.slots]) hch hcs
  rw [hex] at hok
  obtain ⟨ex, pc, h1, h2, h3⟩ := hb.lists
  obtain ⟨ex', e1, e2⟩ := mapM_sublist hl.exprs h1
  refine (hok ex' e1).2 ?_
  rintro ⟨c, hc, hk, hne⟩
  exact hne (hb.notInf c (by rw [h2]; exact List.mem_append_left _ (e2.subset hc)) hk)

theorem looser_loosened {raw raw' : Raw} {d d' : InputData} (hmax : ∀ p ∈ raw.choices, p.max ≤ u32Max)
    (hmax' : ∀ p ∈ raw'.choices, p.max ≤ u32Max) (hl : Looser raw raw') (h : build raw = .ok d) (h' : build raw' = .ok d') :
    Loosened d d' := by
  obtain ⟨m, written, hb⟩ := build_spec hmax h
  obtain ⟨m', written', hb'⟩ := build_spec hmax' h'
  have hdims : SameDims d d' := by
    refine ⟨?_, ?_, ?_⟩
    · rw [hb.nc, hb'.nc, looser_width hl.choices]
    · rw [hb.np, hb'.np]
      have := congrArg List.length hl.names
      simpa using this.symm
    · show d.slots.length = d'.slots.length
      rw [hb.slots, hb'.slots, hl.slots]
  have hslots : d'.slots = d.slots := by rw [hb.slots, hb'.slots, hl.slots]
  obtain ⟨d1, _, hsl1, hch1, hcs1, _⟩ := hb'.stage
  have hex : buildExpr d' = buildExpr d := by
    rw [← buildExpr_looser hb hl (hsl1.trans hslots) hch1 hcs1]
    funext e
    exact (hb'.exprSame hsl1 hch1 hcs1 e).symm
  obtain ⟨ex, pc, h1, h2, h3⟩ := hb.lists
  obtain ⟨ex', pc', h1', h2', h3'⟩ := hb'.lists
  rw [hex] at h1'
  obtain ⟨ex'', e1, e2⟩ := mapM_sublist hl.exprs h1
  rw [h1'] at e1
  cases e1
  have hpc : ∀ c, c ∈ pc' → c ∈ pc := by
    intro c hc
    rw [h3]
    obtain ⟨k, j1, j2, x, y, a1, a2, a3⟩ := (h3' c).1 hc
    exact ⟨k, j1, j2, x, y, (looser_part hl.choices).1 a1, (looser_part hl.choices).1 a2, a3⟩
  have hsub : ∀ c, c ∈ written' → c ∈ written := by
    intro c hc
    rw [h2'] at hc
    rw [h2]
    rcases List.mem_append.1 hc with hc | hc
    · exact List.mem_append_left _ (e2.subset hc)
    · exact List.mem_append_right _ (hpc c hc)
  have hdem : (written'.filterMap demand?).Sublist (written.filterMap demand?) := by
    rw [h2, h2', demands_append h3, demands_append h3']
    exact e2.filterMap _
  have hlinkw : ∀ x y, SameLink written' x y → SameLink written x y := by
    rintro x y ⟨c, hc, hh⟩; exact ⟨c, hsub c hc, hh⟩
  obtain ⟨red, hr, hs, ha⟩ := hb.reduced
  obtain ⟨red', hr', hs', ha'⟩ := hb'.reduced
  have hred : ∀ c, c ∈ red' → c ∈ red := by
    intro c hc
    obtain ⟨c0, hd, hrd, _⟩ := hr'.source c hc
    exact hr.image c0 (hsub c0 hd) c hrd
  have hlink : ∀ x y, SameLink red' x y → SameLink red x y := by
    rintro x y ⟨c, hc, hh⟩; exact ⟨c, hred c hc, hh⟩
  have hder : ∀ c, Derived d'.nc red' c → Derived d.nc red c := by
    rw [← hdims.nc]
    intro c hc
    cases hc with
    | given h => exact .given (hred _ h)
    | sepDep a b e => exact .sepDep a b (e.mono hlink)
    | sepMand e =>
      rw [hr'.demands] at e
      exact .sepMand (by rw [hr.demands]; exact e.trans hdem)
    | copy a b e f g i => exact .copy (hred _ a) b e f g (i.mono hlink)
  refine ⟨hdims, hslots, ?_, ?_, ?_⟩
  · intro c hc
    have := (hs' c).1 hc
    exact (hs c).2 ⟨hder c this.1, (hdims.schedWF c).2 this.2⟩
  · intro c hc
    have := (ha' c).1 hc
    exact (ha c).2 ⟨hder c this.1, (hdims.asgWF c).2 this.2⟩
  · intro c x hx
    have hlt : c < d.nc := (List.getElem?_eq_some_iff.1 hx).1
    obtain ⟨x0, x1, a1, a2, a3, a4, a5, a6, a7⟩ := hb.choice c hlt
    rw [hx] at a1; cases a1
    obtain ⟨y0, y1, b1, b2, b3, b4, b5, b6, b7⟩ := hb'.choice c (by rw [← hdims.nc]; exact hlt)
    obtain ⟨y2, c1, c2, c3, c4, c5, c6⟩ := looser_block hl.choices a2
    rw [b2] at c1; cases c1
    refine ⟨y0, b1, by rw [b3, c2, a3], by rw [b4, c3, a4], ?_, ?_, by rw [a5, b5]; exact c6⟩
    · obtain ⟨y, hy1, hy2, hy3⟩ := b6.attained
      rw [← hdims.nc] at hy1
      have hz := a6.upper y hy1 (hy2.mono hlinkw)
      rw [hb.nc] at hy1
      obtain ⟨z, hz1⟩ : ∃ z, (blocks 0 raw.choices)[y]? = some z := ⟨_, List.getElem?_eq_getElem (by rw [length_blocks]; exact hy1)⟩
      obtain ⟨w, w1, _, _, w4, _⟩ := looser_block hl.choices hz1
      rw [w1] at hy3
      rw [hz1] at hz
      simp only [Option.map_some, Option.getD_some] at hy3 hz
      omega
    · obtain ⟨y, hy1, hy2, hy3⟩ := b7.attained
      rw [← hdims.nc] at hy1
      have hz := a7.lower y hy1 (hy2.mono hlinkw)
      rw [hb.nc] at hy1
      obtain ⟨z, hz1⟩ : ∃ z, (blocks 0 raw.choices)[y]? = some z := ⟨_, List.getElem?_eq_getElem (by rw [length_blocks]; exact hy1)⟩
      obtain ⟨w, w1, _, _, _, w5, _⟩ := looser_block hl.choices hz1
      rw [w1] at hy3
      rw [hz1] at hz
      simp only [Option.map_some, Option.getD_some] at hy3 hz
      omega

theorem Loosened.valid {d d' : InputData} (h : Loosened d d') {s : Scheduling} {a : Assignment} (hv : Valid d s a) : Valid d' s a := by
  refine ⟨fun c hc => (h.dims.schedHolds s c).1 (hv.sched c (h.sched c hc)), fun c hc => hv.asg c (h.asg c hc), ?_, ?_, ?_⟩
  · intro p hp t ht
    exact hv.onePerSlot p (by rw [h.dims.np]; exact hp) t (by rw [h.dims.ns]; exact ht)
  · intro p hp c hc
    obtain ⟨t, ht, e⟩ := hv.onlyScheduled p (by rw [h.dims.np]; exact hp) c hc
    exact ⟨t, by rw [← h.dims.ns]; exact ht, e⟩
  · intro c hc hs
    have hc0 : c < d.nc := by rw [h.dims.nc]; exact hc
    obtain ⟨y, e1, _, _, e2, e3, _⟩ := h.choice c _ (List.getElem?_eq_getElem (show c < d.choices.length from hc0))
    have hy : d'.choices[c]'(hc) = y := by
      rw [List.getElem?_eq_getElem (show c < d'.choices.length from hc)] at e1
      exact Option.some.inj e1
    have hp : participants d' a c = participants d a c := by unfold participants; rw [h.dims.np]
    obtain ⟨b1, b2⟩ := hv.bounds c hc0 hs
    rw [hy, hp]
    exact ⟨Nat.le_trans e2 b1, Nat.le_trans b2 e3⟩

theorem Loosened.placed {d d' : InputData} (h : Loosened d d') {s : Scheduling} (hv : Placed d s) : Placed d' s := by
  intro c hc ho
  have hc0 : c < d.nc := by rw [h.dims.nc]; exact hc
  obtain ⟨y, e1, _, _, _, _, e2⟩ := h.choice c _ (List.getElem?_eq_getElem (show c < d.choices.length from hc0))
  have hy : d'.choices[c]'(hc) = y := by
    rw [List.getElem?_eq_getElem (show c < d'.choices.length from hc)] at e1
    exact Option.some.inj e1
  rw [hy] at ho
  refine hv c hc0 ?_
  cases hx : (d.choices[c]'(hc0)).isOptional with
  | false => rfl
  | true => rw [e2 hx] at ho; cases ho

end Wassign
