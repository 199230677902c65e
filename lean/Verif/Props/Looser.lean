import Verif.Proofs.Looser
import Verif.Props.Pareto
import Verif.Props.Verdict
/-
C89: an input that asks for less allows everything the stricter one allows.
-/
namespace Wassign
open Spec Build

/-- **C89**: an input that asks for less (lower minima, higher maxima, more optional choices, fewer constraints, whatever wishes) is
accepted if the stricter one is, and every timetable that is valid for the stricter input is valid for it. -/
theorem C89_everything_still_allowed (raw raw' : Raw) (hl : Looser raw raw') (hmax : ∀ p ∈ raw.choices, p.max ≤ u32Max)
    (hmax' : ∀ p ∈ raw'.choices, p.max ≤ u32Max) (d : InputData) (h : build raw = .ok d) :
    ∃ d', build raw' = .ok d' ∧ d'.slots = d.slots ∧ d'.choices.map (·.name) = d.choices.map (·.name) ∧
      d'.choosers.map (·.name) = d.choosers.map (·.name) ∧
      ∀ s a, Valid d s a ∧ Placed d s → Valid d' s a ∧ Placed d' s := by
  obtain ⟨d', h'⟩ := looser_accepted hmax hmax' hl h
  have hw := looser_loosened hmax hmax' hl h h'
  obtain ⟨m, written, hb⟩ := build_spec hmax h
  obtain ⟨m', written', hb'⟩ := build_spec hmax' h'
  refine ⟨d', h', hw.slots, ?_, ?_, fun s a hv => ⟨hw.valid hv.1, hw.placed hv.2⟩⟩
  · apply List.ext_getElem?
    intro c
    rw [List.getElem?_map, List.getElem?_map]
    cases hx : d.choices[c]? with
    | some x =>
      obtain ⟨y, e1, e2, _⟩ := hw.choice c x hx
      rw [e1]; simp [e2]
    | none =>
      have := List.getElem?_eq_none_iff.1 hx
      rw [List.getElem?_eq_none (by have := hw.dims.nc; unfold InputData.nc at this; omega)]
  · have key : ∀ {raw : Raw} {d : InputData} {m : Nat} {w : List Constraint}, Built raw d m w →
        d.choosers.map (·.name) = raw.choosers.map (·.name) := by
      intro raw d m w hb
      apply List.ext_getElem?
      intro p
      rw [List.getElem?_map, List.getElem?_map]
      by_cases hp : p < raw.choosers.length
      · obtain ⟨ch, e1, e2, _⟩ := hb.names p hp
        rw [e1, List.getElem?_eq_getElem hp]; simp [e2]
      · rw [List.getElem?_eq_none (show raw.choosers.length ≤ p by omega), List.getElem?_eq_none (by show d.np ≤ p; rw [hb.np]; omega)]
    rw [key hb, key hb', hl.names]

/-- **C89**, wishes: which timetables are valid does not depend on what the choosers wish. -/
theorem C89_wishes_do_not_decide (raw : Raw) (cs : List Chooser) (hn : cs.map (·.name) = raw.choosers.map (·.name))
    (hc : ∀ c ∈ cs, c.prefs.length = raw.choices.length) (hmax : ∀ p ∈ raw.choices, p.max ≤ u32Max) (d : InputData) (h : build raw = .ok d) :
    ∃ d', build { raw with choosers := cs } = .ok d' ∧ ∀ s a, Valid d' s a ∧ Placed d' s ↔ Valid d s a ∧ Placed d s := by
  have hrefl : List.Forall₂ LooserChoice raw.choices raw.choices :=
    List.forall₂_same.2 (fun p _ => ⟨rfl, rfl, Nat.le_refl _, Nat.le_refl _, id⟩)
  have hl : Looser raw { raw with choosers := cs } := ⟨rfl, hn, hc, hrefl, .refl _⟩
  obtain ⟨m, written, hb⟩ := build_spec hmax h
  have hl' : Looser { raw with choosers := cs } raw := ⟨rfl, hn.symm, hb.prefCount, hrefl, .refl _⟩
  have hmax' : ∀ p ∈ ({ raw with choosers := cs } : Raw).choices, p.max ≤ u32Max := hmax
  obtain ⟨d', h'⟩ := looser_accepted hmax hmax' hl h
  have w1 := looser_loosened hmax hmax' hl h h'
  have w2 := looser_loosened hmax' hmax hl' h' h
  exact ⟨d', h', fun s a => ⟨fun hv => ⟨w2.valid hv.1, w2.placed hv.2⟩, fun hv => ⟨w1.valid hv.1, w1.placed hv.2⟩⟩⟩

theorem expandAll_looser {ps qs : List Proto} (h : List.Forall₂ LooserChoice ps qs) : ∀ l, expandAll qs l = expandAll ps l := by
  induction h with
  | nil => intro l; rfl
  | cons h _ ih =>
    intro l
    cases l with
    | nil => rfl
    | cons x xs => simp only [expandAll, ih, width, h.parts]

/-- **C89**, limits: if only limits are loosened, all wishes are read the same way, so every timetable of the stricter input has the same
worst preference and the same cost as before. -/
theorem C89_limits_keep_wishes (raw raw' : Raw) (hl : Looser raw raw') (hcs : raw'.choosers = raw.choosers) (hex : raw'.exprs = raw.exprs)
    (hmax : ∀ p ∈ raw.choices, p.max ≤ u32Max) (hmax' : ∀ p ∈ raw'.choices, p.max ≤ u32Max) (d d' : InputData) (h : build raw = .ok d)
    (h' : build raw' = .ok d') :
    (∀ p c, pref d' p c = pref d p c) ∧ d'.maxPref = d.maxPref ∧ d'.prefLevels = d.prefLevels ∧
    (∀ a w, IsWorst d' a w ↔ IsWorst d a w) ∧ ∀ cost a, totalCost d' cost a = totalCost d cost a := by
  have hw := looser_loosened hmax hmax' hl h h'
  obtain ⟨m, written, hb⟩ := build_spec hmax h
  obtain ⟨m', written', hb'⟩ := build_spec hmax' h'
  have hm : m' = m := by
    have h1 := hb.maxUpper; have h2 := hb.maxAttained
    have h3 := hb'.maxUpper; have h4 := hb'.maxAttained
    rw [hcs] at h3 h4
    have a1 : m ≤ m' := by
      rcases h2 with e | ⟨c, hc, e⟩
      · omega
      · exact h3 c hc m e
    have a2 : m' ≤ m := by
      rcases h4 with e | ⟨c, hc, e⟩
      · omega
      · exact h1 c hc m' e
    omega
  subst hm
  have hexp : buildExpr d' = buildExpr d := by
    obtain ⟨d1, _, hsl1, hch1, hcs1, _⟩ := hb'.stage
    rw [← buildExpr_looser hb hl (hsl1.trans hw.slots) hch1 hcs1]
    funext e
    exact (hb'.exprSame hsl1 hch1 hcs1 e).symm
  have hwr : ∀ c, c ∈ written' ↔ c ∈ written := by
    intro c
    rw [hb'.isWritten, hb.isWritten]
    constructor
    · intro hh
      cases hh with
      | expr a b e => exact .expr (by rw [← hex]; exact a) (by rw [← hexp]; exact b) e
      | sameChoosers a b e => exact .sameChoosers ((looser_part hl.choices).1 a) ((looser_part hl.choices).1 b) e
      | distance a b e => exact .distance ((looser_part hl.choices).1 a) ((looser_part hl.choices).1 b) e
    · intro hh
      cases hh with
      | expr a b e => exact .expr (by rw [hex]; exact a) (by rw [hexp]; exact b) e
      | sameChoosers a b e => exact .sameChoosers ((looser_part hl.choices).2 a) ((looser_part hl.choices).2 b) e
      | distance a b e => exact .distance ((looser_part hl.choices).2 a) ((looser_part hl.choices).2 b) e
  have hlink : SameLink written' = SameLink written := by
    funext x y
    apply propext
    constructor
    · rintro ⟨c, a, b⟩; exact ⟨c, (hwr c).1 a, b⟩
    · rintro ⟨c, a, b⟩; exact ⟨c, (hwr c).2 a, b⟩
  have hdem : ∀ p c, Demanded written' p c ↔ Demanded written p c := by
    intro p c
    unfold Demanded
    rw [hlink]
    constructor
    · rintro ⟨y, a, k, b, e⟩; exact ⟨y, a, k, (hwr k).1 b, e⟩
    · rintro ⟨y, a, k, b, e⟩; exact ⟨y, a, k, (hwr k).2 b, e⟩
  have hpref : ∀ p c, pref d' p c = pref d p c := by
    intro p c
    by_cases hp : p < raw.choosers.length
    · obtain ⟨ch, n1, _, n2⟩ := hb.names p hp
      obtain ⟨ch', n1', _, n2'⟩ := hb'.names p (by rw [hcs]; exact hp)
      by_cases hc : c < d.nc
      · obtain ⟨q1, q2⟩ := hb.prefs p c hp hc
        obtain ⟨q1', q2'⟩ := hb'.prefs p c (by rw [hcs]; exact hp) (by rw [← hw.dims.nc]; exact hc)
        by_cases hD : Demanded written p c
        · rw [q1 hD, q1' ((hdem p c).2 hD)]
        · obtain ⟨v, e1, e2⟩ := q2 hD
          obtain ⟨v', e1', e2'⟩ := q2' (fun hh => hD ((hdem p c).1 hh))
          rw [e1, e1']
          rw [hlink, ← hw.dims.nc, expandAll_looser hl.choices] at e2'
          have hch : raw'.choosers[p]'(by rw [hcs]; exact hp) = raw.choosers[p] := by simp only [hcs]
          rw [hch] at e2'
          congr 1
          have a1 := e2.attained; have a2 := e2'.attained
          obtain ⟨y, b1, b2, b3⟩ := a1
          obtain ⟨y', b1', b2', b3'⟩ := a2
          have c1 := e2.lower y' b1' b2'
          have c2 := e2'.lower y b1 b2
          omega
      · unfold pref
        rw [n1, n1']
        simp only [Option.bind_some]
        rw [List.getElem?_eq_none (by rw [n2', ← hw.dims.nc]; omega), List.getElem?_eq_none (by rw [n2]; omega)]
    · unfold pref
      rw [List.getElem?_eq_none (by show d'.np ≤ p; rw [hb'.np, hcs]; omega), List.getElem?_eq_none (by show d.np ≤ p; rw [hb.np]; omega)]
  refine ⟨hpref, by rw [hb.maxPref, hb'.maxPref], by rw [hb.levels, hb'.levels]; unfold buildLevels; rw [hcs], ?_, ?_⟩
  · intro a w
    constructor
    · rintro ⟨u, v⟩; exact ⟨fun p c x => by rw [← hpref]; exact u p c x, by simpa only [hpref] using v⟩
    · rintro ⟨u, v⟩; exact ⟨fun p c x => by rw [hpref]; exact u p c x, by simpa only [hpref] using v⟩
  · intro cost a
    unfold totalCost
    simp only [hpref, hw.dims.nc, hw.dims.np]

/-! ### The program -/

open Threaded Main Reader
variable {F σ : Type}

/-- **C89**, for the program: the tables printed for an input are the tables of a valid timetable of every input that asks for less. -/
theorem C89_printed_still_allowed (raw raw' : Raw) (hl : Looser raw raw') (hmax' : ∀ p ∈ raw'.choices, p.max ≤ u32Max)
    (tr : List Reader.Event) (hdes : Describes tr raw) (d : InputData) (h : build raw = .ok d) (hr : ManageableRaw raw) (hd : Manageable d)
    (o : Outside F σ) (ho : Trusted o d.nc) (opts : Opts F) (hcs : 0 ≤ opts.csTimeout) (p : Prepared) (hp : prepare o d opts = .ok p)
    (g : Session σ ASolver (σ × Nat)) (hg : Run (setup o p opts) (start (setup o p opts)) g) (sched asg : Str)
    (hrep : report p g = .ok (.tables sched asg)) :
    ∃ d' s a table, build raw' = .ok d' ∧ Valid d' s a ∧ Placed d' s ∧ asg = csv table ∧ AssignmentTable d' s a table := by
  have hmax := fun q hq => ((described_fit hdes).1 q hq).2.1
  obtain ⟨d', h', hsl, hch, hcn, hall⟩ := C89_everything_still_allowed raw raw' hl hmax hmax' d h
  have hw := looser_loosened hmax hmax' hl h h'
  rcases printed_made raw tr hdes d h hr hd o ho opts hcs p hp g hg with e | ⟨s, a, sched', asg', _, _, hv, hpl, e, ⟨table, e1, e2⟩, _⟩
  · rw [hrep] at e; cases e
  rw [hrep] at e
  cases e
  obtain ⟨hv', hpl'⟩ := hall s a ⟨hv, hpl⟩
  refine ⟨d', s, a, table, h', hv', hpl', e1, ?_, ?_, ?_⟩
  · rw [hsl]; exact e2.head
  · rw [← hw.dims.np]; exact e2.rows
  · intro q who hq
    have hnm := congrArg (fun l => l[q]?) hcn
    simp only [List.getElem?_map, hq, Option.map_some] at hnm
    cases hx : d.choosers[q]? with
    | none => rw [hx] at hnm; cases hnm
    | some who0 =>
      rw [hx] at hnm
      obtain ⟨cells, c1, c2, c3⟩ := e2.row q who0 hx
      have he : who.name = who0.name := by simpa using hnm
      refine ⟨cells, by rw [he]; exact c1, by rw [← hw.dims.ns]; exact c2, ?_⟩
      intro t ht
      obtain ⟨c, ch, k1, k2, k3, k4⟩ := c3 t (by rw [hw.dims.ns]; exact ht)
      obtain ⟨y, m1, m2, _⟩ := hw.choice c ch k3
      exact ⟨c, y, k1, k2, m1, by rw [m2]; exact k4⟩

/-- **C89**, the other direction: if an undisturbed session finds out that there is no solution (C58), there is none for any input that
asks for more. -/
theorem C89_no_solution_for_stricter_partial (raw raw' : Raw) (hl : Looser raw' raw) (hmax' : ∀ p ∈ raw'.choices, p.max ≤ u32Max)
    (d' : InputData) (h' : build raw' = .ok d')
    (tr : List Reader.Event) (hdes : Describes tr raw) (d : InputData) (h : build raw = .ok d) (hr : ManageableRaw raw) (hd : Manageable d)
    (o : Outside F σ) (ho : Trusted o d.nc) (opts : Opts F) (hcs : 0 ≤ opts.csTimeout) (p : Prepared) (hp : prepare o d opts = .ok p)
    (hl1 : ∀ tid t, o.lateIter tid t = false) (hl2 : ∀ tid a b c, o.lateSearch tid a b c = false) (g : Session σ ASolver (σ × Nat))
    (hg : Undisturbed (setup o p opts) (start (setup o p opts)) g) (hover : g.over) (hrep : report p g = .ok .noSolution)
    (hns : 1 < d.slots.length) (hnp : 0 < d.choosers.length) (hnc : 0 < d.choices.length)
    (hself : ∀ k ∈ d.schedCons, (k.kind = .choicesAreNotInSameSlot ∨ k.kind = .choicesHaveOffset) → k.right ≠ .choice k.left)
    (hmin : (∀ c ∈ d.choices, c.min ≤ 1) ∨ (d.choices.map (·.min)).sum ≤ d.choosers.length) :
    ¬ ∃ s a, SchedShape d' s ∧ Valid d' s a ∧ Placed d' s := by
  have hmax := fun q hq => ((described_fit hdes).1 q hq).2.1
  have hw := looser_loosened hmax' hmax hl h' h
  rcases C58_verdict_partial raw tr hdes d h hr hd o ho opts hcs p hp hl1 hl2 g hg hover hns hnp hnc hself hmin with ⟨_, hno⟩ | ⟨_, _, _, _, _, _, _, _, e, _⟩
  · rintro ⟨s, a, hsh, hv, hpl⟩
    exact hno ⟨s, a, ⟨by rw [hsh.len, hw.dims.nc], fun c t hct => by rw [← hw.dims.ns]; exact hsh.range c t hct⟩, hw.valid hv, hw.placed hpl⟩
  · rw [hrep] at e; cases e

/-! ### Example -/

namespace LooserEx

/-- The two-day hike with a smaller minimum and a larger maximum, now optional. -/
def raw3 : Raw := { BuildEx.raw2 with
  choices := [⟨"Hike".toList, 0, 9, 2, true⟩] }

theorem looser : Looser BuildEx.raw2 raw3 := by
  refine ⟨rfl, rfl, by decide +kernel, ?_, .refl _⟩
  exact .cons ⟨rfl, rfl, by decide, by decide, fun _ => rfl⟩ .nil

example : ∃ d', build raw3 = .ok d' ∧ Valid d' [some 0, some 1] [[0, 1], [0, 1]] := by
  obtain ⟨d', h', _, _, _, hall⟩ := C89_everything_still_allowed BuildEx.raw2 raw3 looser (by decide +kernel) (by decide +kernel)
    BuildEx.data2 (by decide +kernel)
  refine ⟨d', h', (hall _ _ ⟨BuildEx.valid2, ?_⟩).1⟩
  intro c hc _
  have hl : BuildEx.data2.nc = 2 := by decide +kernel
  rw [hl] at hc
  match c with
  | 0 => simp [slotAt]
  | 1 => simp [slotAt]
  | c + 2 => omega

/-- Two choosers, two choices in one slot; Bob, who wishes A, must attend B. -/
def strict : Raw where
  slots := []
  choices := [⟨"A".toList, 1, 1, 1, false⟩, ⟨"B".toList, 1, 1, 1, false⟩]
  choosers := [⟨"Ann".toList, [1, 0]⟩, ⟨"Bob".toList, [1, 0]⟩]
  exprs := [⟨⟨.chooser, .choice, "Bob".toList, 0⟩, .contains, ⟨.choice, .notSet, "B".toList, 0⟩⟩]

/-- The same without the constraint. -/
def free : Raw := { strict with
  exprs := [] }

end LooserEx

/-- Dropping a constraint may change how wishes are read (what a chooser must attend counts as the first wish): the timetable in which
Bob attends B is as good as can be with the constraint, and not without. -/
theorem C89_dropping_changes_wishes : Looser LooserEx.strict LooserEx.free ∧ ∃ d d', build LooserEx.strict = .ok d ∧ build LooserEx.free = .ok d' ∧
    pref d 1 1 = some 0 ∧ pref d' 1 1 = some 1 := by
  refine ⟨⟨rfl, rfl, by decide +kernel, ?_, by exact List.nil_sublist _⟩, dataOf LooserEx.strict, dataOf LooserEx.free,
    by decide +kernel, by decide +kernel, by decide +kernel, by decide +kernel⟩
  exact List.forall₂_same.2 (fun p _ => ⟨rfl, rfl, Nat.le_refl _, Nat.le_refl _, id⟩)

end Wassign
