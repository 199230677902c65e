import Verif.Proofs.Offer
import Verif.Props.Slots
/-
C94: offering more optional choices never loses a timetable.
-/
namespace Wassign
open Spec Build

/-- **C94**: if optional choices are added at the end of the list, with whatever wishes for them, and no constraint means another choice
because of their names, the input is accepted as before, and the timetables in which the new choices do not take place are exactly those
of before. -/
theorem C94_offering_more (raw raw' : Raw) (extra : List Proto) (ho : OffersMore raw raw' extra) (hmax : ∀ p ∈ raw'.choices, p.max ≤ u32Max)
    (hsum : (raw'.choices.map width).sum ≤ i32Max) (d : InputData) (h : build raw = .ok d) :
    ∃ d' more, build raw' = .ok d' ∧ d'.nc = d.nc + more ∧ d'.slots = d.slots ∧ (∀ c : Nat, c < d.nc → d'.choices[c]? = d.choices[c]?) ∧
      (∀ (c : Nat) (x : Choice), d.nc ≤ c → d'.choices[c]? = some x → x.isOptional = true) ∧
      d'.choosers.map (·.name) = d.choosers.map (·.name) ∧
      ∀ s a, Shape d s a → Shape d' (withoutNew s more) a ∧
        (Valid d' (withoutNew s more) a ∧ Placed d' (withoutNew s more) ↔ Valid d s a ∧ Placed d s) := by
  obtain ⟨d', h'⟩ := offer_accepted hmax hsum ho h
  obtain ⟨w, _⟩ := offer_offered hmax ho h h'
  have hwf := (C48_well_formed raw' d' hmax h').1
  have hnc := w.nc
  refine ⟨d', d'.nc - d.nc, h', by omega, w.slots, w.old, w.new, w.chooserNames, ?_⟩
  intro s a hsh
  have hn : ∀ c, d.nc ≤ c → slotAt s c = none := by
    intro c hc
    unfold slotAt
    rw [List.getElem?_eq_none (by rw [hsh.schedLen]; exact hc)]
    rfl
  have hns : d'.ns = d.ns := by show d'.slots.length = d.slots.length; rw [w.slots]
  refine ⟨⟨?_, by rw [w.np]; exact hsh.asgLen, by rw [hns]; exact hsh.rowLen⟩, ?_⟩
  · unfold withoutNew
    rw [List.length_append, List.length_replicate, hsh.schedLen]
    omega
  · rw [w.valid (slotAt_withoutNew s _) hn hwf.sched hwf.asg, w.placed (slotAt_withoutNew s _) hn]

/-- **C94**, wishes: if the wishes for the old choices stay as they are and no wish for a new choice is above the largest of them, the old
timetables have the worst preference and the cost they had. So the best timetable of the larger input is at least as good. -/
theorem C94_as_good_as_before (raw raw' : Raw) (extra : List Proto) (ho : OffersMore raw raw' extra) (hw : SameWishes raw raw')
    (hmax : ∀ p ∈ raw'.choices, p.max ≤ u32Max) (d d' : InputData) (h : build raw = .ok d) (h' : build raw' = .ok d') :
    d'.maxPref = d.maxPref ∧ (∀ p c, c < d.nc → pref d' p c = pref d p c) ∧
      ∀ s a, Shape d s a → Valid d s a → (∀ w, IsWorst d' a w ↔ IsWorst d a w) ∧ ∀ cost, totalCost d' cost a = totalCost d cost a := by
  obtain ⟨w, hp⟩ := offer_offered hmax ho h h'
  obtain ⟨hp1, hp2⟩ := hp hw
  refine ⟨hp1, hp2, ?_⟩
  intro s a hsh hv
  have hn : ∀ c, d.nc ≤ c → slotAt s c = none := by
    intro c hc
    unfold slotAt
    rw [List.getElem?_eq_none (by rw [hsh.schedLen]; exact hc)]
    rfl
  exact ⟨w.worst hn hp2 hsh.asgLen hv.onlyScheduled, w.cost hn hp2 hv.onlyScheduled⟩

/-- **C94**, the other way: a timetable of the larger input in which no new choice takes place is one of the smaller input. -/
theorem C94_without_the_new (raw raw' : Raw) (extra : List Proto) (ho : OffersMore raw raw' extra) (hmax : ∀ p ∈ raw'.choices, p.max ≤ u32Max)
    (d d' : InputData) (h : build raw = .ok d) (h' : build raw' = .ok d') (s' : Scheduling) (a : Assignment) (hsh : Shape d' s' a)
    (hnew : ∀ c, d.nc ≤ c → slotAt s' c = none) (hv : Valid d' s' a ∧ Placed d' s') :
    Shape d (s'.take d.nc) a ∧ Valid d (s'.take d.nc) a ∧ Placed d (s'.take d.nc) := by
  obtain ⟨w, _⟩ := offer_offered hmax ho h h'
  have hwf := (C48_well_formed raw' d' hmax h').1
  have hnc := w.nc
  have hns : d'.ns = d.ns := by show d'.slots.length = d.slots.length; rw [w.slots]
  have hs : ∀ c, slotAt s' c = slotAt (s'.take d.nc) c := by
    intro c
    by_cases hc : c < d.nc
    · unfold slotAt; rw [List.getElem?_take_of_lt hc]
    · rw [hnew c (by omega)]
      unfold slotAt
      rw [List.getElem?_eq_none (by rw [List.length_take]; omega)]
      rfl
  have hn : ∀ c, d.nc ≤ c → slotAt (s'.take d.nc) c = none := fun c hc => by rw [← hs]; exact hnew c hc
  refine ⟨⟨?_, by rw [← w.np]; exact hsh.asgLen, by rw [← hns]; exact hsh.rowLen⟩, (w.valid hs hn hwf.sched hwf.asg).1 hv.1, (w.placed hs hn).1 hv.2⟩
  rw [List.length_take, hsh.schedLen]
  omega

/-! ### Examples -/

namespace OfferEx

/-- Two talks, one of them on Monday. -/
def small : Raw where
  slots := ["Mon".toList, "Tue".toList]
  choices := [⟨"Algebra".toList, 1, 1, 1, false⟩, ⟨"Biology".toList, 1, 1, 1, false⟩]
  choosers := [⟨"Ann".toList, [1, 3]⟩]
  exprs := [⟨⟨.choice, .slot, "Bio".toList, 0⟩, .eq, ⟨.slot, .notSet, "Mon".toList, 0⟩⟩]

/-- A course in two parts, if enough people want it. -/
def course : Proto := ⟨"Yoga".toList, 1, 5, 2, true⟩

/-- The same with the course. -/
def large : Raw := { small with
  choices := small.choices ++ [course]
  choosers := [⟨"Ann".toList, [1, 3, 2]⟩] }

theorem offers : OffersMore small large [course] := by
  refine ⟨rfl, rfl, by decide +kernel, by decide +kernel, by decide +kernel, rfl, ?_⟩
  intro e he a ha hk i
  have he : e = ⟨⟨.choice, .slot, "Bio".toList, 0⟩, .eq, ⟨.slot, .notSet, "Mon".toList, 0⟩⟩ := by
    simpa [small] using he
  subst he
  rcases ha with rfl | rfl
  · rw [bestMatch_iff, bestMatch_iff]
    have e1 : fuzzyFind "Bio".toList (namesFor large .choice) = [1] := by decide +kernel
    have e2 : fuzzyFind "Bio".toList (namesFor small .choice) = [1] := by decide +kernel
    simp only [e1, e2]
  · cases hk

theorem wishes : SameWishes small large := by
  refine ⟨.cons (by decide +kernel) .nil, ?_⟩
  intro c hc x hx
  have hc : c = ⟨"Ann".toList, [1, 3, 2]⟩ := by simpa [large] using hc
  subst hc
  refine ⟨⟨"Ann".toList, [1, 3]⟩, by decide +kernel, 3, by decide +kernel, ?_⟩
  have : x = 1 ∨ x = 3 ∨ x = 2 := by simpa using hx
  omega

/-- The larger input has a further timetable, with the course. -/
example : (dataOf small).nc = 2 ∧ (dataOf large).nc = 4 ∧ Scoring.isFeasibleC (dataOf small) [some 1, some 0] [[1, 0]] = .ok true ∧
    Scoring.isFeasibleC (dataOf large) [some 1, some 0, none, none] [[1, 0]] = .ok true ∧
    withoutNew [some 1, some 0] 2 = [some 1, some 0, none, none] := by decide +kernel

/-- A second talk on the same subject. -/
def unclear : Raw := { small with
  choices := small.choices ++ [⟨"Biophysics".toList, 1, 5, 1, true⟩]
  choosers := [⟨"Ann".toList, [1, 3, 2]⟩] }

end OfferEx

/-- The names matter: constraints may give the beginning of a name. If a new name begins the same way, the constraint is ambiguous and the
input is rejected, though nothing else changed. -/
theorem C94_names_in_the_way : (∃ d, build OfferEx.small = .ok d) ∧ OfferEx.unclear.slots = OfferEx.small.slots ∧
    OfferEx.unclear.choices = OfferEx.small.choices ++ [⟨"Biophysics".toList, 1, 5, 1, true⟩] ∧ OfferEx.unclear.exprs = OfferEx.small.exprs ∧
    (∀ c ∈ OfferEx.unclear.choosers, c.prefs.length = OfferEx.unclear.choices.length) ∧
    build OfferEx.unclear = .error (.error "The name \"Bio\" is ambiguous.") := by
  have h1 : build OfferEx.small = .ok (dataOf OfferEx.small) := by decide +kernel
  exact ⟨⟨_, h1⟩, rfl, rfl, rfl, by decide +kernel, by decide +kernel⟩

end Wassign
