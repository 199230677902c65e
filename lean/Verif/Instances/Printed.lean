import Verif.Props.Printed
/-
A concrete case for C10 at the level of the program: two slots, four choices (the input of `ClimbEx`).
-/
namespace Wassign.ClimbEx
open Spec Build Threaded Main Reader

theorem values (q c x : Nat) (h : pref data q c = some x) : x ∈ data.prefLevels := by
  unfold pref at h
  cases hc : data.choosers[q]? with
  | none => rw [hc] at h; cases h
  | some ch =>
    rw [hc] at h
    have h1 := List.mem_of_getElem? hc
    have h2 := List.mem_of_getElem? h
    have : ∀ ch ∈ data.choosers, ∀ x ∈ ch.prefs, x ∈ data.prefLevels := by decide +kernel
    exact this ch h1 x h2

/-- Nobody can attend their favourite in both slots: every solution has a worst preference of at least 1, the bound. -/
theorem bound_right (s : Scheduling) (a : Assignment) (w : Nat) (_ : Shape data s a) (hv : Valid data s a) (hw : IsWorst data a w) :
    prepared.analysis.preferenceBound ≤ w := by
  have hb : prepared.analysis.preferenceBound = 1 := by decide +kernel
  have hns : data.ns = 2 := by decide +kernel
  rw [hb]
  by_contra hlt
  obtain ⟨c0, ⟨a0, s0⟩, _⟩ := hv.onePerSlot 0 (by decide +kernel) 0 (by omega)
  obtain ⟨c1, ⟨a1, s1⟩, _⟩ := hv.onePerSlot 0 (by decide +kernel) 1 (by omega)
  have key : ∀ c, Attends a 0 c → c < 4 → c = 0 := by
    intro c hc h4
    have : ∀ c < 4, c ≠ 0 → ∃ x, pref data 0 c = some x ∧ 0 < x := by
      intro c hc hne
      rcases (by omega : c = 1 ∨ c = 2 ∨ c = 3) with rfl | rfl | rfl
      · exact ⟨2, by decide +kernel, by omega⟩
      · exact ⟨1, by decide +kernel, by omega⟩
      · exact ⟨3, by decide +kernel, by omega⟩
    by_contra hne
    obtain ⟨x, h1, h2⟩ := this c h4 hne
    have := hw.upper 0 c x hc h1
    omega
  have hlen : ∀ c t, slotAt s c = some t → c < 4 := by
    intro c t hc
    have h1 : s.length = 4 := by rw [‹Shape data s a›.schedLen]; decide +kernel
    unfold slotAt at hc
    by_contra hge
    rw [List.getElem?_eq_none (by omega)] at hc
    cases hc
  have e0 := key c0 a0 (hlen _ _ s0)
  have e1 := key c1 a1 (hlen _ _ s1)
  rw [e0] at s0
  rw [e1, s0] at s1
  cases s1

/-- A session with something to print, which is as good as possible for whoever is worst off in it. -/
example : ∃ g, Run (setup ideal prepared eff) (start (setup ideal prepared eff)) g ∧
    ∃ s a sched asg, SchedShape data s ∧ Valid data s a ∧ report prepared g = .ok (.tables sched asg) ∧
      ∀ a' w w', Shape data s a' → Valid data s a' → IsWorst data a w → IsWorst data a' w' → w ≤ w' := by
  obtain ⟨g, hg, hone⟩ := session
  refine ⟨g, hg, ?_⟩
  obtain ⟨_, _, sd, x, _, _, _, hre, _⟩ := C70_one_iteration_suffices raw _ describes_raw data build_raw manageable.1 manageable.2 ideal trusted
    (fun _ => ideal_exact) eff (by decide +kernel) prepared prepare_ok (fun _ _ => rfl) (fun _ _ => rfl) scorable g hg assignable hone
  rcases C10_printed_least_worst_partial raw _ describes_raw data build_raw manageable.1 manageable.2 ideal trusted
    (fun _ => ideal_exact) eff (by decide +kernel) prepared prepare_ok (fun _ _ => rfl) g hg (by decide +kernel) values bound_right
    with e | ⟨s, a, sd', x', h1, h2, h3, h4, h5, _, h6⟩
  · rw [hre] at e; cases e
  · exact ⟨s, a, sd', x', h1, h3, h5, h6 (unlinked s)⟩

end Wassign.ClimbEx

namespace Wassign
open Spec Build Threaded Main Reader

/-- Switched off, the analysis gives a bound that cannot be wrong. -/
example : ∀ s a w, Shape ClimbEx.data s a → Valid ClimbEx.data s a → IsWorst ClimbEx.data a w →
    (match prepare ClimbEx.ideal ClimbEx.data { ClimbEx.eff with noCs := true } with | .ok p => p.analysis.preferenceBound | .error _ => 1) ≤ w := by
  have h : (prepare ClimbEx.ideal ClimbEx.data { ClimbEx.eff with noCs := true }).isOk = true := by decide +kernel
  cases e : prepare ClimbEx.ideal ClimbEx.data { ClimbEx.eff with noCs := true } with
  | error f => rw [e] at h; cases h
  | ok p =>
    exact C15_program_bound_partial ClimbEx.raw ClimbEx.data (by decide +kernel) ClimbEx.build_raw ClimbEx.manageable.1 ClimbEx.manageable.2
      ClimbEx.ideal _ p e ClimbEx.values (.inl rfl)

end Wassign
