import Verif.Proofs.Quiet
/-
Sessions with a single worker are deterministic.
-/
namespace Wassign
open Spec Threaded
variable {σ τ ρ : Type} {cfg : Setup σ τ ρ}

theorem prompt_lone {g g1 g2 : Session σ τ ρ} (hl : g.workers.length = 1) (h1 : Prompt cfg g g1) (h2 : Prompt cfg g g2) : g1 = g2 := by
  have tid0 : ∀ (t : Nat) (w : Worker σ τ ρ), g.workers[t]? = some w → t = 0 := by
    intro t w hw
    have := (List.getElem?_eq_some_iff.1 hw).1
    omega
  cases h1 with
  | check t w a b =>
    have := tid0 t w a; subst this
    cases h2 with
    | check t' w' a' b' => have := tid0 t' w' a'; subst this; rw [a] at a'; cases a'; rfl
    | run t' w' a' b' => have := tid0 t' w' a'; subst this; rw [a] at a'; cases a'; rw [b] at b'; cases b'
    | test t' k' w' a' b' => have := tid0 t' w' a'; subst this; rw [a] at a'; cases a'; rw [b] at b'; cases b'
  | run t w a b =>
    have := tid0 t w a; subst this
    cases h2 with
    | check t' w' a' b' => have := tid0 t' w' a'; subst this; rw [a] at a'; cases a'; rw [b] at b'; cases b'
    | run t' w' a' b' => have := tid0 t' w' a'; subst this; rw [a] at a'; cases a'; rfl
    | test t' k' w' a' b' => have := tid0 t' w' a'; subst this; rw [a] at a'; cases a'; rw [b] at b'; cases b'
  | test t k w a b =>
    have := tid0 t w a; subst this
    cases h2 with
    | check t' w' a' b' => have := tid0 t' w' a'; subst this; rw [a] at a'; cases a'; rw [b] at b'; cases b'
    | run t' w' a' b' => have := tid0 t' w' a'; subst this; rw [a] at a'; cases a'; rw [b] at b'; cases b'
    | test t' k' w' a' b' => have := tid0 t' w' a'; subst this; rw [a] at a'; cases a'; rw [b] at b'; cases b'; rfl

theorem over_no_prompt {g g' : Session σ τ ρ} (ho : g.over) : ¬ Prompt cfg g g' := by
  intro h
  cases h with
  | check t w a b => rcases ho w (List.mem_of_getElem? a) with e | e <;> (rw [b] at e; cases e)
  | run t w a b => rcases ho w (List.mem_of_getElem? a) with e | e <;> (rw [b] at e; cases e)
  | test t k w a b => rcases ho w (List.mem_of_getElem? a) with e | e <;> (rw [b] at e; cases e)

theorem undisturbed_head {g g' : Session σ τ ρ} (h : Undisturbed cfg g g') : g = g' ∨ ∃ g1, Prompt cfg g g1 ∧ Undisturbed cfg g1 g' := by
  induction h with
  | refl => exact .inl rfl
  | step _ hs ih =>
    right
    rcases ih with rfl | ⟨g1, a, b⟩
    · exact ⟨_, hs, .refl _⟩
    · exact ⟨g1, a, .step b hs⟩

theorem undisturbed_linear {s b c : Session σ τ ρ} (hl : s.workers.length = 1) (hb : Undisturbed cfg s b) (hc : Undisturbed cfg s c) :
    Undisturbed cfg b c ∨ Undisturbed cfg c b := by
  induction hc with
  | refl => exact .inr hb
  | @step c c' hsc hs ih =>
    rcases ih with h | h
    · exact .inl (.step h hs)
    · have hlc : c.workers.length = 1 := by rw [run_length hsc.toRun, hl]
      rcases undisturbed_head h with rfl | ⟨g1, a, h'⟩
      · exact .inl (.step (.refl _) hs)
      · rw [prompt_lone hlc a hs] at h'
        exact .inr h'

/-- An undisturbed session with a single worker has one end. -/
theorem undisturbed_lone {s b c : Session σ τ ρ} (hl : s.workers.length = 1) (hb : Undisturbed cfg s b) (hc : Undisturbed cfg s c)
    (ob : b.over) (oc : c.over) : b = c := by
  have stop : ∀ {x y : Session σ τ ρ}, x.over → Undisturbed cfg x y → x = y := by
    intro x y ox h
    rcases undisturbed_head h with e | ⟨g1, a, _⟩
    · exact e
    · exact absurd a (over_no_prompt ox)
  rcases undisturbed_linear hl hb hc with h | h
  · exact stop ob h
  · exact (stop oc h).symm

end Wassign
