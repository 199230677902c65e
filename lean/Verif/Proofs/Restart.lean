import Mathlib.Data.List.Perm.Subperm
import Verif.Spec.Attain
import Verif.Spec.Draws
import Verif.Proofs.First
import Verif.Proofs.Source
/-
A random engine that makes the searches use given orders of the choices, one after the other.
-/
namespace Wassign
open Spec Search

/-- The state is the number of samples drawn so far; the shuffles after sample `k` give order `k`. -/
def ordered (nc : Nat) (orders : Nat → List Nat) : RngOps Nat where
  sample k := (((k % nc : Nat) : Int), k + 1)
  shuffle k n := (if n = nc then orders (k - 1) else List.range n, k)

theorem ordered_lawful {nc : Nat} (h : nc ≤ i32Max) (h0 : 0 < nc) {orders : Nat → List Nat} (ho : ∀ k, (orders k).Perm (List.range nc)) :
    (ordered nc orders).Lawful where
  sample_range k := by
    show -2147483648 ≤ ((k % nc : Nat) : Int) ∧ ((k % nc : Nat) : Int) ≤ 2147483647
    have := Nat.mod_lt k h0
    unfold i32Max at h
    omega
  shuffle_perm k n := by
    show (if n = nc then orders (k - 1) else List.range n).Perm (List.range n)
    split
    · rename_i e; rw [e]; exact ho _
    · exact List.Perm.refl _

theorem ordered_after (nc : Nat) (orders : Nat → List Nat) (k s : Nat) : (ordered nc orders).after k s = s + k := by
  induction k generalizing s with
  | zero => rfl
  | succ k ih =>
    show (ordered nc orders).after k (s + 1) = s + (k + 1)
    rw [ih]; omega

theorem ordered_varied {nc : Nat} (h0 : 0 < nc) (orders : Nat → List Nat) : (ordered nc orders).Varied nc nc := by
  intro used hu s
  have : ∃ v, v < nc ∧ v ∉ used := by
    apply Classical.byContradiction
    intro hno
    have hall : ∀ v ∈ List.range nc, v ∈ used := by
      intro v hv
      apply Classical.byContradiction
      intro hn
      exact hno ⟨v, List.mem_range.1 hv, hn⟩
    have := (List.Nodup.subperm (List.nodup_range (n := nc)) hall).length_le
    simp at this
    omega
  obtain ⟨v, hv, hn⟩ := this
  have hs := Nat.mod_lt s h0
  refine ⟨(v + nc - s % nc) % nc, Nat.mod_lt _ h0, ?_⟩
  rw [ordered_after]
  show ((((s + (v + nc - s % nc) % nc) % nc : Nat) : Int) % ((nc : Nat) : Int)).toNat ∉ used
  have : (s + (v + nc - s % nc) % nc) % nc = v := by
    rw [Nat.add_mod_mod]
    have e : s + (v + nc - s % nc) = v + nc * (s / nc + 1) := by
      have := Nat.div_add_mod s nc
      rw [Nat.mul_add]
      omega
    rw [e, Nat.add_mul_mod_self_left, Nat.mod_eq_of_lt hv]
  rw [this]
  have e2 : (((v : Nat) : Int) % ((nc : Nat) : Int)).toNat = v := by
    rw [← Int.natCast_mod, Nat.mod_eq_of_lt hv]; rfl
  rw [e2]
  exact hn

/-- With an engine whose shuffles do not change its state, a search does not change it. -/
theorem loop_still {σ : Type} {g : RngOps σ} (hst : ∀ s n, (g.shuffle s n).2 = s) {i : InputData} {cs : List CriticalSet} {scr suf : List Nat}
    {late : Nat → Bool} : ∀ (fuel k : Nat) (m : Machine σ) (o : Outcome) (r : σ), loop g i cs scr suf late fuel k m = .ok (o, r) → r = m.rng := by
  have hf : ∀ (rs : σ) (st : SearchState) (c : Nat) x, feasibleSlots g rs i st c = .ok x → x.2 = rs := by
    intro rs st c x h
    unfold feasibleSlots riffleShuffle at h
    simp only [R.bind_eq_ok] at h
    obtain ⟨_, _, _, _, _, _, _, _, h⟩ := h
    cases h
    exact hst _ _
  have hc : ∀ (avail c : Nat) (st : SearchState) (rs : σ) x, candidates g i cs avail c st rs = .ok x → x.2 = rs := by
    intro avail c st rs x h
    unfold candidates at h
    rw [R.bind_eq_ok] at h
    obtain ⟨imp, _, h⟩ := h
    split at h
    · cases h; rfl
    · rw [R.bind_eq_ok] at h
      obtain ⟨okc, _, h⟩ := h
      split at h
      · cases h; rfl
      · rw [R.bind_eq_ok] at h
        obtain ⟨crit, _, h⟩ := h
        split at h
        · exact hf _ _ _ _ h
        · rw [R.bind_eq_ok] at h
          obtain ⟨ok, _, h⟩ := h
          cases h; rfl
        · cases h; rfl
  have hp : ∀ (c : Nat) (m m' : Machine σ), pushStep g i cs suf c m = .ok m' → m'.rng = m.rng := by
    intro c m m' h
    unfold pushStep at h
    split at h
    · simp only [R.bind_eq_ok] at h
      obtain ⟨a, _, x, hx, h⟩ := h
      cases h
      exact hc _ _ _ _ _ hx
    · cases h; rfl
  intro fuel
  induction fuel with
  | zero => intro k m o r h; cases h
  | succ fuel ih =>
    intro k m o r h
    unfold loop at h
    split at h
    · split at h
      · cases h; rfl
      · rw [R.bind_eq_ok] at h
        obtain ⟨x, hx, h⟩ := h
        unfold iter at hx
        simp only [R.bind_eq_ok] at hx
        obtain ⟨c, _, m1, hm1, b, _, hx⟩ := hx
        have e1 := hp _ _ _ hm1
        split at hx
        · split at hx
          · cases hx; cases h; exact e1
          · simp only [R.bind_eq_ok] at hx
            obtain ⟨_, _, _, _, hx⟩ := hx
            cases hx
            rw [ih _ _ _ _ h]; exact e1
        · simp only [R.bind_eq_ok] at hx
          obtain ⟨_, _, hx⟩ := hx
          cases hx
          rw [ih _ _ _ _ h]; exact e1
    · rw [R.bind_eq_ok] at h
      obtain ⟨_, _, h⟩ := h
      cases h; rfl

theorem solve_still {σ : Type} {g : RngOps σ} (hst : ∀ s n, (g.shuffle s n).2 = s) {i : InputData} {cs : List CriticalSet}
    {late : Nat → Bool} {rs : σ} {o : Outcome} {r : σ} (h : solve g i cs late rs = .ok (o, r)) : r = rs := by
  unfold solve at h
  simp only [R.bind_eq_ok] at h
  obtain ⟨suf, _, h⟩ := h
  rw [loop_still hst _ _ _ _ _ h]
  exact hst _ _

end Wassign
