import Verif.Model.Rng
import Verif.Spec.Merge
import Mathlib.Data.List.Basic
namespace Wassign

variable {α σ : Type}

theorem Interleaving.perm {l r out : List α} (h : Interleaving l r out) : out.Perm (l ++ r) := by
  induction h with
  | nil => exact List.Perm.refl _
  | left _ ih => exact ih.cons _
  | right _ ih => exact (ih.cons _).trans (List.perm_middle.symm)

theorem Interleaving.sublist_left {l r out : List α} (h : Interleaving l r out) : l.Sublist out := by
  induction h with
  | nil => exact List.Sublist.refl _
  | left _ ih => exact ih.cons_cons _
  | right _ ih => exact ih.cons _

theorem Interleaving.sublist_right {l r out : List α} (h : Interleaving l r out) : r.Sublist out := by
  induction h with
  | nil => exact List.Sublist.refl _
  | left _ ih => exact ih.cons _
  | right _ ih => exact ih.cons_cons _

theorem filterMap_getElem?_range (l : List α) :
    (List.range l.length).filterMap (fun k => l[k]?) = l := by
  induction l with
  | nil => rfl
  | cons x l ih =>
    rw [List.length_cons, List.range_succ_eq_map, List.filterMap_cons]
    simp only [List.getElem?_cons_zero, List.filterMap_map]
    congr 1

theorem shuffleList_perm {g : RngOps σ} (hg : g.Lawful) (s : σ) (l : List α) :
    (shuffleList g s l).1.Perm l := by
  unfold shuffleList
  have h := (hg.shuffle_perm s l.length).filterMap (fun k => l[k]?)
  rw [filterMap_getElem?_range] at h
  exact h

theorem riffleGo_spec : ∀ (ms : List Nat) (l r : List α),
    ms.countP (· = 0) = l.length → ms.countP (fun m => !decide (m = 0)) = r.length →
    ∃ out, riffleGo ms l r = .ok out ∧ Interleaving l r out := by
  intro ms
  induction ms with
  | nil =>
    intro l r hl hr
    simp at hl hr
    rw [List.eq_nil_of_length_eq_zero hl.symm, List.eq_nil_of_length_eq_zero hr.symm]
    exact ⟨[], rfl, .nil⟩
  | cons m ms ih =>
    intro l r hl hr
    by_cases hm : m = 0
    · subst hm
      cases l with
      | nil => simp at hl
      | cons x l =>
        simp at hl hr
        obtain ⟨out, ho, hi⟩ := ih l r (by simpa using hl) (by simpa using hr)
        refine ⟨x :: out, ?_, hi.left⟩
        simp [riffleGo, ho]
    · cases r with
      | nil => simp [hm] at hr
      | cons x r =>
        simp [hm] at hl hr
        obtain ⟨out, ho, hi⟩ := ih l r (by simpa using hl) (by simpa using hr)
        refine ⟨x :: out, ?_, hi.right⟩
        simp [riffleGo, hm, ho]

theorem riffleShuffle_spec {g : RngOps σ} (hg : g.Lawful) (s : σ) (l r : List α) :
    ∃ out s', riffleShuffle g s l r = .ok (out, s') ∧ Interleaving l r out := by
  have hp := shuffleList_perm hg s (List.replicate l.length 0 ++ List.replicate r.length 1)
  have h0 : (shuffleList g s (List.replicate l.length 0 ++ List.replicate r.length 1)).1.countP
      (· = 0) = l.length := by
    rw [hp.countP_eq]; simp [List.countP_append, List.countP_replicate]
  have h1 : (shuffleList g s (List.replicate l.length 0 ++ List.replicate r.length 1)).1.countP
      (fun m => !decide (m = 0)) = r.length := by
    rw [hp.countP_eq]; simp [List.countP_append, List.countP_replicate]
  obtain ⟨out, ho, hi⟩ := riffleGo_spec _ l r h0 h1
  refine ⟨out, (shuffleList g s (List.replicate l.length 0 ++ List.replicate r.length 1)).2, ?_, hi⟩
  unfold riffleShuffle
  simp only [ho]; rfl

theorem nextInRange_spec {g : RngOps σ} (hg : g.Lawful) (s : σ) (lo hi : Int)
    (hlo : -2147483648 ≤ lo) (hhi : hi ≤ 2147483647) (hlt : lo < hi) (hd : hi - lo ≤ 2147483647) :
    ∃ v, nextInRange g s lo hi = .ok (v, (g.sample s).2) ∧ lo ≤ v ∧ v < hi := by
  have h1 := Int.emod_nonneg (g.sample s).1 (by omega : hi - lo ≠ 0)
  have h2 := Int.emod_lt_of_pos (g.sample s).1 (by omega : 0 < hi - lo)
  refine ⟨lo + (g.sample s).1 % (hi - lo), ?_, by omega, by omega⟩
  unfold nextInRange
  rw [chkI32_eq_ok.2 ⟨⟨by omega, by omega⟩, rfl⟩]
  simp only [R.bind_ok]
  rw [if_neg (by omega), if_neg (by omega), chkI32_eq_ok.2 ⟨⟨by omega, by omega⟩, rfl⟩]
  rfl

theorem xorshift_inj (k : Nat) (hk : 0 < k) (x y : BitVec 64)
    (h : x ^^^ (x >>> k) = y ^^^ (y >>> k)) : x = y := by
  have key : ∀ n j : Nat, 64 - n ≤ j → x.getLsbD j = y.getLsbD j := by
    intro n
    induction n with
    | zero =>
      intro j hj
      rw [BitVec.getLsbD_of_ge x j (by omega), BitVec.getLsbD_of_ge y j (by omega)]
    | succ n ih =>
      intro j hj
      have hb := congrArg (fun v => v.getLsbD j) h
      simp only [BitVec.getLsbD_xor, BitVec.getLsbD_ushiftRight] at hb
      rw [ih (k + j) (by omega)] at hb
      exact Bool.xor_left_inj.mp hb
  apply BitVec.eq_of_getLsbD_eq
  intro j hj
  exact key 64 j (by omega)

theorem mulOdd_inj (c d x y : BitVec 64) (hcd : c * d = 1#64) (h : x * c = y * c) : x = y := by
  have := congrArg (· * d) h
  simpa [BitVec.mul_assoc, hcd] using this

theorem mixSeed_inj (seed a b : BitVec 64) (h : mixSeed seed a = mixSeed seed b) : a = b := by
  unfold mixSeed at h
  have h1 := xorshift_inj 31 (by omega) _ _ h
  have h2 := mulOdd_inj _ 0x319642b2d24d8ec3#64 _ _ (by decide) h1
  have h3 := xorshift_inj 27 (by omega) _ _ h2
  have h4 := mulOdd_inj _ 0x96de1b173f119089#64 _ _ (by decide) h3
  have h5 := xorshift_inj 30 (by omega) _ _ h4
  have h6 : a + 0x9E3779B97F4A7C15#64 = b + 0x9E3779B97F4A7C15#64 := by
    have := congrArg (seed ^^^ ·) h5
    simpa [← BitVec.xor_assoc] using this
  exact (BitVec.add_left_inj _).mp h6

end Wassign
