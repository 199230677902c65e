import Verif.Proofs.Rng
import Mathlib.Data.List.Nodup
/-
C42, C43, C44: shuffling, random indices, derived seeds.
-/
namespace Wassign

/-- A concrete engine used to show that the hypotheses below can be met: it counts, and its shuffles
reverse. -/
def Ex.rng : RngOps Nat where
  sample s := (((s * 7 % 1000 : Nat) : Int) - 500, s + 1)
  shuffle s n := ((List.range n).reverse, s + 1)

theorem Ex.rng_lawful : Ex.rng.Lawful where
  sample_range s := by
    show -2147483648 ≤ (((s * 7 % 1000 : Nat) : Int) - 500) ∧
      (((s * 7 % 1000 : Nat) : Int) - 500) ≤ 2147483647
    omega
  shuffle_perm s n := List.reverse_perm _

/-- C42: for every lawful engine, state and pair of lists, `riffle_shuffle` returns (no panic) an
interleaving of the two lists. -/
theorem C42_riffle_interleaves {α σ : Type} {g : RngOps σ} (hg : g.Lawful) (s : σ) (l r : List α) :
    ∃ out s', riffleShuffle g s l r = .ok (out, s') ∧ Interleaving l r out :=
  riffleShuffle_spec hg s l r

/-- C42: hence a permutation of both inputs that keeps the relative order of each. -/
theorem C42_riffle_keeps_order {α σ : Type} {g : RngOps σ} (hg : g.Lawful) (s s' : σ)
    (l r out : List α) (h : riffleShuffle g s l r = .ok (out, s')) :
    out.Perm (l ++ r) ∧ l.Sublist out ∧ r.Sublist out := by
  obtain ⟨o, s2, ho, hi⟩ := riffleShuffle_spec hg s l r
  rw [ho] at h
  cases h
  exact ⟨hi.perm, hi.sublist_left, hi.sublist_right⟩

example : riffleShuffle Ex.rng 0 [1, 2, 3] [10, 20] = .ok ([10, 20, 1, 2, 3], 1) := by decide +kernel

/-- C42: shuffling itself only permutes. -/
theorem C42_shuffle_perm {α σ : Type} {g : RngOps σ} (hg : g.Lawful) (s : σ) (l : List α) :
    (shuffleList g s l).1.Perm l :=
  shuffleList_perm hg s l

/-- C43: `next_in_range(lo, hi)` returns a value in `lo..hi` whenever `lo < hi` are `i32` values whose
difference is an `i32`. -/
theorem C43_next_in_range {σ : Type} {g : RngOps σ} (hg : g.Lawful) (s : σ) (lo hi : Int)
    (hlo : -2147483648 ≤ lo) (hhi : hi ≤ 2147483647) (hlt : lo < hi) (hd : hi - lo ≤ 2147483647) :
    ∃ v s', nextInRange g s lo hi = .ok (v, s') ∧ lo ≤ v ∧ v < hi := by
  obtain ⟨v, h, h1, h2⟩ := nextInRange_spec hg s lo hi hlo hhi hlt hd
  exact ⟨v, _, h, h1, h2⟩

example : nextInRange Ex.rng 3 (-5) 10 = .ok (-4, 4) := by decide +kernel

/-- C43: every value in the range can occur (for a suitable sample). -/
theorem C43_all_values_possible (lo hi v : Int)
    (hlo : -2147483648 ≤ lo) (hhi : hi ≤ 2147483647) (h1 : lo ≤ v) (h2 : v < hi)
    (hd : hi - lo ≤ 2147483647) :
    ∃ x : Int, -2147483648 ≤ x ∧ x ≤ 2147483647 ∧
      nextInRange (σ := Unit) ⟨fun _ => (x, ()), fun _ n => (List.range n, ())⟩ () lo hi
        = .ok (v, ()) := by
  refine ⟨v - lo, by omega, by omega, ?_⟩
  unfold nextInRange
  rw [chkI32_eq_ok.2 ⟨⟨by omega, by omega⟩, rfl⟩]
  simp only [R.bind_ok]
  have he : (v - lo) % (hi - lo) = v - lo := Int.emod_eq_of_lt (by omega) (by omega)
  rw [if_neg (by omega), if_neg (by omega), he, chkI32_eq_ok.2 ⟨⟨by omega, by omega⟩, rfl⟩]
  simp; omega

/-- C44: for a fixed global seed the derived seed is injective in the stream number. -/
theorem C44_derived_seeds_distinct (seed a b : BitVec 64) (h : a ≠ b) :
    mixSeed seed a ≠ mixSeed seed b :=
  fun he => h (mixSeed_inj seed a b he)

/-- C44: the seeds handed to the workers (threaded_solver.rs:98-100) are pairwise distinct. -/
theorem C44_worker_seeds_nodup (seed : BitVec 64) (threads : Nat) (h : threads ≤ 2 ^ 64) :
    ((List.range threads).map (fun tid => mixSeed seed (BitVec.ofNat 64 tid))).Nodup := by
  refine List.Nodup.map_on ?_ List.nodup_range
  intro a ha b hb hab
  simp only [List.mem_range] at ha hb
  have := mixSeed_inj seed _ _ hab
  have := congrArg BitVec.toNat this
  rw [BitVec.toNat_ofNat, BitVec.toNat_ofNat, Nat.mod_eq_of_lt (by omega),
    Nat.mod_eq_of_lt (by omega)] at this
  exact this

example : mixSeed 0 0 ≠ mixSeed 0 1 := C44_derived_seeds_distinct 0 0 1 (by decide)

end Wassign
