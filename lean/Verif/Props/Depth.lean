import Verif.Proofs.Depth
import Verif.Proofs.Display
import Verif.Props.Threaded
import Verif.Props.Total
import Verif.Props.Levels
import Verif.Spec.Display
/-
C80: the search depth and the message that the user is shown.
-/
namespace Wassign
open Spec Search Threaded Status
variable {σ : Type}

/-! ### What the scheduling search publishes -/

/-- **C80**: every depth published during a call for the next scheduling is the number of choices decided on at that moment, hence at
most the number of choices; in each search it begins at 0 and changes by at most one at a time; and a call that supplies a
scheduling ends with publishing the number of choices. (`nextLog` is the call with a log of what it publishes.) -/
theorem C80_depth_published (g : RngOps σ) (hg : g.Lawful) (i : InputData) (hw : WF i) (hz : Sizes i) (hr : SearchReady i)
    (bound : Nat) (sets : Nat → List CriticalSet) (hcs : ∀ l, ∀ set ∈ sets l, ∀ e ∈ set.data, e < i.nc) (late : Nat → Nat → Bool) (rs : σ) :
    let log := (nextLog g i bound sets late rs).1
    (nextLog g i bound sets late rs).2 = nextScheduling g i bound sets late rs ∧
    (∀ search ∈ log.searches, Walk (search.map (·.1)) ∧ (0 < i.nc → search ≠ []) ∧
      ∀ depth decisions, (depth, decisions) ∈ search → depth = numberDecided decisions ∧ depth ≤ i.nc) ∧
    (∀ depth ∈ log.published, depth ≤ i.nc) ∧
    (∀ s r, nextScheduling g i bound sets late rs = .ok (some s, r) → log.published.getLast? = some i.nc) := by
  intro log
  have hspec : ∀ search ∈ log.searches, (∀ e ∈ search, e.1 = numberDecided e.2 ∧ e.1 ≤ i.nc) ∧ Walk (search.map (·.1)) ∧ (0 < i.nc → search ≠ []) := by
    intro search hs
    show (∀ e ∈ search, _) ∧ _
    unfold log nextLog at hs
    split at hs
    · simp at hs
    · rename_i r _
      have key := limitLog_spec hg hw hz hr hcs (late := late) (i.prefLevels.length + 2) (if r.1 = 0 then i.maxPref else bound) r.2
      simp only at hs
      split at hs
      · exact key _ hs
      · exact key _ hs
      · split at hs
        · exact key _ hs
        · exact key _ hs
  have hlast : ∀ n, log.last = some n → n = i.nc := by
    intro n h
    unfold log nextLog at h
    split at h
    · simp at h
    · simp only at h
      split at h
      · simp at h
      · simp at h
      · split at h
        · simp at h
        · simpa using h.symm
  refine ⟨nextLog_eq .., ?_, ?_, ?_⟩
  · intro search hs
    obtain ⟨h1, h2, h3⟩ := hspec search hs
    exact ⟨h2, h3, fun depth decisions h => h1 _ h⟩
  · intro depth h
    unfold NextLog.published at h
    rw [List.mem_append] at h
    rcases h with h | h
    · obtain ⟨e, he, rfl⟩ := List.mem_map.1 h
      obtain ⟨search, hs, he⟩ := List.mem_flatten.1 he
      exact ((hspec search hs).1 e he).2
    · rw [Option.mem_toList] at h
      rw [hlast depth h]
  · intro s r h
    rw [← nextLog_eq] at h
    have : log.last = some i.nc := by
      unfold log
      unfold nextLog at h ⊢
      split at h
      · cases h
      · rename_i r0 hr0
        simp only at h ⊢
        split at h
        · cases h
        · cases h
        · rename_i slots r1 hr1
          split at h
          · cases h
          · rename_i d hd
            simp only
    unfold NextLog.published
    rw [this]
    simp

/-! ### What is shown of it -/

namespace Threaded

theorem ofU32_zero : F32.ofU32 0 = 0#32 := by unfold F32.ofU32; rw [if_pos rfl]

theorem ofU16_small {n : Nat} (h : n < 65536) : ofU16 n = F32.ofU32 n := by unfold ofU16; rw [if_pos h]

theorem ofU16_zero : ofU16 0 = 0#32 := by rw [ofU16_small (by omega), ofU32_zero]

theorem fresh_depths (n : Nat) : freshDepths n = (List.range n).map (fun w => ofU16 (latest [] w)) := by
  have h : ∀ w, ofU16 (latest [] w) = 0#32 := fun w => ofU16_zero
  simp only [h]
  rw [List.map_const', List.length_range]
  rfl

theorem delivered_depths (n : Nat) (reports : List (Nat × Nat)) :
    reports.foldl deliverDepth (freshDepths n) = (List.range n).map (fun w => ofU16 (latest reports w)) := by
  induction reports using List.reverseRecOn with
  | nil => exact fresh_depths n
  | append_singleton l e ih =>
    rw [List.foldl_append, ih, List.foldl_cons, List.foldl_nil]
    unfold deliverDepth
    rw [List.length_map, List.length_range]
    have hother : ∀ w, w ≠ e.1 → latest (l ++ [e]) w = latest l w := by
      intro w hw
      unfold latest
      rw [List.filter_append, List.filter_cons_of_neg (by simpa using fun h => hw h.symm)]
      simp
    have hself : latest (l ++ [e]) e.1 = e.2 := by
      unfold latest
      rw [List.filter_append, List.filter_cons_of_pos (by simp)]
      simp
    apply List.ext_getElem?
    intro k
    split
    · rename_i he
      by_cases hk : k = e.1
      · subst hk
        rw [List.getElem?_set_self (by simpa using he), List.getElem?_map, List.getElem?_range he, Option.map_some, hself]
      · rw [List.getElem?_set_ne (Ne.symm hk), List.getElem?_map, List.getElem?_map]
        by_cases hkn : k < n
        · rw [List.getElem?_range hkn, Option.map_some, Option.map_some, hother k hk]
        · rw [List.getElem?_eq_none (by simpa using Nat.le_of_not_lt hkn), Option.map_none, Option.map_none]
    · rename_i he
      rw [List.getElem?_map, List.getElem?_map]
      by_cases hkn : k < n
      · rw [List.getElem?_range hkn, Option.map_some, Option.map_some, hother k (by omega)]
      · rw [List.getElem?_eq_none (by simpa using Nat.le_of_not_lt hkn), Option.map_none, Option.map_none]

theorem mag_small {n : Nat} (h : n < 2 ^ 24) : (F32.ofU32 n).mag = n * 2 ^ 149 := by
  obtain ⟨k, h1, h2⟩ := ofU32_integral (n := n) (by unfold u32Max; omega)
  rw [h1, h2 h]

theorem plain_small {n : Nat} (h : n < 2 ^ 24) : (F32.ofU32 n).Plain := F32.ofU32_plain (by unfold u32Max; omega)

theorem add_small_int {a b : Nat} (h : a + b < 2 ^ 24) : F32.add (F32.ofU32 a) (F32.ofU32 b) = F32.ofU32 (a + b) := by
  apply BitVec.eq_of_toNat_eq
  rw [F32.add_plain (plain_small (by omega)) (plain_small (by omega)), mag_small (by omega), mag_small (by omega),
    F32.ofU32_eq_round (by unfold u32Max; omega), Nat.add_mul]

theorem sum_depths : ∀ (l : List Nat) (a : Nat), a + l.sum < 2 ^ 24 →
    (l.map F32.ofU32).foldl F32.add (F32.ofU32 a) = F32.ofU32 (a + l.sum) := by
  intro l
  induction l with
  | nil => intro a _; rfl
  | cons x l ih =>
    intro a h
    rw [List.sum_cons] at h ⊢
    rw [List.map_cons, List.foldl_cons, add_small_int (by omega), ih (a + x) (by omega)]
    congr 1; omega

theorem latest_le {reports : List (Nat × Nat)} {m : Nat} (h : ∀ e ∈ reports, e.2 ≤ m) (w : Nat) : latest reports w ≤ m := by
  unfold latest
  cases he : (reports.filter (fun e => decide (e.1 = w))).getLast? with
  | none => simp
  | some e => exact h e (List.mem_of_mem_filter (List.mem_of_getLast? he))

theorem sum_le_mul {l : List Nat} {m : Nat} (h : ∀ x ∈ l, x ≤ m) : l.sum ≤ l.length * m := by
  induction l with
  | nil => simp
  | cons x l ih =>
    rw [List.sum_cons, List.length_cons, Nat.succ_mul]
    have := ih (fun y hy => h y (by simp [hy]))
    have := h x (by simp)
    omega

end Threaded

/-- **C80**: the depth shown, after any reports of depths (each at most the number of choices, as `C80_depth_published` says), is written
with one decimal: `m / 10`. It is at most the greatest depth, written after it, which is the number of choices; it is within 0.06 of the
mean of what the workers have reported last; and it is exact if this mean is an integral number. -/
theorem C80_depth_shown (tie : Nat → Bool) (i : InputData) (hnc : i.nc < 65536) (n : Nat) (hn : 0 < n) (hn2 : n < 65536) (hsmall : n * i.nc < 2 ^ 24)
    (reports : List (Nat × Nat)) (hrep : ∀ e ∈ reports, e.2 ≤ i.nc) :
    let sum := ((List.range n).map (latest reports)).sum
    ∃ m, Decimal 1 (strFloat tie 1 (shownDepth (reports.foldl deliverDepth (freshDepths n)))) m ∧
      Decimal 1 (strFloat tie 1 (shownMax i)) (10 * i.nc) ∧ m ≤ 10 * i.nc ∧
      10 * (m * n) ≤ 100 * sum + 6 * n ∧ 100 * sum ≤ 10 * (m * n) + 6 * n ∧
      (∀ d, sum = n * d → m = 10 * d) := by
  intro sum
  have hle : ∀ w, latest reports w ≤ i.nc := latest_le hrep
  have hsum : sum ≤ n * i.nc := by
    have := sum_le_mul (l := (List.range n).map (latest reports)) (m := i.nc) (by
      intro x hx; obtain ⟨w, _, rfl⟩ := List.mem_map.1 hx; exact hle w)
    simpa using this
  have e1 : shownDepth (reports.foldl deliverDepth (freshDepths n)) = F32.div (F32.ofU32 sum) (F32.ofU32 n) := by
    rw [delivered_depths]
    unfold shownDepth
    rw [List.length_map, List.length_range, Nat.max_eq_left hn, ofU16_small hn2]
    congr 1
    have e : (List.range n).map (fun w => ofU16 (latest reports w)) = ((List.range n).map (latest reports)).map F32.ofU32 := by
      rw [List.map_map]
      apply List.map_congr_left
      intro w _
      exact ofU16_small (by have := hle w; omega)
    rw [e]
    have := sum_depths ((List.range n).map (latest reports)) 0 (by have : sum < 2 ^ 24 := by omega
                                                                   simpa using this)
    rw [ofU32_zero, Nat.zero_add] at this
    exact this
  have hn24 : n < 2 ^ 24 := by omega
  have ps := plain_small (n := sum) (by omega)
  have pn := plain_small (n := n) hn24
  have mn := mag_small (n := n) hn24
  have ms := mag_small (n := sum) (by omega)
  have hp : 0 < 2 ^ 149 := Nat.pow_pos (by omega)
  have hmn : 0 < n * 2 ^ 149 := Nat.mul_pos hn hp
  have e2 := F32.div_plain ps pn (by rw [mn]; omega)
  rw [mn, ms] at e2
  have mono : ∀ d, sum ≤ n * d → d < 2 ^ 24 → (F32.div (F32.ofU32 sum) (F32.ofU32 n)).toNat ≤ (F32.ofU32 d).toNat := by
    intro d hd hd2
    rw [e2, F32.ofU32_eq_round (by unfold u32Max; omega)]
    apply F32.roundBits_mono hmn (by omega)
    rw [Nat.mul_one]
    calc sum * 2 ^ 149 * 2 ^ 149 ≤ n * d * 2 ^ 149 * 2 ^ 149 := Nat.mul_le_mul_right _ (Nat.mul_le_mul_right _ hd)
      _ = d * 2 ^ 149 * (n * 2 ^ 149) := by ring
  have pq : (F32.div (F32.ofU32 sum) (F32.ofU32 n)).Plain := by
    have := mono i.nc hsum (by omega)
    exact Nat.lt_of_le_of_lt this (plain_small (n := i.nc) (by omega))
  have mq : (F32.div (F32.ofU32 sum) (F32.ofU32 n)).mag ≤ i.nc * 2 ^ 149 := by
    rw [← mag_small (n := i.nc) (by omega), pq.mag, (plain_small (n := i.nc) (by omega)).mag]
    exact F32.magBits_mono (mono i.nc hsum (by omega))
  have near : Near 1 ((F32.div (F32.ofU32 sum) (F32.ofU32 n)).mag * n) (sum * 2 ^ 149) := by
    by_cases h0 : sum = 0
    · have : (F32.div (F32.ofU32 sum) (F32.ofU32 n)).mag = 0 := by
        rw [pq.mag, e2, h0]
        simp only [Nat.zero_mul]
        have : F32.roundBits 0 (n * 2 ^ 149) = 0 := by
          unfold F32.roundBits F32.nearest
          simp
        rw [this]; rfl
      rw [this, h0]
      unfold Near
      simp
    · have hq : 2 ^ 23 ≤ sum * 2 ^ 149 * 2 ^ 149 / (n * 2 ^ 149) := by
        rw [Nat.mul_div_mul_right _ _ hp, Nat.le_div_iff_mul_le hn]
        calc 2 ^ 23 * n ≤ 2 ^ 23 * 2 ^ 24 := Nat.mul_le_mul_left _ (by omega)
          _ ≤ 1 * 2 ^ 149 := by decide +kernel
          _ ≤ sum * 2 ^ 149 := Nat.mul_le_mul_right _ (by omega)
      have hfin : F32.roundBits (sum * 2 ^ 149 * 2 ^ 149) (n * 2 ^ 149) < 0x7F800000 := by rw [← e2]; exact pq
      have h := F32.round_near hmn (.inl hq) hfin
      rw [← e2, ← pq.mag] at h
      unfold Near at h ⊢
      generalize (F32.div (F32.ofU32 sum) (F32.ofU32 n)).mag = q at h ⊢
      obtain ⟨h1, h2⟩ := h
      constructor
      · apply Nat.le_of_mul_le_mul_right _ hp
        calc (2 ^ 24 - 1) ^ 1 * (sum * 2 ^ 149) * 2 ^ 149 = (2 ^ 24 - 1) ^ 1 * (sum * 2 ^ 149 * 2 ^ 149) := by ring
          _ ≤ _ := h1
          _ = (2 ^ 24) ^ 1 * (q * n) * 2 ^ 149 := by ring
      · apply Nat.le_of_mul_le_mul_right _ hp
        calc (2 ^ 24) ^ 1 * (q * n) * 2 ^ 149 = (2 ^ 24) ^ 1 * (q * (n * 2 ^ 149)) := by ring
          _ ≤ _ := h2
          _ = (2 ^ 24 + 1) ^ 1 * (sum * 2 ^ 149) * 2 ^ 149 := by ring
  obtain ⟨t, t1, t2, t3⟩ := strFloat_shown tie 1 pq.fin
  rw [pq.pos] at t1
  have pm := plain_small (n := i.nc) (by omega)
  obtain ⟨u, u1, u2, u3⟩ := strFloat_shown tie 1 pm.fin
  rw [pm.pos] at u1
  have hm : shownNat tie 1 (F32.ofU32 i.nc) = 10 * i.nc := by
    unfold Rounded at u3
    rw [mag_small (n := i.nc) (by omega)] at u3
    generalize shownNat tie 1 (F32.ofU32 i.nc) = m at u3
    omega
  refine ⟨shownNat tie 1 (F32.div (F32.ofU32 sum) (F32.ofU32 n)), ?_, ?_, ?_, ?_⟩
  · rw [e1, t1]; exact t2
  · unfold shownMax
    rw [ofU16_small hnc, u1, ← hm]; exact u2
  · unfold Rounded at t3
    generalize shownNat tie 1 (F32.div (F32.ofU32 sum) (F32.ofU32 n)) = m at t3
    omega
  · have exact' : ∀ d, sum = n * d → shownNat tie 1 (F32.div (F32.ofU32 sum) (F32.ofU32 n)) = 10 * d := by
      intro d hd
      have hdl : d ≤ i.nc := by
        apply Nat.le_of_mul_le_mul_left _ hn
        omega
      have e3 : F32.div (F32.ofU32 sum) (F32.ofU32 n) = F32.ofU32 d := by
        apply BitVec.eq_of_toNat_eq
        rw [e2, F32.ofU32_eq_round (by unfold u32Max; omega)]
        apply Nat.le_antisymm
        · apply F32.roundBits_mono hmn (by omega)
          rw [hd]; apply Nat.le_of_eq; ring
        · apply F32.roundBits_mono (by omega) hmn
          rw [hd]; apply Nat.le_of_eq; ring
      rw [e3] at t3 ⊢
      unfold Rounded at t3
      rw [mag_small (n := d) (by omega)] at t3
      generalize shownNat tie 1 (F32.ofU32 d) = m at t3
      omega
    refine ⟨?_, ?_, exact'⟩
    all_goals
      unfold Rounded at t3
      unfold Near at near
      generalize shownNat tie 1 (F32.div (F32.ofU32 sum) (F32.ofU32 n)) = m at t3
      generalize (F32.div (F32.ofU32 sum) (F32.ofU32 n)).mag = q at t3 near
      obtain ⟨n1, n2⟩ := near
      obtain ⟨r1, r2⟩ := t3
      have r1' := Nat.mul_le_mul_right n r1
      have r2' := Nat.mul_le_mul_right n r2
      have hs2 : 20 * sum ≤ 20 * (n * i.nc) := by omega
      have hncn : n * i.nc ≤ n * 65536 := Nat.mul_le_mul_left _ (by omega)
      simp only [Nat.pow_one] at n1 n2 r1' r2'
      generalize hqn : q * n = qn at *
      generalize hmnn : m * n = mn' at *
      have a1 : 2 * (m * 2 ^ 149) * n = 2 * (mn' * 2 ^ 149) := by rw [← hmnn]; ring
      have a2 : (2 * (q * 10) + 2 ^ 149) * n = 20 * qn + n * 2 ^ 149 := by rw [← hqn]; ring
      have a3 : 2 * (q * 10) * n = 20 * qn := by rw [← hqn]; ring
      have a4 : (2 * (m * 2 ^ 149) + 2 ^ 149) * n = 2 * (mn' * 2 ^ 149) + n * 2 ^ 149 := by rw [← hmnn]; ring
      omega

/-- **C80**: so it is in the program: whatever a worker publishes in a call for the next scheduling is at most the number of choices. -/
theorem C80_program_depths {F : Type} (raw : Raw) (d : InputData) (hmax : ∀ p ∈ raw.choices, p.max ≤ 4294967295) (h : Build.build raw = .ok d)
    (hr : ManageableRaw raw) (hd : Manageable d) (o : Main.Outside F σ) (hrng : o.rng.Lawful) (opts : Opts F)
    (p : Main.Prepared) (hp : Main.prepare o d opts = .ok p) (late : Nat → Nat → Bool) (rs : σ) :
    ∀ depth ∈ (nextLog o.rng p.input p.analysis.preferenceBound p.analysis.forPreference late rs).1.published, depth ≤ p.input.nc := by
  obtain ⟨m, written, hb⟩ := build_spec hmax h
  obtain ⟨hz, hnc, hns⟩ := sizes_of_manageable hb hr hd
  obtain ⟨hlev, _⟩ := C26_levels_partial raw d hmax h
  have hready := ready_of_built hb hr.numbers hnc hns
  unfold Main.prepare at hp
  simp only at hp
  obtain ⟨A, hA, -, hA2⟩ := analysis_total hb.wf hz hlev (!opts.noCs && !opts.greedy && decide (1 < d.ns))
    ((!opts.noCs && !opts.greedy && decide (1 < d.ns)) && !opts.noCsSimp)
  rw [hA, R.bind_ok, R.bind_eq_ok] at hp
  obtain ⟨S, hS, hp⟩ := hp
  cases hp
  exact (C80_depth_published o.rng hrng d hb.wf hz hready _ _ hA2 late rs).2.2.1

/-- **C80** (limits): from 65536 choices on, the greatest depth is shown as infinite. -/
theorem C80_many_choices (tie : Nat → Bool) (i : InputData) (h : 65536 ≤ i.nc) : strFloat tie 1 (shownMax i) = "inf".toList := by
  have e : shownMax i = F32.infinity := by
    unfold shownMax ofU16
    rw [if_neg (by omega)]
  rw [e]
  rfl

/-! ### The message -/

/-- **C80**: the message beside the bar, after any number of polls, shows the best score announced so far, and "no solution yet" with the search depth
exactly as long as nothing with a finite score has been announced; the counters are the sums of what the workers have reported last,
and they are left out only if there is no score and all of them are 0. -/
theorem C80_message (n : Nat) (g : Bool) (past : List (List Event)) (batch : List Event)
    (hm : OneMode g (announced (past.flatten ++ batch))) (depth most : F32) :
    let tp := past.foldl (fun tp b => (poll tp b).2) (freshProgress n)
    let evs := past.flatten ++ batch
    let msg := messageOf (poll tp batch).1 depth most
    let seen := announced (evs.filter (fun e => decide (e.worker < n)))
    let sums := (((List.range n).map (lastReported (·.iterations) evs)).sum, ((List.range n).map (lastReported (·.assignments) evs)).sum,
      ((List.range n).map (lastReported (·.lp) evs)).sum)
    (msg.score = none ↔ ∀ x ∈ seen, x.2.isFinite = false) ∧
    (∀ sc, msg.score = some sc → sc.isFinite = true ∧ (∃ sol, (sol, sc) ∈ seen) ∧ ∀ x ∈ seen, sc.le x.2) ∧
    msg.depth = (if msg.score = none then some (depth, most) else none) ∧
    msg.counters = (if msg.score = none ∧ sums = (0, 0, 0) then none else some sums) := by
  intro tp evs msg seen sums
  obtain ⟨h1, h2, h3, h4⟩ := C22_report_is_best_so_far n g past batch hm
  have h1 : IsBest seen ((poll tp batch).1.bestSolution, (poll tp batch).1.bestScore) := h1
  have h2 : (poll tp batch).1.iterations = sums.1 := h2
  have h3 : (poll tp batch).1.assignments = sums.2.1 := h3
  have h4 : (poll tp batch).1.lp = sums.2.2 := h4
  have hinf : Score.infinite.isFinite = false := by decide +kernel
  show ((messageOf (poll tp batch).1 depth most).score = none ↔ _) ∧ (∀ sc, (messageOf (poll tp batch).1 depth most).score = some sc → _) ∧
    (messageOf (poll tp batch).1 depth most).depth = _ ∧ (messageOf (poll tp batch).1 depth most).counters = _
  have hmsg : msg = messageOf (poll tp batch).1 depth most := rfl
  unfold messageOf at hmsg ⊢
  rw [h2, h3, h4] at hmsg ⊢
  clear_value msg sums
  obtain ⟨s1, s2, s3⟩ := sums
  rcases h1 with ⟨e, hall⟩ | ⟨hin, hfin, hbest⟩
  · have e2 : (poll tp batch).1.bestScore = Score.infinite := congrArg Prod.snd e
    rw [e2, hinf] at hmsg ⊢
    simp only [Bool.false_eq_true, if_false] at hmsg ⊢
    by_cases hz : s3 = 0 ∧ s1 = 0 ∧ s2 = 0
    · obtain ⟨rfl, rfl, rfl⟩ := hz
      simp only [and_self, if_true] at hmsg ⊢
      subst hmsg
      refine ⟨⟨fun _ => hall, fun _ => trivial⟩, fun sc h => ?_, ?_, ?_⟩
      · cases h
      · simp
      · simp
    · rw [if_neg hz] at hmsg ⊢
      subst hmsg
      refine ⟨⟨fun _ => hall, fun _ => rfl⟩, fun sc h => ?_, ?_, ?_⟩
      · cases h
      · simp
      · rw [if_neg]
        rintro ⟨-, h⟩
        cases h
        exact hz ⟨rfl, rfl, rfl⟩
  · have hfin : (poll tp batch).1.bestScore.isFinite = true := hfin
    rw [hfin] at hmsg ⊢
    simp only [if_true] at hmsg ⊢
    subst hmsg
    refine ⟨⟨fun h => (by cases h), fun h => ?_⟩, fun sc h => ?_, ?_, ?_⟩
    · have := h _ hin
      simp only at this
      rw [hfin] at this
      cases this
    · cases h
      exact ⟨hfin, ⟨_, hin⟩, hbest⟩
    · rw [if_neg (by simp)]
    · rw [if_neg (by simp)]

/-! ### Examples -/

namespace DepthEx

/-- The search of `C79_last_choice_unchecked`: three choices, decided one after the other. -/
example : (nextLog Ex.idRng Ex.lastInp 0 (fun _ => [⟨0, [1, 2]⟩]) (fun _ _ => false) 1).1.published = [0, 1, 1, 2, 2, 3, 3] := by decide +kernel

/-- All hypotheses of `C80_depth_published` are met there. -/
example : ∀ depth ∈ (nextLog Ex.idRng Ex.lastInp 0 (fun _ => [⟨0, [1, 2]⟩]) (fun _ _ => false) 1).1.published, depth ≤ Ex.lastInp.nc :=
  (C80_depth_published Ex.idRng Ex.idRng_lawful Ex.lastInp (by decide) (by constructor <;> decide) Ex.lastInp_ready 0 _ (fun _ => by decide) _ 1).2.2.1

/-- Three workers, one of which has not reported anything, one of which has gone back. -/
example : strFloat (fun q => q % 2 == 1) 1 (shownDepth ([(0, 1), (2, 1), (0, 2), (2, 0), (7, 3), (2, 2)].foldl deliverDepth (freshDepths 3))) =
    "1.3".toList := by decide +kernel

example : Ex.lastInp.nc < 65536 ∧ 3 * Ex.lastInp.nc < 2 ^ 24 ∧ ∀ e ∈ [(0, 1), (2, 1), (0, 2), (2, 0), (7, 3), (2, 2)], e.2 ≤ Ex.lastInp.nc := by decide

end DepthEx
end Wassign
