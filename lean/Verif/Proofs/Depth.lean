import Verif.Model.Depth
import Verif.Spec.Depth
import Verif.Proofs.Order
import Verif.Props.Order
import Verif.Proofs.Rounding
import Verif.Props.Search
/-
The search depth that is shown: proofs.
-/
namespace Wassign
open Spec
namespace Search
variable {σ : Type}

/-! ### The logs are logs of the searches of the model -/

theorem loopLog_eq (g : RngOps σ) (i : InputData) (cs : List CriticalSet) (scr suf : List Nat) (late : Nat → Bool) :
    ∀ (fuel k : Nat) (m : Machine σ), (loopLog g i cs scr suf late fuel k m).2 = loop g i cs scr suf late fuel k m := by
  intro fuel
  induction fuel with
  | zero => intro k m; rfl
  | succ fuel ih =>
    intro k m
    unfold loopLog loop
    split
    · split
      · rfl
      · cases h : iter g i cs scr suf m with
        | error e => rfl
        | ok x =>
          cases x with
          | exhausted r => rfl
          | next m' => exact ih (k + 1) m'
    · rfl

theorem solveLog_eq (g : RngOps σ) (i : InputData) (cs : List CriticalSet) (late : Nat → Bool) (rs : σ) :
    (solveLog g i cs late rs).2 = solve g i cs late rs := by
  unfold solveLog solve
  simp only
  cases h : maxSuffix i (choiceScramble g rs i).1 with
  | error e => rfl
  | ok suf => exact loopLog_eq ..

theorem limitLog_eq (g : RngOps σ) (i : InputData) (sets : Nat → List CriticalSet) (late : Nat → Nat → Bool) :
    ∀ (fuel limit : Nat) (rs : σ), (limitLog g i sets late fuel limit rs).2 = limitLoop g i sets late fuel limit rs := by
  intro fuel
  induction fuel with
  | zero => intro limit rs; rfl
  | succ fuel ih =>
    intro limit rs
    unfold limitLog limitLoop
    rw [← solveLog_eq]
    generalize solveLog g i (sets limit) (late limit) rs = one
    obtain ⟨log, res⟩ := one
    cases res with
    | error e => rfl
    | ok o =>
      simp only
      show _ = (if o.1.slots.isEmpty = false then _ else _)
      split
      · rfl
      · show _ = (if limit = i.maxPref then _ else _)
        split
        · rfl
        · exact ih _ _

theorem nextLog_eq (g : RngOps σ) (i : InputData) (bound : Nat) (sets : Nat → List CriticalSet) (late : Nat → Nat → Bool) (rs : σ) :
    (nextLog g i bound sets late rs).2 = nextScheduling g i bound sets late rs := by
  unfold nextLog nextScheduling
  cases h : nextInRange g rs 0 prefRelaxation with
  | error e => rfl
  | ok r =>
    simp only
    show _ = (limitLoop g i sets late (i.prefLevels.length + 2) (if r.1 = 0 then i.maxPref else bound) r.2 >>= _)
    rw [← limitLog_eq]
    cases h2 : (limitLog g i sets late (i.prefLevels.length + 2) (if r.1 = 0 then i.maxPref else bound) r.2).2 with
    | error e => rfl
    | ok x =>
      obtain ⟨x, r'⟩ := x
      cases x with
      | none => rfl
      | some slots =>
        simp only
        show _ = (toScheduling i slots >>= _)
        cases h3 : toScheduling i slots with
        | error e => rfl
        | ok d => rfl

/-! ### What is published -/

theorem decided_count {i : InputData} {scr : List Nat} (hp : scr.Perm (List.range i.nc)) {m : Machine σ} (hm : MInv i scr m) :
    numberDecided m.st.decisions = m.depth ∧ m.depth ≤ i.nc := by
  have hlen : m.st.decisions.length = i.nc := hm.st.len
  have hd : m.depth ≤ scr.length := hm.bt.depth
  have hsl : scr.length = i.nc := by rw [hp.length_eq, List.length_range]
  refine ⟨?_, by omega⟩
  have hund := hm.ord.und
  unfold numberDecided
  have e1 : m.st.decisions.countP (fun d => decide (d ≠ .undecided)) =
      (List.range i.nc).countP (fun c => decide (c ∈ scr.take m.depth)) := by
    have : m.st.decisions = (List.range i.nc).map (fun c => m.st.decisions.getD c .undecided) := by
      apply List.ext_getElem?
      intro c
      rw [List.getElem?_map]
      by_cases hc : c < i.nc
      · rw [List.getElem?_range hc, List.getElem?_eq_getElem (by omega)]
        simp [List.getD_eq_getElem?_getD, List.getElem?_eq_getElem (show c < m.st.decisions.length by omega)]
      · rw [List.getElem?_eq_none (by omega), List.getElem?_eq_none (by simpa using Nat.le_of_not_lt hc)]; rfl
    rw [this, List.countP_map]
    apply List.countP_congr
    intro c hc
    have hc := List.mem_range.1 hc
    have h := hund c hc
    unfold Und at h
    have e : m.st.decisions[c]? = some m.st.decisions[c] := List.getElem?_eq_getElem (by omega)
    rw [e] at h
    simp only [Function.comp_apply, List.getD_eq_getElem?_getD, decide_eq_true_eq, e, Option.getD_some]
    simp only [Option.some.injEq] at h
    constructor
    · intro hne
      apply Classical.byContradiction
      intro hn
      exact hne (h.2 hn)
    · intro hin he
      exact h.1 he hin
  rw [e1]
  have e2 : (List.range i.nc).countP (fun c => decide (c ∈ scr.take m.depth)) = scr.countP (fun c => decide (c ∈ scr.take m.depth)) :=
    (hp.countP_eq _).symm
  rw [e2]
  conv => lhs; rw [← List.take_append_drop m.depth scr]
  rw [List.countP_append]
  have hn : scr.Nodup := hm.ord.nodup
  have h1 : (scr.take m.depth).countP (fun c => decide (c ∈ List.take m.depth (List.take m.depth scr ++ List.drop m.depth scr))) = (scr.take m.depth).length := by
    rw [List.countP_eq_length]
    intro a ha
    rw [List.take_append_drop]
    simpa using ha
  have h2 : (scr.drop m.depth).countP (fun c => decide (c ∈ List.take m.depth (List.take m.depth scr ++ List.drop m.depth scr))) = 0 := by
    rw [List.countP_eq_zero]
    intro a ha
    rw [List.take_append_drop]
    have hdis : List.Disjoint (scr.take m.depth) (scr.drop m.depth) := by
      have := hn
      rw [← List.take_append_drop m.depth scr, List.nodup_append'] at this
      exact this.2.2
    simp only [decide_eq_true_eq]
    intro hin
    exact hdis hin ha
  rw [h1, h2, List.length_take]
  omega

/-- Successive entries are equal or one apart. -/
def Steps (l : List Nat) : Prop := ∀ k a b, l[k]? = some a → l[k + 1]? = some b → b ≤ a + 1 ∧ a ≤ b + 1

theorem Steps.cons {a : Nat} {l : List Nat} (h : Steps l) (ha : ∀ b, l.head? = some b → b ≤ a + 1 ∧ a ≤ b + 1) : Steps (a :: l) := by
  intro k x y hx hy
  cases k with
  | zero =>
    simp only [List.getElem?_cons_zero, Option.some.injEq] at hx
    simp only [Nat.zero_add, List.getElem?_cons_succ] at hy
    subst hx
    exact ha y (by rw [List.head?_eq_getElem?]; exact hy)
  | succ k => exact h k x y (by simpa using hx) (by simpa using hy)

section
variable {g : RngOps σ} (hg : g.Lawful) {i : InputData} (hw : WF i) (hz : Sizes i) (hr : SearchReady i)
  {cs : List CriticalSet} (hcs : ∀ set ∈ cs, ∀ e ∈ set.data, e < i.nc) {scr suf : List Nat} (hsuf : SufOk i scr suf)
include hg hw hz hr hcs hsuf

theorem loopLog_spec (hp : scr.Perm (List.range i.nc)) {late : Nat → Bool} : ∀ (fuel k : Nat) (m : Machine σ), MInv i scr m →
    (∀ e ∈ (loopLog g i cs scr suf late fuel k m).1, e.1 = numberDecided e.2 ∧ e.1 ≤ i.nc) ∧
    (∀ b, ((loopLog g i cs scr suf late fuel k m).1.map (·.1)).head? = some b → b = m.depth) ∧
    Steps ((loopLog g i cs scr suf late fuel k m).1.map (·.1)) ∧
    (m.depth < scr.length → 0 < fuel → (loopLog g i cs scr suf late fuel k m).1 ≠ []) := by
  intro fuel
  induction fuel with
  | zero => intro k m hm; simp [loopLog, Steps]
  | succ fuel ih =>
    intro k m hm
    have hcount := decided_count hp hm
    have single : ∀ e ∈ [(m.depth, m.st.decisions)], e.1 = numberDecided e.2 ∧ e.1 ≤ i.nc := by
      intro e he
      rcases List.mem_singleton.1 he with rfl
      exact ⟨hcount.1.symm, hcount.2⟩
    have steps1 : Steps ([(m.depth, m.st.decisions)].map (·.1)) := by
      intro k a b _ hb; simp at hb
    unfold loopLog
    split
    · rename_i hd
      split
      · exact ⟨single, by simp [eq_comm], steps1, by simp⟩
      · cases h : iter g i cs scr suf m with
        | error e => exact ⟨single, by simp [eq_comm], steps1, by simp⟩
        | ok x =>
          cases x with
          | exhausted r => exact ⟨single, by simp [eq_comm], steps1, by simp⟩
          | next m' =>
            have hm' := iter_next_minv hg hw hz hr hcs hsuf hm hd h
            obtain ⟨i1, i2, i3, -⟩ := ih (k + 1) m' hm'
            have hc' := decided_count hp hm'
            have hstep : m'.depth = m.depth + 1 ∨ m'.depth + 1 = m.depth := by
              obtain ⟨bt, bucket, _, _, _, _, _, hc⟩ := iter_cases hg hw hz hr hcs hsuf hm hd h
              rcases hc with ⟨_, hc⟩ | ⟨_, _, _, hc⟩
              · exact .inr hc.depth
              · exact .inl hc.depth
            refine ⟨?_, by simp [eq_comm], ?_, by simp⟩
            · intro e he
              simp only [List.mem_cons] at he
              rcases he with rfl | rfl | he
              · exact ⟨hcount.1.symm, hcount.2⟩
              · exact ⟨hc'.1.symm, hc'.2⟩
              · exact i1 e he
            · simp only [List.map_cons]
              refine Steps.cons (Steps.cons i3 ?_) ?_
              · intro b hb
                have := i2 b hb
                omega
              · intro b hb
                simp at hb
                omega
    · rename_i hd
      exact ⟨by simp, by simp, by intro k a b ha; simp at ha, fun h => absurd h hd⟩

end

theorem solveLog_spec {g : RngOps σ} (hg : g.Lawful) {i : InputData} (hw : WF i) (hz : Sizes i) (hr : SearchReady i)
    {cs : List CriticalSet} (hcs : ∀ set ∈ cs, ∀ e ∈ set.data, e < i.nc) (late : Nat → Bool) (rs : σ) :
    (∀ e ∈ (solveLog g i cs late rs).1, e.1 = numberDecided e.2 ∧ e.1 ≤ i.nc) ∧ Walk ((solveLog g i cs late rs).1.map (·.1)) ∧
    (0 < i.nc → (solveLog g i cs late rs).1 ≠ []) := by
  have hp := choiceScramble_perm hg rs i
  have hsum : ∃ suf, maxSuffix i (choiceScramble g rs i).1 = .ok suf := by
    obtain ⟨o, r, h, _⟩ := solve_total hg hw hz hr hcs late rs
    unfold solve at h
    simp only at h
    rw [R.bind_eq_ok] at h
    obtain ⟨suf, h, _⟩ := h
    exact ⟨suf, h⟩
  obtain ⟨suf, hs⟩ := hsum
  unfold solveLog
  simp only [hs]
  obtain ⟨h1, h2, h3, h4⟩ := loopLog_spec hg hw hz hr hcs (sufOk_of hz hg hs) hp (late := late) (pend i.ns i.nc + 1) 0 (start i (choiceScramble g rs i).2)
    (minv_start hp _)
  refine ⟨h1, ⟨?_, h3⟩, fun hnc => h4 ?_ (by omega)⟩
  · cases h : ((loopLog g i cs (choiceScramble g rs i).1 suf late (pend i.ns i.nc + 1) 0 (start i (choiceScramble g rs i).2)).1.map (·.1)).head? with
    | none => left; exact List.head?_eq_none_iff.1 h
    | some b => right; have := h2 b h; rw [this] at h; exact h
  · show 0 < _
    rw [hp.length_eq, List.length_range]; exact hnc

theorem limitLog_spec {g : RngOps σ} (hg : g.Lawful) {i : InputData} (hw : WF i) (hz : Sizes i) (hr : SearchReady i)
    {sets : Nat → List CriticalSet} (hcs : ∀ l, ∀ set ∈ sets l, ∀ e ∈ set.data, e < i.nc) {late : Nat → Nat → Bool} :
    ∀ (fuel limit : Nat) (rs : σ), ∀ log ∈ (limitLog g i sets late fuel limit rs).1,
      (∀ e ∈ log, e.1 = numberDecided e.2 ∧ e.1 ≤ i.nc) ∧ Walk (log.map (·.1)) ∧ (0 < i.nc → log ≠ []) := by
  intro fuel
  induction fuel with
  | zero => intro limit rs log h; simp [limitLog] at h
  | succ fuel ih =>
    intro limit rs log h
    have h1 := solveLog_spec hg hw hz hr (hcs limit) (late limit) rs
    unfold limitLog at h
    simp only at h
    split at h
    · rcases List.mem_singleton.1 h with rfl; exact h1
    · split at h
      · rcases List.mem_singleton.1 h with rfl; exact h1
      · split at h
        · rcases List.mem_singleton.1 h with rfl; exact h1
        · rcases List.mem_cons.1 h with rfl | h
          · exact h1
          · exact ih _ _ _ h

end Search
end Wassign
