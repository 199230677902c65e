import Verif.Spec.Parts
import Verif.Proofs.FoldLemmas
/-
compile_choices in closed form.
-/
namespace Wassign
open Spec Build

/-- The internal choices of one registered choice, the first at index `o`. -/
def blockAt (o : Nat) (p : Proto) : List Choice :=
  (List.range (width p)).map (fun j => ⟨if j = 0 then p.name else partName j p.name, p.min, p.max,
    if j + 1 < width p then some (o + j + 1) else none, p.optional⟩)

def blocks : Nat → List Proto → List Choice
  | _, [] => []
  | o, p :: ps => blockAt o p ++ blocks (o + width p) ps

/-- Each preference repeated for the parts. -/
def expandAll : List Proto → List Nat → List Nat
  | [], prefs => prefs
  | _ :: _, [] => []
  | p :: ps, x :: xs => List.replicate (width p) x ++ expandAll ps xs

theorem width_pos (p : Proto) : 0 < width p := by unfold width; omega

theorem addPart_fold (p : Proto) (st : CState) : ∀ m, m ≤ p.parts - 1 →
    (List.range' 1 m).foldl (addPart p) st = { st with
      choices := st.choices ++ (List.range' 1 m).map (fun k => ⟨partName k p.name, p.min, p.max,
        if k ≠ p.parts - 1 then some (st.next + k) else none, p.optional⟩)
      next := st.next + m } := by
  intro m
  induction m with
  | zero => intro _; simp
  | succ m ih =>
    intro hm
    rw [List.range'_concat, List.foldl_append, ih (by omega)]
    simp only [List.foldl_cons, List.foldl_nil, addPart, List.map_append, List.map_cons, List.map_nil,
      List.append_assoc, Nat.one_mul, CState.mk.injEq]
    refine ⟨by omega, ?_, trivial⟩
    congr 4
    split
    · congr 1; omega
    · rfl

theorem expandPrefs_at (pre : List Nat) (x : Nat) (xs : List Nat) (m : Nat) :
    expandPrefs pre.length m (pre ++ x :: xs) = pre ++ (List.replicate m x ++ xs) := by
  unfold expandPrefs
  have key : ∀ (l : List Nat) (k i : Nat), (i < k ∨ k + l.length ≤ i) →
      (l.zipIdx k).flatMap (fun e => List.replicate (if e.2 = i then m else 1) e.1) = l := by
    intro l
    induction l with
    | nil => intros; rfl
    | cons y l ih =>
      intro k i h
      simp only [List.length_cons] at h
      simp only [List.zipIdx_cons, List.flatMap_cons]
      rw [ih (k + 1) i (by omega), if_neg (by omega)]
      rfl
  rw [List.zipIdx_append, List.flatMap_append, key pre 0 _ (by omega)]
  simp only [List.zipIdx_cons, List.flatMap_cons, Nat.zero_add, if_true]
  rw [key xs _ _ (by omega)]

theorem expandPrefs_one (i : Nat) (l : List Nat) : expandPrefs i 1 l = l := by
  unfold expandPrefs
  have : ∀ k, (l.zipIdx k).flatMap (fun e => List.replicate (if e.2 = i then 1 else 1) e.1) = l := by
    induction l with
    | nil => intro; rfl
    | cons y l ih => intro k; simp only [List.zipIdx_cons, List.flatMap_cons, ih]; simp
  exact this 0

theorem compileStep_eq (st : CState) (p : Proto) : compileStep st p =
    ⟨st.next + width p, st.choices ++ blockAt st.next p,
      st.choosers.map (fun c => ⟨c.name, expandPrefs st.next (width p) c.prefs⟩)⟩ := by
  unfold compileStep
  by_cases hp : p.parts > 1
  · simp only [hp, if_true]
    have hw : width p = p.parts := by unfold width; omega
    rw [addPart_fold p _ (p.parts - 1) (Nat.le_refl _)]
    simp only [hw, CState.mk.injEq, List.append_assoc]
    refine ⟨by omega, ?_, by simp⟩
    congr 1
    unfold blockAt
    rw [hw, show p.parts = (p.parts - 1) + 1 by omega, List.range_succ_eq_map, List.map_cons]
    simp only [List.singleton_append, List.cons.injEq, Choice.mk.injEq, true_and, and_true, if_true,
      Nat.add_sub_cancel, List.map_map, Nat.add_zero]
    refine ⟨by rw [if_pos (by omega)], ?_⟩
    rw [List.range'_eq_map_range, List.map_map]
    apply List.map_congr_left
    intro k hk
    simp only [Function.comp_apply, Choice.mk.injEq, true_and, and_true, Nat.succ_eq_add_one]
    rw [List.mem_range] at hk
    refine ⟨by rw [if_neg (by omega), Nat.add_comm], ?_⟩
    by_cases hl : k + 1 = p.parts - 1
    · rw [if_neg (by omega), if_neg (by omega)]
    · rw [if_pos (by omega), if_pos (by omega)]
      congr 1; omega
  · simp only [hp, if_false]
    have hw : width p = 1 := by unfold width; omega
    simp only [hw, CState.mk.injEq, blockAt, expandPrefs_one]
    refine ⟨trivial, by simp, by simp⟩

theorem compile_fold : ∀ (ps : List Proto) (st : CState) (pre : Chooser → List Nat) (rest : Chooser → List Nat)
    (cs : List Chooser), st.choosers = cs.map (fun c => ⟨c.name, pre c ++ rest c⟩) →
    (∀ c ∈ cs, (pre c).length = st.next ∧ (rest c).length = ps.length) →
    ps.foldl compileStep st = ⟨st.next + (ps.map width).sum, st.choices ++ blocks st.next ps,
      cs.map (fun c => ⟨c.name, pre c ++ expandAll ps (rest c)⟩)⟩ := by
  intro ps
  induction ps with
  | nil =>
    intro st pre rest cs h _
    simp only [List.foldl_nil, List.map_nil, List.sum_nil, Nat.add_zero, blocks, List.append_nil, expandAll]
    rw [← h]
  | cons p ps ih =>
    intro st pre rest cs h hl
    rw [List.foldl_cons, compileStep_eq]
    rw [ih _ (fun c => pre c ++ List.replicate (width p) ((rest c).headD 0)) (fun c => (rest c).tail) cs]
    · simp only [List.map_cons, List.sum_cons, blocks, List.append_assoc, CState.mk.injEq]
      refine ⟨by omega, trivial, ?_⟩
      apply List.map_congr_left
      intro c hc
      obtain ⟨_, h2⟩ := hl c hc
      cases hr : rest c with
      | nil => rw [hr] at h2; simp at h2
      | cons x xs => simp [expandAll]
    · simp only [h, List.map_map]
      apply List.map_congr_left
      intro c hc
      obtain ⟨h1, h2⟩ := hl c hc
      cases hr : rest c with
      | nil => rw [hr] at h2; simp at h2
      | cons x xs =>
        simp only [Function.comp_apply, hr, List.headD_cons, List.tail_cons, Chooser.mk.injEq, true_and]
        rw [← h1, expandPrefs_at, List.append_assoc]
    · intro c hc
      obtain ⟨h1, h2⟩ := hl c hc
      simp only [List.length_append, List.length_replicate, List.length_tail, List.length_cons] at *
      omega

theorem compileChoices_eq {raw : Raw} {cs : List Chooser} (h : ∀ c ∈ cs, c.prefs.length = raw.choices.length) :
    compileChoices raw cs = ⟨(raw.choices.map width).sum, blocks 0 raw.choices,
      cs.map (fun c => ⟨c.name, expandAll raw.choices c.prefs⟩)⟩ := by
  unfold compileChoices
  rw [compile_fold raw.choices ⟨0, [], cs⟩ (fun _ => []) (fun c => c.prefs) cs]
  · simp
  · simp
  · intro c hc; exact ⟨rfl, h c hc⟩

theorem length_blockAt (o : Nat) (p : Proto) : (blockAt o p).length = width p := by simp [blockAt]

theorem length_blocks (o : Nat) (ps : List Proto) : (blocks o ps).length = (ps.map width).sum := by
  induction ps generalizing o with
  | nil => rfl
  | cons p ps ih => simp [blocks, length_blockAt, ih]

theorem offset_zero (ps : List Proto) : offset ps 0 = 0 := by simp [offset]

theorem offset_succ_cons (p : Proto) (ps : List Proto) (k : Nat) : offset (p :: ps) (k + 1) = width p + offset ps k := by
  simp [offset]

theorem offset_length (ps : List Proto) : offset ps ps.length = (ps.map width).sum := by simp [offset]

/-- Part `j` of registered choice `k`. -/
theorem blocks_get {ps : List Proto} {k : Nat} {p : Proto} (h : ps[k]? = some p) {j : Nat} (hj : j < width p) (o : Nat) :
    (blocks o ps)[offset ps k + j]? = some ⟨if j = 0 then p.name else partName j p.name, p.min, p.max,
      if j + 1 < width p then some (o + offset ps k + j + 1) else none, p.optional⟩ := by
  induction ps generalizing k o with
  | nil => simp at h
  | cons q ps ih =>
    cases k with
    | zero =>
      simp at h; subst h
      rw [offset_zero, Nat.zero_add, blocks, List.getElem?_append_left (by rw [length_blockAt]; exact hj)]
      simp [blockAt, hj]
    | succ k =>
      simp at h
      rw [offset_succ_cons, blocks, List.getElem?_append_right (by rw [length_blockAt]; omega), length_blockAt,
        show width q + offset ps k + j - width q = offset ps k + j by omega, ih h]
      simp only [Option.some.injEq, Choice.mk.injEq, true_and, and_true]
      split
      · congr 1; omega
      · rfl

/-- Every internal choice is a part of exactly one registered choice. -/
theorem isPart_exists {ps : List Proto} {c : Nat} (h : c < (ps.map width).sum) : ∃ k j, IsPart ps k j c := by
  induction ps generalizing c with
  | nil => simp at h
  | cons p ps ih =>
    simp only [List.map_cons, List.sum_cons] at h
    by_cases hc : c < width p
    · exact ⟨0, c, p, rfl, hc, by rw [offset_zero]; omega⟩
    · obtain ⟨k, j, q, h1, h2, h3⟩ := ih (c := c - width p) (by omega)
      exact ⟨k + 1, j, q, h1, h2, by rw [offset_succ_cons]; omega⟩

theorem offset_mono {ps : List Proto} {k k' : Nat} {p : Proto} (h : ps[k]? = some p) (hk : k < k') :
    offset ps k + width p ≤ offset ps k' := by
  induction ps generalizing k k' with
  | nil => simp at h
  | cons q ps ih =>
    obtain ⟨k', rfl⟩ : ∃ m, k' = m + 1 := ⟨k' - 1, by omega⟩
    cases k with
    | zero => simp at h; subst h; rw [offset_zero, offset_succ_cons]; omega
    | succ k =>
      simp at h
      have := ih h (k' := k') (by omega)
      rw [offset_succ_cons, offset_succ_cons]; omega

theorem isPart_unique {ps : List Proto} {c k j k' j' : Nat} (h : IsPart ps k j c) (h' : IsPart ps k' j' c) :
    k = k' ∧ j = j' := by
  obtain ⟨p, h1, h2, h3⟩ := h
  obtain ⟨p', h1', h2', h3'⟩ := h'
  rcases Nat.lt_trichotomy k k' with hk | hk | hk
  · have := offset_mono h1 hk; omega
  · subst hk; exact ⟨rfl, by omega⟩
  · have := offset_mono h1' hk; omega

theorem isPart_lt {ps : List Proto} {c k j : Nat} (h : IsPart ps k j c) : c < (ps.map width).sum := by
  obtain ⟨p, h1, h2, h3⟩ := h
  have hk := (List.getElem?_eq_some_iff.1 h1).1
  have := offset_mono h1 hk
  rw [offset_length] at this
  omega

theorem expandAll_get {ps : List Proto} {prefs : List Nat} (hl : prefs.length = ps.length) {k : Nat} {p : Proto} (h : ps[k]? = some p)
    {j : Nat} (hj : j < width p) : (expandAll ps prefs)[offset ps k + j]? = prefs[k]? := by
  induction ps generalizing k prefs with
  | nil => simp at h
  | cons q ps ih =>
    cases prefs with
    | nil => simp at hl
    | cons x xs =>
      simp at hl
      cases k with
      | zero =>
        simp at h; subst h
        rw [offset_zero, Nat.zero_add, expandAll, List.getElem?_append_left (by simpa using hj)]
        simp [hj]
      | succ k =>
        simp at h
        rw [offset_succ_cons, expandAll, List.getElem?_append_right (by simp; omega), List.length_replicate,
          show width q + offset ps k + j - width q = offset ps k + j by omega, ih hl h]
        simp

theorem length_expandAll {ps : List Proto} {prefs : List Nat} (hl : prefs.length = ps.length) :
    (expandAll ps prefs).length = (ps.map width).sum := by
  induction ps generalizing prefs with
  | nil => simp at hl; subst hl; rfl
  | cons q ps ih =>
    cases prefs with
    | nil => simp at hl
    | cons x xs => simp at hl; simp [expandAll, ih hl]

end Wassign
