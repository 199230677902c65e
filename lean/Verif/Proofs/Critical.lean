import Verif.Spec.Critical
import Verif.Proofs.SearchComplete
import Verif.Proofs.Evaluate
import Mathlib.Data.List.Nodup
import Mathlib.Data.List.Perm.Subperm
/-
Critical-set analysis.
-/
namespace Wassign
namespace Critical
open Spec

theorem supGo_sublist : ∀ (a b : List Nat), CriticalSet.supGo a b = true → b.Sublist a := by
  intro a
  induction a with
  | nil =>
    intro b h
    cases b with
    | nil => exact List.Sublist.refl _
    | cons _ _ => simp [CriticalSet.supGo] at h
  | cons x xs ih =>
    intro b h
    cases b with
    | nil => exact List.nil_sublist _
    | cons y ys =>
      unfold CriticalSet.supGo at h
      split at h
      · exact (ih _ h).cons _
      · split at h
        · rename_i he; subst he; exact (ih _ h).cons_cons _
        · cases h

theorem sup_sound {a b : CriticalSet} (h : a.isSupersetOf b = true) : b.data.Sublist a.data := by
  unfold CriticalSet.isSupersetOf at h
  split at h
  · cases h
  · exact supGo_sublist _ _ h

theorem covered_sound {a b : CriticalSet} (h : a.isCoveredBy b = true) :
    a.preference ≤ b.preference ∧ b.data.Sublist a.data := by
  unfold CriticalSet.isCoveredBy at h
  simp only [Bool.and_eq_true, decide_eq_true_eq] at h
  exact ⟨h.1, sup_sound h.2⟩

/-- On ascending lists the comparison is exact. -/
theorem supGo_complete : ∀ (a b : List Nat), a.Pairwise (· < ·) → b.Pairwise (· < ·) → b ⊆ a →
    CriticalSet.supGo a b = true := by
  intro a
  induction a with
  | nil =>
    intro b _ _ h
    cases b with
    | nil => rfl
    | cons y ys => have := h (List.mem_cons_self (a := y)); simp at this
  | cons x xs ih =>
    intro b ha hb h
    cases b with
    | nil => rfl
    | cons y ys =>
      rw [List.pairwise_cons] at ha hb
      have hy := h (List.mem_cons_self (a := y))
      unfold CriticalSet.supGo
      by_cases hlt : x < y
      · rw [if_pos hlt]
        refine ih _ ha.2 (List.pairwise_cons.2 hb) ?_
        intro z hz
        have hz' := h hz
        rcases List.mem_cons.1 hz' with rfl | hz'
        · rcases List.mem_cons.1 hz with rfl | hz
          · omega
          · have := hb.1 _ hz; omega
        · exact hz'
      · rw [if_neg hlt]
        have hxy : x = y := by
          rcases List.mem_cons.1 hy with rfl | hy
          · rfl
          · have := ha.1 _ hy; omega
        rw [if_pos hxy]
        refine ih _ ha.2 hb.2 ?_
        intro z hz
        rcases List.mem_cons.1 (h (List.mem_cons_of_mem _ hz)) with rfl | hz'
        · have := hb.1 _ hz; omega
        · exact hz'

theorem acceptable_mem {i : InputData} {p q c : Nat} :
    c ∈ acceptable i p q ↔ c < i.nc ∧ ∃ x, pref i p c = some x ∧ x ≤ q := by
  unfold acceptable likes
  simp only [List.mem_filter, List.mem_range]
  cases pref i p c <;> simp

theorem acceptable_pairwise (i : InputData) (p q : Nat) : (acceptable i p q).Pairwise (· < ·) :=
  List.pairwise_lt_range.filter _

def minSum (i : InputData) (data : List Nat) : Nat :=
  (data.map (fun c => (i.choices[c]?.map (·.min)).getD 0)).sum

theorem sum_map_sublist {α : Type} (f : α → Nat) {l l' : List α} (h : l.Sublist l') :
    (l.map f).sum ≤ (l'.map f).sum := by
  induction h with
  | slnil => simp
  | cons _ _ ih => simp; omega
  | cons_cons _ _ ih => simp; omega

theorem addChooser_inner {i : InputData} (hw : WF i) (hz : Sizes i) {p q : Nat} (hp : p < i.np) :
    (List.range i.nc).foldlM (addChoice i i.choosers[p].prefs q) ([], 0) =
      .ok (acceptable i p q, minSum i (acceptable i p q)) := by
  have hlen : i.choosers[p].prefs.length = i.nc := hw.prefLen _ (List.getElem_mem hp)
  let part : Nat → List Nat := fun k => (List.range k).filter (likes i p q)
  obtain ⟨r, h1, h2⟩ := foldlM_total (l := List.range i.nc) (f := addChoice i i.choosers[p].prefs q)
    (s := ([], 0)) (Inv := fun k acc => acc = (part k, minSum i (part k))) (by
      intro k hk acc hacc
      have hk' : k < i.nc := by simpa using hk
      subst hacc
      simp only [List.getElem_range]
      have hpr : pref i p k = some (i.choosers[p].prefs[k]'(by omega)) := by
        simp [pref, hp, hlen, hk']
      unfold addChoice
      rw [idx_ok (by omega), R.bind_ok]
      have hpart : part (k + 1) = part k ++
          (if i.choosers[p].prefs[k]'(by omega) ≤ q then [k] else []) := by
        simp only [part, List.range_succ, List.filter_append]
        congr 1
        rw [List.filter_cons]
        by_cases hle : i.choosers[p].prefs[k]'(by omega) ≤ q <;> simp [likes, hpr, hle]
      by_cases hle : i.choosers[p].prefs[k]'(by omega) ≤ q
      · rw [if_pos hle, idx_ok hk', R.bind_ok]
        have hms : minSum i (part (k + 1)) = minSum i (part k) + i.choices[k].min := by
          rw [hpart, if_pos hle]
          simp [minSum, hk']
        have hbound : minSum i (part (k + 1)) ≤ u32Max := by
          refine Nat.le_trans ?_ hz.sumMin
          have hsub : (part (k + 1)).Sublist (List.range i.nc) :=
            List.Sublist.trans List.filter_sublist (List.range_sublist.2 (by omega))
          have h3 := sum_map_sublist (fun c => (i.choices[c]?.map (·.min)).getD 0) hsub
          have h4 := Search.rsum_valOf i (·.min)
          unfold minSum
          rw [← h4]
          exact h3
        rw [addU32_eq_ok.2 ⟨by omega, rfl⟩, R.bind_ok]
        refine ⟨_, rfl, ?_⟩
        simp [hms]
        rw [hpart, if_pos hle]
      · rw [if_neg hle]
        refine ⟨_, rfl, ?_⟩
        rw [hpart, if_neg hle]; simp) rfl
  rw [h1, h2]
  simp [part, acceptable]

/-- `a` is covered by `b`. -/
def Dom (a b : CriticalSet) : Prop := a.preference ≤ b.preference ∧ b.data.Sublist a.data

theorem Dom.refl (a : CriticalSet) : Dom a a := ⟨Nat.le_refl _, List.Sublist.refl _⟩
theorem Dom.trans {a b c : CriticalSet} (h : Dom a b) (h' : Dom b c) : Dom a c :=
  ⟨Nat.le_trans h.1 h'.1, h'.2.trans h.2⟩

theorem addChooser_spec {i : InputData} (hw : WF i) (hz : Sizes i) {p q : Nat} (hp : p < i.np)
    (sets : List CriticalSet) : ∃ r, addChooser i q sets p = .ok r ∧
      (∀ s ∈ sets, s ∈ r) ∧
      (∀ s ∈ r, s ∈ sets ∨ (s = ⟨q, acceptable i p q⟩ ∧ minSum i s.data ≤ i.np * (i.ns - 1))) ∧
      (minSum i (acceptable i p q) ≤ i.np * (i.ns - 1) → ∃ o ∈ r, Dom ⟨q, acceptable i p q⟩ o) := by
  have hcs : chooserSlots i = .ok (i.np * (i.ns - 1)) := by
    unfold chooserSlots
    refine toU32_eq_ok.2 ⟨?_, rfl⟩
    have := hz.attendances
    have h2 : i.np * (i.ns - 1) ≤ i.np * i.ns := Nat.mul_le_mul_left _ (by omega)
    omega
  unfold addChooser
  rw [idx_ok hp, R.bind_ok, addChooser_inner hw hz hp, R.bind_ok, hcs, R.bind_ok]
  by_cases hlt : i.np * (i.ns - 1) < minSum i (acceptable i p q)
  · simp only [hlt, if_true]
    exact ⟨_, rfl, fun s h => h, fun s h => .inl h, fun h => by omega⟩
  · simp only [hlt, if_false]
    by_cases hany : (sets.any fun other => CriticalSet.isCoveredBy ⟨q, acceptable i p q⟩ other) = true
    · rw [if_pos hany]
      refine ⟨_, rfl, fun s h => h, fun s h => .inl h, fun _ => ?_⟩
      obtain ⟨o, ho, hc⟩ := List.any_eq_true.1 hany
      exact ⟨o, ho, covered_sound hc⟩
    · rw [if_neg hany]
      refine ⟨_, rfl, fun s h => List.mem_append_left _ h, ?_, fun _ => ?_⟩
      · intro s h
        rcases List.mem_append.1 h with h | h
        · exact .inl h
        · simp only [List.mem_singleton] at h
          subst h
          exact .inr ⟨rfl, by show minSum i (acceptable i p q) ≤ _; omega⟩
      · exact ⟨_, List.mem_append_right _ (List.mem_singleton.2 rfl), Dom.refl _⟩

theorem collect_level {i : InputData} (hw : WF i) (hz : Sizes i) {q : Nat}
    (sets : List CriticalSet) : ∃ r, (List.range i.np).foldlM (addChooser i q) sets = .ok r ∧
      (∀ s ∈ sets, s ∈ r) ∧
      (∀ s ∈ r, s ∈ sets ∨ ∃ p, p < i.np ∧ s = ⟨q, acceptable i p q⟩ ∧ minSum i s.data ≤ i.np * (i.ns - 1)) ∧
      (∀ p, p < i.np → minSum i (acceptable i p q) ≤ i.np * (i.ns - 1) →
        ∃ o ∈ r, Dom ⟨q, acceptable i p q⟩ o) := by
  obtain ⟨r, h1, h2⟩ := foldlM_total (l := List.range i.np) (f := addChooser i q) (s := sets)
    (Inv := fun k acc => (∀ s ∈ sets, s ∈ acc) ∧
      (∀ s ∈ acc, s ∈ sets ∨ ∃ p, p < i.np ∧ s = ⟨q, acceptable i p q⟩ ∧ minSum i s.data ≤ i.np * (i.ns - 1)) ∧
      (∀ p, p < k → minSum i (acceptable i p q) ≤ i.np * (i.ns - 1) →
        ∃ o ∈ acc, Dom ⟨q, acceptable i p q⟩ o))
    (by
      intro k hk acc hacc
      have hk' : k < i.np := by simpa using hk
      simp only [List.getElem_range]
      obtain ⟨r, hr, ha, hb, hc⟩ := addChooser_spec hw hz (q := q) hk' acc
      refine ⟨r, hr, fun s h => ha s (hacc.1 s h), ?_, ?_⟩
      · intro s h
        rcases hb s h with h | ⟨h1, h2⟩
        · exact hacc.2.1 s h
        · exact .inr ⟨k, hk', h1, h2⟩
      · intro p hp hm
        by_cases hpk : p = k
        · subst hpk; exact hc hm
        · obtain ⟨o, ho, hd⟩ := hacc.2.2 p (by omega) hm
          exact ⟨o, ha o ho, hd⟩)
    ⟨fun s h => h, fun s h => .inl h, fun p hp => by omega⟩
  exact ⟨r, h1, h2.1, h2.2.1, fun p hp => h2.2.2 p (by simpa using hp)⟩

/-- Collecting finds exactly the critical sets up to domination. -/
theorem collect_spec {i : InputData} (hw : WF i) (hz : Sizes i) :
    ∃ sets, collect i = .ok sets ∧ (∀ s ∈ sets, IsCritical i s) ∧
      (∀ s, IsCritical i s → ∃ o ∈ sets, Dom s o) := by
  obtain ⟨r, h1, h2⟩ := foldlM_total (l := i.prefLevels.reverse)
    (f := fun sets pref => (List.range i.np).foldlM (addChooser i pref) sets) (s := [])
    (Inv := fun k acc => (∀ s ∈ acc, IsCritical i s) ∧
      (∀ s, IsCritical i s → s.preference ∈ i.prefLevels.reverse.take k → ∃ o ∈ acc, Dom s o))
    (by
      intro k hk acc hacc
      obtain ⟨r, hr, ha, hb, hc⟩ := collect_level hw hz (q := i.prefLevels.reverse[k]) acc
      refine ⟨r, hr, ?_, ?_⟩
      · intro s h
        rcases hb s h with h | ⟨p, hp, h1, h2⟩
        · exact hacc.1 s h
        · subst h1
          exact ⟨p, hp, List.mem_reverse.1 (List.getElem_mem hk), rfl, h2⟩
      · intro s hs hm
        rw [List.take_succ_eq_append_getElem hk, List.mem_append] at hm
        rcases hm with hm | hm
        · obtain ⟨o, ho, hd⟩ := hacc.2 s hs hm
          exact ⟨o, ha o ho, hd⟩
        · simp only [List.mem_singleton] at hm
          obtain ⟨p, hp, _, h3, h4⟩ := hs
          cases s with
          | mk pr data =>
            simp only at hm h3 h4
            subst hm
            subst h3
            exact hc p hp h4)
    ⟨by simp, by simp⟩
  refine ⟨r, h1, h2.1, fun s hs => h2.2 s hs ?_⟩
  obtain ⟨p, hp, hm, _⟩ := hs
  rw [List.take_length]
  exact List.mem_reverse.2 hm

theorem simplifyGo_subset : ∀ (fuel index : Nat) (l : List CriticalSet),
    ∀ s ∈ simplifyGo fuel index l, s ∈ l := by
  intro fuel
  induction fuel with
  | zero => intro _ l s h; exact h
  | succ n ih =>
    intro index l s h
    unfold simplifyGo at h
    split at h
    · exact h
    · exact (List.mem_filter.1 (ih _ _ _ h)).1

theorem simplifyGo_dom : ∀ (fuel index : Nat) (l : List CriticalSet),
    ∀ s ∈ l, ∃ o ∈ simplifyGo fuel index l, Dom s o := by
  intro fuel
  induction fuel with
  | zero => intro _ l s h; exact ⟨s, h, Dom.refl s⟩
  | succ n ih =>
    intro index l s h
    unfold simplifyGo
    split
    · exact ⟨s, h, Dom.refl s⟩
    · rename_i current hcur
      have hcm : current ∈ l := List.mem_of_getElem? hcur
      have hcf : current ∈ l.filter (fun other => current == other || !other.isCoveredBy current) :=
        List.mem_filter.2 ⟨hcm, by simp⟩
      by_cases hs : (current == s || !s.isCoveredBy current) = true
      · exact ih _ _ s (List.mem_filter.2 ⟨h, hs⟩)
      · simp only [Bool.or_eq_true, not_or] at hs
        have hc : s.isCoveredBy current = true := by
          have := hs.2; simpa using this
        obtain ⟨o, ho, hd⟩ := ih (index + 1) _ current hcf
        exact ⟨o, ho, (show Dom s current from covered_sound hc).trans hd⟩

theorem analyze_spec {i : InputData} (hw : WF i) (hz : Sizes i) (simp' : Bool) :
    ∃ sets, analyze i simp' = .ok sets ∧ (∀ s ∈ sets, IsCritical i s) ∧
      (∀ s, IsCritical i s → ∃ o ∈ sets, Dom s o) := by
  obtain ⟨sets, h1, h2, h3⟩ := collect_spec hw hz
  unfold analyze
  rw [h1, R.bind_ok]
  refine ⟨_, rfl, ?_, ?_⟩
  · intro s hs
    split at hs
    · exact h2 s (simplifyGo_subset _ _ _ s hs)
    · exact h2 s hs
  · intro s hs
    obtain ⟨o, ho, hd⟩ := h3 s hs
    split
    · obtain ⟨o', ho', hd'⟩ := simplifyGo_dom sets.length 0 sets o ho
      exact ⟨o', ho', hd.trans hd'⟩
    · exact ⟨o, ho, hd⟩

theorem insertMinimal_spec (m : List CriticalSet) (c : CriticalSet) :
    (∀ s ∈ insertMinimal m c, s ∈ m ∨ s = c) ∧
    (∀ s, s ∈ m ∨ s = c → ∃ o ∈ insertMinimal m c, o.data.Sublist s.data) := by
  unfold insertMinimal
  by_cases h : (m.any fun set => c.isSupersetOf set) = true
  · rw [if_pos h]
    refine ⟨fun s hs => .inl hs, ?_⟩
    rintro s (hs | rfl)
    · exact ⟨s, hs, List.Sublist.refl _⟩
    · obtain ⟨o, ho, hc⟩ := List.any_eq_true.1 h
      exact ⟨o, ho, sup_sound hc⟩
  · rw [if_neg h]
    refine ⟨?_, ?_⟩
    · intro s hs
      rcases List.mem_append.1 hs with hs | hs
      · exact .inl (List.mem_filter.1 hs).1
      · exact .inr (by simpa using hs)
    · have hcm : c ∈ m.filter (fun set => !set.isSupersetOf c) ++ [c] := by simp
      rintro s (hs | rfl)
      · by_cases hsup : s.isSupersetOf c = true
        · exact ⟨c, hcm, sup_sound hsup⟩
        · exact ⟨s, List.mem_append_left _ (List.mem_filter.2 ⟨hs, by simpa using hsup⟩), List.Sublist.refl _⟩
      · exact ⟨s, hcm, List.Sublist.refl _⟩

theorem foldl_insertMinimal (new : List CriticalSet) : ∀ (m : List CriticalSet),
    (∀ s ∈ new.foldl insertMinimal m, s ∈ m ∨ s ∈ new) ∧
    (∀ s, s ∈ m ∨ s ∈ new → ∃ o ∈ new.foldl insertMinimal m, o.data.Sublist s.data) := by
  induction new with
  | nil => intro m; exact ⟨fun s h => .inl h, fun s h => ⟨s, by simpa using h, List.Sublist.refl _⟩⟩
  | cons c cs ih =>
    intro m
    obtain ⟨a1, a2⟩ := insertMinimal_spec m c
    obtain ⟨b1, b2⟩ := ih (insertMinimal m c)
    refine ⟨?_, ?_⟩
    · intro s hs
      rcases b1 s hs with h | h
      · rcases a1 s h with h | rfl
        · exact .inl h
        · exact .inr List.mem_cons_self
      · exact .inr (List.mem_cons_of_mem _ h)
    · intro s hs
      have : (s ∈ m ∨ s = c) ∨ s ∈ cs := by
        rcases hs with h | h
        · exact .inl (.inl h)
        · rcases List.mem_cons.1 h with h | h
          · exact .inl (.inr h)
          · exact .inr h
      rcases this with h | h
      · obtain ⟨o, ho, hd⟩ := a2 s h
        obtain ⟨o', ho', hd'⟩ := b2 o (.inl ho)
        exact ⟨o', ho', hd'.trans hd⟩
      · exact b2 s (.inr h)

/-- A list of sets that stands for all sets whose preference satisfies `P`. -/
def Stands (sets m : List CriticalSet) (P : Nat → Prop) : Prop :=
  (∀ s ∈ m, s ∈ sets ∧ P s.preference) ∧
  (∀ s ∈ sets, P s.preference → ∃ o ∈ m, o.data.Sublist s.data)

theorem cacheLevel_spec {sets : List CriticalSet} {acc : List CriticalSet × List (Nat × List CriticalSet)}
    {P : Nat → Prop} {q : Nat} (h : Stands sets acc.1 P) :
    Stands sets (cacheLevel sets acc q).1 (fun x => P x ∨ x = q) := by
  unfold cacheLevel
  simp only
  have hf := foldl_insertMinimal
    (sortByKey CriticalSet.size (sets.filter (fun s => s.preference == q))) acc.1
  refine ⟨?_, ?_⟩
  · intro s hs
    rw [mem_sortByKey] at hs
    rcases hf.1 s hs with hs | hs
    · exact ⟨(h.1 s hs).1, .inl (h.1 s hs).2⟩
    · rw [mem_sortByKey, List.mem_filter] at hs
      exact ⟨hs.1, .inr (by simpa using hs.2)⟩
  · intro s hs hp
    have : ∃ o, (o ∈ acc.1 ∨ o ∈ sortByKey CriticalSet.size (sets.filter (fun s => s.preference == q))) ∧
        o.data.Sublist s.data := by
      rcases hp with hp | hp
      · obtain ⟨o, ho, hd⟩ := h.2 s hs hp
        exact ⟨o, .inl ho, hd⟩
      · exact ⟨s, .inr (by rw [mem_sortByKey, List.mem_filter]; exact ⟨hs, by simpa using hp⟩), List.Sublist.refl _⟩
    obtain ⟨o, ho, hd⟩ := this
    obtain ⟨o', ho', hd'⟩ := hf.2 o ho
    exact ⟨o', by rw [mem_sortByKey]; exact ho', hd'.trans hd⟩

theorem cache_go {sets : List CriticalSet} : ∀ (done todo : List Nat)
    (acc : List CriticalSet × List (Nat × List CriticalSet)), (done ++ todo).Pairwise (· > ·) →
    Stands sets acc.1 (· ∈ done) →
    (∀ l ∈ done, ∃ m, acc.2.lookup l = some m ∧ Stands sets m (fun x => x ∈ done ∧ l ≤ x)) →
    ∀ l ∈ done ++ todo, ∃ m, (todo.foldl (cacheLevel sets) acc).2.lookup l = some m ∧
      Stands sets m (fun x => x ∈ done ++ todo ∧ l ≤ x) := by
  intro done todo
  induction todo generalizing done with
  | nil => intro acc _ _ h; simpa using h
  | cons q todo ih =>
    intro acc hp hs hl
    rw [List.foldl_cons, show done ++ q :: todo = (done ++ [q]) ++ todo by simp]
    have hgt : ∀ l ∈ done, q < l := by
      rw [List.pairwise_append] at hp
      intro l hl; exact hp.2.2 l hl q List.mem_cons_self
    refine ih (done ++ [q]) _ (by simpa using hp) ?_ ?_
    · have := cacheLevel_spec (q := q) hs
      refine ⟨fun s h => ?_, fun s h h' => this.2 s h ?_⟩
      · have := this.1 s h
        exact ⟨this.1, by simpa using this.2⟩
      · simpa using h'
    · intro l hl'
      have hc2 : (cacheLevel sets acc q).2 = (q, (cacheLevel sets acc q).1) :: acc.2 := rfl
      rw [hc2, List.lookup_cons]
      rcases List.mem_append.1 hl' with h | h
      · have hne : (l == q) = false := by have := hgt l h; simp; omega
        rw [hne]
        obtain ⟨m, h1, h2⟩ := hl l h
        refine ⟨m, h1, ?_, ?_⟩
        · intro s hs'
          have := h2.1 s hs'
          exact ⟨this.1, List.mem_append_left _ this.2.1, this.2.2⟩
        · intro s hs' hpr
          refine h2.2 s hs' ⟨?_, hpr.2⟩
          rcases List.mem_append.1 hpr.1 with h' | h'
          · exact h'
          · have := hgt l h
            have := hpr.2
            simp only [List.mem_singleton] at h'; omega
      · simp only [List.mem_singleton] at h
        subst h
        refine ⟨(cacheLevel sets acc l).1, by simp, ?_⟩
        have := cacheLevel_spec (q := l) hs
        refine ⟨fun s h => ?_, fun s h h' => this.2 s h ?_⟩
        · have := this.1 s h
          refine ⟨this.1, ?_⟩
          rcases this.2 with h | h
          · exact ⟨List.mem_append_left _ h, by have := hgt _ h; omega⟩
          · exact ⟨by simp [h], by omega⟩
        · simpa using h'.1

theorem buildCache_spec {i : InputData} (hs : i.prefLevels.Pairwise (· < ·)) {sets : List CriticalSet}
    (hsets : ∀ s ∈ sets, s.preference ∈ i.prefLevels) {l : Nat} (hl : l ∈ i.prefLevels) :
    ∃ m, (buildCache i sets).lookup l = some m ∧ Stands sets m (fun x => l ≤ x) := by
  obtain ⟨m, h1, h2⟩ := cache_go (sets := sets) [] i.prefLevels.reverse ([], [])
    (by simpa [List.pairwise_reverse] using hs) ⟨by simp, by simp⟩ (by simp) l (by simpa using hl)
  refine ⟨m, h1, fun s h => ⟨(h2.1 s h).1, (h2.1 s h).2.2⟩, fun s h hp => h2.2 s h ⟨?_, hp⟩⟩
  simpa using hsets s h

/-- What is used at a preference level stands for all critical sets of that level and above. -/
theorem forPreference_spec {i : InputData} (hw : WF i) (hz : Sizes i) (hs : i.prefLevels.Pairwise (· < ·))
    (simp' : Bool) : ∃ an, Analysis.new i true simp' = .ok an ∧
      (∀ s ∈ an.sets, IsCritical i s) ∧ (∀ s, IsCritical i s → ∃ o ∈ an.sets, Dom s o) ∧
      an.preferenceBound = bound i an.sets ∧
      (∀ l ∈ i.prefLevels, (∀ s ∈ an.forPreference l, IsCritical i s ∧ l ≤ s.preference) ∧
        (∀ s, IsCritical i s → l ≤ s.preference → ∃ o ∈ an.forPreference l, o.data.Sublist s.data)) ∧
      (∀ l, ∀ s ∈ an.forPreference l, IsCritical i s) := by
  obtain ⟨sets, h1, h2, h3⟩ := analyze_spec hw hz simp'
  refine ⟨⟨sets, buildCache i sets, bound i sets⟩, ?_, h2, h3, rfl, ?_, ?_⟩
  · simp [Analysis.new, h1]
  · intro l hl
    obtain ⟨m, hm, hst⟩ := buildCache_spec hs (fun s h => (h2 s h).choose_spec.2.1) hl
    have hfp : Analysis.forPreference ⟨sets, buildCache i sets, bound i sets⟩ l = m := by
      simp [Analysis.forPreference, hm]
    rw [hfp]
    refine ⟨fun s h => ⟨h2 s (hst.1 s h).1, (hst.1 s h).2⟩, ?_⟩
    intro s hs' hp
    obtain ⟨o, ho, hd⟩ := h3 s hs'
    obtain ⟨o', ho', hd'⟩ := hst.2 o ho (Nat.le_trans hp hd.1)
    exact ⟨o', ho', hd'.trans hd.2⟩
  · intro l s h
    by_cases hl : l ∈ i.prefLevels
    · obtain ⟨m, hm, hst⟩ := buildCache_spec hs (fun s h => (h2 s h).choose_spec.2.1) hl
      have hfp : Analysis.forPreference ⟨sets, buildCache i sets, bound i sets⟩ l = m := by
        simp [Analysis.forPreference, hm]
      rw [hfp] at h
      exact h2 s (hst.1 s h).1
    · have hk : ∀ (todo : List Nat) (acc : List CriticalSet × List (Nat × List CriticalSet)),
          acc.2.lookup l = none → l ∉ todo → (todo.foldl (cacheLevel sets) acc).2.lookup l = none := by
        intro todo
        induction todo with
        | nil => intro acc h _; exact h
        | cons q qs ih =>
          intro acc h hq
          refine ih _ ?_ (fun h => hq (List.mem_cons_of_mem _ h))
          have hc2 : (cacheLevel sets acc q).2 = (q, (cacheLevel sets acc q).1) :: acc.2 := rfl
          rw [hc2, List.lookup_cons]
          have : (l == q) = false := by
            simp; rintro rfl; exact hq List.mem_cons_self
          rw [this]; exact h
      have hnone : (buildCache i sets).lookup l = none := hk _ _ rfl (by simpa using hl)
      simp [Analysis.forPreference, hnone] at h

theorem critical_range {i : InputData} {s : CriticalSet} (h : IsCritical i s) : ∀ e ∈ s.data, e < i.nc := by
  obtain ⟨p, _, _, h, _⟩ := h
  rw [h]
  intro e he
  exact (acceptable_mem.1 he).1

/-- A solution in which nobody gets anything worse than `l` covers every critical set of level `l`. -/
theorem covers_of_worst {i : InputData} (hw : WF i) {s : Scheduling} {a : Assignment} (hsh : Shape i s a)
    (hone : OnePerSlot i s a) {l : Nat} (hwst : WorstAtMost i a l) {set : CriticalSet}
    (hc : IsCritical i set) (hl : l ≤ set.preference) : CoversSlots i s set.data := by
  obtain ⟨p, hp, _, hd, _⟩ := hc
  intro t ht
  obtain ⟨c, ⟨hat, hsl⟩, _⟩ := hone p hp t ht
  refine ⟨c, ?_, hsl⟩
  have hcn : c < i.nc := by
    rw [← hsh.schedLen]
    unfold slotAt at hsl
    by_contra h
    rw [List.getElem?_eq_none (by omega)] at hsl
    simp at hsl
  obtain ⟨x, hx, _⟩ := pref_some hw hp hcn
  rw [hd, acceptable_mem]
  exact ⟨hcn, x, hx, Nat.le_trans (hwst p c x hp hat hx) hl⟩

theorem covers_mono {i : InputData} {s : Scheduling} {a b : List Nat} (h : ∀ x ∈ a, x ∈ b)
    (hc : CoversSlots i s a) : CoversSlots i s b := by
  intro t ht
  obtain ⟨c, h1, h2⟩ := hc t ht
  exact ⟨c, h c h1, h2⟩

/-- A covered set has at least one choice per slot. -/
theorem covers_size {i : InputData} {s : Scheduling} {d : List Nat} (h : CoversSlots i s d) :
    i.ns ≤ d.length := by
  have hsub : (List.range i.ns).map some ⊆ d.map (slotAt s) := by
    intro x hx
    obtain ⟨t, ht, rfl⟩ := List.mem_map.1 hx
    obtain ⟨c, h1, h2⟩ := h t (by simpa using ht)
    exact List.mem_map.2 ⟨c, h1, h2⟩
  have hnd : ((List.range i.ns).map some).Nodup :=
    List.Nodup.map (fun a b h => by simpa using h) List.nodup_range
  have := (hnd.subperm hsub).length_le
  simpa using this

theorem boundStep_le (i : InputData) (sets : List CriticalSet) (b q : Nat) : boundStep i sets b q ≤ b := by
  unfold boundStep
  split
  · split <;> omega
  · exact Nat.le_refl _

theorem foldl_boundStep_le (i : InputData) (sets : List CriticalSet) : ∀ (ls : List Nat) (b : Nat),
    ls.foldl (boundStep i sets) b ≤ b := by
  intro ls
  induction ls with
  | nil => intro b; exact Nat.le_refl _
  | cons q qs ih => intro b; exact Nat.le_trans (ih _) (boundStep_le ..)

theorem bound_le {i : InputData} {sets : List CriticalSet} {l : Nat} (hl : l ∈ i.prefLevels)
    (hne : ∃ s ∈ sets, l ≤ s.preference) (hsz : ∀ s ∈ sets, l ≤ s.preference → i.ns ≤ s.size) :
    bound i sets ≤ l := by
  unfold bound
  obtain ⟨as, bs, hab⟩ := List.append_of_mem hl
  rw [hab, List.foldl_append, List.foldl_cons]
  refine Nat.le_trans (foldl_boundStep_le ..) ?_
  unfold boundStep
  cases hm : ((sets.filter (fun s => decide (l ≤ s.preference))).map CriticalSet.size).min? with
  | none =>
    rw [List.min?_eq_none_iff] at hm
    obtain ⟨s, h1, h2⟩ := hne
    have : s.size ∈ (sets.filter (fun s => decide (l ≤ s.preference))).map CriticalSet.size :=
      List.mem_map.2 ⟨s, List.mem_filter.2 ⟨h1, by simpa using h2⟩, rfl⟩
    rw [hm] at this; simp at this
  | some m =>
    have hmem := List.min?_mem hm
    obtain ⟨s, h1, h2⟩ := List.mem_map.1 hmem
    rw [List.mem_filter] at h1
    have := hsz s h1.1 (by simpa using h1.2)
    simp only
    rw [if_pos (by omega)]
    omega

theorem bound_le_max (i : InputData) (sets : List CriticalSet) : bound i sets ≤ i.maxPref :=
  foldl_boundStep_le ..

end Critical
end Wassign
