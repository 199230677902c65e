import Verif.Proofs.PartCons
/-
get_dependent_choice_limits and get_dependent_preferences.
-/
namespace Wassign
open Spec Build

/-- `v` is the largest of `f` over the numbers below `n` in relation to `c`. -/
structure Largest (n : Nat) (C : Nat → Nat → Prop) (f : Nat → Nat) (c v : Nat) : Prop where
  upper : ∀ y, y < n → C c y → f y ≤ v
  attained : ∃ y, y < n ∧ C c y ∧ f y = v

/-- `v` is the smallest of `f` over the numbers below `n` in relation to `c`. -/
structure Smallest (n : Nat) (C : Nat → Nat → Prop) (f : Nat → Nat) (c v : Nat) : Prop where
  lower : ∀ y, y < n → C c y → v ≤ f y
  attained : ∃ y, y < n ∧ C c y ∧ f y = v

theorem UF.root_exists {n : Nat} {u : UF} {E : Nat → Nat → Prop} (hc : UF.Comp n u E) :
    ∃ root : Nat → Nat, (∀ e, e < n → u.find e = .ok (root e) ∧ root e < n ∧ root (root e) = root e) ∧
      ∀ a b, a < n → b < n → (root a = root b ↔ Connected E a b) := by
  obtain ⟨root, hroot⟩ : ∃ root : Nat → Nat, ∀ e, e < n → u.find e = .ok (root e) ∧ Reach u.parents e (root e) ∧ root e < n :=
    Classical.axiomOfChoice (r := fun e r => e < n → u.find e = .ok r ∧ Reach u.parents e r ∧ r < n) (fun e => by
      by_cases he : e < n
      · obtain ⟨r, h⟩ := find_spec hc.inv he
        exact ⟨r, fun _ => h⟩
      · exact ⟨0, fun h => absurd h he⟩)
  refine ⟨root, ?_, ?_⟩
  · intro e he
    obtain ⟨h1, h2, h3⟩ := hroot e he
    refine ⟨h1, h3, ?_⟩
    exact ((hroot _ h3).2.1.det (Reach.root h2.isRoot))
  · intro a b ha hb
    rw [← hc.same a b ha hb]
    constructor
    · intro h
      exact ⟨root a, (hroot a ha).2.1, h ▸ (hroot b hb).2.1⟩
    · rintro ⟨r, h1, h2⟩
      rw [(hroot a ha).2.1.det h1, (hroot b hb).2.1.det h2]

theorem dependentLimits_spec {choices : List Choice} (hn : choices.length ≤ i32Max) {cons : List Constraint}
    (hw : DepWF choices.length cons) (hmax : ∀ ch ∈ choices, ch.max ≤ u32Max) :
    ∃ limits, dependentLimits choices cons = .ok limits ∧ limits.length = choices.length ∧
      ∀ c l, limits[c]? = some l →
        Largest choices.length (Connected (SameLink cons)) (fun y => (choices[y]?.map (·.min)).getD 0) c l.1 ∧
        Smallest choices.length (Connected (SameLink cons)) (fun y => (choices[y]?.map (·.max)).getD 0) c l.2 := by
  obtain ⟨u0, u, h1, h2, h3⟩ := depUF_spec hn hw
  obtain ⟨root, hr1, hr2⟩ := UF.root_exists h3
  -- first loop
  obtain ⟨L0, h4, hlen0, h5⟩ := foldlM_total (l := choices.zipIdx) (f := limitStep u)
    (s := List.replicate choices.length (0, u32Max))
    (fun k ls => ls.length = choices.length ∧ ∀ g l, ls[g]? = some l →
      (∀ y (hy : y < choices.length), y < k → root y = g → choices[y].min ≤ l.1 ∧ l.2 ≤ choices[y].max) ∧
      (l.1 = 0 ∨ ∃ y, ∃ hy : y < choices.length, y < k ∧ root y = g ∧ choices[y].min = l.1) ∧
      (l.2 = u32Max ∨ ∃ y, ∃ hy : y < choices.length, y < k ∧ root y = g ∧ choices[y].max = l.2))
    (by
      intro k hk ls ⟨hl, hinv⟩
      simp only [List.length_zipIdx] at hk
      have he : choices.zipIdx[k]'(by simpa using hk) = (choices[k], k) := by simp
      rw [he]
      obtain ⟨hf, hlt, _⟩ := hr1 k hk
      unfold limitStep
      rw [hf, R.bind_ok, idx_ok (by rw [hl]; exact hlt), R.bind_ok]
      have hlt' : root k < ls.length := by rw [hl]; exact hlt
      refine ⟨_, setIdx_eq_ok.2 ⟨hlt', rfl⟩, by simpa using hl, ?_⟩
      intro g l hg
      by_cases hgk : root k = g
      · subst hgk
        rw [List.getElem?_set_self hlt'] at hg
        cases hg
        obtain ⟨i1, i2, i3⟩ := hinv (root k) _ (List.getElem?_eq_getElem hlt')
        refine ⟨?_, ?_, ?_⟩
        · intro y hy hyk hry
          by_cases e : y = k
          · subst e
            exact ⟨Nat.le_max_right _ _, Nat.min_le_right _ _⟩
          · have := i1 y hy (by omega) hry
            exact ⟨Nat.le_trans this.1 (Nat.le_max_left _ _), Nat.le_trans (Nat.min_le_left _ _) this.2⟩
        · simp only
          rcases Nat.le_total (ls[root k].1) choices[k].min with hm | hm
          · exact .inr ⟨k, hk, by omega, rfl, (Nat.max_eq_right hm).symm⟩
          · rw [Nat.max_eq_left hm]
            rcases i2 with i2 | ⟨y, hy, q1, q2⟩
            · exact .inl i2
            · exact .inr ⟨y, hy, by omega, q2⟩
        · simp only
          rcases Nat.le_total (ls[root k].2) choices[k].max with hm | hm
          · rw [Nat.min_eq_left hm]
            rcases i3 with i2 | ⟨y, hy, q1, q2⟩
            · exact .inl i2
            · exact .inr ⟨y, hy, by omega, q2⟩
          · exact .inr ⟨k, hk, by omega, rfl, (Nat.min_eq_right hm).symm⟩
      · rw [List.getElem?_set_ne hgk] at hg
        obtain ⟨i1, i2, i3⟩ := hinv g l hg
        refine ⟨?_, ?_, ?_⟩
        · intro y hy hyk hry
          refine i1 y hy ?_ hry
          rcases Nat.lt_or_ge y k with h | h
          · exact h
          · have : y = k := by omega
            subst this
            exact absurd hry hgk
        · rcases i2 with i2 | ⟨y, hy, q1, q2⟩
          · exact .inl i2
          · exact .inr ⟨y, hy, by omega, q2⟩
        · rcases i3 with i2 | ⟨y, hy, q1, q2⟩
          · exact .inl i2
          · exact .inr ⟨y, hy, by omega, q2⟩)
    (by
      refine ⟨by simp, ?_⟩
      intro g l hg
      rw [List.getElem?_replicate] at hg
      split at hg
      · cases hg
        exact ⟨by intro y hy hk; omega, .inl rfl, .inl rfl⟩
      · cases hg)
  simp only [List.length_zipIdx] at h5
  -- second loop
  obtain ⟨L1, h6, hlen1, h7⟩ := foldlM_total (l := List.range choices.length) (f := limitCopy u) (s := L0)
    (fun k ls => ls.length = choices.length ∧ ∀ c, c < choices.length → ls[c]? = if c < k then L0[root c]? else L0[c]?)
    (by
      intro k hk ls ⟨hl, hinv⟩
      rw [List.length_range] at hk
      rw [List.getElem_range]
      obtain ⟨hf, hlt, hrr⟩ := hr1 k hk
      unfold limitCopy
      have hv : ls[root k]? = L0[root k]? := by
        rw [hinv _ hlt]
        split
        · rw [hrr]
        · rfl
      have hidx : idx ls (root k) "limits[group]" = .ok (L0[root k]'(by rw [hlen0]; exact hlt)) := by
        rw [idx_eq_ok, hv]
        exact List.getElem?_eq_getElem _
      rw [hf, R.bind_ok, hidx, R.bind_ok]
      refine ⟨_, setIdx_eq_ok.2 ⟨by rw [hl]; exact hk, rfl⟩, by simpa using hl, ?_⟩
      intro c hc
      by_cases e : c = k
      · subst e
        rw [List.getElem?_set_self (by rw [hl]; exact hc), if_pos (by omega)]
        exact (List.getElem?_eq_getElem _).symm
      · rw [List.getElem?_set_ne (by omega), hinv c hc]
        by_cases hck : c < k
        · rw [if_pos hck, if_pos (by omega)]
        · rw [if_neg hck, if_neg (by omega)])
    (by exact ⟨hlen0, by intro c _; simp⟩)
  refine ⟨L1, ?_, hlen1, ?_⟩
  · unfold dependentLimits
    rw [h1, R.bind_ok, h2, R.bind_ok, h4, R.bind_ok, h6]
  · intro c l hcl
    have hc : c < choices.length := by rw [← hlen1]; exact (List.getElem?_eq_some_iff.1 hcl).1
    have h8 := h7 c hc
    rw [List.length_range, if_pos hc, hcl] at h8
    obtain ⟨i1, i2, i3⟩ := h5 (root c) l h8.symm
    have hget : ∀ (f : Choice → Nat) y (hy : y < choices.length), (choices[y]?.map f).getD 0 = f choices[y] := by
      intro f y hy
      rw [List.getElem?_eq_getElem hy]; rfl
    refine ⟨⟨?_, ?_⟩, ⟨?_, ?_⟩⟩
    · intro y hy hcon
      rw [hget _ y hy]
      exact (i1 y hy hy ((hr2 c y hc hy).2 hcon).symm).1
    · rcases i2 with i2 | ⟨y, hy, _, q2, q3⟩
      · refine ⟨c, hc, .refl _, ?_⟩
        rw [hget _ c hc]
        have := (i1 c hc hc rfl).1
        omega
      · exact ⟨y, hy, (hr2 c y hc hy).1 q2.symm, by rw [hget _ y hy]; exact q3⟩
    · intro y hy hcon
      rw [hget _ y hy]
      exact (i1 y hy hy ((hr2 c y hc hy).2 hcon).symm).2
    · rcases i3 with i2 | ⟨y, hy, _, q2, q3⟩
      · refine ⟨c, hc, .refl _, ?_⟩
        rw [hget _ c hc]
        have := (i1 c hc hc rfl).2
        have := hmax _ (List.getElem_mem hc)
        omega
      · exact ⟨y, hy, (hr2 c y hc hy).1 q2.symm, by rw [hget _ y hy]; exact q3⟩

/-- `v` is the smallest entry of `row` at the positions in `g`. -/
def Least (row g : List Nat) (v : Nat) : Prop :=
  (∃ y ∈ g, row[y]? = some v) ∧ ∀ y ∈ g, ∀ w, row[y]? = some w → v ≤ w

theorem setAll_fold (v : Nat) : ∀ (g row : List Nat), (∀ y ∈ g, y < row.length) →
    ∃ r, g.foldlM (setAll v) row = .ok r ∧ r.length = row.length ∧
      ∀ c, c < row.length → r[c]? = if c ∈ g then some v else row[c]? := by
  intro g
  induction g with
  | nil => intro row _; exact ⟨row, rfl, rfl, by simp⟩
  | cons y g ih =>
    intro row hr
    rw [List.foldlM_cons]
    unfold setAll
    rw [setIdx_eq_ok.2 ⟨hr y (by simp), rfl⟩, R.bind_ok]
    obtain ⟨r, h1, h2, h3⟩ := ih (row.set y v) (by intro z hz; simpa using hr z (by simp [hz]))
    refine ⟨r, h1, by simpa using h2, ?_⟩
    intro c hc
    rw [h3 c (by simpa using hc)]
    by_cases hcg : c ∈ g
    · simp [hcg]
    · by_cases e : c = y
      · subst e
        simp [hcg, hc]
      · rw [if_neg hcg, if_neg (by simp [e, hcg]), List.getElem?_set_ne (by omega)]

theorem groupPref_spec {row g : List Nat} (hg : g ≠ []) (hr : ∀ y ∈ g, y < row.length) :
    ∃ r v, groupPref row g = .ok r ∧ r.length = row.length ∧ Least row g v ∧
      ∀ c, c < row.length → r[c]? = if c ∈ g then some v else row[c]? := by
  unfold groupPref
  have hm : g.mapM (fun c => idx row c "prefs_row[choice]") = .ok (g.map (fun c => (row[c]?).getD 0)) := by
    apply mapM_eq_ok_of
    intro c hc
    rw [idx_eq_ok, List.getElem?_eq_getElem (hr c hc)]
    rfl
  rw [hm, R.bind_ok]
  obtain ⟨v, hv⟩ : ∃ v, (g.map (fun c => (row[c]?).getD 0)).min? = some v := by
    cases g with
    | nil => exact absurd rfl hg
    | cons a t => exact ⟨_, rfl⟩
  rw [hv]
  obtain ⟨r, h1, h2, h3⟩ := setAll_fold v g row hr
  refine ⟨r, v, h1, h2, ?_, h3⟩
  rw [List.min?_eq_some_iff] at hv
  obtain ⟨q1, q2⟩ := hv
  obtain ⟨y, hy, he⟩ := List.mem_map.1 q1
  have hget : ∀ z ∈ g, row[z]? = some ((row[z]?).getD 0) := by
    intro z hz; rw [List.getElem?_eq_getElem (hr z hz)]; rfl
  refine ⟨⟨y, hy, by rw [hget y hy, he]⟩, ?_⟩
  intro z hz w hw
  have := q2 _ (List.mem_map.2 ⟨z, hz, rfl⟩)
  rw [hw] at this
  exact this

theorem groupsPref_spec : ∀ (gs : List (List Nat)) (row : List Nat), gs.flatten.Nodup → (∀ g ∈ gs, g ≠ []) →
    (∀ g ∈ gs, ∀ y ∈ g, y < row.length) →
    ∃ r, gs.foldlM groupPref row = .ok r ∧ r.length = row.length ∧ ∀ c, c < row.length →
      (∀ g ∈ gs, c ∈ g → ∃ v, r[c]? = some v ∧ Least row g v) ∧ ((∀ g ∈ gs, c ∉ g) → r[c]? = row[c]?) := by
  intro gs
  induction gs with
  | nil => intro row _ _ _; exact ⟨row, rfl, rfl, by intro c _; exact ⟨by simp, fun _ => rfl⟩⟩
  | cons g gs ih =>
    intro row hnd hne hr
    rw [List.flatten_cons, List.nodup_append] at hnd
    obtain ⟨_, hnd2, hdis⟩ := hnd
    obtain ⟨r, v, h1, h2, h3, h4⟩ := groupPref_spec (hne g (by simp)) (hr g (by simp))
    obtain ⟨r', h5, h6, h7⟩ := ih r hnd2 (fun g hg => hne g (by simp [hg]))
      (fun g hg y hy => by rw [h2]; exact hr g (by simp [hg]) y hy)
    refine ⟨r', by rw [List.foldlM_cons, h1, R.bind_ok, h5], h6.trans h2, ?_⟩
    intro c hc
    obtain ⟨i1, i2⟩ := h7 c (by rw [h2]; exact hc)
    have hnot : ∀ g' ∈ gs, ∀ y ∈ g', y ∉ g := by
      intro g' hg' y hy hyg
      exact hdis y hyg y (List.mem_flatten.2 ⟨g', hg', hy⟩) rfl
    have hrow : ∀ g' ∈ gs, ∀ y ∈ g', r[y]? = row[y]? := by
      intro g' hg' y hy
      rw [h4 y (hr g' (by simp [hg']) y hy), if_neg (hnot g' hg' y hy)]
    constructor
    · intro g' hg' hcg
      rcases List.mem_cons.1 hg' with e | e
      · subst e
        refine ⟨v, ?_, h3⟩
        rw [i2 (fun g'' hg'' hc' => hnot g'' hg'' c hc' hcg), h4 c hc, if_pos hcg]
      · obtain ⟨w, q1, ⟨y, hy, q2⟩, q3⟩ := i1 g' e hcg
        refine ⟨w, q1, ⟨y, hy, by rw [← hrow g' e y hy]; exact q2⟩, ?_⟩
        intro z hz w' hw'
        exact q3 z hz w' (by rw [hrow g' e z hz]; exact hw')
    · intro hn
      rw [i2 (fun g' hg' => hn g' (by simp [hg'])), h4 c hc, if_neg (hn g (by simp))]

/-- Chooser `p` is required to be in choice `c`. -/
def Required (cons : List Constraint) (p c : Nat) : Prop :=
  ∃ k ∈ cons, k.kind = .chooserIsInChoice ∧ k.left = p ∧ k.right = .choice c

theorem zero_fold {np nc : Nat} : ∀ (cons : List Constraint) (prefs : List (List Nat)),
    (∀ k ∈ cons, k.kind = .chooserIsInChoice → k.left < np ∧ ∃ y, k.right = .choice y ∧ y < nc) →
    prefs.length = np → (∀ r ∈ prefs, r.length = nc) →
    ∃ prefs', cons.foldlM zeroStep prefs = .ok prefs' ∧ prefs'.length = np ∧ (∀ r ∈ prefs', r.length = nc) ∧
      ∀ p c, p < np → c < nc →
        (Required cons p c → (prefs'[p]?.bind (·[c]?)) = some 0) ∧
        (¬ Required cons p c → (prefs'[p]?.bind (·[c]?)) = (prefs[p]?.bind (·[c]?))) := by
  intro cons
  induction cons with
  | nil =>
    intro prefs _ hl hr
    refine ⟨prefs, rfl, hl, hr, ?_⟩
    intro p c _ _
    refine ⟨?_, fun _ => rfl⟩
    rintro ⟨k, hk, _⟩
    simp at hk
  | cons k cons ih =>
    intro prefs hw hl hr
    have hstep : ∃ prefs1, zeroStep prefs k = .ok prefs1 ∧ prefs1.length = np ∧ (∀ r ∈ prefs1, r.length = nc) ∧
        ∀ p c, p < np → c < nc → (prefs1[p]?.bind (·[c]?)) =
          if k.kind = .chooserIsInChoice ∧ k.left = p ∧ k.right = .choice c then some 0 else (prefs[p]?.bind (·[c]?)) := by
      unfold zeroStep
      by_cases hk : k.kind = .chooserIsInChoice
      · rw [if_pos hk]
        obtain ⟨hkl, y, hy, hyn⟩ := hw k (by simp) hk
        have ho : k.otherChoice = .ok y := by unfold Constraint.otherChoice; rw [hy]
        rw [ho, R.bind_ok, idx_ok (by rw [hl]; exact hkl), R.bind_ok]
        have hrl : (prefs[k.left]'(by rw [hl]; exact hkl)).length = nc := hr _ (List.getElem_mem _)
        rw [setIdx_eq_ok.2 ⟨by rw [hrl]; exact hyn, rfl⟩, R.bind_ok]
        refine ⟨_, setIdx_eq_ok.2 ⟨by rw [hl]; exact hkl, rfl⟩, by simpa using hl, ?_, ?_⟩
        · intro r hmem
          rcases List.mem_or_eq_of_mem_set hmem with h | h
          · exact hr r h
          · rw [h]; simpa using hrl
        · intro p c hp hc
          by_cases hpl : k.left = p
          · subst hpl
            rw [List.getElem?_set_self (by rw [hl]; exact hp)]
            simp only [Option.bind_some]
            by_cases hyc : y = c
            · subst hyc
              rw [List.getElem?_set_self (by rw [hrl]; exact hc), if_pos (by exact ⟨hk, trivial, hy⟩)]
            · rw [List.getElem?_set_ne hyc, if_neg (by rintro ⟨_, _, h⟩; rw [hy] at h; cases h; exact hyc rfl)]
              have hp' : k.left < prefs.length := by rw [hl]; exact hp
              rw [List.getElem?_eq_getElem hp']
              rfl
          · rw [List.getElem?_set_ne hpl, if_neg (by rintro ⟨_, h, _⟩; exact hpl h)]
      · rw [if_neg hk]
        refine ⟨prefs, rfl, hl, hr, ?_⟩
        intro p c _ _
        rw [if_neg (by rintro ⟨h, _⟩; exact hk h)]
    obtain ⟨prefs1, h1, h2, h3, h4⟩ := hstep
    obtain ⟨prefs', h5, h6, h7, h8⟩ := ih prefs1 (fun k hk => hw k (by simp [hk])) h2 h3
    refine ⟨prefs', by rw [List.foldlM_cons, h1, R.bind_ok, h5], h6, h7, ?_⟩
    intro p c hp hc
    obtain ⟨i1, i2⟩ := h8 p c hp hc
    have h4' := h4 p c hp hc
    by_cases hrest : Required cons p c
    · refine ⟨fun _ => i1 hrest, fun hn => absurd ?_ hn⟩
      obtain ⟨k', a, b⟩ := hrest
      exact ⟨k', by simp [a], b⟩
    · rw [i2 hrest, h4']
      constructor
      · rintro ⟨k', hk', q⟩
        rcases List.mem_cons.1 hk' with e | e
        · subst e; rw [if_pos q]
        · exact absurd ⟨k', e, q⟩ hrest
      · intro hn
        rw [if_neg]
        intro q
        exact hn ⟨k, by simp, q⟩

theorem dependentPreferences_spec {nc : Nat} (hn : nc ≤ i32Max) {choosers : List Chooser} {cons : List Constraint}
    (hd : DepWF nc cons)
    (hin : ∀ k ∈ cons, k.kind = .chooserIsInChoice → k.left < choosers.length ∧ ∃ y, k.right = .choice y ∧ y < nc)
    (hl : ∀ c ∈ choosers, c.prefs.length = nc) :
    ∃ prefs, dependentPreferences nc choosers cons = .ok prefs ∧ prefs.length = choosers.length ∧
      (∀ r ∈ prefs, r.length = nc) ∧
      ∀ p c, (hp : p < choosers.length) → c < nc →
        (Required cons p c → (prefs[p]?.bind (·[c]?)) = some 0) ∧
        (¬ Required cons p c → ∃ v, (prefs[p]?.bind (·[c]?)) = some v ∧
          Smallest nc (Connected (SameLink cons)) (fun y => (choosers[p].prefs[y]?).getD 0) c v) := by
  obtain ⟨gs, h1, hpart, _, hconn⟩ := getDependentChoices_spec hn hd
  have hnd : gs.flatten.Nodup := hpart.covers.nodup_iff.2 List.nodup_range
  have hlt : ∀ g ∈ gs, ∀ y ∈ g, y < nc := by
    intro g hg y hy
    exact List.mem_range.1 (hpart.covers.mem_iff.1 (List.mem_flatten.2 ⟨g, hg, hy⟩))
  have hmap : ∀ cs : List Chooser, (∀ c ∈ cs, c.prefs.length = nc) →
      ∃ rows, cs.mapM (fun c => gs.foldlM groupPref c.prefs) = .ok rows ∧ rows.length = cs.length ∧
        (∀ r ∈ rows, r.length = nc) ∧
        ∀ p (hp : p < cs.length) c, c < nc → ∃ v, (rows[p]?.bind (·[c]?)) = some v ∧
          Smallest nc (Connected (SameLink cons)) (fun y => (cs[p].prefs[y]?).getD 0) c v := by
    intro cs
    induction cs with
    | nil => intro _; exact ⟨[], rfl, rfl, by simp, by intro p hp; simp at hp⟩
    | cons ch cs ih =>
      intro hcs
      have hlen := hcs ch (by simp)
      obtain ⟨rows, e1, e2, e3, e4⟩ := ih (fun c hc => hcs c (by simp [hc]))
      obtain ⟨r, q1, q2, q3⟩ := groupsPref_spec gs ch.prefs hnd hpart.nonempty
        (fun g hg y hy => by rw [hlen]; exact hlt g hg y hy)
      refine ⟨r :: rows, by rw [List.mapM_cons, q1, R.bind_ok, e1]; rfl, by simp [e2], ?_, ?_⟩
      · intro r' hr'
        rcases List.mem_cons.1 hr' with e | e
        · rw [e, q2, hlen]
        · exact e3 r' e
      · intro p hp c hc
        cases p with
        | succ p =>
          simp only [List.getElem?_cons_succ, List.getElem_cons_succ]
          exact e4 p (by simpa using hp) c hc
        | zero =>
          simp only [List.getElem?_cons_zero, Option.bind_some, List.getElem_cons_zero]
          obtain ⟨g, hg, hcg, _⟩ := (hconn c c hc hc).2 (.refl _)
          obtain ⟨v, w1, ⟨y, hy, w2⟩, w3⟩ := (q3 c (by rw [hlen]; exact hc)).1 g hg hcg
          have hmem : ∀ z, z < nc → (z ∈ g ↔ Connected (SameLink cons) c z) := by
            intro z hz
            rw [← hconn c z hc hz]
            constructor
            · intro h; exact ⟨g, hg, hcg, h⟩
            · rintro ⟨g', hg', m1, m2⟩
              rw [flatten_unique hnd hg hg' hcg m1]; exact m2
          refine ⟨v, w1, ?_, ?_⟩
          · intro z hz hcz
            have hz' : z < ch.prefs.length := by rw [hlen]; exact hz
            refine w3 z ((hmem z hz).2 hcz) _ ?_
            rw [List.getElem?_eq_getElem hz']; rfl
          · exact ⟨y, hlt g hg y hy, (hmem y (hlt g hg y hy)).1 hy, by rw [w2]; rfl⟩
  obtain ⟨rows, e1, e2, e3, e4⟩ := hmap choosers hl
  obtain ⟨prefs, e5, e6, e7, e8⟩ := zero_fold cons rows hin e2 e3
  refine ⟨prefs, ?_, e6, e7, ?_⟩
  · unfold dependentPreferences
    rw [h1, R.bind_ok, e1, R.bind_ok, e5]
  · intro p c hp hc
    obtain ⟨i1, i2⟩ := e8 p c hp hc
    refine ⟨i1, fun hnr => ?_⟩
    rw [i2 hnr]
    exact e4 p hp c hc

end Wassign
