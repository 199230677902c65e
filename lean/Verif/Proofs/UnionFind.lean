import Verif.Model.UnionFind
import Verif.Spec.Connected
import Verif.Proofs.FoldLemmas
import Mathlib.Data.List.Basic
/-
Union-find: `find` is total and canonical; groups are the connected components.
-/
namespace Wassign
open Spec

namespace UF

/-- Parents are in range and of strictly greater height. -/
structure Inv (n : Nat) (u : UF) : Prop where
  plen : u.parents.length = n
  hlen : u.heights.length = n
  up : ∀ (i p hi hp : Nat), u.parents[i]? = some (some p) → u.heights[i]? = some hi → u.heights[p]? = some hp →
    hi < hp
  range : ∀ (i p : Nat), u.parents[i]? = some (some p) → p < n

/-- `r` is the root above `e`. -/
inductive Reach (parents : List (Option Nat)) : Nat → Nat → Prop
  | root {e : Nat} : parents[e]? = some none → Reach parents e e
  | step {e p r : Nat} : parents[e]? = some (some p) → Reach parents p r → Reach parents e r

theorem Reach.det {ps : List (Option Nat)} {e r r' : Nat} (h : Reach ps e r) (h' : Reach ps e r') : r = r' := by
  induction h with
  | root h1 =>
    cases h' with
    | root _ => rfl
    | step h2 _ => rw [h1] at h2; cases h2
  | step h1 _ ih =>
    cases h' with
    | root h2 => rw [h1] at h2; cases h2
    | step h2 h3 => rw [h1] at h2; cases h2; exact ih h3

theorem Reach.isRoot {ps : List (Option Nat)} {e r : Nat} (h : Reach ps e r) : ps[r]? = some none := by
  induction h with
  | root h => exact h
  | step _ _ ih => exact ih

theorem Reach.lt {ps : List (Option Nat)} {e r : Nat} (h : Reach ps e r) : e < ps.length := by
  cases h with
  | root h => exact (List.getElem?_eq_some_iff.1 h).1
  | step h _ => exact (List.getElem?_eq_some_iff.1 h).1

theorem findGo_reach {ps : List (Option Nat)} : ∀ (fuel e r : Nat), findGo ps fuel e = .ok r → Reach ps e r := by
  intro fuel
  induction fuel with
  | zero => intro e r h; cases h
  | succ f ih =>
    intro e r h
    unfold findGo at h
    rw [R.bind_eq_ok] at h
    obtain ⟨x, hx, h⟩ := h
    rw [idx_eq_ok] at hx
    cases x with
    | none => cases h; exact .root hx
    | some p => exact .step hx (ih p r h)

/-- Number of elements higher than height `h`. -/
def higher (u : UF) (h : Nat) : Nat := u.heights.countP (fun x => decide (h < x))

theorem higher_lt {u : UF} {a b : Nat} (hab : a < b) (hb : b ∈ u.heights) : higher u b < higher u a := by
  unfold higher
  have hmono : ∀ (l : List Nat), l.countP (fun x => decide (b < x)) ≤ l.countP (fun x => decide (a < x)) :=
    fun l => List.countP_mono_left (by intro x _ hx; simp at hx ⊢; omega)
  obtain ⟨as, bs, h⟩ := List.append_of_mem hb
  rw [h]
  simp only [List.countP_append, List.countP_cons]
  have h1 := hmono as
  have h2 := hmono bs
  simp [hab]
  omega

theorem findGo_total {n : Nat} {u : UF} (hi : Inv n u) : ∀ (fuel e h : Nat), e < n →
    u.heights[e]? = some h → higher u h < fuel → ∃ r, findGo u.parents fuel e = .ok r := by
  intro fuel
  induction fuel with
  | zero => intro e h _ _ hf; omega
  | succ f ih =>
    intro e h he hh hf
    unfold findGo
    rw [idx_ok (by rw [hi.plen]; exact he), R.bind_ok]
    cases hp : u.parents[e]'(by rw [hi.plen]; exact he) with
    | none => exact ⟨e, rfl⟩
    | some p =>
      have hpe : u.parents[e]? = some (some p) := by
        rw [← hp]; exact List.getElem?_eq_getElem _
      have hpn := hi.range e p hpe
      have hph : u.heights[p]? = some (u.heights[p]'(by rw [hi.hlen]; exact hpn)) :=
        List.getElem?_eq_getElem _
      have hlt := hi.up e p _ _ hpe hh hph
      have := higher_lt (u := u) hlt (List.getElem_mem _)
      exact ih p _ hpn hph (by omega)

theorem find_spec {n : Nat} {u : UF} (hi : Inv n u) {e : Nat} (he : e < n) :
    ∃ r, u.find e = .ok r ∧ Reach u.parents e r ∧ r < n := by
  have hh : u.heights[e]? = some (u.heights[e]'(by rw [hi.hlen]; exact he)) := List.getElem?_eq_getElem _
  obtain ⟨r, hr⟩ := findGo_total hi (u.parents.length + 1) e _ he hh (by
    have : higher u (u.heights[e]'(by rw [hi.hlen]; exact he)) ≤ u.heights.length := List.countP_le_length
    have := hi.plen
    have := hi.hlen
    omega)
  have hreach := findGo_reach _ _ _ hr
  refine ⟨r, ?_, hreach, ?_⟩
  · unfold find
    rw [if_pos (by rw [hi.plen]; exact he)]
    exact hr
  · have := hreach.isRoot
    have := (List.getElem?_eq_some_iff.1 this).1
    rw [hi.plen] at this
    exact this

theorem find_reach {n : Nat} {u : UF} (hi : Inv n u) {e r : Nat} (h : Reach u.parents e r) : u.find e = .ok r := by
  have he : e < n := by have := h.lt; rw [hi.plen] at this; exact this
  obtain ⟨r', h1, h2, _⟩ := find_spec hi he
  rw [h1, h.det h2]

theorem reach_link {ps : List (Option Nat)} {lo hi : Nat} (hlo : ps[lo]? = some none)
    (hhi : ps[hi]? = some none) (hne : lo ≠ hi) {e r : Nat} (h : Reach ps e r) :
    Reach (ps.set lo (some hi)) e (if r = lo then hi else r) := by
  have hl : lo < ps.length := (List.getElem?_eq_some_iff.1 hlo).1
  have hhi' : (ps.set lo (some hi))[hi]? = some none := by
    rw [List.getElem?_set_ne hne]; exact hhi
  induction h with
  | root h =>
    rename_i e
    by_cases hel : e = lo
    · subst hel
      rw [if_pos rfl]
      exact .step (List.getElem?_set_self hl) (.root hhi')
    · rw [if_neg hel]
      exact .root (by rw [List.getElem?_set_ne (Ne.symm hel)]; exact h)
  | step h _ ih =>
    rename_i e p r _
    have hel : lo ≠ e := by rintro rfl; rw [hlo] at h; cases h
    exact .step (by rw [List.getElem?_set_ne hel]; exact h) ih

theorem link_spec {n : Nat} {u : UF} (hi : Inv n u) {lo hg : Nat} (hlo : u.parents[lo]? = some none)
    (hhg : u.parents[hg]? = some none) (hne : lo ≠ hg) :
    ∃ u', u.link lo hg = .ok u' ∧ Inv n u' ∧
      ∀ e r, Reach u.parents e r → Reach u'.parents e (if r = lo then hg else r) := by
  have hl : lo < n := by have := (List.getElem?_eq_some_iff.1 hlo).1; rw [hi.plen] at this; exact this
  have hg' : hg < n := by have := (List.getElem?_eq_some_iff.1 hhg).1; rw [hi.plen] at this; exact this
  unfold link
  rw [idx_ok (by rw [hi.hlen]; exact hl), R.bind_ok, idx_ok (by rw [hi.hlen]; exact hg'), R.bind_ok,
    setIdx_eq_ok.2 ⟨by rw [hi.plen]; exact hl, rfl⟩, R.bind_ok,
    setIdx_eq_ok.2 ⟨by rw [hi.hlen]; exact hg', rfl⟩, R.bind_ok]
  refine ⟨_, rfl, ⟨by simp [hi.plen], by simp [hi.hlen], ?_, ?_⟩, ?_⟩
  · intro i p a b h1 h2 h3
    simp only [List.getElem?_set] at h1 h2 h3
    have hhl := hi.hlen
    have hpl := hi.plen
    by_cases hil : lo = i
    · subst hil
      rw [if_pos rfl, if_pos (by omega)] at h1
      cases h1
      rw [if_pos rfl, if_pos (by omega)] at h3
      rw [if_neg (Ne.symm hne)] at h2
      rw [List.getElem?_eq_getElem (by omega)] at h2
      cases h2; cases h3
      omega
    · rw [if_neg hil] at h1
      by_cases hih : hg = i
      · subst hih; rw [hhg] at h1; cases h1
      · rw [if_neg hih] at h2
        by_cases hph : hg = p
        · subst hph
          rw [if_pos rfl, if_pos (by omega)] at h3
          have := hi.up i hg a _ h1 h2 (List.getElem?_eq_getElem (by omega))
          cases h3
          omega
        · rw [if_neg hph] at h3
          exact hi.up i p a b h1 h2 h3
  · intro i p h1
    simp only [List.getElem?_set] at h1
    by_cases hil : lo = i
    · rw [if_pos hil] at h1
      split at h1
      · cases h1; exact hg'
      · cases h1
    · rw [if_neg hil] at h1
      exact hi.range i p h1
  · intro e r h
    exact reach_link hlo hhg hne h

theorem join_spec {n : Nat} {u : UF} (hi : Inv n u) {a b : Nat} (ha : a < n) (hb : b < n) :
    ∃ u', u.join a b = .ok u' ∧ Inv n u' ∧ ∃ lo hg, (Reach u.parents a lo ∧ Reach u.parents b hg ∨
        Reach u.parents a hg ∧ Reach u.parents b lo) ∧
      ∀ e r, Reach u.parents e r → Reach u'.parents e (if r = lo then hg else r) := by
  obtain ⟨ra, ha1, ha2, ha3⟩ := find_spec hi ha
  obtain ⟨rb, hb1, hb2, hb3⟩ := find_spec hi hb
  unfold join
  rw [ha1, R.bind_ok, hb1, R.bind_ok]
  by_cases hne : ra = rb
  · rw [if_neg (by simp [hne])]
    refine ⟨u, rfl, hi, ra, rb, .inl ⟨ha2, hb2⟩, ?_⟩
    intro e r h
    by_cases her : r = ra
    · rw [if_pos her, ← hne, ← her]; exact h
    · rw [if_neg her]; exact h
  · rw [if_pos hne, idx_ok (by rw [hi.hlen]; exact ha3), R.bind_ok, idx_ok (by rw [hi.hlen]; exact hb3), R.bind_ok]
    split
    · obtain ⟨u', h1, h2, h3⟩ := link_spec hi hb2.isRoot ha2.isRoot (Ne.symm hne)
      exact ⟨u', h1, h2, rb, ra, .inr ⟨ha2, hb2⟩, h3⟩
    · obtain ⟨u', h1, h2, h3⟩ := link_spec hi ha2.isRoot hb2.isRoot hne
      exact ⟨u', h1, h2, ra, rb, .inl ⟨ha2, hb2⟩, h3⟩

theorem new_spec {n : Nat} (hn : n ≤ i32Max) : ∃ u, UF.new n = .ok u ∧ Inv n u ∧
    ∀ e, e < n → Reach u.parents e e := by
  unfold new
  rw [toI32_eq_ok.2 ⟨hn, rfl⟩, R.bind_ok]
  refine ⟨_, rfl, ⟨by simp, by simp, ?_, ?_⟩, ?_⟩
  · intro i p _ _ h
    simp only [List.getElem?_replicate] at h
    split at h <;> cases h
  · intro i p h
    simp only [List.getElem?_replicate] at h
    split at h <;> cases h
  · intro e he
    exact .root (by simp [he])

/-- Same root. -/
def Same (u : UF) (a b : Nat) : Prop := ∃ r, Reach u.parents a r ∧ Reach u.parents b r

/-- The state describes exactly the components of the links `E`. -/
structure Comp (n : Nat) (u : UF) (E : Nat → Nat → Prop) : Prop where
  inv : Inv n u
  same : ∀ a b, a < n → b < n → (Same u a b ↔ Connected E a b)

theorem comp_new {n : Nat} (hn : n ≤ i32Max) : ∃ u, UF.new n = .ok u ∧ Comp n u (fun _ _ => False) := by
  obtain ⟨u, h1, h2, h3⟩ := new_spec hn
  refine ⟨u, h1, h2, ?_⟩
  intro a b ha hb
  constructor
  · rintro ⟨r, h4, h5⟩
    rw [(h3 a ha).det h4, (h3 b hb).det h5]
    exact .refl _
  · intro h
    have : a = b := h.least (fun _ _ h => h.elim) (fun _ => rfl) (fun _ _ h => h.symm) (fun _ _ _ h h' => h.trans h')
    subst this
    exact ⟨a, h3 a ha, h3 a ha⟩

theorem comp_join {n : Nat} {u : UF} {E : Nat → Nat → Prop} (hc : Comp n u E) (hE : ∀ a b, E a b → a < n ∧ b < n)
    {x y : Nat} (hx : x < n) (hy : y < n) :
    ∃ u', u.join x y = .ok u' ∧ Comp n u' (fun a b => E a b ∨ (a = x ∧ b = y)) := by
  obtain ⟨u', h1, h2, lo, hg, h3, h4⟩ := join_spec hc.inv hx hy
  refine ⟨u', h1, h2, ?_⟩
  -- old roots
  have hroot : ∀ e, e < n → ∃ r, Reach u.parents e r := fun e he => by
    obtain ⟨r, _, h, _⟩ := find_spec hc.inv he
    exact ⟨r, h⟩
  have hxy : Same u' x y := by
    rcases h3 with ⟨ha, hb⟩ | ⟨ha, hb⟩
    · refine ⟨hg, by simpa using h4 x lo ha, ?_⟩
      have := h4 y hg hb
      split at this
      · exact this
      · exact this
    · refine ⟨hg, ?_, by simpa using h4 y lo hb⟩
      have := h4 x hg ha
      split at this
      · exact this
      · exact this
  have hold : ∀ a b, Same u a b → Same u' a b := by
    rintro a b ⟨r, ha, hb⟩
    exact ⟨_, h4 a r ha, h4 b r hb⟩
  intro a b ha hb
  constructor
  · rintro ⟨r, h5, h6⟩
    obtain ⟨ra, hra⟩ := hroot a ha
    obtain ⟨rb, hrb⟩ := hroot b hb
    have e1 := (h4 a ra hra).det h5
    have e2 := (h4 b rb hrb).det h6
    have mono : ∀ p q, p < n → q < n → Same u p q → Connected (fun a b => E a b ∨ (a = x ∧ b = y)) p q :=
      fun p q hp hq h => ((hc.same p q hp hq).1 h).mono (fun _ _ h => .inl h)
    have hlink : Connected (fun a b => E a b ∨ (a = x ∧ b = y)) x y := .link (.inr ⟨rfl, rfl⟩)
    by_cases hra' : ra = lo
    · by_cases hrb' : rb = lo
      · exact mono a b ha hb ⟨lo, hra' ▸ hra, hrb' ▸ hrb⟩
      · rw [if_pos hra'] at e1; rw [if_neg hrb'] at e2
        have hrb2 : Reach u.parents b hg := by rw [e1, ← e2]; exact hrb
        have hra2 : Reach u.parents a lo := hra' ▸ hra
        rcases h3 with ⟨p, q⟩ | ⟨p, q⟩
        · exact (mono a x ha hx ⟨lo, hra2, p⟩).trans (hlink.trans (mono y b hy hb ⟨hg, q, hrb2⟩))
        · exact (mono a y ha hy ⟨lo, hra2, q⟩).trans (hlink.symm.trans (mono x b hx hb ⟨hg, p, hrb2⟩))
    · rw [if_neg hra'] at e1
      by_cases hrb' : rb = lo
      · rw [if_pos hrb'] at e2
        have hra2 : Reach u.parents a hg := by rw [e2, ← e1]; exact hra
        have hrb2 : Reach u.parents b lo := hrb' ▸ hrb
        rcases h3 with ⟨p, q⟩ | ⟨p, q⟩
        · exact (mono a y ha hy ⟨hg, hra2, q⟩).trans (hlink.symm.trans (mono x b hx hb ⟨lo, p, hrb2⟩))
        · exact (mono a x ha hx ⟨hg, hra2, p⟩).trans (hlink.trans (mono y b hy hb ⟨lo, q, hrb2⟩))
      · rw [if_neg hrb'] at e2
        exact mono a b ha hb ⟨r, e1 ▸ hra, e2 ▸ hrb⟩
  · intro h
    have key : (a = b) ∨ (a < n ∧ b < n ∧ Same u' a b) := by
      refine h.least (P := fun a b => a = b ∨ (a < n ∧ b < n ∧ Same u' a b)) ?_ (fun _ => .inl rfl) ?_ ?_
      · rintro a b (h | ⟨rfl, rfl⟩)
        · obtain ⟨p, q⟩ := hE a b h
          exact .inr ⟨p, q, hold a b ((hc.same a b p q).2 (.link h))⟩
        · exact .inr ⟨hx, hy, hxy⟩
      · rintro a b (rfl | ⟨p, q, r, s, t⟩)
        · exact .inl rfl
        · exact .inr ⟨q, p, r, t, s⟩
      · rintro a b c (rfl | ⟨p, q, r, s, t⟩) h'
        · exact h'
        · rcases h' with rfl | ⟨p', q', r', s', t'⟩
          · exact .inr ⟨p, q, r, s, t⟩
          · refine .inr ⟨p, q', r, s, ?_⟩
            rw [t.det s']; exact t'
    rcases key with rfl | ⟨_, _, h⟩
    · obtain ⟨r, _, h, _⟩ := find_spec h2 ha
      exact ⟨r, h, h⟩
    · exact h

end UF

/-! ### `BTreeMap` of lists -/

theorem mapPush_keys_lt {α : Type} {m : List (Nat × List α)} {k q : Nat} {v : α}
    (hq : q < k) (h : ∀ e ∈ m, q < e.1) : ∀ e ∈ mapPush m k v, q < e.1 := by
  induction m with
  | nil => intro e he; simp [mapPush] at he; subst he; exact hq
  | cons x t ih =>
    intro e he
    unfold mapPush at he
    split at he
    · rcases List.mem_cons.1 he with rfl | he
      · exact hq
      · exact h e he
    · split at he
      · rcases List.mem_cons.1 he with rfl | he
        · exact h x (List.mem_cons_self)
        · exact h e (List.mem_cons_of_mem _ he)
      · rcases List.mem_cons.1 he with rfl | he
        · exact h _ List.mem_cons_self
        · exact ih (fun e he => h e (List.mem_cons_of_mem _ he)) e he

theorem mapPush_sorted {α : Type} {m : List (Nat × List α)} {k : Nat} {v : α}
    (h : m.Pairwise (fun a b => a.1 < b.1)) : (mapPush m k v).Pairwise (fun a b => a.1 < b.1) := by
  induction m with
  | nil => simp [mapPush]
  | cons x t ih =>
    rw [List.pairwise_cons] at h
    unfold mapPush
    split
    · rename_i hk
      rw [List.pairwise_cons]
      refine ⟨?_, List.pairwise_cons.2 h⟩
      intro e he
      rcases List.mem_cons.1 he with rfl | he
      · exact hk
      · exact Nat.lt_trans hk (h.1 e he)
    · split
      · exact List.pairwise_cons.2 h
      · rename_i h1 h2
        exact List.pairwise_cons.2 ⟨mapPush_keys_lt (by omega) h.1, ih h.2⟩

theorem mem_mapPush {α : Type} {m : List (Nat × List α)} {k : Nat} {v : α}
    (h : m.Pairwise (fun a b => a.1 < b.1)) {q : Nat} {l : List α} :
    (q, l) ∈ mapPush m k v ↔ (q ≠ k ∧ (q, l) ∈ m) ∨
      (q = k ∧ ((∃ l', (k, l') ∈ m ∧ l = l' ++ [v]) ∨ ((∀ l', (k, l') ∉ m) ∧ l = [v]))) := by
  induction m with
  | nil => simp [mapPush]
  | cons x t ih =>
    obtain ⟨xk, xl⟩ := x
    rw [List.pairwise_cons] at h
    unfold mapPush
    split
    · rename_i hk
      have hno : ∀ l', (k, l') ∉ (xk, xl) :: t := by
        intro l' hm
        rcases List.mem_cons.1 hm with e | hm
        · cases e; omega
        · have := h.1 _ hm; simp at this; omega
      constructor
      · intro hm
        rcases List.mem_cons.1 hm with e | hm
        · cases e; exact .inr ⟨rfl, .inr ⟨hno, rfl⟩⟩
        · refine .inl ⟨fun he => ?_, hm⟩
          rw [he] at hm
          exact hno l hm
      · rintro (⟨_, hm⟩ | ⟨rfl, ⟨l', hm, _⟩ | ⟨_, rfl⟩⟩)
        · exact List.mem_cons_of_mem _ hm
        · exact absurd hm (hno l')
        · exact List.mem_cons_self
    · split
      · rename_i _ hk
        subst hk
        have hno : ∀ l', (k, l') ∉ t := by
          intro l' hm
          have := h.1 _ hm; simp at this
        constructor
        · intro hm
          rcases List.mem_cons.1 hm with e | hm
          · cases e; exact .inr ⟨rfl, .inl ⟨xl, List.mem_cons_self, rfl⟩⟩
          · refine .inl ⟨fun he => ?_, List.mem_cons_of_mem _ hm⟩
            rw [he] at hm
            exact hno l hm
        · rintro (⟨hne, hm⟩ | ⟨rfl, ⟨l', hm, rfl⟩ | ⟨hno', _⟩⟩)
          · rcases List.mem_cons.1 hm with e | hm
            · cases e; exact absurd rfl hne
            · exact List.mem_cons_of_mem _ hm
          · rcases List.mem_cons.1 hm with e | hm
            · cases e; exact List.mem_cons_self
            · exact absurd hm (hno l')
          · exact absurd List.mem_cons_self (hno' xl)
      · rename_i h1 h2
        have hxk : xk ≠ k := by omega
        rw [List.mem_cons, ih h.2]
        constructor
        · rintro (e | ⟨hne, hm⟩ | ⟨rfl, ⟨l', hm, rfl⟩ | ⟨hno, rfl⟩⟩)
          · cases e; exact .inl ⟨hxk, List.mem_cons_self⟩
          · exact .inl ⟨hne, List.mem_cons_of_mem _ hm⟩
          · exact .inr ⟨rfl, .inl ⟨l', List.mem_cons_of_mem _ hm, rfl⟩⟩
          · refine .inr ⟨rfl, .inr ⟨?_, rfl⟩⟩
            intro l' hm
            rcases List.mem_cons.1 hm with e | hm
            · cases e; exact hxk rfl
            · exact hno l' hm
        · rintro (⟨hne, hm⟩ | ⟨rfl, ⟨l', hm, rfl⟩ | ⟨hno, rfl⟩⟩)
          · rcases List.mem_cons.1 hm with e | hm
            · exact .inl e
            · exact .inr (.inl ⟨hne, hm⟩)
          · rcases List.mem_cons.1 hm with e | hm
            · cases e; exact absurd rfl hxk
            · exact .inr (.inr ⟨rfl, .inl ⟨l', hm, rfl⟩⟩)
          · exact .inr (.inr ⟨rfl, .inr ⟨fun l' hm => hno l' (List.mem_cons_of_mem _ hm), rfl⟩⟩)

theorem mapPush_flatten {α : Type} (m : List (Nat × List α)) (k : Nat) (v : α) :
    ((mapPush m k v).map (·.2)).flatten.Perm (v :: (m.map (·.2)).flatten) := by
  induction m with
  | nil => simp [mapPush]
  | cons x t ih =>
    obtain ⟨xk, xl⟩ := x
    unfold mapPush
    split
    · simp
    · split
      · simp only [List.map_cons, List.flatten_cons, List.append_assoc, List.singleton_append]
        exact List.perm_middle
      · simp only [List.map_cons, List.flatten_cons]
        exact (List.Perm.append_left xl ih).trans List.perm_middle

/-- What a map built by pushing the elements of `l` (keyed by `key`) contains. -/
structure Grouped {α : Type} (m : List (Nat × List α)) (l : List (Nat × α)) : Prop where
  sorted : m.Pairwise (fun a b => a.1 < b.1)
  mem : ∀ q g, (q, g) ∈ m ↔ g = (l.filter (fun e => e.1 == q)).map (·.2) ∧ g ≠ []

theorem Grouped.nil {α : Type} : Grouped ([] : List (Nat × List α)) [] := by
  refine ⟨by simp, ?_⟩
  intro q g
  simp

theorem Grouped.push {α : Type} {m : List (Nat × List α)} {l : List (Nat × α)} (h : Grouped m l)
    (k : Nat) (v : α) : Grouped (mapPush m k v) (l ++ [(k, v)]) := by
  refine ⟨mapPush_sorted h.sorted, ?_⟩
  intro q g
  rw [mem_mapPush h.sorted]
  simp only [List.filter_append, List.map_append, List.filter_cons, List.filter_nil]
  by_cases hq : q = k
  · subst hq
    simp only [ne_eq, not_true_eq_false, false_and, true_and, false_or, beq_self_eq_true, if_true, List.map_cons,
      List.map_nil]
    constructor
    · rintro (⟨l', hm, rfl⟩ | ⟨hno, rfl⟩)
      · rw [h.mem] at hm
        exact ⟨by rw [hm.1], by simp⟩
      · refine ⟨?_, by simp⟩
        by_contra hne
        have : (l.filter (fun e => e.1 == q)).map (·.2) ≠ [] := by
          intro h0; rw [h0] at hne; simp at hne
        exact hno _ ((h.mem q _).2 ⟨rfl, this⟩)
    · rintro ⟨rfl, _⟩
      by_cases h0 : (l.filter (fun e => e.1 == q)).map (·.2) = []
      · right
        refine ⟨?_, by rw [h0]; rfl⟩
        intro l' hm
        rw [h.mem] at hm
        exact hm.2 (hm.1.trans h0)
      · left
        exact ⟨_, (h.mem q _).2 ⟨rfl, h0⟩, rfl⟩
  · have : ((k == q) = true) = False := by simp; exact fun h => hq h.symm
    simp only [this, if_false, List.map_nil, List.append_nil, hq, ne_eq, not_false_eq_true, true_and,
      false_and, or_false]
    exact h.mem q g

theorem UF.groups_spec {n : Nat} {u : UF} {E : Nat → Nat → Prop} (hc : Comp n u E) :
    ∃ gs, u.groups = .ok gs ∧ Partition n gs ∧
      (∀ g ∈ gs, g.Pairwise (· < ·)) ∧
      (∀ a b, a < n → b < n → ((∃ g ∈ gs, a ∈ g ∧ b ∈ g) ↔ Connected E a b)) := by
  obtain ⟨root, hroot⟩ : ∃ root : Nat → Nat, ∀ e, e < n → Reach u.parents e (root e) :=
    Classical.axiomOfChoice (r := fun e r => e < n → Reach u.parents e r) (fun e => by
      by_cases he : e < n
      · obtain ⟨r, _, h, _⟩ := find_spec hc.inv he
        exact ⟨r, fun _ => h⟩
      · exact ⟨0, fun h => absurd h he⟩)
  have hfind : ∀ e, e < n → u.find e = .ok (root e) := fun e he => find_reach hc.inv (hroot e he)
  obtain ⟨m, h1, h2, h3⟩ := foldlM_total (l := List.range u.parents.length) (f := u.groupStep) (s := [])
    (Inv := fun k acc => Grouped acc ((List.range k).map (fun e => (root e, e))) ∧
      (acc.map (·.2)).flatten.Perm (List.range k))
    (by
      intro k hk acc hacc
      have hk' : k < n := by rw [List.length_range, hc.inv.plen] at hk; exact hk
      simp only [List.getElem_range]
      refine ⟨mapPush acc (root k) k, by unfold groupStep; rw [hfind k hk', R.bind_ok]; rfl, ?_, ?_⟩
      · rw [List.range_succ, List.map_append]
        exact hacc.1.push _ _
      · rw [List.range_succ]
        exact (mapPush_flatten acc _ _).trans ((hacc.2.cons k).trans (List.perm_append_singleton _ _).symm))
    ⟨Grouped.nil, by simp⟩
  rw [List.length_range, hc.inv.plen] at h2 h3
  refine ⟨m.map (·.2), ?_, ⟨?_, h3⟩, ?_, ?_⟩
  · unfold groups
    rw [h1]; rfl
  · intro g hg
    obtain ⟨⟨q, g'⟩, hm, rfl⟩ := List.mem_map.1 hg
    exact ((h2.mem q g').1 hm).2
  · intro g hg
    obtain ⟨⟨q, g'⟩, hm, rfl⟩ := List.mem_map.1 hg
    have := ((h2.mem q g').1 hm).1
    simp only
    rw [this, List.filter_map, List.map_map]
    have hid : ((fun x : Nat × Nat => x.2) ∘ fun e => (root e, e)) = id := by funext e; rfl
    rw [hid, List.map_id]
    exact List.pairwise_lt_range.filter _
  · have hmem : ∀ q g, (q, g) ∈ m → ∀ e, e ∈ g ↔ e < n ∧ root e = q := by
      intro q g hm e
      rw [((h2.mem q g).1 hm).1]
      simp only [List.mem_map, List.mem_filter, List.mem_range, beq_iff_eq]
      constructor
      · rintro ⟨⟨r, e'⟩, ⟨⟨e'', he'', heq⟩, hq⟩, rfl⟩
        cases heq
        exact ⟨he'', hq⟩
      · rintro ⟨he, hq⟩
        exact ⟨(root e, e), ⟨⟨e, he, rfl⟩, hq⟩, rfl⟩
    intro a b ha hb
    rw [← hc.same a b ha hb]
    constructor
    · rintro ⟨g, hg, hga, hgb⟩
      obtain ⟨⟨q, g'⟩, hm, rfl⟩ := List.mem_map.1 hg
      have h5 := (hmem q g' hm a).1 hga
      have h6 := (hmem q g' hm b).1 hgb
      exact ⟨q, h5.2 ▸ hroot a ha, h6.2 ▸ hroot b hb⟩
    · rintro ⟨r, h5, h6⟩
      have e1 := (hroot a ha).det h5
      have e2 := (hroot b hb).det h6
      have hf : a ∈ (m.map (·.2)).flatten := h3.mem_iff.2 (List.mem_range.2 ha)
      obtain ⟨g, hg, hag⟩ := List.mem_flatten.1 hf
      refine ⟨g, hg, hag, ?_⟩
      obtain ⟨⟨q, g'⟩, hm, rfl⟩ := List.mem_map.1 hg
      refine (hmem q g' hm b).2 ⟨hb, ?_⟩
      rw [e2, ← e1]
      exact ((hmem q g' hm a).1 hag).2

end Wassign
