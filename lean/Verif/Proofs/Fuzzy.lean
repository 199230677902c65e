import Mathlib.Data.List.Nodup
import Verif.Model.Expr
import Verif.Spec.Names
/-
fuzzy_match.rs.
-/
namespace Wassign
open Spec

theorem mem_splitGo {w : Str} : ∀ (v cur : Str), ' ' ∉ cur →
    (w ∈ splitGo cur v ↔ IsFirstWord w (cur.reverse ++ v) ∨ ∃ a b, v = a ++ ' ' :: b ∧ IsFirstWord w b) := by
  intro v
  induction v with
  | nil =>
    intro cur hc
    simp only [splitGo, List.mem_singleton, List.append_nil]
    constructor
    · rintro rfl
      exact .inl ⟨[], by simp, by simpa using hc, .inl rfl⟩
    · rintro (⟨b, hb, hw, h | ⟨b', h⟩⟩ | ⟨a, b, h, _⟩)
      · rw [hb, h]; simp
      · exfalso
        have : ' ' ∈ cur.reverse := by rw [hb, h]; simp
        exact hc (by simpa using this)
      · simp at h
  | cons c v ih =>
    intro cur hc
    unfold splitGo
    by_cases hsp : c = ' '
    · rw [if_pos hsp, List.mem_cons, ih [] (by simp)]
      simp only [List.reverse_nil, List.nil_append]
      subst hsp
      constructor
      · rintro (rfl | h | ⟨a, b, rfl, h⟩)
        · exact .inl ⟨' ' :: v, rfl, by simpa using hc, .inr ⟨v, rfl⟩⟩
        · exact .inr ⟨[], v, rfl, h⟩
        · exact .inr ⟨' ' :: a, b, rfl, h⟩
      · rintro (⟨b, hb, hw, h⟩ | ⟨a, b, h, hfw⟩)
        · left
          -- the first space of `cur.reverse ++ ' ' :: v` ends the first word
          have key : ∀ (x y : Str) (p q : Str), ' ' ∉ x → ' ' ∉ y → x ++ ' ' :: p = y ++ q →
              (q = [] ∨ ∃ q', q = ' ' :: q') → y = x := by
            intro x
            induction x with
            | nil =>
              intro y p q _ hy h hq
              cases y with
              | nil => rfl
              | cons d ds =>
                simp only [List.nil_append, List.cons_append, List.cons.injEq] at h
                exact absurd (by rw [h.1]; simp) hy
            | cons d ds ihx =>
              intro y p q hx hy h hq
              cases y with
              | nil =>
                rcases hq with rfl | ⟨q', rfl⟩
                · simp at h
                · simp only [List.nil_append, List.cons_append, List.cons.injEq] at h
                  exact absurd (by rw [h.1]; simp) hx
              | cons e es =>
                simp only [List.cons_append, List.cons.injEq] at h
                rw [ihx es p q (fun hm => hx (List.mem_cons_of_mem _ hm))
                  (fun hm => hy (List.mem_cons_of_mem _ hm)) h.2 hq, h.1]
          exact key _ _ _ _ (by simpa using hc) hw hb h
        · cases a with
          | nil => simp at h; subst h; exact .inr (.inl hfw)
          | cons d ds =>
            simp only [List.cons_append, List.cons.injEq] at h
            exact .inr (.inr ⟨ds, b, h.2, hfw⟩)
    · rw [if_neg hsp, ih (c :: cur) (by simp; exact ⟨fun h => hsp h.symm, hc⟩)]
      simp only [List.reverse_cons, List.append_assoc, List.singleton_append]
      constructor
      · rintro (h | ⟨a, b, rfl, h⟩)
        · exact .inl h
        · exact .inr ⟨c :: a, b, rfl, h⟩
      · rintro (h | ⟨a, b, hh, h⟩)
        · exact .inl h
        · cases a with
          | nil => simp at hh; exact absurd hh.1 hsp
          | cons d ds =>
            simp only [List.cons_append, List.cons.injEq] at hh
            exact .inr ⟨ds, b, hh.2, h⟩

theorem isWord_iff {w v : Str} : IsWord w v ↔ IsFirstWord w v ∨ ∃ a b, v = a ++ ' ' :: b ∧ IsFirstWord w b := by
  constructor
  · rintro ⟨a, b, rfl, hw, ha, hb⟩
    rcases ha with rfl | ⟨a', rfl⟩
    · exact .inl ⟨b, by simp, hw, hb⟩
    · exact .inr ⟨a', w ++ b, by simp, b, rfl, hw, hb⟩
  · rintro (⟨b, rfl, hw, hb⟩ | ⟨a, _, rfl, b, rfl, hw, hb⟩)
    · exact ⟨[], b, by simp, hw, .inl rfl, hb⟩
    · exact ⟨a ++ [' '], b, by simp, hw, .inr ⟨a, rfl⟩, hb⟩

theorem mem_splitWords {w v : Str} : w ∈ splitWords v ↔ IsWord w v := by
  unfold splitWords
  rw [mem_splitGo v [] (by simp), isWord_iff]
  simp

theorem head_splitGo {w : Str} : ∀ (v cur : Str), ' ' ∉ cur →
    (w ∈ (splitGo cur v).take 1 ↔ IsFirstWord w (cur.reverse ++ v)) := by
  intro v
  induction v with
  | nil =>
    intro cur hc
    simp only [splitGo, List.take_succ_cons, List.take_zero, List.mem_singleton, List.append_nil]
    constructor
    · rintro rfl; exact ⟨[], by simp, by simpa using hc, .inl rfl⟩
    · rintro ⟨b, hb, hw, h | ⟨b', h⟩⟩
      · rw [hb, h]; simp
      · exfalso
        have : ' ' ∈ cur.reverse := by rw [hb, h]; simp
        exact hc (by simpa using this)
  | cons c v ih =>
    intro cur hc
    unfold splitGo
    by_cases hsp : c = ' '
    · rw [if_pos hsp]
      simp only [List.take_succ_cons, List.take_zero, List.mem_singleton]
      subst hsp
      constructor
      · rintro rfl
        exact ⟨' ' :: v, rfl, by simpa using hc, .inr ⟨v, rfl⟩⟩
      · rintro ⟨b, hb, hw, h⟩
        have key : ∀ (x y : Str) (p q : Str), ' ' ∉ x → ' ' ∉ y → x ++ ' ' :: p = y ++ q →
            (q = [] ∨ ∃ q', q = ' ' :: q') → y = x := by
          intro x
          induction x with
          | nil =>
            intro y p q _ hy h hq
            cases y with
            | nil => rfl
            | cons d ds =>
              simp only [List.nil_append, List.cons_append, List.cons.injEq] at h
              exact absurd (by rw [h.1]; simp) hy
          | cons d ds ihx =>
            intro y p q hx hy h hq
            cases y with
            | nil =>
              rcases hq with rfl | ⟨q', rfl⟩
              · simp at h
              · simp only [List.nil_append, List.cons_append, List.cons.injEq] at h
                exact absurd (by rw [h.1]; simp) hx
            | cons e es =>
              simp only [List.cons_append, List.cons.injEq] at h
              rw [ihx es p q (fun hm => hx (List.mem_cons_of_mem _ hm))
                (fun hm => hy (List.mem_cons_of_mem _ hm)) h.2 hq, h.1]
        exact key _ _ _ _ (by simpa using hc) hw hb h
    · rw [if_neg hsp, ih (c :: cur) (by simp; exact ⟨fun h => hsp h.symm, hc⟩)]
      simp only [List.reverse_cons, List.append_assoc, List.singleton_append]

theorem isPrefix_iff {a b : Str} : isPrefix a b = true ↔ ∃ t, b = a ++ t := by
  induction a generalizing b with
  | nil => simp [isPrefix]
  | cons x xs ih =>
    cases b with
    | nil => simp [isPrefix]
    | cons y ys =>
      simp only [isPrefix, Bool.and_eq_true, beq_iff_eq, ih, List.cons_append, List.cons.injEq]
      constructor
      · rintro ⟨rfl, t, rfl⟩; exact ⟨t, rfl, rfl⟩
      · rintro ⟨t, rfl, rfl⟩; exact ⟨rfl, t, rfl⟩

theorem containsStr_iff {key v : Str} : containsStr key v = true ↔ Occurs key v := by
  induction v with
  | nil =>
    simp only [containsStr, List.isEmpty_iff, Occurs]
    constructor
    · rintro rfl; exact ⟨[], [], rfl⟩
    · rintro ⟨a, b, h⟩
      simp at h; exact h.2.1
  | cons c v ih =>
    simp only [containsStr, Bool.or_eq_true, isPrefix_iff, ih, Occurs]
    constructor
    · rintro (⟨t, h⟩ | ⟨a, b, rfl⟩)
      · exact ⟨[], t, by simpa using h⟩
      · exact ⟨c :: a, b, rfl⟩
    · rintro ⟨a, b, h⟩
      cases a with
      | nil => exact .inl ⟨b, by simpa using h⟩
      | cons d ds =>
        simp only [List.cons_append, List.cons.injEq] at h
        exact .inr ⟨ds, b, h.2⟩

theorem mem_indicesWhere {p : Str → Bool} {values : List Str} {j : Nat} :
    j ∈ indicesWhere p values ↔ ∃ v, values[j]? = some v ∧ p v = true := by
  unfold indicesWhere
  simp only [List.mem_map, List.mem_filter]
  constructor
  · rintro ⟨⟨v, k⟩, ⟨h1, h2⟩, rfl⟩
    exact ⟨v, List.mk_mem_zipIdx_iff_getElem?.1 h1, h2⟩
  · rintro ⟨v, h1, h2⟩
    exact ⟨(v, j), ⟨List.mk_mem_zipIdx_iff_getElem?.2 h1, h2⟩, rfl⟩

theorem indicesWhere_sorted (p : Str → Bool) (values : List Str) :
    (indicesWhere p values).Pairwise (· < ·) := by
  unfold indicesWhere
  rw [List.pairwise_map]
  refine List.Pairwise.filter _ ?_
  rw [List.pairwise_iff_getElem]
  intro i j hi hj hij
  simp only [List.getElem_zipIdx]
  omega

/-- The candidate lists of the four levels. -/
theorem level_spec (key : Str) (values : List Str) (lvl : Fin 4) :
    ∀ j, j ∈ ([findExact key values, findByToken key values true, findByToken key values false,
      findBySubstring key values])[lvl.val]'(by simp) ↔ ∃ v, values[j]? = some v ∧ Matches lvl key v := by
  intro j
  match lvl with
  | 0 =>
    show j ∈ findExact key values ↔ _
    unfold findExact
    rw [mem_indicesWhere]
    simp [Matches]
  | 1 =>
    show j ∈ findByToken key values true ↔ _
    unfold findByToken
    rw [mem_indicesWhere]
    have : ∀ v, (((splitWords v).take 1).any (fun t => t == key)) = true ↔ IsFirstWord key v := by
      intro v
      have h := head_splitGo (w := key) v [] (by simp)
      simp only [List.reverse_nil, List.nil_append] at h
      rw [← h, List.any_eq_true]
      constructor
      · rintro ⟨x, hx, he⟩; rw [← beq_iff_eq.1 he]; exact hx
      · intro hx; exact ⟨key, hx, by simp⟩
    simp only [if_true, this]
    rfl
  | 2 =>
    show j ∈ findByToken key values false ↔ _
    unfold findByToken
    rw [mem_indicesWhere]
    have : ∀ v, ((splitWords v).any (fun t => t == key)) = true ↔ IsWord key v := by
      intro v
      rw [← mem_splitWords]
      simp
    simp only [Bool.false_eq_true, if_false, this]
    rfl
  | 3 =>
    show j ∈ findBySubstring key values ↔ _
    unfold findBySubstring
    rw [mem_indicesWhere]
    simp only [containsStr_iff]
    rfl

theorem fuzzyFind_cases (key : Str) (values : List Str) :
    (∃ lvl : Fin 4, fuzzyFind key values = ([findExact key values, findByToken key values true,
        findByToken key values false, findBySubstring key values])[lvl.val]'(by simp) ∧
      fuzzyFind key values ≠ [] ∧
      ∀ l' : Fin 4, l' < lvl → ∀ v ∈ values, ¬ Matches l' key v) ∨
    (fuzzyFind key values = [] ∧ ∀ l : Fin 4, ∀ v ∈ values, ¬ Matches l key v) := by
  have hempty : ∀ l : Fin 4, ([findExact key values, findByToken key values true,
      findByToken key values false, findBySubstring key values])[l.val]'(by simp) = [] →
      ∀ v ∈ values, ¬ Matches l key v := by
    intro l h v hv hm
    obtain ⟨j, hj⟩ := List.mem_iff_getElem?.1 hv
    have := (level_spec key values l j).2 ⟨v, hj, hm⟩
    rw [h] at this
    cases this
  have e0 := hempty 0
  have e1 := hempty 1
  have e2 := hempty 2
  have e3 := hempty 3
  simp only [Fin.val_zero, List.getElem_cons_zero] at e0
  have e1' : findByToken key values true = [] → ∀ v ∈ values, ¬ Matches 1 key v := e1
  have e2' : findByToken key values false = [] → ∀ v ∈ values, ¬ Matches 2 key v := e2
  have e3' : findBySubstring key values = [] → ∀ v ∈ values, ¬ Matches 3 key v := e3
  unfold fuzzyFind
  by_cases h0 : findExact key values = []
  · by_cases h1 : findByToken key values true = []
    · by_cases h2 : findByToken key values false = []
      · by_cases h3 : findBySubstring key values = []
        · right
          refine ⟨by simp [h0, h1, h2, h3], ?_⟩
          intro l
          match l with
          | 0 => exact e0 h0
          | 1 => exact e1' h1
          | 2 => exact e2' h2
          | 3 => exact e3' h3
        · left
          have hf : (match [findExact key values, findByToken key values true, findByToken key values false,
              findBySubstring key values].find? (fun m => !m.isEmpty) with
              | some m => m | none => []) = findBySubstring key values := by simp [h0, h1, h2, h3]
          refine ⟨3, hf, fun h => h3 (hf.symm.trans h), ?_⟩
          intro l' hl
          match l', hl with
          | 0, _ => exact e0 h0
          | 1, _ => exact e1' h1
          | 2, _ => exact e2' h2
      · left
        have hf : (match [findExact key values, findByToken key values true, findByToken key values false,
            findBySubstring key values].find? (fun m => !m.isEmpty) with
            | some m => m | none => []) = findByToken key values false := by simp [h0, h1, h2]
        refine ⟨2, hf, fun h => h2 (hf.symm.trans h), ?_⟩
        intro l' hl
        match l', hl with
        | 0, _ => exact e0 h0
        | 1, _ => exact e1' h1
    · left
      refine ⟨1, by simp [h0, h1], by simp [h0, h1], ?_⟩
      intro l' hl
      match l', hl with
      | 0, _ => exact e0 h0
  · left
    refine ⟨0, by simp [h0], by simp [h0], ?_⟩
    intro l' hl
    exact absurd hl (by omega)

theorem fuzzyFind_sorted (key : Str) (values : List Str) : (fuzzyFind key values).Pairwise (· < ·) := by
  unfold fuzzyFind
  split
  · rename_i m h
    have := List.mem_of_find?_eq_some h
    simp only [List.mem_cons, List.not_mem_nil, or_false] at this
    rcases this with rfl | rfl | rfl | rfl <;> exact indicesWhere_sorted _ _
  · exact .nil

theorem fuzzyFind_lt {key : Str} {values : List Str} {j : Nat} (h : j ∈ fuzzyFind key values) : j < values.length := by
  rcases fuzzyFind_cases key values with ⟨lvl, h1, _⟩ | ⟨h1, _⟩
  · rw [h1] at h
    obtain ⟨v, hv, _⟩ := (level_spec key values lvl j).1 h
    exact (List.getElem?_eq_some_iff.1 hv).1
  · rw [h1] at h; cases h

theorem findName_lt {name : Str} {values : List Str} {j : Nat} (h : findName name values = .ok (some j)) :
    j < values.length := by
  unfold findName at h
  split at h
  · rename_i i hi
    simp at h
    subst h
    exact fuzzyFind_lt (by rw [hi]; simp)
  · cases h
  · cases h

/-- A unique exact name resolves to its own position. -/
theorem findName_exact {name : Str} {values : List Str} {j : Nat} (hn : values.Nodup)
    (h : values[j]? = some name) : findName name values = .ok (some j) := by
  have hmem : ∀ k, k ∈ fuzzyFind name values ↔ k = j := by
    rcases fuzzyFind_cases name values with ⟨lvl, h1, _, h3⟩ | ⟨_, h1⟩
    · have hl : lvl = 0 := by
        apply Classical.byContradiction
        intro hne
        exact h3 0 (by omega) name (List.mem_iff_getElem?.2 ⟨j, h⟩) rfl
      subst hl
      intro k
      rw [h1, level_spec name values 0 k]
      constructor
      · rintro ⟨v, hv, hm⟩
        have hm' : v = name := hm
        subst hm'
        obtain ⟨hk, hke⟩ := List.getElem?_eq_some_iff.1 hv
        obtain ⟨hj, hje⟩ := List.getElem?_eq_some_iff.1 h
        exact (hn.getElem_inj_iff).1 (hke.trans hje.symm)
      · rintro rfl; exact ⟨name, h, rfl⟩
    · exact absurd rfl (h1 0 name (List.mem_iff_getElem?.2 ⟨j, h⟩))
  have hs := fuzzyFind_sorted name values
  have : fuzzyFind name values = [j] := by
    cases hf : fuzzyFind name values with
    | nil => rw [hf] at hmem; exact absurd ((hmem j).2 rfl) (by simp)
    | cons a t =>
      rw [hf] at hmem hs
      have ha : a = j := (hmem a).1 (by simp)
      cases t with
      | nil => rw [ha]
      | cons b t =>
        have hb : b = j := (hmem b).1 (by simp)
        have := (List.pairwise_cons.1 hs).1 b (by simp)
        omega
  unfold findName
  rw [this]
  rfl

/-- A name that is there is not found anywhere else. -/
theorem findName_present {name : Str} {values : List Str} {j : Nat} (h : values[j]? = some name) {x : Option Nat}
    (hf : findName name values = .ok x) : x = some j := by
  have hmem : j ∈ fuzzyFind name values := by
    rcases fuzzyFind_cases name values with ⟨lvl, h1, _, h3⟩ | ⟨_, h1⟩
    · have hl : lvl = 0 := by
        apply Classical.byContradiction
        intro hne
        exact h3 0 (by omega) name (List.mem_iff_getElem?.2 ⟨j, h⟩) rfl
      subst hl
      rw [h1, level_spec name values 0 j]
      exact ⟨name, h, rfl⟩
    · exact absurd rfl (h1 0 name (List.mem_iff_getElem?.2 ⟨j, h⟩))
  unfold findName at hf
  split at hf
  · rename_i i hi
    rw [hi] at hmem
    cases hf
    rw [List.mem_singleton.1 hmem]
  · rename_i hi
    rw [hi] at hmem
    cases hmem
  · cases hf

end Wassign
