import Verif.Spec.Rejected
import Verif.Proofs.BuildTotal
import Verif.Proofs.Expr
/-
Why an input is rejected.
-/
namespace Wassign
open Spec Build

/-! ### Names -/

theorem bestMatch_iff {key : Str} {names : List Str} {i : Nat} : BestMatch key names i ↔ i ∈ fuzzyFind key names := by
  rcases fuzzyFind_cases key names with ⟨lvl, h1, h2, h3⟩ | ⟨h1, h2⟩
  · rw [h1, level_spec key names lvl i]
    constructor
    · rintro ⟨lvl', v, hv, hm, hb⟩
      have : lvl' = lvl := by
        rcases Nat.lt_trichotomy lvl'.val lvl.val with h | h | h
        · exact absurd hm (h3 lvl' h v (List.mem_of_getElem? hv))
        · exact Fin.ext h
        · obtain ⟨j, hj⟩ := List.exists_mem_of_ne_nil _ h2
          rw [h1] at hj
          obtain ⟨w, hw, hmw⟩ := (level_spec key names lvl j).1 hj
          exact absurd hmw (hb lvl h w (List.mem_of_getElem? hw))
      subst this
      exact ⟨v, hv, hm⟩
    · rintro ⟨v, hv, hm⟩
      exact ⟨lvl, v, hv, hm, h3⟩
  · rw [h1]
    constructor
    · rintro ⟨lvl', v, hv, hm, _⟩
      exact absurd hm (h2 lvl' v (List.mem_of_getElem? hv))
    · intro h; cases h

theorem findName_unknown {key : Str} {names : List Str} (h : Unknown key names) : findName key names = .ok none := by
  have : fuzzyFind key names = [] := List.eq_nil_iff_forall_not_mem.2 (fun i hi => h i (bestMatch_iff.2 hi))
  unfold findName
  rw [this]
  rfl

theorem findName_only {key : Str} {names : List Str} {i : Nat} (h : OnlyName key names i) : findName key names = .ok (some i) := by
  have hs := fuzzyFind_sorted key names
  have hi := bestMatch_iff.1 h.1
  have ha : ∀ j ∈ fuzzyFind key names, j = i := fun j hj => h.2 j (bestMatch_iff.2 hj)
  have : fuzzyFind key names = [i] := by
    cases hf : fuzzyFind key names with
    | nil => rw [hf] at hi; cases hi
    | cons a t =>
      rw [hf] at ha hs
      have e1 := ha a (by simp)
      cases t with
      | nil => rw [e1]
      | cons b t =>
        have e2 := ha b (by simp)
        have := (List.pairwise_cons.1 hs).1 b (by simp)
        omega
  unfold findName
  rw [this]
  rfl

theorem findName_ambiguous {key : Str} {names : List Str} (h : Ambiguous key names) :
    findName key names = .error (.error (String.ofList ("The name \"".toList ++ key ++ "\" is ambiguous.".toList))) := by
  obtain ⟨i, j, hne, hi, hj⟩ := h
  rw [bestMatch_iff] at hi hj
  unfold findName
  split
  · rename_i a ha
    rw [ha] at hi hj
    rw [List.mem_singleton] at hi hj
    exact absurd (hi.trans hj.symm) hne
  · rename_i ha
    rw [ha] at hi
    cases hi
  · rfl

theorem names_cases (key : Str) (names : List Str) : Unknown key names ∨ (∃ i, OnlyName key names i) ∨ Ambiguous key names := by
  by_cases h : Unknown key names
  · exact .inl h
  · unfold Unknown at h
    rw [not_forall] at h
    obtain ⟨i, hi⟩ := h
    have hi := not_not.1 hi
    by_cases ho : ∀ j, BestMatch key names j → j = i
    · exact .inr (.inl ⟨i, hi, ho⟩)
    · rw [not_forall] at ho
      obtain ⟨j, hj⟩ := ho
      rw [Classical.not_imp] at hj
      exact .inr (.inr ⟨i, j, fun e => hj.2 e.symm, hi, hj.1⟩)

/-! ### Numbers -/

theorem parseUsize_iff {s : Str} {n : Nat} :
    parseUsize s = some n ↔ Numeral s n ∧ s.head? ≠ some '-' ∧ n ≤ 18446744073709551615 := by
  obtain ⟨hplus, hminus⟩ := plusMinus_not_digit
  unfold parseUsize parseUnsigned usizeMax
  cases s with
  | nil =>
    constructor
    · intro h; cases h
    · rintro ⟨h, _⟩
      generalize hv : (n : Int) = v at h
      cases h with
      | plain h _ => exact absurd rfl h
  | cons c rest =>
    simp only [List.head?_cons, ne_eq, Option.some.injEq]
    by_cases hp : c = '+'
    · subst hp
      rw [if_pos rfl]
      by_cases hr : rest = []
      · subst hr
        simp only [List.isEmpty_nil, if_true]
        constructor
        · intro h; cases h
        · rintro ⟨h, _⟩
          generalize hv : (n : Int) = v at h
          cases h with
          | plain _ h => exact absurd (h '+' (by simp)) hplus
          | plus h _ => exact absurd rfl h
      · rw [if_neg (by simpa using hr), digitsVal_zero]
        constructor
        · rintro ⟨h1, rfl, h2⟩
          exact ⟨.plus hr h1, by decide, h2⟩
        · rintro ⟨h, _, h2⟩
          generalize hv : (n : Int) = v at h
          cases h with
          | plain _ h => exact absurd (h '+' (by simp)) hplus
          | plus _ h => exact ⟨h, by omega, h2⟩
    · rw [if_neg hp, digitsVal_zero]
      constructor
      · rintro ⟨h1, rfl, h2⟩
        refine ⟨.plain (by simp) h1, ?_, h2⟩
        rintro rfl
        exact hminus (h1 '-' (by simp))
      · rintro ⟨h, hm, h2⟩
        generalize hv : (n : Int) = v at h
        cases h with
        | plain _ h => exact ⟨h, by omega, h2⟩
        | plus _ _ => exact absurd rfl hp
        | minus _ _ => exact absurd rfl hm

/-! ### The table -/

theorem fits_iff {e : CExpr} : (tableKind e).isSome = true ↔ Fits e.left e.rel e.right := by
  obtain ⟨⟨lk, ls, ln, lp⟩, rel, ⟨rk, rs, rn, rp⟩⟩ := e
  unfold tableKind Fits
  simp only
  cases lk <;> cases ls <;> cases rk <;> cases rs <;> first | (simp; done) | (cases rel <;> simp)

theorem swap_eq (e : CExpr) : e.swap.left = e.right ∧ e.swap.right = e.left ∧ e.swap.rel = e.rel := ⟨rfl, rfl, rfl⟩

/-! ### One side of a constraint -/

/-- The data in which the constraints are resolved. -/
structure Stage (raw : Raw) (d : InputData) : Prop where
  choices : d.choices = blocks 0 raw.choices
  slots : d.slots = if raw.slots.isEmpty then [generatedSlotName] else raw.slots
  choosers : d.choosers.map (·.name) = raw.choosers.map (·.name)

theorem blocks_names : ∀ (ps : List Proto) (o : Nat),
    (blocks o ps).map (·.name) = ps.flatMap (fun p => (List.range (width p)).map (partTitle p)) := by
  intro ps
  induction ps with
  | nil => intro o; rfl
  | cons p ps ih =>
    intro o
    rw [blocks, List.map_append, ih, List.flatMap_cons]
    congr 1
    unfold blockAt
    rw [List.map_map]
    apply List.map_congr_left
    intro j _
    simp only [Function.comp_apply, partTitle, partName]
    split
    · rfl
    · simp

theorem Stage.slotNames {raw : Raw} {d : InputData} (h : Stage raw d) : d.slots = namesFor raw .slot := by
  rw [h.slots]
  unfold namesFor generatedSlotName
  cases raw.slots with
  | nil => rfl
  | cons a t => rfl

theorem Stage.choiceNames {raw : Raw} {d : InputData} (h : Stage raw d) : d.choices.map (·.name) = namesFor raw .choice := by
  rw [h.choices, blocks_names]
  rfl

theorem length_choiceNames (raw : Raw) : (namesFor raw .choice).length = (raw.choices.map width).sum := by
  have := blocks_names raw.choices 0
  show (raw.choices.flatMap _).length = _
  rw [← this, List.length_map, length_blocks]

theorem Stage.walk {raw : Raw} {d : InputData} (h : Stage raw d) {k : Nat} {p : Proto} (hp : raw.choices[k]? = some p) {asked : Nat} :
    ∀ (m j c : Nat), IsPart raw.choices k j c →
    walkParts d asked m c = if j + m < width p then .ok (c + m) else
      .error (.error (String.ofList ("The given choice doesn't have a part ".toList ++ natStr asked ++ ".".toList))) := by
  intro m
  induction m with
  | zero =>
    intro j c hc
    obtain ⟨p', h1, h2, _⟩ := hc
    rw [hp] at h1
    cases h1
    rw [walkParts, if_pos (by omega)]
    rfl
  | succ m ih =>
    intro j c hc
    obtain ⟨p', h1, h2, h3⟩ := id hc
    rw [hp] at h1
    cases h1
    have hget := blocks_get hp h2 0
    rw [← h3, ← h.choices] at hget
    rw [walkParts, idx_eq_ok.2 hget, R.bind_ok]
    simp only
    by_cases hj : j + 1 < width p
    · rw [if_pos hj]
      simp only
      have e : 0 + offset raw.choices k + j + 1 = c + 1 := by omega
      rw [e, ih (j + 1) (c + 1) ⟨p, hp, hj, by omega⟩]
      have e1 : j + 1 + m = j + (m + 1) := by omega
      have e2 : c + 1 + m = c + (m + 1) := by omega
      rw [e1, e2]
    · rw [if_neg hj, if_neg (by omega)]

variable {raw : Raw} {d : InputData}

theorem Stage.resolve_name (h : Stage raw d) {a : Accessor} (hb : ByName a.kind) (hc : a.kind ≠ .choice) :
    resolveAccessor d a = findName a.name (namesFor raw a.kind) := by
  unfold resolveAccessor
  rcases hb with e | e | e
  · rw [e, ← h.slotNames]
  · exact absurd e hc
  · rw [e]
    simp only
    rw [h.choosers]
    rfl

theorem Stage.resolve_choice (h : Stage raw d) {a : Accessor} (hc : a.kind = .choice) :
    resolveAccessor d a = (findName a.name (namesFor raw .choice) >>= fun o => match o with
      | none => pure none
      | some c => do
        let c ← walkParts d a.part a.part c
        pure (some c)) := by
  unfold resolveAccessor
  rw [hc, ← h.choiceNames]
  rfl

theorem Stage.trouble (h : Stage raw d) {a : Accessor} {msg : String} (ht : Trouble raw a msg) :
    resolveAccessor d a = .error (.error msg) := by
  cases ht with
  | ambiguous hb hm =>
    by_cases hc : a.kind = .choice
    · rw [h.resolve_choice hc]
      rw [hc] at hm
      rw [findName_ambiguous hm]
      rfl
    · rw [h.resolve_name hb hc, findName_ambiguous hm]
  | noSuchPart hc ho hp hk hw =>
    rw [h.resolve_choice hc, findName_only ho, R.bind_ok]
    simp only
    rw [h.walk hk _ _ _ hp, if_neg (by omega)]
    rfl
  | noNumber hk hn =>
    unfold resolveAccessor
    rw [hk]
    simp only
    cases hp : parseUsize a.name with
    | none => rfl
    | some n => exact absurd ⟨n, parseUsize_iff.1 hp⟩ hn

theorem Stage.lost (h : Stage raw d) {a : Accessor} (hl : Lost raw a) : resolveAccessor d a = .ok none := by
  obtain ⟨hb, hu⟩ := hl
  by_cases hc : a.kind = .choice
  · rw [h.resolve_choice hc]
    rw [hc] at hu
    rw [findName_unknown hu]
    rfl
  · rw [h.resolve_name hb hc, findName_unknown hu]

theorem Stage.cases (h : Stage raw d) {a : Accessor} (hk : ByName a.kind ∨ a.kind = .integer) :
    (∃ msg, Trouble raw a msg) ∨ Lost raw a ∨ ∃ n, resolveAccessor d a = .ok (some n) := by
  rcases hk with hb | hi
  · rcases names_cases a.name (namesFor raw a.kind) with hu | ⟨i, ho⟩ | ham
    · exact .inr (.inl ⟨hb, hu⟩)
    · by_cases hc : a.kind = .choice
      · rw [hc] at ho
        have hlt : i < (raw.choices.map width).sum := by
          have := findName_lt (findName_only ho)
          rwa [length_choiceNames] at this
        obtain ⟨k, j, hp⟩ := isPart_exists hlt
        obtain ⟨p, hk, _⟩ := id hp
        by_cases hw : j + a.part < width p
        · right; right
          rw [h.resolve_choice hc, findName_only ho, R.bind_ok]
          simp only
          rw [h.walk hk _ _ _ hp, if_pos hw]
          exact ⟨_, rfl⟩
        · exact .inl ⟨_, .noSuchPart hc ho hp hk (by omega)⟩
      · right; right
        rw [h.resolve_name hb hc, findName_only ho]
        exact ⟨_, rfl⟩
    · exact .inl ⟨_, .ambiguous hb ham⟩
  · by_cases hu : Unsigned64 a.name
    · right; right
      obtain ⟨n, hn⟩ := hu
      unfold resolveAccessor
      rw [hi]
      simp only
      rw [parseUsize_iff.2 hn]
      exact ⟨n, rfl⟩
    · exact .inl ⟨_, .noNumber hi hu⟩

/-! ### A constraint -/

theorem fits_kinds {l r : Accessor} {rel : RelT} (h : Fits l rel r) : ByName l.kind ∧ (ByName r.kind ∨ r.kind = .integer) := by
  unfold Fits at h
  unfold ByName
  split at h <;> simp_all

theorem resolveRight_eq {a : Accessor} (hk : ByName a.kind ∨ a.kind = .integer) : resolveRight d a = (resolveAccessor d a >>= fun o =>
    match a.kind, o with
    | .slot, o => pure (o.map .slot)
    | .choice, o => pure (o.map .choice)
    | .chooser, o => pure (o.map .chooser)
    | .integer, some n => do
      let l ← toU32 n "constraint integer must fit in u32"
      pure (some (.limit l))
    | .integer, none => panic' "integer accessors always resolve"
    | _, _ => pure (some .none)) := by
  unfold resolveRight
  rcases hk with (e | e | e) | e <;> rw [e] <;> first | rfl | (simp only; refine congrArg _ (funext fun o => ?_); cases o <;> rfl)

/-- Both sides in the order of the table. -/
theorem buildExpr_sides {e : CExpr} {l r : Accessor} (hs : Sides e l r) : ∃ k x, buildExpr d e = addConstraint d ⟨l, e.rel, r⟩ k x ∧
    tableKind ⟨l, e.rel, r⟩ = some (k, x) := by
  rcases hs with ⟨hf, rfl, rfl⟩ | ⟨hn, hf, rfl, rfl⟩
  · obtain ⟨⟨k, x⟩, hk⟩ := Option.isSome_iff_exists.1 (fits_iff.2 hf)
    refine ⟨k, x, ?_, hk⟩
    unfold buildExpr
    rw [hk]
  · have h0 : tableKind e = none := by
      cases ht : tableKind e with
      | none => rfl
      | some y => exact absurd (fits_iff.1 (by rw [ht]; rfl)) hn
    obtain ⟨⟨k, x⟩, hk⟩ := Option.isSome_iff_exists.1 ((fits_iff (e := e.swap)).2 hf)
    refine ⟨k, x, ?_, hk⟩
    unfold buildExpr
    rw [h0, hk]
    rfl

theorem sides_or (e : CExpr) : (¬ Fits e.left e.rel e.right ∧ ¬ Fits e.right e.rel e.left) ∨ ∃ l r, Sides e l r := by
  by_cases h1 : Fits e.left e.rel e.right
  · exact .inr ⟨_, _, .inl ⟨h1, rfl, rfl⟩⟩
  · by_cases h2 : Fits e.right e.rel e.left
    · exact .inr ⟨_, _, .inr ⟨h1, h2, rfl, rfl⟩⟩
    · exact .inl ⟨h1, h2⟩

theorem sides_fits {e : CExpr} {l r : Accessor} (h : Sides e l r) : Fits l e.rel r := by
  rcases h with ⟨h, rfl, rfl⟩ | ⟨_, h, rfl, rfl⟩ <;> exact h

theorem buildExpr_unsupported {e : CExpr} (h1 : ¬ Fits e.left e.rel e.right) (h2 : ¬ Fits e.right e.rel e.left) :
    buildExpr d e = .error (.error "Unsupported constraint.") := by
  have t1 : tableKind e = none := by
    cases ht : tableKind e with
    | none => rfl
    | some y => exact absurd (fits_iff.1 (by rw [ht]; rfl)) h1
  have t2 : tableKind e.swap = none := by
    cases ht : tableKind e.swap with
    | none => rfl
    | some y => exact absurd ((fits_iff (e := e.swap)).1 (by rw [ht]; rfl)) h2
  unfold buildExpr
  rw [t1, t2]

/-- The sides found: the right one does not stop the build, unless its number is too large. -/
theorem right_found {a : Accessor} (hk : ByName a.kind ∨ a.kind = .integer) {n : Nat} (h : resolveAccessor d a = .ok (some n))
    (hn : a.kind = .integer → ∀ n, parseUsize a.name = some n → n ≤ u32Max) :
    ∃ t, resolveRight d a = .ok (some t) ∧ (a.kind = .slot → t = .slot n) := by
  rw [resolveRight_eq hk, h, R.bind_ok]
  rcases hk with (e | e | e) | e
  · rw [e]; exact ⟨_, rfl, fun _ => rfl⟩
  · rw [e]; exact ⟨_, rfl, fun h => by cases h⟩
  · rw [e]; exact ⟨_, rfl, fun h => by cases h⟩
  · rw [e]
    simp only
    have hp : parseUsize a.name = some n := by
      unfold resolveAccessor at h
      rw [e] at h
      simp only at h
      cases hp : parseUsize a.name with
      | none => rw [hp] at h; cases h
      | some m => rw [hp] at h; cases h; rfl
    rw [toU32_eq_ok.2 ⟨hn e n hp, rfl⟩]
    exact ⟨_, rfl, fun h => by cases h⟩

theorem right_trouble (h : Stage raw d) {a : Accessor} (hk : ByName a.kind ∨ a.kind = .integer) {msg : String}
    (ht : Trouble raw a msg) : resolveRight d a = .error (.error msg) := by
  rw [resolveRight_eq hk, h.trouble ht]
  rfl

theorem right_lost (h : Stage raw d) {a : Accessor} (hl : Lost raw a) : resolveRight d a = .ok none := by
  rw [resolveRight_eq (.inl hl.1), h.lost hl, R.bind_ok]
  rcases hl.1 with e | e | e <;> rw [e] <;> rfl

/-- The numbers of a constraint have 32 bits. -/
def Fit32 (e : CExpr) : Prop := ∀ a, (a = e.left ∨ a = e.right) → a.kind = .integer → ∀ n, parseUsize a.name = some n → n ≤ u32Max

theorem sides_mem {e : CExpr} {l r : Accessor} (h : Sides e l r) : (l = e.left ∨ l = e.right) ∧ (r = e.left ∨ r = e.right) := by
  rcases h with ⟨_, rfl, rfl⟩ | ⟨_, _, rfl, rfl⟩ <;> simp

theorem Stage.bad (h : Stage raw d) {e : CExpr} (h32 : Fit32 e) {msg : String} (hb : Bad raw e msg) :
    ∃ m, buildExpr d e = .error (.error m) := by
  cases hb with
  | unsupported h1 h2 => exact ⟨_, buildExpr_unsupported h1 h2⟩
  | @second l r _ hs ht =>
    obtain ⟨k, x, he, _⟩ := buildExpr_sides (d := d) hs
    rw [he]
    unfold addConstraint
    simp only
    rw [right_trouble h (fits_kinds (sides_fits hs)).2 ht]
    exact ⟨_, rfl⟩
  | @first l r _ hs hl ht =>
    obtain ⟨k, x, he, _⟩ := buildExpr_sides (d := d) hs
    rw [he]
    rcases h.cases (fits_kinds (sides_fits hs)).2 with ⟨m, hm⟩ | hlost | ⟨n, hn⟩
    · unfold addConstraint
      simp only
      rw [right_trouble h (fits_kinds (sides_fits hs)).2 hm]
      exact ⟨_, rfl⟩
    · exact absurd hlost hl
    · obtain ⟨t, ht', _⟩ := right_found (fits_kinds (sides_fits hs)).2 hn (fun hi => h32 r (sides_mem hs).2 hi)
      unfold addConstraint
      simp only
      rw [ht', R.bind_ok]
      simp only
      rw [h.trouble ht]
      exact ⟨_, rfl⟩

/-- What comes of a constraint that is not bad: nothing, if a name is unknown, or the constraint about the objects found. -/
theorem Stage.outcome (h : Stage raw d) {e : CExpr} (h32 : Fit32 e) :
    (∃ msg, buildExpr d e = .error (.error msg) ∧ Bad raw e msg) ∨
    ∃ l r k x, Sides e l r ∧ tableKind ⟨l, e.rel, r⟩ = some (k, x) ∧
      ((buildExpr d e = .ok [] ∧ (Lost raw l ∨ Lost raw r)) ∨
       ∃ n m t, resolveAccessor d l = .ok (some n) ∧ resolveAccessor d r = .ok (some m) ∧ (r.kind = .slot → t = .slot m) ∧
         buildExpr d e = .ok [⟨k, n, t, x⟩]) := by
  rcases sides_or e with ⟨h1, h2⟩ | ⟨l, r, hs⟩
  · exact .inl ⟨_, buildExpr_unsupported h1 h2, .unsupported h1 h2⟩
  · obtain ⟨k, x, he, hk⟩ := buildExpr_sides (d := d) hs
    have hkr := (fits_kinds (sides_fits hs)).2
    have hkl := (fits_kinds (sides_fits hs)).1
    rw [he]
    unfold addConstraint
    simp only
    rcases h.cases hkr with ⟨m, hm⟩ | hlost | ⟨m, hm⟩
    · rw [right_trouble h hkr hm]
      exact .inl ⟨_, rfl, .second hs hm⟩
    · rw [right_lost h hlost]
      exact .inr ⟨l, r, k, x, hs, hk, .inl ⟨rfl, .inr hlost⟩⟩
    · obtain ⟨t, ht, hts⟩ := right_found hkr hm (fun hi => h32 r (sides_mem hs).2 hi)
      rw [ht, R.bind_ok]
      simp only
      rcases h.cases (.inl hkl) with ⟨msg, hmsg⟩ | hlost | ⟨n, hn⟩
      · rw [h.trouble hmsg]
        exact .inl ⟨_, rfl, .first hs (fun hl => by rw [h.lost hl] at hm; cases hm) hmsg⟩
      · rw [h.lost hlost]
        exact .inr ⟨l, r, k, x, hs, hk, .inl ⟨rfl, .inl hlost⟩⟩
      · rw [hn]
        exact .inr ⟨l, r, k, x, hs, hk, .inr ⟨n, m, t, hn, hm, hts, rfl⟩⟩

theorem tableKind_slotsEqual {l r : Accessor} {rel : RelT} {x : Extra} (h : tableKind ⟨l, rel, r⟩ = some (.slotsHaveSameChoices, x)) :
    rel = .eq ∧ l.kind = .slot ∧ l.sub = .choice ∧ r.kind = .slot ∧ r.sub = .choice := by
  unfold tableKind at h
  simp only at h
  split at h <;> first | (cases h; done) | simp_all

theorem only_of_resolved (h : Stage raw d) {a : Accessor} (hk : a.kind = .slot) {n : Nat} (hn : resolveAccessor d a = .ok (some n)) :
    OnlyName a.name (namesFor raw .slot) n := by
  rw [h.resolve_name (.inl hk) (by rw [hk]; decide), hk] at hn
  rcases names_cases a.name (namesFor raw .slot) with hu | ⟨i, ho⟩ | ham
  · rw [findName_unknown hu] at hn; cases hn
  · have := findName_only ho
    rw [hn] at this
    cases this
    exact ho
  · rw [findName_ambiguous ham] at hn; cases hn

theorem Stage.slotsEqual (h : Stage raw d) {e : CExpr} {L : List Constraint} (h32 : Fit32 e) (hL : buildExpr d e = .ok L) :
    (∃ c ∈ L, c.kind = .slotsHaveSameChoices ∧ c.right ≠ .slot c.left) ↔ SlotsEqual raw e := by
  rcases h.outcome h32 with ⟨_, hb, _⟩ | ⟨l, r, k, x, hs, hk, hcase⟩
  · rw [hL] at hb; cases hb
  · constructor
    · rintro ⟨c, hc, hck, hne⟩
      rcases hcase with ⟨hb, _⟩ | ⟨n, m, t, hn, hm, ht, hb⟩
      · rw [hL] at hb; cases hb; cases hc
      · rw [hL] at hb
        cases hb
        rw [List.mem_singleton] at hc
        subst hc
        simp only at hck hne
        subst hck
        obtain ⟨hrel, a1, a2, a3, a4⟩ := tableKind_slotsEqual hk
        have hnm : n ≠ m := by
          rintro rfl
          exact hne (ht a3)
        have o1 := only_of_resolved h a1 hn
        have o2 := only_of_resolved h a3 hm
        rcases hs with ⟨_, rfl, rfl⟩ | ⟨_, _, rfl, rfl⟩
        · exact ⟨hrel, a1, a2, a3, a4, n, m, hnm, o1, o2⟩
        · exact ⟨hrel, a3, a4, a1, a2, m, n, hnm.symm, o2, o1⟩
    · rintro ⟨hrel, a1, a2, a3, a4, t, u, hne, o1, o2⟩
      have hf : Fits e.left e.rel e.right := by unfold Fits; rw [a1, a2, a3, a4]; exact hrel
      have hs' : l = e.left ∧ r = e.right := by
        rcases hs with ⟨_, h⟩ | ⟨hn, _⟩
        · exact h
        · exact absurd hf hn
      obtain ⟨rfl, rfl⟩ := hs'
      have r1 : resolveAccessor d e.left = .ok (some t) := by
        rw [h.resolve_name (.inl a1) (by rw [a1]; decide), a1]; exact findName_only o1
      have r2 : resolveAccessor d e.right = .ok (some u) := by
        rw [h.resolve_name (.inl a3) (by rw [a3]; decide), a3]; exact findName_only o2
      rcases hcase with ⟨_, hl | hl⟩ | ⟨n, m, t', hn, hm, ht, hb⟩
      · rw [h.lost hl] at r1; cases r1
      · rw [h.lost hl] at r2; cases r2
      · rw [r1] at hn
        rw [r2] at hm
        cases hn
        cases hm
        rw [hL] at hb
        cases hb
        refine ⟨_, List.mem_singleton.2 rfl, ?_, ?_⟩
        · have : tableKind ⟨e.left, e.rel, e.right⟩ = some (.slotsHaveSameChoices, .none) := by
            unfold tableKind
            simp only
            rw [a1, a2, a3, a4, hrel]
          rw [hk] at this
          cases this
          rfl
        · rw [ht a3]
          simp only [ne_eq, Target.slot.injEq]
          exact fun e => hne e.symm

/-! ### The input -/

/-- What is wrong with an input. -/
inductive RawReason (raw : Raw) : String → Prop
  | wrongCount {p : Chooser} : p ∈ raw.choosers → p.prefs.length ≠ raw.choices.length →
      RawReason raw (String.ofList ("Wrong number of preferences given for chooser \"".toList ++ p.name ++ "\".".toList))
  | constraint {e : CExpr} {msg : String} : e ∈ raw.exprs → Bad raw e msg → RawReason raw msg
  | slotsEqual {e : CExpr} : e ∈ raw.exprs → SlotsEqual raw e → RawReason raw "The given constraints are not satisfiable."

theorem mapM_error {α β : Type} {f : α → R β} : ∀ {l : List α} {x : Fault}, l.mapM f = .error x → ∃ a ∈ l, f a = .error x := by
  intro l
  induction l with
  | nil => intro x h; cases h
  | cons a t ih =>
    intro x h
    rw [List.mapM_cons] at h
    cases hf : f a with
    | error y => rw [hf] at h; cases h; exact ⟨a, by simp, hf⟩
    | ok b =>
      rw [hf, R.bind_ok] at h
      cases ht : t.mapM f with
      | error y =>
        rw [ht] at h
        cases h
        obtain ⟨a', h1, h2⟩ := ih ht
        exact ⟨a', by simp [h1], h2⟩
      | ok bs => rw [ht] at h; cases h

theorem build_reason (hmax : ∀ p ∈ raw.choices, p.max ≤ u32Max) (hi : (raw.choices.map width).sum ≤ i32Max)
    (hnum : NumbersFit u32Max raw) :
    (∃ msg, build raw = .error (.error msg) ∧ RawReason raw msg) ∨ ((∃ d, build raw = .ok d) ∧ ∀ msg, ¬ RawReason raw msg) := by
  by_cases hcount : ∀ c ∈ raw.choosers, c.prefs.length = raw.choices.length
  · obtain ⟨d1, hch, hsl, hcs, hf, hok⟩ := build_outcome hmax hi hcount
    have hst : Stage raw d1 := ⟨hch, hsl, hcs⟩
    cases hm : raw.exprs.mapM (buildExpr d1) with
    | error f =>
      left
      obtain ⟨e, he, hfe⟩ := mapM_error hm
      rw [hf f hm]
      rcases hst.outcome (hnum e he) with ⟨msg, hb, hbad⟩ | ⟨_, _, _, _, _, _, ⟨hb, _⟩ | ⟨_, _, _, _, _, _, hb⟩⟩
      · rw [hfe] at hb
        cases hb
        exact ⟨msg, rfl, .constraint he hbad⟩
      · rw [hfe] at hb; cases hb
      · rw [hfe] at hb; cases hb
    | ok ex =>
      have hmem : ∀ e ∈ raw.exprs, ∃ L, buildExpr d1 e = .ok L := by
        intro e he
        have : ∀ (l : List CExpr) (ls : List (List Constraint)), l.mapM (buildExpr d1) = .ok ls → e ∈ l →
            ∃ L, buildExpr d1 e = .ok L := by
          intro l
          induction l with
          | nil => intro _ _ h; cases h
          | cons a t ih =>
            intro ls h he
            rw [List.mapM_cons, R.bind_eq_ok] at h
            obtain ⟨b, hb, h⟩ := h
            rw [R.bind_eq_ok] at h
            obtain ⟨bs, hbs, _⟩ := h
            rcases List.mem_cons.1 he with rfl | he
            · exact ⟨b, hb⟩
            · exact ih bs hbs he
        exact this _ _ hm he
      by_cases hs : ∃ c ∈ ex.flatten, c.kind = .slotsHaveSameChoices ∧ c.right ≠ .slot c.left
      · left
        rw [(hok ex hm).1 hs]
        obtain ⟨c, hc, hcc⟩ := hs
        obtain ⟨e, he, L, h1, h2⟩ := (mapM_flatten_mem hm c).1 hc
        exact ⟨_, rfl, .slotsEqual he ((hst.slotsEqual (hnum e he) h1).1 ⟨c, h2, hcc⟩)⟩
      · right
        refine ⟨(hok ex hm).2 hs, ?_⟩
        intro msg hr
        cases hr with
        | wrongCount hp hne => exact hne (hcount _ hp)
        | constraint he hb =>
          obtain ⟨L, hL⟩ := hmem _ he
          obtain ⟨m, hbad⟩ := hst.bad (hnum _ he) hb
          rw [hL] at hbad
          cases hbad
        | slotsEqual he hse =>
          obtain ⟨L, hL⟩ := hmem _ he
          obtain ⟨c, hc, hcc⟩ := (hst.slotsEqual (hnum _ he) hL).2 hse
          exact hs ⟨c, (mapM_flatten_mem hm c).2 ⟨_, he, L, hL, hc⟩, hcc⟩
  · left
    have hex : ∃ c ∈ raw.choosers, c.prefs.length ≠ raw.choices.length := by simpa using hcount
    obtain ⟨c, hc, hne, hb⟩ := build_wrongCount hex
    rw [hb]
    exact ⟨_, rfl, .wrongCount hc hne⟩

end Wassign
