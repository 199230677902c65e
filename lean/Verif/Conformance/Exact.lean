import Verif.Conformance.Runner
import Verif.Props.Lp
import Mathlib.Tactic.Linarith
import Mathlib.Tactic.Ring
/-
The solver with which the tests are replayed (Runner.lean) is an exact solver of integer programs: what is assumed of a MIP solver
(Spec/Lp.lean) is met by a program that can be run, and not only by an oracle (LpEx.ideal).
-/
namespace Wassign.Conf
open Lp Spec Wassign

def shift (v : Var) (x : Int) (cs : List Int) (rs : List Open) : List Open :=
  List.zipWith (fun c r => ⟨r.miss - c * x, r.lo - (span v c).1, r.hi - (span v c).2⟩) cs rs

/-- The open rows can hold: the missing part is within the range of what the open variables contribute. -/
def InRange (rs : List Open) : Prop := ∀ r ∈ rs, r.lo ≤ r.miss ∧ r.miss ≤ r.hi

theorem assign_some {v : Var} {x : Int} : ∀ {cs : List Int} {rs : List Open}, InRange (shift v x cs rs) →
    assign v x cs rs = some (shift v x cs rs)
  | [], rs, _ => by simp [assign, shift]
  | _ :: _, [], _ => by simp [assign, shift]
  | c :: cs, r :: rs, h => by
    have h' : InRange (shift v x cs rs) := fun q hq => h q (by simp only [shift, List.zipWith_cons_cons]; exact List.mem_cons_of_mem _ hq)
    have h0 := h ⟨r.miss - c * x, r.lo - (span v c).1, r.hi - (span v c).2⟩ (by simp [shift])
    simp only at h0
    simp only [assign]
    rw [if_pos h0, assign_some h']
    simp [shift]

theorem assign_none {v : Var} {x : Int} : ∀ {cs : List Int} {rs : List Open}, ¬ InRange (shift v x cs rs) →
    assign v x cs rs = none
  | [], rs, h => absurd (fun _ hq => by simp [shift] at hq) h
  | _ :: _, [], h => absurd (fun _ hq => by simp [shift] at hq) h
  | c :: cs, r :: rs, h => by
    simp only [assign]
    split
    · next h0 =>
      rw [assign_none]
      · rfl
      · intro h'
        apply h
        intro q hq
        simp only [shift, List.zipWith_cons_cons, List.mem_cons] at hq
        rcases hq with rfl | hq
        · exact h0
        · exact h' q hq
    · rfl

/-- `xs` are values for the open variables that meet the rows. -/
def Fits : List Col → List Open → List Int → Prop
  | [], rows, [] => ∀ r ∈ rows, r.miss = 0
  | c :: cs, rows, x :: xs => (c.var.lo ≤ x ∧ x ≤ c.var.hi) ∧ Fits cs (shift c.var x c.col rows) xs
  | _, _, _ => False

/-- The ranges of the rows are those of the open variables. -/
def Ranged : List Col → List Open → Prop
  | [], rows => ∀ r ∈ rows, r.lo = 0 ∧ r.hi = 0
  | c :: cs, rows => c.col.length = rows.length ∧ ∀ x, Ranged cs (shift c.var x c.col rows)

theorem span_spec {v : Var} {c x : Int} (h : v.lo ≤ x ∧ x ≤ v.hi) : (span v c).1 ≤ c * x ∧ c * x ≤ (span v c).2 := by
  unfold span
  split
  · next hc => exact ⟨mul_le_mul_of_nonneg_left h.1 hc, mul_le_mul_of_nonneg_left h.2 hc⟩
  · next hc =>
    have hc : c ≤ 0 := by omega
    exact ⟨mul_le_mul_of_nonpos_left h.2 hc, mul_le_mul_of_nonpos_left h.1 hc⟩

theorem fits_inRange : ∀ {cols : List Col} {rows : List Open} {xs : List Int}, Ranged cols rows → Fits cols rows xs → InRange rows
  | [], rows, [], hr, hf => fun r h => by
    have := hr r h
    have := hf r h
    omega
  | [], _, _ :: _, _, hf => hf.elim
  | _ :: _, _, [], _, hf => hf.elim
  | c :: cs, rows, x :: xs, hr, hf => by
    have ih := fits_inRange (hr.2 x) hf.2
    intro r hmem
    obtain ⟨j, hj, rfl⟩ := List.getElem_of_mem hmem
    have hjc : j < c.col.length := by rw [hr.1]; exact hj
    have h := ih ((shift c.var x c.col rows)[j]'(by simp [shift]; omega)) (List.getElem_mem _)
    simp only [shift, List.getElem_zipWith] at h
    have hs := span_spec (c := c.col[j]) hf.1
    omega

def cost : List Col → List Int → Int
  | c :: cs, x :: xs => c.cost * x + cost cs xs
  | _, _ => 0

/-- `o` is a cheapest choice among those that satisfy `P`, or there is none. -/
def Cheapest (P : List Int → Prop) (price : List Int → Int) (o : Option (Int × List Int)) : Prop :=
  match o with
  | none => ∀ y, ¬ P y
  | some r => P r.2 ∧ r.1 = price r.2 ∧ ∀ y, P y → r.1 ≤ price y

theorem better_spec {P Q : List Int → Prop} {price : List Int → Int} {a b : Option (Int × List Int)}
    (ha : Cheapest P price a) (hb : Cheapest Q price b) : Cheapest (fun y => P y ∨ Q y) price (better a b) := by
  match a, b with
  | none, none => exact fun y h => h.elim (ha y) (hb y)
  | none, some r => exact ⟨.inr hb.1, hb.2.1, fun y h => h.elim (fun h => absurd h (ha y)) (hb.2.2 y)⟩
  | some r, none => exact ⟨.inl ha.1, ha.2.1, fun y h => h.elim (ha.2.2 y) (fun h => absurd h (hb y))⟩
  | some r, some q =>
    simp only [better]
    split
    · next h =>
      refine ⟨.inr hb.1, hb.2.1, fun y hy => hy.elim (fun hy => ?_) (hb.2.2 y)⟩
      have := ha.2.2 y hy
      omega
    · next h =>
      refine ⟨.inl ha.1, ha.2.1, fun y hy => hy.elim (ha.2.2 y) (fun hy => ?_)⟩
      have := hb.2.2 y hy
      omega

theorem values_spec {P : Int → List Int → Prop} {price : List Int → Int} {f : Int → Option (Int × List Int)} :
    ∀ (n : Nat) (x : Int), (∀ y, x ≤ y → y < x + n → Cheapest (P y) price (f y)) →
      Cheapest (fun z => ∃ y, (x ≤ y ∧ y < x + n) ∧ P y z) price (values f n x)
  | 0, x, _ => fun z ⟨y, h, _⟩ => by omega
  | n + 1, x, h => by
    have h1 := h x (by omega) (by omega)
    have h2 := values_spec (P := P) (price := price) (f := f) n (x + 1) (fun y h3 h4 => h y (by omega) (by push_cast; omega))
    have h3 := better_spec h1 h2
    have he : (fun z => P x z ∨ ∃ y, (x + 1 ≤ y ∧ y < x + 1 + n) ∧ P y z) =
        (fun z => ∃ y, (x ≤ y ∧ y < x + ((n + 1 : Nat) : Int)) ∧ P y z) := by
      funext z
      apply propext
      constructor
      · rintro (h | ⟨y, h, hp⟩)
        · exact ⟨x, ⟨by omega, by push_cast; omega⟩, h⟩
        · exact ⟨y, ⟨by omega, by push_cast; omega⟩, hp⟩
      · rintro ⟨y, h, hp⟩
        push_cast at h
        rcases eq_or_ne y x with rfl | hne
        · exact .inl hp
        · exact .inr ⟨y, ⟨by omega, by omega⟩, hp⟩
    rw [he] at h3
    exact h3

theorem search_spec : ∀ {cols : List Col} {rows : List Open}, Ranged cols rows →
    Cheapest (Fits cols rows) (cost cols) (search cols rows)
  | [], rows, _ => by
    simp only [search]
    split
    · next h =>
      have h : ∀ r ∈ rows, r.miss = 0 := by simpa using h
      refine ⟨h, rfl, fun y hy => ?_⟩
      match y, hy with
      | [], _ => exact le_refl _
    · next h =>
      intro y hy
      match y, hy with
      | [], hy =>
        apply h
        have hy : ∀ r ∈ rows, r.miss = 0 := hy
        simpa using hy
  | c :: cs, rows, hr => by
    simp only [search]
    have hv := values_spec
      (P := fun x z => ∃ xs, z = x :: xs ∧ Fits cs (shift c.var x c.col rows) xs) (price := cost (c :: cs))
      (f := fun x =>
        match assign c.var x c.col rows with
        | none => none
        | some rows' => (search cs rows').map (fun r => (c.cost * x + r.1, x :: r.2)))
      ((c.var.hi - c.var.lo + 1).toNat) c.var.lo (by
        intro x _ _
        by_cases hin : InRange (shift c.var x c.col rows)
        · rw [assign_some hin]
          have ih := search_spec (hr.2 x)
          simp only
          match hs : search cs (shift c.var x c.col rows), ih with
          | none, ih => exact fun z ⟨xs, _, hf⟩ => ih xs hf
          | some r, ih =>
            refine ⟨⟨r.2, rfl, ih.1⟩, ?_, ?_⟩
            · simp only [cost, ih.2.1]
            · rintro z ⟨xs, rfl, hf⟩
              have := ih.2.2 xs hf
              simp only [cost]
              omega
        · rw [assign_none hin]
          exact fun z ⟨xs, _, hf⟩ => hin (fits_inRange (hr.2 x) hf))
    have he : (fun z => ∃ y, (c.var.lo ≤ y ∧ y < c.var.lo + ((c.var.hi - c.var.lo + 1).toNat : Nat)) ∧
        ∃ xs, z = y :: xs ∧ Fits cs (shift c.var y c.col rows) xs) = Fits (c :: cs) rows := by
      funext z
      apply propext
      constructor
      · rintro ⟨y, h, xs, rfl, hf⟩
        exact ⟨⟨h.1, by omega⟩, hf⟩
      · intro h
        match z, h with
        | x :: xs, h => exact ⟨x, ⟨h.1.1, by have := h.1; omega⟩, xs, rfl, h.2⟩
    rw [he] at hv
    exact hv

/-! ## The columns of a program -/

/-- What the open variables contribute to row `j`. -/
def contrib (cols : List Col) (xs : List Int) (j : Nat) : Int :=
  (List.zipWith (fun c x => (c.col[j]?.getD 0) * x) cols xs).sum

theorem fits_iff : ∀ {cols : List Col} {rows : List Open} {xs : List Int}, (∀ c ∈ cols, c.col.length = rows.length) →
    (Fits cols rows xs ↔ xs.length = cols.length ∧
      (∀ k c, cols[k]? = some c → c.var.lo ≤ val xs k ∧ val xs k ≤ c.var.hi) ∧
      ∀ j r, rows[j]? = some r → contrib cols xs j = r.miss)
  | [], rows, [], _ => by
    simp only [Fits, contrib, List.zipWith_nil_left, List.sum_nil]
    constructor
    · intro h
      exact ⟨rfl, by simp, fun j r hj => (h r (List.mem_of_getElem? hj)).symm⟩
    · rintro ⟨_, _, h⟩ r hr
      obtain ⟨j, hj, rfl⟩ := List.getElem_of_mem hr
      exact (h j _ (List.getElem?_eq_getElem hj)).symm
  | [], rows, _ :: _, _ => by simp [Fits]
  | _ :: _, rows, [], _ => by simp [Fits]
  | c :: cs, rows, x :: xs, hl => by
    have hc : c.col.length = rows.length := hl c (by simp)
    have hlen : (shift c.var x c.col rows).length = rows.length := by simp [shift, hc]
    have ih := fits_iff (cols := cs) (rows := shift c.var x c.col rows) (xs := xs)
      (fun d hd => by rw [hlen]; exact hl d (by simp [hd]))
    simp only [Fits]
    rw [ih]
    have hrows : (∀ j r, (shift c.var x c.col rows)[j]? = some r → contrib cs xs j = r.miss) ↔
        ∀ j r, rows[j]? = some r → contrib (c :: cs) (x :: xs) j = r.miss := by
      constructor
      · intro h j r hj
        have hj' : j < rows.length := (List.getElem?_eq_some_iff.mp hj).1
        have hjc : j < c.col.length := by omega
        have := h j _ (List.getElem?_eq_getElem (by rw [hlen]; exact hj'))
        simp only [shift, List.getElem_zipWith] at this
        have hr : rows[j] = r := (List.getElem?_eq_some_iff.mp hj).2
        simp only [contrib, List.zipWith_cons_cons, List.sum_cons] at this ⊢
        rw [this, List.getElem?_eq_getElem hjc, hr]
        simp
      · intro h j r hj
        have hj' : j < rows.length := by rw [← hlen]; exact (List.getElem?_eq_some_iff.mp hj).1
        have hjc : j < c.col.length := by omega
        have := h j _ (List.getElem?_eq_getElem hj')
        have hr := (List.getElem?_eq_some_iff.mp hj).2
        simp only [shift, List.getElem_zipWith] at hr
        simp only [contrib, List.zipWith_cons_cons, List.sum_cons] at this ⊢
        rw [List.getElem?_eq_getElem hjc] at this
        simp only [Option.getD_some] at this
        rw [← hr]
        simp only
        omega
    rw [hrows]
    have hb : (∀ k d, (c :: cs)[k]? = some d → d.var.lo ≤ val (x :: xs) k ∧ val (x :: xs) k ≤ d.var.hi) ↔
        (c.var.lo ≤ x ∧ x ≤ c.var.hi) ∧ ∀ k d, cs[k]? = some d → d.var.lo ≤ val xs k ∧ val xs k ≤ d.var.hi := by
      constructor
      · intro h
        exact ⟨by simpa [val] using h 0 c (by simp), fun k d hk => by simpa [val] using h (k + 1) d (by simpa using hk)⟩
      · rintro ⟨h0, h⟩ k d hk
        match k with
        | 0 =>
          simp only [List.getElem?_cons_zero, Option.some.injEq] at hk
          subst hk
          simpa [val] using h0
        | k + 1 => simpa [val] using h k d (by simpa using hk)
    rw [hb]
    simp only [List.length_cons, Nat.add_right_cancel_iff]
    tauto

theorem term_sum (a : Int) (i : Nat) : ∀ (z : List Int) (n : Nat),
    (z.zipIdx n).foldr (fun p s => (if i = p.2 then a else 0) * p.1 + s) 0 = if n ≤ i then a * (z[i - n]?.getD 0) else 0
  | [], n => by simp
  | x :: z, n => by
    simp only [List.zipIdx_cons, List.foldr_cons, term_sum a i z (n + 1)]
    by_cases h : i = n
    · subst h
      simp
    · by_cases h' : n + 1 ≤ i
      · have : i - n = (i - (n + 1)) + 1 := by omega
        rw [if_neg h, if_pos h', if_pos (by omega), this]
        simp
      · rw [if_neg h, if_neg h', if_neg (by omega)]
        simp

theorem foldr_add {α : Type} (f g : α → Int) : ∀ l : List α,
    l.foldr (fun p s => (f p + g p) + s) 0 = l.foldr (fun p s => f p + s) 0 + l.foldr (fun p s => g p + s) 0
  | [] => by simp
  | x :: l => by
    simp only [List.foldr_cons, foldr_add f g l]
    ring

theorem lin_by_variable (z : List Int) : ∀ terms : List (Int × Nat),
    z.zipIdx.foldr (fun p s => (terms.map (fun t => if t.2 = p.2 then t.1 else 0)).sum * p.1 + s) 0 = lin terms z
  | [] => by
    simp only [List.map_nil, List.sum_nil, lin]
    generalize z.zipIdx = l
    induction l with
    | nil => rfl
    | cons x l ih => simp [ih]
  | t :: terms => by
    have h := foldr_add (fun p : Int × Nat => (if t.2 = p.2 then t.1 else 0) * p.1)
      (fun p => (terms.map (fun t => if t.2 = p.2 then t.1 else 0)).sum * p.1) z.zipIdx
    have h1 := term_sum t.1 t.2 z 0
    have h2 := lin_by_variable z terms
    simp only [List.map_cons, List.sum_cons, lin, val] at h2 ⊢
    rw [← h2]
    simp only [add_mul]
    rw [h, h1]
    simp

theorem contrib_columns (p : Program) (z : List Int) (hz : z.length = p.vars.length) (j : Nat) (r : Row)
    (hj : p.rows[j]? = some r) : contrib (columns p) z j = lin r.terms z := by
  rw [← lin_by_variable z r.terms]
  unfold contrib columns
  generalize 0 = n
  revert n
  generalize p.vars = vs at *
  induction vs generalizing z with
  | nil =>
    intro n
    match z, hz with
    | [], _ => simp
  | cons v vs ih =>
    intro n
    match z, hz with
    | x :: z, hz =>
      simp only [List.zipIdx_cons, List.map_cons, List.zipWith_cons_cons, List.sum_cons, List.foldr_cons]
      rw [ih z (by simpa using hz) (n + 1)]
      simp [hj, coeff]

theorem cost_columns (p : Program) (z : List Int) (hz : z.length = p.vars.length) : cost (columns p) z = lin p.objective z := by
  rw [← lin_by_variable z p.objective]
  unfold columns
  generalize 0 = n
  revert n
  generalize p.vars = vs at *
  induction vs generalizing z with
  | nil =>
    intro n
    match z, hz with
    | [], _ => simp [cost]
  | cons v vs ih =>
    intro n
    match z, hz with
    | x :: z, hz =>
      simp only [List.zipIdx_cons, List.map_cons, cost, List.foldr_cons]
      rw [ih z (by simpa using hz) (n + 1)]

theorem columns_get (p : Program) (k : Nat) : (columns p)[k]?.map (·.var) = p.vars[k]? := by
  simp [columns, List.getElem?_zipIdx]
  cases p.vars[k]? <;> rfl

theorem columns_length (p : Program) : (columns p).length = p.vars.length := by simp [columns]

theorem col_length (p : Program) : ∀ c ∈ columns p, c.col.length = p.rows.length := by
  intro c hc
  simp only [columns, List.mem_map] at hc
  obtain ⟨v, _, rfl⟩ := hc
  simp

/-- Open rows whose ranges are given by the columns. -/
theorem ranged_of : ∀ (cols : List Col) (rows : List Open), (∀ c ∈ cols, c.col.length = rows.length) →
    (∀ (j : Nat) (r : Open), rows[j]? = some r → r.lo = (cols.map (fun c => (span c.var (c.col[j]?.getD 0)).1)).sum ∧
      r.hi = (cols.map (fun c => (span c.var (c.col[j]?.getD 0)).2)).sum) → Ranged cols rows
  | [], rows, _, h => by
    intro r hr
    obtain ⟨j, hj, rfl⟩ := List.getElem_of_mem hr
    simpa using h j _ (List.getElem?_eq_getElem hj)
  | c :: cs, rows, hl, h => by
    have hc : c.col.length = rows.length := hl c (by simp)
    refine ⟨hc, fun x => ?_⟩
    have hlen : (shift c.var x c.col rows).length = rows.length := by simp [shift, hc]
    refine ranged_of cs _ (fun d hd => by rw [hlen]; exact hl d (by simp [hd])) (fun j r hj => ?_)
    have hj' : j < rows.length := by rw [← hlen]; exact (List.getElem?_eq_some_iff.mp hj).1
    have hjc : j < c.col.length := by omega
    have hr := (List.getElem?_eq_some_iff.mp hj).2
    simp only [shift, List.getElem_zipWith] at hr
    have := h j _ (List.getElem?_eq_getElem hj')
    simp only [List.map_cons, List.sum_cons] at this
    rw [List.getElem?_eq_getElem hjc] at this
    simp only [Option.getD_some] at this
    rw [← hr]
    simp only
    omega

theorem opened_get (p : Program) (cols : List Col) (j : Nat) (r : Open) (h : (opened p cols)[j]? = some r) :
    ∃ q, p.rows[j]? = some q ∧ r.miss = q.rhs ∧ r.lo = (cols.map (fun c => (span c.var (c.col[j]?.getD 0)).1)).sum ∧
      r.hi = (cols.map (fun c => (span c.var (c.col[j]?.getD 0)).2)).sum := by
  simp only [opened, List.getElem?_map, List.getElem?_zipIdx, Option.map_map, Option.map_eq_some_iff, Nat.zero_add] at h
  obtain ⟨q, hq, rfl⟩ := h
  refine ⟨q, hq, rfl, ?_, ?_⟩ <;> simp [Function.comp_def]

theorem opened_length (p : Program) (cols : List Col) : (opened p cols).length = p.rows.length := by simp [opened]

theorem fits_columns (p : Program) (z : List Int) : Fits (columns p) (opened p (columns p)) z ↔ Solves p z := by
  rw [fits_iff (fun c hc => by rw [opened_length]; exact col_length p c hc), columns_length]
  constructor
  · rintro ⟨h1, h2, h3⟩
    refine ⟨h1, fun k v hk => ?_, fun r hr => ?_⟩
    · have := columns_get p k
      rw [hk] at this
      obtain ⟨c, hc, rfl⟩ := Option.map_eq_some_iff.mp this
      exact h2 k c hc
    · obtain ⟨j, hj, rfl⟩ := List.getElem_of_mem hr
      have hj' := List.getElem?_eq_getElem (l := opened p (columns p)) (i := j) (by rw [opened_length]; exact hj)
      obtain ⟨q, hq, hm, _⟩ := opened_get p _ j _ hj'
      have := h3 j _ hj'
      rw [contrib_columns p z h1 j q hq, hm] at this
      rw [List.getElem?_eq_getElem hj] at hq
      cases hq
      exact this
  · intro h
    refine ⟨h.len, fun k c hk => ?_, fun j r hj => ?_⟩
    · have := columns_get p k
      rw [hk] at this
      exact h.bounds k c.var this.symm
    · obtain ⟨q, hq, hm, _⟩ := opened_get p _ j _ hj
      rw [contrib_columns p z h.len j q hq, hm]
      exact h.rows q (List.mem_of_getElem? hq)

theorem solver_spec (p : Program) :
    match search (columns p) (opened p (columns p)) with
    | none => ∀ z, ¬ Solves p z
    | some r => Best p r.2 := by
  have h := search_spec (ranged_of (columns p) (opened p (columns p))
    (fun c hc => by rw [opened_length]; exact col_length p c hc)
    (fun j r hj => by obtain ⟨_, _, _, h⟩ := opened_get p _ j r hj; exact h))
  match hs : search (columns p) (opened p (columns p)), h with
  | none, h => exact fun z hz => h z ((fits_columns p z).mpr hz)
  | some r, h =>
    have h1 := (fits_columns p r.2).mp h.1
    refine ⟨h1, fun y hy => ?_⟩
    have := h.2.2 y ((fits_columns p y).mpr hy)
    rw [h.2.1, cost_columns p _ h1.len, cost_columns p _ hy.len] at this
    exact this

/-- The solver is exact. -/
theorem solver_accurate : MipSolver.Accurate solver := by
  intro n p limit values h
  have hs := solver_spec p
  unfold solver at h
  revert h hs
  simp only
  cases search (columns p) (opened p (columns p)) with
  | none => intro h; cases h
  | some r =>
    intro h hs
    cases h
    refine ⟨r.2, hs, fun k hk => ?_⟩
    simp only [List.getElem?_map, val, List.getElem?_eq_getElem hk, Option.map_some, Option.getD_some, sub_self]
    norm_num

theorem solver_quick : MipSolver.Quick solver := by
  intro n p limit h
  have hs := solver_spec p
  unfold solver at h
  revert h hs
  simp only
  cases search (columns p) (opened p (columns p)) with
  | none => exact fun _ hs => hs
  | some r => intro h; exact absurd rfl (h _)

theorem solver_decides : MipSolver.Decides solver := fun n p h => solver_quick n p none h

/-- The outside world of the tests, with costs that are bounded. -/
def bounded (n : Nat) : Main.Outside Unit Nat := { outside n with cost := fun _ x => ((min x 1000 + 1) ^ 3 : Nat) }

theorem bounded_cost (n : Nat) (u : Unit) (x : Nat) : Representable ((bounded n).cost u x) := by
  refine ⟨(min x 1000 + 1) ^ 3, 0, ?_, ?_⟩
  · show Int.natAbs (((min x 1000 + 1) ^ 3 : Nat) : Int) = _
    simp only [Int.natAbs_natCast]
    omega
  · have : min x 1000 + 1 ≤ 1001 := by omega
    exact Nat.lt_of_le_of_lt (Nat.pow_le_pow_left this 3) (by decide)

/-- With this solver the program behaves like one whose backends are exact, for every input (C75). -/
theorem replay_exact (n : Nat) (o : Opts Unit) (script : Reader.Script) :
    ∃ b : Nat → Backend, (∀ tid, Exact (b tid)) ∧
      ∀ r, Main.TryRun { bounded n with backend := b } o script r ↔ Main.TryRun (bounded n) o script r := by
  obtain ⟨b, _, _, h, h'⟩ := C75_same_results (bounded n) (fun _ => solver) (fun _ _ => 1) (fun _ => rfl) (fun _ => solver_accurate) o
    script (bounded_cost n _)
  exact ⟨b, h (fun _ => solver_quick) (fun _ _ => by decide), h'⟩

end Wassign.Conf
