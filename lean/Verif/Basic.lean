/-
Shared conventions of the model: strings, faults, checked arithmetic, checked indexing.
No Mathlib here.
-/
namespace Wassign

/-- Strings are character lists. (Rust `String`; only whole-character operations are modelled.) -/
abbrev Str := List Char

/-- How a Rust call can fail: a returned `Error`, or a panic (with the site that panics).
Arithmetic overflow is a panic in debug builds and wraps in release builds; the model makes it the
separate outcome `panic` in both cases, never the mathematical value. -/
inductive Fault where
  | error (msg : String)
  | panic (site : String)
deriving DecidableEq, Repr

/-- Result of a Rust call. -/
abbrev R (α : Type) := Except Fault α

instance [DecidableEq α] : DecidableEq (R α) := fun a b =>
  match a, b with
  | .ok x, .ok y => if h : x = y then isTrue (by rw [h]) else isFalse (by intro e; cases e; exact h rfl)
  | .error x, .error y =>
      if h : x = y then isTrue (by rw [h]) else isFalse (by intro e; cases e; exact h rfl)
  | .ok _, .error _ => isFalse (by intro e; cases e)
  | .error _, .ok _ => isFalse (by intro e; cases e)

def panic' {α} (site : String) : R α := .error (.panic site)

/-- `v[i]` on a Rust slice: panics when out of range. -/
def idx (l : List α) (i : Nat) (site : String) : R α :=
  match l[i]? with
  | some x => .ok x
  | none => panic' site

/-- `v[i] = x` on a Rust slice: panics when out of range. -/
def setIdx (l : List α) (i : Nat) (x : α) (site : String) : R (List α) :=
  if i < l.length then .ok (l.set i x) else panic' site

def u32Max : Nat := 4294967295
def i32Max : Nat := 2147483647

/-- `a + b` on `u32`. -/
def addU32 (a b : Nat) (site : String) : R Nat :=
  if a + b ≤ u32Max then .ok (a + b) else panic' site

/-- `a - b` on an unsigned type. -/
def subU (a b : Nat) (site : String) : R Nat :=
  if b ≤ a then .ok (a - b) else panic' site

/-- `i32::try_from(n).expect(..)` for an unsigned `n`. -/
def toI32 (n : Nat) (site : String) : R Int :=
  if n ≤ i32Max then .ok (n : Int) else panic' site

/-- `u32::try_from(n).expect(..)`. -/
def toU32 (n : Nat) (site : String) : R Nat :=
  if n ≤ u32Max then .ok n else panic' site

/-- `u32::try_from(n).unwrap_or(u32::MAX)`. -/
def satU32 (n : Nat) : Nat := min n u32Max

/-- An `i32` operation result: panics outside the range. -/
def chkI32 (x : Int) (site : String) : R Int :=
  if -2147483648 ≤ x ∧ x ≤ 2147483647 then .ok x else panic' site

/-- Nat-indexed loop `for i in 0..n { .. return false .. }` with early exit: true iff no iteration
returned false. -/
def allRange (n : Nat) (p : Nat → R Bool) : R Bool := (List.range n).allM p

/-- `(0..n).any(p)` with early exit. -/
def anyRange (n : Nat) (p : Nat → R Bool) : R Bool := (List.range n).anyM p

section lemmas
variable {α β : Type}

@[simp] theorem R.bind_ok (a : α) (f : α → R β) : ((Except.ok a : R α) >>= f) = f a := rfl
@[simp] theorem R.bind_error (e : Fault) (f : α → R β) :
    ((Except.error e : R α) >>= f) = Except.error e := rfl
@[simp] theorem R.pure_eq (a : α) : (pure a : R α) = Except.ok a := rfl
@[simp] theorem R.throw_eq (e : Fault) : (throw e : R α) = Except.error e := rfl

theorem R.bind_eq_ok {x : R α} {f : α → R β} {b : β} :
    (x >>= f) = .ok b ↔ ∃ a, x = .ok a ∧ f a = .ok b := by
  cases x <;> simp

@[simp] theorem R.map_ok (a : α) (f : α → β) : (f <$> (Except.ok a : R α)) = Except.ok (f a) := rfl
@[simp] theorem R.map_error (e : Fault) (f : α → β) :
    (f <$> (Except.error e : R α)) = Except.error e := rfl

theorem idx_eq_ok {l : List α} {i : Nat} {s : String} {a : α} :
    idx l i s = .ok a ↔ l[i]? = some a := by
  unfold idx; cases h : l[i]? <;> simp [panic']

theorem idx_ok {l : List α} {i : Nat} {s : String} (h : i < l.length) :
    idx l i s = .ok l[i] := by
  rw [idx_eq_ok]; simp [h]

theorem setIdx_eq_ok {l l' : List α} {i : Nat} {x : α} {s : String} :
    setIdx l i x s = .ok l' ↔ i < l.length ∧ l' = l.set i x := by
  unfold setIdx; split <;> (simp [panic', *, eq_comm]; try omega)

theorem addU32_eq_ok {a b c : Nat} {s : String} :
    addU32 a b s = .ok c ↔ a + b ≤ u32Max ∧ c = a + b := by
  unfold addU32; split <;> (simp [panic', *, eq_comm]; try omega)

theorem subU_eq_ok {a b c : Nat} {s : String} :
    subU a b s = .ok c ↔ b ≤ a ∧ c = a - b := by
  unfold subU; split <;> (simp [panic', *, eq_comm]; try omega)

theorem toI32_eq_ok {n : Nat} {s : String} {x : Int} :
    toI32 n s = .ok x ↔ n ≤ i32Max ∧ x = n := by
  unfold toI32; split <;> (simp [panic', *, eq_comm]; try omega)

theorem toU32_eq_ok {n : Nat} {s : String} {x : Nat} :
    toU32 n s = .ok x ↔ n ≤ u32Max ∧ x = n := by
  unfold toU32; split <;> (simp [panic', *, eq_comm]; try omega)

theorem chkI32_eq_ok {n x : Int} {s : String} :
    chkI32 n s = .ok x ↔ (-2147483648 ≤ n ∧ n ≤ 2147483647) ∧ x = n := by
  unfold chkI32; split <;> (simp [panic', *, eq_comm]; try omega)

theorem allM_eq_ok_true {l : List α} {p : α → R Bool} :
    l.allM p = .ok true ↔ ∀ x ∈ l, p x = .ok true := by
  induction l with
  | nil => simp [List.allM]
  | cons x xs ih =>
    simp only [List.allM, List.mem_cons, forall_eq_or_imp]
    rw [R.bind_eq_ok]
    constructor
    · rintro ⟨b, hb, h⟩
      cases b
      · simp at h
      · exact ⟨hb, ih.1 h⟩
    · rintro ⟨h, h'⟩
      exact ⟨true, h, ih.2 h'⟩

theorem allM_eq_ok_of {l : List α} {p : α → R Bool} {q : α → Bool}
    (h : ∀ x ∈ l, p x = .ok (q x)) : l.allM p = .ok (l.all q) := by
  induction l with
  | nil => simp [List.allM]
  | cons x xs ih =>
    have hx := h x (by simp)
    have ih := ih (fun y hy => h y (by simp [hy]))
    simp only [List.allM, List.all_cons]
    rw [hx, R.bind_ok]
    cases hq : q x
    · simp
    · simp [ih]

theorem anyM_eq_ok_of {l : List α} {p : α → R Bool} {q : α → Bool}
    (h : ∀ x ∈ l, p x = .ok (q x)) : l.anyM p = .ok (l.any q) := by
  induction l with
  | nil => simp [List.anyM]
  | cons x xs ih =>
    have hx := h x (by simp)
    have ih := ih (fun y hy => h y (by simp [hy]))
    simp only [List.anyM, List.any_cons]
    rw [hx, R.bind_ok]
    cases hq : q x
    · simp [ih]
    · simp

/-- A monadic fold whose steps never fail (under an invariant) is the pure fold. -/
theorem foldlM_eq_ok_of {l : List α} {f : β → α → R β} {g : β → α → β} (Inv : β → Prop)
    (h : ∀ s, Inv s → ∀ x ∈ l, f s x = .ok (g s x) ∧ Inv (g s x)) :
    ∀ s, Inv s → l.foldlM f s = .ok (l.foldl g s) ∧ Inv (l.foldl g s) := by
  induction l with
  | nil => intro s hs; simpa using hs
  | cons x xs ih =>
    intro s hs
    have hx := h s hs x (by simp)
    have ih := ih (fun s hs y hy => h s hs y (by simp [hy])) (g s x) hx.2
    simp only [List.foldlM_cons, List.foldl_cons, hx.1, R.bind_ok]
    exact ih

theorem mapM_eq_ok_of {l : List α} {f : α → R β} {g : α → β}
    (h : ∀ x ∈ l, f x = .ok (g x)) : l.mapM f = .ok (l.map g) := by
  induction l with
  | nil => simp
  | cons x xs ih =>
    have hx := h x (by simp)
    have ih := ih (fun y hy => h y (by simp [hy]))
    simp [List.mapM_cons, hx, ih]

theorem filterM_eq_ok_of {l : List α} {p : α → R Bool} {q : α → Bool}
    (h : ∀ x ∈ l, p x = .ok (q x)) : l.filterM p = .ok (l.filter q) := by
  have : ∀ (l : List α) (acc : List α), (∀ x ∈ l, p x = .ok (q x)) →
      List.filterAuxM p l acc = .ok ((l.filter q).reverse ++ acc) := by
    intro l
    induction l with
    | nil => intro acc _; simp [List.filterAuxM]
    | cons x xs ih =>
      intro acc hh
      have hx := hh x (by simp)
      simp only [List.filterAuxM, hx, R.bind_ok]
      rw [ih _ (fun y hy => hh y (by simp [hy]))]
      cases hq : q x <;> simp [hq]
  simp [List.filterM, this l [] h]

end lemmas
end Wassign
