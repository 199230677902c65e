import Verif.Props.Reader
import Verif.Spec.Args
/-
C74: a choice has the qualities its arguments say, and C38 for the rows of CSV documents.
-/
namespace Wassign
open Spec Reader

variable {F : Type} {env : OptEnv F}

theorem said_snoc {α : Type} (about : ChoiceArg → Option α) (default : α) (args : List ChoiceArg) (a : ChoiceArg) :
    said about default (args ++ [a]) = (about a).getD (said about default args) := by
  unfold said
  rw [List.filterMap_append]
  cases h : about a with
  | none => simp [h]
  | some v => simp [h]

theorem numeral_unique {s : Str} {v w : Int} (h : Numeral s v) (h' : Numeral s w) : v = w := by
  have hp := plusMinus_not_digit.1
  have hm := plusMinus_not_digit.2
  cases h with
  | plain _ h =>
    cases h' with
    | plain => rfl
    | plus => exact absurd (h _ (by simp)) hp
    | minus => exact absurd (h _ (by simp)) hm
  | plus _ h =>
    cases h' with
    | plain _ h' => exact absurd (h' _ (by simp)) hp
    | plus => rfl
  | minus _ h =>
    cases h' with
    | plain _ h' => exact absurd (h' _ (by simp)) hm
    | minus => rfl

theorem tagStr_value {k : TagKind} {s : Str} {n : Nat} {t : Tagged} (h : Numeral s n) (ht : tagStr k s = .ok t) :
    t = ⟨k, [(n : Int)]⟩ ∧ n ≤ 2147483647 := by
  unfold tagStr at ht
  simp only [R.bind_eq_ok, parseStringUint_iff, i32OfU32_iff, R.pure_eq, Except.ok.injEq] at ht
  obtain ⟨m, ⟨h1, _⟩, v, ⟨rfl, h2⟩, rfl⟩ := ht
  have e := numeral_unique h h1
  have e : n = m := by omega
  subst e
  exact ⟨rfl, h2⟩

theorem boundsStr_value {s s' : Str} {n m : Nat} {t : Tagged} (h : Numeral s n) (h' : Numeral s' m) (ht : boundsStr s s' = .ok t) :
    t = ⟨.bounds, [(n : Int), (m : Int)]⟩ ∧ n ≤ 2147483647 ∧ m ≤ 2147483647 := by
  unfold boundsStr at ht
  simp only [R.bind_eq_ok, parseStringUint_iff, i32OfU32_iff, R.pure_eq, Except.ok.injEq] at ht
  obtain ⟨a, ⟨h1, _⟩, b, ⟨h2, _⟩, v, ⟨rfl, h3⟩, w, ⟨rfl, h4⟩, rfl⟩ := ht
  have e1 := numeral_unique h h1
  have e2 := numeral_unique h' h2
  have e1 : n = a := by omega
  have e2 : m = b := by omega
  subst e1 e2
  exact ⟨rfl, h3, h4⟩

/-- What one argument does to the choice. -/
theorem applyTag_arg (p : Proto) {a : ChoiceArg} {t : Tagged} (h : WrittenArg a t) : applyTag p t = .ok { p with
    min := a.least.getD p.min
    max := a.most.getD p.max
    parts := a.partCount.getD p.parts
    optional := a.leftOut.getD p.optional } := by
  have hu : ∀ n : Nat, n ≤ 2147483647 → u32OfInt (n : Int) = .ok n := fun n hn => u32OfInt_iff.2 ⟨rfl, by unfold u32Max; omega⟩
  have i1 : ∀ {n : Nat}, n ≤ 2147483647 → (-2147483648 ≤ (n : Int) ∧ (n : Int) ≤ 2147483647) := by intro n h; omega
  cases h with
  | @minInt n h1 => exact ((C50_integers_partial p n n (i1 h1) (i1 h1)).1 (by omega)).1
  | @maxInt n h1 => exact ((C50_integers_partial p n n (i1 h1) (i1 h1)).1 (by omega)).2.1
  | @partsInt n h1 => exact ((C50_integers_partial p n n (i1 h1) (i1 h1)).1 (by omega)).2.2
  | @boundsInt n m h1 h2 => exact (C50_integers_partial p n m (i1 h1) (i1 h2)).2.1 (by omega) (by omega)
  | @minStr n s t h1 h2 =>
    obtain ⟨rfl, hn⟩ := tagStr_value h1 h2
    simp [applyTag, idx, hu n hn, ChoiceArg.least, ChoiceArg.most, ChoiceArg.partCount, ChoiceArg.leftOut]
  | @maxStr n s t h1 h2 =>
    obtain ⟨rfl, hn⟩ := tagStr_value h1 h2
    simp [applyTag, idx, hu n hn, ChoiceArg.least, ChoiceArg.most, ChoiceArg.partCount, ChoiceArg.leftOut]
  | @partsStr n s t h1 h2 =>
    obtain ⟨rfl, hn⟩ := tagStr_value h1 h2
    simp [applyTag, idx, hu n hn, ChoiceArg.least, ChoiceArg.most, ChoiceArg.partCount, ChoiceArg.leftOut]
  | @boundsStr n m s s' t h1 h2 h3 =>
    obtain ⟨rfl, hn, hm⟩ := boundsStr_value h1 h2 h3
    simp [applyTag, idx, hu n hn, hu m hm, ChoiceArg.least, ChoiceArg.most, ChoiceArg.partCount, ChoiceArg.leftOut]
  | optional => rfl
  | @optionalIf b => cases b <;> rfl

theorem applyTags_args (name : Str) {args : List ChoiceArg} {tags : List Tagged} (h : List.Forall₂ WrittenArg args tags) :
    tags.foldlM applyTag ⟨name, 1, 1, 1, false⟩ = .ok (describedChoice name args) := by
  have key : ∀ {rest : List ChoiceArg} {ts : List Tagged}, List.Forall₂ WrittenArg rest ts → ∀ done : List ChoiceArg,
      ts.foldlM applyTag (describedChoice name done) = .ok (describedChoice name (done ++ rest)) := by
    intro rest ts h
    induction h with
    | nil => intro done; rw [List.append_nil]; rfl
    | @cons a t rest ts h _ ih =>
      intro done
      rw [List.foldlM_cons, applyTag_arg _ h, R.bind_ok]
      have := ih (done ++ [a])
      rw [List.append_assoc] at this
      rw [show done ++ a :: rest = done ++ ([a] ++ rest) from rfl, ← this]
      unfold describedChoice
      simp only [said_snoc]
  exact key h []

/-- **C74**: `choice(name, …)` with a new name makes a choice of that name of which the bounds, the number of parts and whether
it is optional are what the last argument about each of them says, and the default if there is none. -/
theorem C74_choice_means_its_arguments (opts : Opts F) (s : Script) (name : Str) (args : List ChoiceArg) (tags : List Tagged)
    (h : List.Forall₂ WrittenArg args tags)
    (hfresh : ∀ m ∈ namesOf (outcome env opts s).2.1.st .choice, ¬ Occurs name m) :
    ∃ id w', exec env (.choice name tags) (outcome env opts s).2.1 = (.ok (.ref id), w') ∧
      w'.st.choices.objs[id]? = some ⟨describedChoice name args, false⟩ ∧ ¬ Given (outcome env opts s).1 .choice id := by
  obtain ⟨_, h2, _⟩ := C32_fresh_name_partial (env := env) opts s name
  obtain ⟨_, id, hg, he⟩ := h2 hfresh tags _ (applyTags_args name h)
  refine ⟨id, _, he, ?_, hg⟩
  have hi : Inv (outcome env opts s).1 (outcome env opts s).2.1.st := outcome_inv opts s
  have e : exec env (.choice name tags) (outcome env opts s).2.1 = _ :=
    onX (choice name tags) Reply.ref (onChoices (choice name tags)) (w := (outcome env opts s).2.1) (s := (outcome env opts s).2.1.st.choices) rfl
  rw [e] at he
  unfold onChoices at he
  have hp' : tags.foldlM applyTag (defaultProto name) = .ok _ := applyTags_args name h
  rw [choice_eq, lookup_fresh hi.choices.wf hfresh] at he
  simp only [hp'] at he
  have hid : (outcome env opts s).2.1.st.choices.objs.length = id := by
    have := congrArg Prod.fst he
    have this : (Except.ok (Reply.ref (outcome env opts s).2.1.st.choices.objs.length) : R Reply) = .ok (.ref id) := this
    cases this
    rfl
  rw [← hid]
  simp

/-- **C74**: `bounds(x, y)` is the same as `min(x), max(y)`. -/
theorem C74_bounds_is_min_max (name : Str) (before after : List ChoiceArg) (x y : Nat) :
    describedChoice name (before ++ .bounds x y :: after) = describedChoice name (before ++ .min x :: .max y :: after) := by
  unfold describedChoice said
  simp [List.filterMap_cons, ChoiceArg.least, ChoiceArg.most, ChoiceArg.partCount, ChoiceArg.leftOut]

/-- **C74**: the order of arguments about different things does not matter. -/
theorem C74_order_irrelevant (name : Str) (before after : List ChoiceArg) (a b : ChoiceArg)
    (h : (a.least = none ∨ b.least = none) ∧ (a.most = none ∨ b.most = none) ∧ (a.partCount = none ∨ b.partCount = none) ∧
      (a.leftOut = none ∨ b.leftOut = none)) :
    describedChoice name (before ++ a :: b :: after) = describedChoice name (before ++ b :: a :: after) := by
  have key : ∀ {α : Type} (f : ChoiceArg → Option α) (x : α), (f a = none ∨ f b = none) →
      said f x (before ++ a :: b :: after) = said f x (before ++ b :: a :: after) := by
    intro α f x h
    unfold said
    rcases h with h | h <;> simp [List.filterMap_append, List.filterMap_cons, h]
  unfold describedChoice
  rw [key _ _ h.1, key _ _ h.2.1, key _ _ h.2.2.1, key _ _ h.2.2.2]

/-- **C38** (rows of a CSV document): `doc.row(i)` is row number `i` and fails exactly if there is none; `doc[i]` is row number
`i`, and empty if there is none. -/
theorem C38_rows (rows : List (List Str)) (i : Int) :
    (∀ r, Rhai.row rows i = .ok r ↔ 0 ≤ i ∧ rows[i.toNat]? = some r) ∧
    (∀ r, 0 ≤ i → rows[i.toNat]? = some r → Rhai.rowIndex rows i = r) ∧
    ((∀ r, ¬ (0 ≤ i ∧ rows[i.toNat]? = some r)) → Rhai.rowIndex rows i = []) := by
  refine ⟨fun r => ?_, fun r h1 h2 => ?_, fun h => ?_⟩
  · unfold Rhai.row Rhai.usizeOfInt
    by_cases hi : 0 ≤ i
    · simp only [hi, true_and]
      cases hr : rows[i.toNat]? with
      | none => simp [hr]
      | some x => simp [hr]
    · simp [hi]
  · unfold Rhai.rowIndex
    rw [if_pos h1, h2]; rfl
  · unfold Rhai.rowIndex
    split
    · rename_i hi
      cases hr : rows[i.toNat]? with
      | none => rfl
      | some x => exact absurd ⟨hi, hr⟩ (h x)
    · rfl

end Wassign

namespace Wassign.ArgsEx
open Spec Reader

/-- The example of the manual (Manual.md:49-53) with one of the bounds given again, as in a script that overrides it. -/
def args : List ChoiceArg := [.bounds 5 12, .parts 3, .optional, .max 15]

theorem written : List.Forall₂ WrittenArg args [boundsInt 5 12, ⟨.parts, [3]⟩, optionalTag, tagInt .max 15] := by
  refine .cons (.boundsInt (by decide) (by decide)) (.cons (.partsStr (s := "3".toList) ?_ (by decide +kernel)) (.cons .optional (.cons (.maxInt (by decide)) .nil)))
  exact .plain (by simp) (by intro c hc; simp at hc; subst hc; unfold IsDigit; decide)

example : describedChoice "Foo".toList args = ⟨"Foo".toList, 5, 15, 3, true⟩ := by decide +kernel

/-- A row that exists and one that does not. -/
example : Rhai.row [["a".toList], ["b".toList]] 1 = .ok ["b".toList] ∧ Rhai.rowIndex [["a".toList], ["b".toList]] 2 = [] := by decide +kernel

end Wassign.ArgsEx
