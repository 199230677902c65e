import Verif.Spec.Numeral
import Verif.Proofs.Script
/-
Independence of the options, absence of panics, numbers.
-/
namespace Wassign
open Spec

/-! Numbers -/

theorem digitsVal_iff (bound : Nat) : ∀ (s : Str) (acc n : Nat), acc ≤ bound →
    (digitsVal bound acc s = some n ↔ (∀ c ∈ s, IsDigit c) ∧ Time.cont acc s = n ∧ n ≤ bound) := by
  intro s
  induction s with
  | nil =>
    intro acc n ha
    simp only [digitsVal, Option.some.injEq, List.not_mem_nil, false_implies, implies_true, true_and, Time.cont_nil]
    constructor
    · rintro rfl; exact ⟨rfl, ha⟩
    · exact fun h => h.1
  | cons c s ih =>
    intro acc n ha
    rw [digitsVal, Time.cont_cons]
    have e : acc * 10 + (c.toNat - 48) = 10 * acc + (c.toNat - 48) := by rw [Nat.mul_comm]
    by_cases hc : isDigit c = true
    · rw [if_pos hc]
      simp only
      rw [e]
      by_cases hv : 10 * acc + (c.toNat - 48) ≤ bound
      · rw [if_pos hv, ih _ _ hv]
        simp only [List.mem_cons, forall_eq_or_imp, Time.isDigit_iff.1 hc, true_and]
      · rw [if_neg hv]
        constructor
        · intro h; cases h
        · rintro ⟨_, h1, h2⟩
          have := Time.cont_ge s (10 * acc + (c.toNat - 48))
          omega
    · rw [if_neg hc]
      constructor
      · intro h; cases h
      · rintro ⟨h, _⟩
        exact absurd (Time.isDigit_iff.2 (h c (by simp))) hc

theorem digitsVal_zero {bound : Nat} {s : Str} {n : Nat} :
    digitsVal bound 0 s = some n ↔ (∀ c ∈ s, IsDigit c) ∧ decimal s = n ∧ n ≤ bound :=
  digitsVal_iff bound s 0 n (Nat.zero_le _)

theorem plusMinus_not_digit : ¬ IsDigit '+' ∧ ¬ IsDigit '-' := by
  constructor <;> (intro h; revert h; unfold IsDigit; decide)

theorem parseI64_iff {s : Str} {v : Int} :
    parseI64 s = some v ↔ Numeral s v ∧ -9223372036854775808 ≤ v ∧ v ≤ 9223372036854775807 := by
  obtain ⟨hplus, hminus⟩ := plusMinus_not_digit
  unfold parseI64
  cases s with
  | nil =>
    constructor
    · intro h; cases h
    · rintro ⟨h, _⟩
      cases h with
      | plain h _ => exact absurd rfl h
  | cons c rest =>
    simp only
    by_cases hm : c = '-'
    · subst hm
      rw [if_pos rfl]
      by_cases hr : rest = []
      · subst hr
        simp only [List.isEmpty_nil, if_true]
        constructor
        · intro h; cases h
        · rintro ⟨h, _⟩
          cases h with
          | plain _ h => exact absurd (h '-' (by simp)) hminus
          | minus h _ => exact absurd rfl h
      · rw [if_neg (by simpa using hr), Option.map_eq_some_iff]
        simp only [digitsVal_zero]
        constructor
        · rintro ⟨n, ⟨h1, rfl, h2⟩, rfl⟩
          exact ⟨.minus hr h1, by omega, by omega⟩
        · rintro ⟨h, h1, h2⟩
          cases h with
          | plain _ h => exact absurd (h '-' (by simp)) hminus
          | minus _ h => exact ⟨decimal rest, ⟨h, rfl, by omega⟩, rfl⟩
    · rw [if_neg hm]
      by_cases hp : c = '+'
      · subst hp
        rw [if_pos rfl]
        by_cases hr : rest = []
        · subst hr
          simp only [List.isEmpty_nil, if_true]
          constructor
          · intro h; cases h
          · rintro ⟨h, _⟩
            cases h with
            | plain _ h => exact absurd (h '+' (by simp)) hplus
            | plus h _ => exact absurd rfl h
        · rw [if_neg (by simpa using hr), Option.map_eq_some_iff]
          simp only [digitsVal_zero]
          constructor
          · rintro ⟨n, ⟨h1, rfl, h2⟩, rfl⟩
            exact ⟨.plus hr h1, by omega, by omega⟩
          · rintro ⟨h, h1, h2⟩
            cases h with
            | plain _ h => exact absurd (h '+' (by simp)) hplus
            | plus _ h => exact ⟨decimal rest, ⟨h, rfl, by omega⟩, rfl⟩
      · rw [if_neg hp, Option.map_eq_some_iff]
        simp only [digitsVal_zero]
        constructor
        · rintro ⟨n, ⟨h1, rfl, h2⟩, rfl⟩
          exact ⟨.plain (by simp) h1, by omega, by omega⟩
        · rintro ⟨h, h1, h2⟩
          cases h with
          | plain _ h => exact ⟨decimal (c :: rest), ⟨h, rfl, by omega⟩, rfl⟩
          | plus _ _ => exact absurd rfl hp
          | minus _ _ => exact absurd rfl hm

theorem u32OfInt_iff {v : Int} {n : Nat} : u32OfInt v = .ok n ↔ v = n ∧ n ≤ u32Max := by
  unfold u32OfInt u32Max
  split
  · simp only [R.pure_eq, Except.ok.injEq]; omega
  · constructor
    · intro h; cases h
    · rintro ⟨rfl, _⟩; omega

theorem parseStringUint_iff {s : Str} {n : Nat} : parseStringUint s = .ok n ↔ Numeral s n ∧ n ≤ u32Max := by
  unfold parseStringUint
  rw [R.bind_eq_ok]
  simp only [orErr_eq_ok, parseI64_iff, u32OfInt_iff]
  constructor
  · rintro ⟨v, ⟨h, _⟩, rfl, h2⟩; exact ⟨h, h2⟩
  · rintro ⟨h, h2⟩; exact ⟨n, ⟨h, by unfold u32Max at h2; omega, by unfold u32Max at h2; omega⟩, rfl, h2⟩

theorem i32OfU32_iff {n : Nat} {v : Int} : i32OfU32 n = .ok v ↔ v = n ∧ n ≤ i32Max := by
  unfold i32OfU32
  split
  · simp only [R.pure_eq, Except.ok.injEq]
    constructor
    · rintro rfl; exact ⟨rfl, by assumption⟩
    · rintro ⟨rfl, _⟩; rfl
  · constructor
    · intro h; cases h
    · rintro ⟨_, h⟩; omega

/-! Panics -/

/-- The call does not panic. -/
def NoPanic {α : Type} (x : R α) : Prop := ∀ s, x ≠ .error (.panic s)

namespace NoPanic
variable {α β : Type}

theorem ok (a : α) : NoPanic (.ok a : R α) := fun _ h => by cases h
theorem err (m : String) : NoPanic (.error (.error m) : R α) := fun _ h => by cases h

theorem bind {x : R α} {f : α → R β} (hx : NoPanic x) (hf : ∀ a, x = .ok a → NoPanic (f a)) : NoPanic (x >>= f) := by
  cases x with
  | ok a => exact hf a rfl
  | error e => exact fun s h => by cases h; exact hx s rfl

theorem mapM {l : List α} {f : α → R β} (h : ∀ a ∈ l, NoPanic (f a)) : NoPanic (l.mapM f) := by
  induction l with
  | nil => exact ok _
  | cons a t ih =>
    rw [List.mapM_cons]
    exact bind (h a (by simp)) (fun _ _ => bind (ih (fun b hb => h b (by simp [hb]))) (fun _ _ => ok _))

theorem foldlM {l : List α} {f : β → α → R β} (h : ∀ b, ∀ a ∈ l, NoPanic (f b a)) : ∀ b, NoPanic (l.foldlM f b) := by
  induction l with
  | nil => intro b; exact ok _
  | cons a t ih =>
    intro b
    rw [List.foldlM_cons]
    exact bind (h b a (by simp)) (fun b' _ => ih (fun b a ha => h b a (by simp [ha])) b')

theorem idx {l : List α} {i : Nat} {s : String} (h : i < l.length) : NoPanic (idx l i s) := by
  rw [idx_ok h]; exact ok _

theorem orErr {x : Option α} {m : String} : NoPanic (orErr x m) := by
  cases x
  · exact err _
  · exact ok _

theorem ite {c : Prop} [Decidable c] {x y : R α} (hx : NoPanic x) (hy : NoPanic y) : NoPanic (if c then x else y) := by
  split <;> assumption

end NoPanic

theorem u32OfInt_noPanic (v : Int) : NoPanic (u32OfInt v) := by
  unfold u32OfInt; exact NoPanic.ite (NoPanic.ok _) (NoPanic.err _)

theorem i32OfU32_noPanic (v : Nat) : NoPanic (i32OfU32 v) := by
  unfold i32OfU32; exact NoPanic.ite (NoPanic.ok _) (NoPanic.err _)

theorem parseStringUint_noPanic (s : Str) : NoPanic (parseStringUint s) := by
  unfold parseStringUint; exact NoPanic.bind NoPanic.orErr (fun _ _ => u32OfInt_noPanic _)

theorem dynPref_noPanic (d : Dyn) : NoPanic (dynPref d) := by
  cases d
  · exact u32OfInt_noPanic _
  · exact u32OfInt_noPanic _
  · exact parseStringUint_noPanic _
  · exact NoPanic.err _

theorem applyTag_noPanic (p : Proto) {t : Tagged} (ht : IsTag t) : NoPanic (applyTag p t) := by
  unfold IsTag at ht
  unfold applyTag
  split <;> rename_i hk <;> rw [hk] at ht <;> simp at ht
  · exact NoPanic.bind (NoPanic.idx (by omega)) (fun _ _ => NoPanic.bind (u32OfInt_noPanic _) (fun _ _ => NoPanic.ok _))
  · exact NoPanic.bind (NoPanic.idx (by omega)) (fun _ _ => NoPanic.bind (u32OfInt_noPanic _) (fun _ _ => NoPanic.ok _))
  · exact NoPanic.bind (NoPanic.idx (by omega)) (fun _ _ => NoPanic.bind (u32OfInt_noPanic _) (fun _ _ =>
      NoPanic.bind (NoPanic.idx (by omega)) (fun _ _ => NoPanic.bind (u32OfInt_noPanic _) (fun _ _ => NoPanic.ok _))))
  · exact NoPanic.bind (NoPanic.idx (by omega)) (fun _ _ => NoPanic.bind (u32OfInt_noPanic _) (fun _ _ => NoPanic.ok _))
  · exact NoPanic.bind (NoPanic.idx (by omega)) (fun _ _ => NoPanic.ok _)

section args
variable {F : Type} {env : OptEnv F}

/-- What one turn of the argument loop does is independent of the options it is applied to. -/
theorem argStep_uniform (a : Str) (rest : List Str) : ∃ x : R (Setting F × List Str),
    (∀ o, argStep env o a rest = x.map (fun p => (p.1.apply o, p.2))) ∧
    (env.overflow = .wraps → NoPanic x) ∧ (∀ p, x = .ok p → p.2.length ≤ rest.length) := by
  have flag : ∀ s : Setting F, ∃ x : R (Setting F × List Str),
      (∀ o : Opts F, (.ok (s.apply o, rest) : R (Opts F × List Str)) = x.map (fun p => (p.1.apply o, p.2))) ∧
      (env.overflow = .wraps → NoPanic x) ∧ (∀ p, x = .ok p → p.2.length ≤ rest.length) := fun s =>
    ⟨.ok (s, rest), fun _ => rfl, fun _ => NoPanic.ok _, fun p h => by cases h; exact Nat.le_refl _⟩
  have valued : ∀ {V : Type} (f : Str → R V) (mk : V → Setting F), (env.overflow = .wraps → ∀ v, NoPanic (f v)) →
      ∃ x : R (Setting F × List Str),
      (∀ o : Opts F, (do
        let (v, rest) ← needValue rest
        let y ← f v
        pure ((mk y).apply o, rest) : R (Opts F × List Str)) = x.map (fun p => (p.1.apply o, p.2))) ∧
      (env.overflow = .wraps → NoPanic x) ∧ (∀ p, x = .ok p → p.2.length ≤ rest.length) := by
    intro V f mk hf
    refine ⟨do
        let (v, rest) ← needValue rest
        let y ← f v
        pure (mk y, rest), fun o => ?_, fun hw => ?_, fun p hp => ?_⟩
    · cases rest with
      | nil => rfl
      | cons v t =>
        simp only [needValue, R.pure_eq, R.bind_ok]
        cases f v <;> rfl
    · cases rest with
      | nil => exact NoPanic.err _
      | cons v t =>
        simp only [needValue, R.pure_eq, R.bind_ok]
        exact NoPanic.bind (hf hw v) (fun _ _ => NoPanic.ok _)
    · cases rest with
      | nil => cases hp
      | cons v t =>
        simp only [needValue, R.pure_eq, R.bind_ok, R.bind_eq_ok] at hp
        obtain ⟨y, _, hp⟩ := hp
        cases hp
        simp
  have timeOk : env.overflow = .wraps → ∀ v, NoPanic (Time.parse env.overflow v) := by
    intro h v s
    rw [h]
    exact Time.go_noPanic _ _ _ _
  unfold argStep
  by_cases ha : a = "-i".toList ∨ a = "--input".toList
  · simp only [if_pos ha]
    exact valued (fun v => .ok v) (fun v => .input v) (fun _ v => NoPanic.ok _)
  simp only [if_neg ha]
  by_cases ha : a = "-o".toList ∨ a = "--output".toList
  · simp only [if_pos ha]
    exact valued (fun v => .ok v) (fun v => .output v) (fun _ v => NoPanic.ok _)
  simp only [if_neg ha]
  by_cases ha : a = "-a".toList ∨ a = "--any".toList
  · simp only [if_pos ha]
    exact flag .any
  simp only [if_neg ha]
  by_cases ha : a = "-p".toList ∨ a = "--pref-exp".toList
  · simp only [if_pos ha]
    exact valued (fun v => orErr (env.parseF v) "invalid float") (fun v => .prefExp v) (fun _ v => NoPanic.orErr)
  simp only [if_neg ha]
  by_cases ha : a = "-t".toList ∨ a = "--timeout".toList
  · simp only [if_pos ha]
    exact valued (fun v => Time.parse env.overflow v) (fun v => .timeout v) timeOk
  simp only [if_neg ha]
  by_cases ha : a = "--cs-timeout".toList
  · simp only [if_pos ha]
    exact valued (fun v => Time.parse env.overflow v) (fun v => .csTimeout v) timeOk
  simp only [if_neg ha]
  by_cases ha : a = "--no-cs".toList
  · simp only [if_pos ha]
    exact flag .noCs
  simp only [if_neg ha]
  by_cases ha : a = "--no-cs-simp".toList
  · simp only [if_pos ha]
    exact flag .noCsSimp
  simp only [if_neg ha]
  by_cases ha : a = "-j".toList ∨ a = "--threads".toList
  · simp only [if_pos ha]
    exact valued (fun v => orErr (parseU32 v) "invalid number") (fun v => .threads v) (fun _ v => NoPanic.orErr)
  simp only [if_neg ha]
  by_cases ha : a = "-n".toList ∨ a = "--max-neighbors".toList
  · simp only [if_pos ha]
    exact valued (fun v => orErr (parseU32 v) "invalid number") (fun v => .maxNeighbors v) (fun _ v => NoPanic.orErr)
  simp only [if_neg ha]
  by_cases ha : a = "-g".toList ∨ a = "--greedy".toList
  · simp only [if_pos ha]
    exact flag .greedy
  simp only [if_neg ha]
  by_cases ha : a = "-h".toList ∨ a = "--help".toList ∨ a = "--version".toList
  · simp only [if_pos ha]
    exact flag .information
  simp only [if_neg ha]
  exact ⟨.error (.error "Unknown argument."), fun _ => rfl, fun _ => NoPanic.err _, fun p h => by cases h⟩

theorem argLoop_uniform : ∀ (fuel : Nat) (args : List Str), args.length ≤ fuel → ∃ x : R (List (Setting F)),
    (∀ o, argLoop env fuel o args = x.map (fun ss => ss.foldl Setting.apply o)) ∧ (env.overflow = .wraps → NoPanic x) := by
  intro fuel
  induction fuel with
  | zero =>
    intro args h
    cases args with
    | nil => exact ⟨.ok [], fun _ => rfl, fun _ => NoPanic.ok _⟩
    | cons a t => simp at h
  | succ fuel ih =>
    intro args h
    cases args with
    | nil => exact ⟨.ok [], fun _ => rfl, fun _ => NoPanic.ok _⟩
    | cons a t =>
      obtain ⟨x, hx, hxp, hxl⟩ := argStep_uniform (env := env) a t
      cases x with
      | error e =>
        refine ⟨.error e, fun o => ?_, fun hw s hs => ?_⟩
        · rw [argLoop, hx]; rfl
        · cases hs; exact hxp hw s rfl
      | ok p =>
        have := hxl p rfl
        simp only [List.length_cons] at h
        obtain ⟨y, hy, hyp⟩ := ih p.2 (by omega)
        refine ⟨y.map (fun ss => p.1 :: ss), fun o => ?_, fun hw s hs => ?_⟩
        · rw [argLoop, hx]
          simp only [Except.map, R.bind_ok]
          rw [hy]
          cases y <;> rfl
        · cases y with
          | ok ss => cases hs
          | error e => cases hs; exact hyp hw s rfl

theorem setArguments_uniform (args : List Dyn) : ∃ x : R (List (Setting F)),
    (∀ o, setArguments env args o = match x with
      | .ok ss => (.ok (), ss.foldl Setting.apply o)
      | .error e => (.error e, o)) ∧ (env.overflow = .wraps → NoPanic x) := by
  cases hv : args.mapM dynStr with
  | error e =>
    refine ⟨.error e, fun o => ?_, fun _ s hs => ?_⟩
    · rw [setArguments_eq, hv]; rfl
    · cases hs
      have : NoPanic (args.mapM dynStr) := NoPanic.mapM (fun d _ => by
        cases d
        · exact NoPanic.err _
        · exact NoPanic.err _
        · exact NoPanic.ok _
        · exact NoPanic.err _)
      exact this s hv
  | ok values =>
    obtain ⟨x, hx, hxp⟩ := argLoop_uniform (env := env) values.length values (Nat.le_refl _)
    refine ⟨x, fun o => ?_, hxp⟩
    rw [setArguments_eq, hv, R.bind_ok, hx]
    cases x <;> rfl

end args

namespace Reader
variable {F : Type} {env : OptEnv F}

/-- The effect of a call on everything but the options does not depend on the options. -/
theorem exec_opts (op : Op) (st : RState) (o o' : Opts F) :
    (exec env op ⟨st, o⟩).1 = (exec env op ⟨st, o'⟩).1 ∧ (exec env op ⟨st, o⟩).2.st = (exec env op ⟨st, o'⟩).2.st := by
  have two : ∀ {β σ : Type} (m : M σ β) (f : β → Reply) (g : M (World F) β) (s : σ) (q : Opts F),
      (g ⟨st, q⟩).1 = (m s).1 →
      ((do
        let b ← g
        pure (f b) : M (World F) Reply) ⟨st, q⟩) = ((m s).1.bind (fun b => .ok (f b)), (g ⟨st, q⟩).2) := by
    intro β σ m f g s q h
    exact onX m f g h
  cases op with
  | slot n =>
    have e := fun q => two (findOrPush n n) Reply.ref (onSlots (findOrPush n n)) st.slots q rfl
    exact ⟨(congrArg Prod.fst (e o)).trans (congrArg Prod.fst (e o')).symm,
      (congrArg (fun x => x.2.st) (e o)).trans (congrArg (fun x => x.2.st) (e o')).symm⟩
  | choice n tags =>
    have e := fun q => two (choice n tags) Reply.ref (onChoices (choice n tags)) st.choices q rfl
    exact ⟨(congrArg Prod.fst (e o)).trans (congrArg Prod.fst (e o')).symm,
      (congrArg (fun x => x.2.st) (e o)).trans (congrArg (fun x => x.2.st) (e o')).symm⟩
  | chooser n prefs =>
    have e := fun q => two (chooser n prefs) Reply.ref (onChoosers (chooser n prefs)) st.choosers q rfl
    exact ⟨(congrArg Prod.fst (e o)).trans (congrArg Prod.fst (e o')).symm,
      (congrArg (fun x => x.2.st) (e o)).trans (congrArg (fun x => x.2.st) (e o')).symm⟩
  | add k id =>
    cases k with
    | slot =>
      have e := fun q => two (Pool.register id) (fun _ => Reply.ref id) (onSlots (Pool.register id)) st.slots q rfl
      exact ⟨(congrArg Prod.fst (e o)).trans (congrArg Prod.fst (e o')).symm,
        (congrArg (fun x => x.2.st) (e o)).trans (congrArg (fun x => x.2.st) (e o')).symm⟩
    | choice =>
      have e := fun q => two (Pool.register id) (fun _ => Reply.ref id) (onChoices (Pool.register id)) st.choices q rfl
      exact ⟨(congrArg Prod.fst (e o)).trans (congrArg Prod.fst (e o')).symm,
        (congrArg (fun x => x.2.st) (e o)).trans (congrArg (fun x => x.2.st) (e o')).symm⟩
    | chooser =>
      have e := fun q => two (Pool.register id) (fun _ => Reply.ref id) (onChoosers (Pool.register id)) st.choosers q rfl
      exact ⟨(congrArg Prod.fst (e o)).trans (congrArg Prod.fst (e o')).symm,
        (congrArg (fun x => x.2.st) (e o)).trans (congrArg (fun x => x.2.st) (e o')).symm⟩
  | addExpr x => exact ⟨rfl, rfl⟩
  | setName k id n =>
    cases k with
    | slot =>
      have e := fun q => two (Pool.rename id n) (fun _ => Reply.ref id) (onSlots (Pool.rename id n)) st.slots q rfl
      exact ⟨(congrArg Prod.fst (e o)).trans (congrArg Prod.fst (e o')).symm,
        (congrArg (fun x => x.2.st) (e o)).trans (congrArg (fun x => x.2.st) (e o')).symm⟩
    | choice =>
      have e := fun q => two (Pool.rename id n) (fun _ => Reply.ref id) (onChoices (Pool.rename id n)) st.choices q rfl
      exact ⟨(congrArg Prod.fst (e o)).trans (congrArg Prod.fst (e o')).symm,
        (congrArg (fun x => x.2.st) (e o)).trans (congrArg (fun x => x.2.st) (e o')).symm⟩
    | chooser =>
      have e := fun q => two (Pool.rename id n) (fun _ => Reply.ref id) (onChoosers (Pool.rename id n)) st.choosers q rfl
      exact ⟨(congrArg Prod.fst (e o)).trans (congrArg Prod.fst (e o')).symm,
        (congrArg (fun x => x.2.st) (e o)).trans (congrArg (fun x => x.2.st) (e o')).symm⟩
  | getName k id =>
    cases k with
    | slot =>
      have e := fun q => two (M.lift (st.slots.nameOf id)) Reply.name (M.lift (st.slots.nameOf id)) () q rfl
      exact ⟨(congrArg Prod.fst (e o)).trans (congrArg Prod.fst (e o')).symm,
        (congrArg (fun x => x.2.st) (e o)).trans (congrArg (fun x => x.2.st) (e o')).symm⟩
    | choice =>
      have e := fun q => two (M.lift (st.choices.nameOf id)) Reply.name (M.lift (st.choices.nameOf id)) () q rfl
      exact ⟨(congrArg Prod.fst (e o)).trans (congrArg Prod.fst (e o')).symm,
        (congrArg (fun x => x.2.st) (e o)).trans (congrArg (fun x => x.2.st) (e o')).symm⟩
    | chooser =>
      have e := fun q => two (M.lift (st.choosers.nameOf id)) Reply.name (M.lift (st.choosers.nameOf id)) () q rfl
      exact ⟨(congrArg Prod.fst (e o)).trans (congrArg Prod.fst (e o')).symm,
        (congrArg (fun x => x.2.st) (e o)).trans (congrArg (fun x => x.2.st) (e o')).symm⟩
  | attr k id a =>
    have e := fun q => two (M.lift (Rhai.attr st k id a)) Reply.accessor (M.lift (Rhai.attr st k id a)) () q rfl
    exact ⟨(congrArg Prod.fst (e o)).trans (congrArg Prod.fst (e o')).symm,
      (congrArg (fun x => x.2.st) (e o)).trans (congrArg (fun x => x.2.st) (e o')).symm⟩
  | relate symbol l r =>
    have e := fun q => two (M.lift (Rhai.relate st symbol l r)) Reply.expr (M.lift (Rhai.relate st symbol l r)) () q rfl
    exact ⟨(congrArg Prod.fst (e o)).trans (congrArg Prod.fst (e o')).symm,
      (congrArg (fun x => x.2.st) (e o)).trans (congrArg (fun x => x.2.st) (e o')).symm⟩
  | setArguments args =>
    have e := fun q => two (setArguments env args) (fun _ => Reply.unit) (onOpts (setArguments env args)) q q rfl
    refine ⟨(congrArg Prod.fst (e o)).trans (Eq.trans ?_ (congrArg Prod.fst (e o')).symm),
      (congrArg (fun x => x.2.st) (e o)).trans (congrArg (fun x => x.2.st) (e o')).symm⟩
    obtain ⟨x, hx, _⟩ := setArguments_uniform (env := env) args
    simp only [hx]
    cases x <;> rfl

theorem run_opts : ∀ (s : Script) (st : RState) (o o' : Opts F),
    (run env s ⟨st, o⟩).1 = (run env s ⟨st, o'⟩).1 ∧ (run env s ⟨st, o⟩).2.1.st = (run env s ⟨st, o'⟩).2.1.st ∧
    (run env s ⟨st, o⟩).2.2 = (run env s ⟨st, o'⟩).2.2 := by
  intro s
  induction s with
  | done => intro st o o'; exact ⟨rfl, rfl, rfl⟩
  | fail => intro st o o'; exact ⟨rfl, rfl, rfl⟩
  | call op next ih =>
    intro st o o'
    obtain ⟨h1, h2⟩ := exec_opts (env := env) op st o o'
    rw [run, run]
    rcases he : exec env op ⟨st, o⟩ with ⟨r, ⟨st1, o1⟩⟩
    rcases he' : exec env op ⟨st, o'⟩ with ⟨r', ⟨st2, o2⟩⟩
    rw [he, he'] at h1 h2
    simp only at h1 h2
    subst h1
    subst h2
    cases r with
    | ok r =>
      obtain ⟨a, b, c⟩ := ih (some r) st1 o1 o2
      simp only
      rw [a]
      exact ⟨rfl, b, c⟩
    | error e =>
      cases e with
      | error m =>
        obtain ⟨a, b, c⟩ := ih none st1 o1 o2
        simp only
        rw [a]
        exact ⟨rfl, b, c⟩
      | panic m => exact ⟨rfl, rfl, rfl⟩

theorem readInput_opts (r r' : InputReader F) (s : Script) : (readInput env r s).1 = (readInput env r' s).1 := by
  obtain ⟨_, h2, h3⟩ := run_opts (env := env) s .empty r.world.opts r'.world.opts
  unfold readInput
  simp only
  rw [h3]
  split
  · rfl
  · rfl
  · rw [h2]
    split <;> rfl

/-- The objects known so far exist. -/
def Known (st : RState) (known : List (ObjKind × Nat)) : Prop :=
  ∀ k id, (k, id) ∈ known → match k with
    | .slot => id < st.slots.objs.length
    | .choice => id < st.choices.objs.length
    | .chooser => id < st.choosers.objs.length

theorem KStep.length_le {α : Type} [Named α] {k : ObjKind} {p q : Pool α} {op : Op} {r : R Reply}
    (h : KStep k p op r q) : p.objs.length ≤ q.objs.length := by
  cases h <;> simp

theorem KStep.given_lt {α : Type} [Named α] {k : ObjKind} {p q : Pool α} {op : Op} {id : Nat} {n : Str} (hp : p.WF)
    (h : KStep k p op (.ok (.ref id)) q) (ha : asksFor op = some (k, n)) : id < q.objs.length := by
  cases h with
  | found _ hl => exact hp.range _ (Pool.lookup_mem hp.range hl)
  | made _ _ _ => simp
  | again _ _ _ => simp [asksFor] at ha
  | added _ _ _ => simp [asksFor] at ha
  | renamed _ => simp [asksFor] at ha
  | other h _ _ => exact absurd ha (h n)

theorem Known.next {w w' : World F} {op : Op} {r : R Reply} {known : List (ObjKind × Nat)} (hw : Ok w.st)
    (hk : Known w.st known) (h : exec env op w = (r, w')) :
    Known w'.st (match asksFor op, replyOf r with
      | some (k, _), some (.ref id) => (k, id) :: known
      | _, _ => known) := by
  obtain ⟨h1, h2, h3⟩ := exec_steps hw h
  have base : Known w'.st known := by
    intro k id hm
    have := hk k id hm
    cases k
    · exact Nat.lt_of_lt_of_le this h1.length_le
    · exact Nat.lt_of_lt_of_le this h2.length_le
    · exact Nat.lt_of_lt_of_le this h3.length_le
  cases ha : asksFor op with
  | none => exact base
  | some kn =>
    obtain ⟨k, n⟩ := kn
    cases r with
    | error e => exact base
    | ok r =>
      cases r with
      | name s => exact base
      | accessor s => exact base
      | expr s => exact base
      | unit => exact base
      | ref id =>
        intro k' id' hm
        rcases List.mem_cons.1 hm with e | hm
        · cases e
          cases k
          · exact h1.given_lt hw.slots ha
          · exact h2.given_lt hw.choices ha
          · exact h3.given_lt hw.choosers ha
        · exact base k' id' hm

theorem findOrPush_noPanic {α : Type} [Named α] {p : Pool α} (hp : p.WF) (n : Str) (x : α) :
    NoPanic (findOrPush n x p).1 := by
  rw [findOrPush_eq]
  cases hl : p.lookup n with
  | error e => exact fun s hs => Pool.lookup_noPanic hp.range n s (by cases hs; exact hl)
  | ok v => cases v <;> exact NoPanic.ok _

theorem bind_ref_noPanic {α : Type} {x : R α} (f : α → Reply) (h : NoPanic x) : NoPanic (x.bind (fun a => .ok (f a))) :=
  NoPanic.bind h (fun _ _ => NoPanic.ok _)

theorem register_noPanic {α : Type} [Named α] {p : Pool α} (hp : p.WF) {id : Nat} (h : id < p.objs.length) :
    NoPanic (Pool.register id p).1 := by
  rcases Pool.register_eq hp (List.getElem?_eq_getElem h) with ⟨_, e⟩ | ⟨_, _, e⟩ | ⟨_, _, e⟩ <;> rw [e]
  · exact NoPanic.err _
  · exact NoPanic.ok _
  · exact NoPanic.ok _

theorem nameOf_noPanic {α : Type} [Named α] {p : Pool α} {id : Nat} (h : id < p.objs.length) : NoPanic (p.nameOf id) :=
  NoPanic.bind (NoPanic.idx h) (fun _ _ => NoPanic.ok _)

/-- The object exists. -/
def Exists (st : RState) (k : ObjKind) (id : Nat) : Prop :=
  match k with
  | .slot => id < st.slots.objs.length
  | .choice => id < st.choices.objs.length
  | .chooser => id < st.choosers.objs.length

theorem nameValue_noPanic {st : RState} {k : ObjKind} {id : Nat} (h : Exists st k id) : NoPanic (Rhai.nameValue st k id) := by
  cases k <;> exact nameOf_noPanic h

theorem usizeOfInt_noPanic (v : Int) : NoPanic (Rhai.usizeOfInt v) := by
  unfold Rhai.usizeOfInt
  intro s hs
  split at hs <;> cases hs

theorem attr_noPanic {st : RState} {k : ObjKind} {id : Nat} {a : Rhai.Attr} (h : Exists st k id) :
    NoPanic (Rhai.attr st k id a) := by
  unfold Rhai.attr
  refine NoPanic.bind (nameValue_noPanic h) (fun n _ => ?_)
  cases k <;> cases a <;> first
    | exact NoPanic.ok _
    | exact NoPanic.bind (usizeOfInt_noPanic _) (fun _ _ => NoPanic.ok _)
    | (intro s hs; cases hs)

theorem relate_noPanic {st : RState} (symbol : String) {l r : Rhai.Term} (hl : ∀ k id, l = .obj k id → Exists st k id)
    (hr : ∀ k id, r = .obj k id → Exists st k id) : NoPanic (Rhai.relate st symbol l r) := by
  unfold Rhai.relate
  cases Rhai.relationOf symbol with
  | some rel =>
    cases l with
    | obj k id =>
      cases r with
      | acc b => exact NoPanic.bind (nameValue_noPanic (hl k id rfl)) (fun _ _ => NoPanic.ok _)
      | _ => intro s hs; cases hs
    | acc a =>
      cases r with
      | obj k id => exact NoPanic.bind (nameValue_noPanic (hr k id rfl)) (fun _ _ => NoPanic.ok _)
      | _ => exact NoPanic.ok _
    | int v =>
      cases r with
      | acc b => exact NoPanic.ok _
      | _ => intro s hs; cases hs
  | none =>
    cases Rhai.containmentOf symbol with
    | none => intro s hs; cases hs
    | some rel =>
      cases l with
      | acc a =>
        cases r with
        | obj k id => exact NoPanic.bind (nameValue_noPanic (hr k id rfl)) (fun _ _ => NoPanic.ok _)
        | _ => intro s hs; cases hs
      | _ => intro s hs; cases hs

theorem exec_noPanic {w : World F} {op : Op} {known : List (ObjKind × Nat)} (hw : Ok w.st) (hk : Known w.st known)
    (hm : ∀ m ∈ mentions op, m ∈ known) (ht : ∀ n tags, op = .choice n tags → ∀ t ∈ tags, IsTag t)
    (hov : env.overflow = .wraps) : NoPanic (exec env op w).1 := by
  cases op with
  | slot n =>
    have e : exec env (.slot n) w = _ := onX (findOrPush n n) Reply.ref (onSlots (findOrPush n n)) (w := w) (s := w.st.slots) rfl
    rw [e]
    exact bind_ref_noPanic _ (findOrPush_noPanic hw.slots _ _)
  | choice n tags =>
    have e : exec env (.choice n tags) w = _ :=
      onX (choice n tags) Reply.ref (onChoices (choice n tags)) (w := w) (s := w.st.choices) rfl
    rw [e]
    refine bind_ref_noPanic _ ?_
    rw [choice_eq]
    cases hl : w.st.choices.lookup n with
    | error e => exact fun s hs => Pool.lookup_noPanic hw.choices.range n s (by cases hs; exact hl)
    | ok v =>
      cases v with
      | some id => exact NoPanic.ok _
      | none =>
        simp only
        have : NoPanic (tags.foldlM applyTag (defaultProto n)) :=
          NoPanic.foldlM (fun p t hmem => applyTag_noPanic p (ht n tags rfl t hmem)) _
        cases hx : tags.foldlM applyTag (defaultProto n) with
        | ok x => exact NoPanic.ok _
        | error e => exact fun s hs => this s (by cases hs; exact hx)
  | chooser n prefs =>
    have e : exec env (.chooser n prefs) w = _ :=
      onX (chooser n prefs) Reply.ref (onChoosers (chooser n prefs)) (w := w) (s := w.st.choosers) rfl
    rw [e]
    refine bind_ref_noPanic _ ?_
    rw [chooser_eq]
    cases hx : prefs.mapM dynPref with
    | ok ps => exact findOrPush_noPanic hw.choosers _ _
    | error e =>
      exact fun s hs => (NoPanic.mapM (l := prefs) (f := dynPref) (fun d _ => dynPref_noPanic d)) s (by cases hs; exact hx)
  | add k id =>
    have hid := hk k id (hm _ (by simp [mentions]))
    cases k with
    | slot =>
      have e : exec env (.add .slot id) w = _ :=
        onX (Pool.register id) (fun _ => Reply.ref id) (onSlots (Pool.register id)) (w := w) (s := w.st.slots) rfl
      rw [e]
      exact bind_ref_noPanic _ (register_noPanic hw.slots hid)
    | choice =>
      have e : exec env (.add .choice id) w = _ :=
        onX (Pool.register id) (fun _ => Reply.ref id) (onChoices (Pool.register id)) (w := w) (s := w.st.choices) rfl
      rw [e]
      exact bind_ref_noPanic _ (register_noPanic hw.choices hid)
    | chooser =>
      have e : exec env (.add .chooser id) w = _ :=
        onX (Pool.register id) (fun _ => Reply.ref id) (onChoosers (Pool.register id)) (w := w) (s := w.st.choosers) rfl
      rw [e]
      exact bind_ref_noPanic _ (register_noPanic hw.choosers hid)
  | addExpr x => exact NoPanic.ok _
  | setName k id n =>
    have hid := hk k id (hm _ (by simp [mentions]))
    cases k with
    | slot =>
      have e : exec env (.setName .slot id n) w = _ :=
        onX (Pool.rename id n) (fun _ => Reply.ref id) (onSlots (Pool.rename id n)) (w := w) (s := w.st.slots) rfl
      rw [e, Pool.rename_eq (List.getElem?_eq_getElem hid)]
      exact NoPanic.ok _
    | choice =>
      have e : exec env (.setName .choice id n) w = _ :=
        onX (Pool.rename id n) (fun _ => Reply.ref id) (onChoices (Pool.rename id n)) (w := w) (s := w.st.choices) rfl
      rw [e, Pool.rename_eq (List.getElem?_eq_getElem hid)]
      exact NoPanic.ok _
    | chooser =>
      have e : exec env (.setName .chooser id n) w = _ :=
        onX (Pool.rename id n) (fun _ => Reply.ref id) (onChoosers (Pool.rename id n)) (w := w) (s := w.st.choosers) rfl
      rw [e, Pool.rename_eq (List.getElem?_eq_getElem hid)]
      exact NoPanic.ok _
  | getName k id =>
    have hid := hk k id (hm _ (by simp [mentions]))
    cases k with
    | slot =>
      have e : exec env (.getName .slot id) w = _ :=
        onX (M.lift (w.st.slots.nameOf id)) Reply.name (M.lift (w.st.slots.nameOf id)) (w := w) (s := ()) rfl
      rw [e]
      exact bind_ref_noPanic _ (nameOf_noPanic hid)
    | choice =>
      have e : exec env (.getName .choice id) w = _ :=
        onX (M.lift (w.st.choices.nameOf id)) Reply.name (M.lift (w.st.choices.nameOf id)) (w := w) (s := ()) rfl
      rw [e]
      exact bind_ref_noPanic _ (nameOf_noPanic hid)
    | chooser =>
      have e : exec env (.getName .chooser id) w = _ :=
        onX (M.lift (w.st.choosers.nameOf id)) Reply.name (M.lift (w.st.choosers.nameOf id)) (w := w) (s := ()) rfl
      rw [e]
      exact bind_ref_noPanic _ (nameOf_noPanic hid)
  | attr k id a =>
    have hid := hk k id (hm _ (by simp [mentions]))
    have e : exec env (.attr k id a) w = _ :=
      onX (M.lift (Rhai.attr w.st k id a)) Reply.accessor (M.lift (Rhai.attr w.st k id a)) (w := w) (s := ()) rfl
    rw [e]
    exact bind_ref_noPanic _ (attr_noPanic hid)
  | relate symbol l r =>
    have e : exec env (.relate symbol l r) w = _ :=
      onX (M.lift (Rhai.relate w.st symbol l r)) Reply.expr (M.lift (Rhai.relate w.st symbol l r)) (w := w) (s := ()) rfl
    rw [e]
    exact bind_ref_noPanic _ (relate_noPanic symbol
      (fun k id h => hk k id (hm _ (by simp [mentions, refersTo, h])))
      (fun k id h => hk k id (hm _ (by simp [mentions, refersTo, h]))))
  | setArguments args =>
    have e : exec env (.setArguments args) w = _ :=
      onX (setArguments env args) (fun _ => Reply.unit) (onOpts (setArguments env args)) (w := w) (s := w.opts) rfl
    rw [e]
    refine bind_ref_noPanic _ ?_
    obtain ⟨x, hx, hxp⟩ := setArguments_uniform (env := env) args
    rw [hx]
    have := hxp hov
    cases x with
    | ok ss => exact NoPanic.ok _
    | error e => exact fun s hs => this s (by cases hs; rfl)

theorem run_noPanic (hov : env.overflow = .wraps) : ∀ (s : Script) (known : List (ObjKind × Nat)) (w : World F),
    Honest known s → Ok w.st → Known w.st known → ∀ site, (run env s w).2.2 ≠ .panicked site := by
  intro s
  induction s with
  | done => intro _ w _ _ _ site h; cases h
  | fail => intro _ w _ _ _ site h; cases h
  | call op next ih =>
    intro known w hh hw hk site
    obtain ⟨hm, ht, hn⟩ := hh
    have np := exec_noPanic (env := env) hw hk hm ht hov
    rw [run]
    rcases he : exec env op w with ⟨r, w'⟩
    have hk' := Known.next hw hk he
    rw [he] at np
    cases r with
    | ok r => exact ih (some r) _ w' (hn (some r)) (exec_ok hw he) hk' site
    | error e =>
      cases e with
      | error m =>
        have hk'' : Known w'.st (match asksFor op, (none : Option Reply) with
            | some (k, _), some (.ref id) => (k, id) :: known
            | _, _ => known) := hk'
        exact ih none _ w' (hn none) (exec_ok hw he) hk'' site
      | panic m => exact absurd rfl (np m)

end Reader
end Wassign
