import Verif.Spec.Time
import Verif.Spec.Settings
import Verif.Proofs.Expr
/-
Time strings and arguments.
-/
namespace Wassign
open Spec
namespace Time

theorem isDigit_iff {c : Char} : isDigit c = true ↔ IsDigit c := by
  unfold isDigit IsDigit
  simp only [Bool.and_eq_true, decide_eq_true_eq, Char.le_def, UInt32.le_iff_toNat_le]
  exact Iff.rfl

/-- Continuing a number. -/
def cont (n : Nat) (s : Str) : Nat := s.foldl (fun n c => 10 * n + (c.toNat - '0'.toNat)) n

theorem cont_nil (n : Nat) : cont n [] = n := rfl
theorem cont_cons (n : Nat) (c : Char) (s : Str) : cont n (c :: s) = cont (10 * n + (c.toNat - 48)) s := by
  have h : '0'.toNat = 48 := by decide
  simp only [cont, List.foldl_cons, h]

theorem cont_ge (s : Str) : ∀ n, n ≤ cont n s := by
  induction s with
  | nil => intro n; exact Nat.le_refl _
  | cons c s ih => intro n; rw [cont_cons]; exact Nat.le_trans (by omega) (ih _)

theorem pushDigit_ok {n : Nat} {c : Char} (hc : IsDigit c) (h : 10 * n + (c.toNat - 48) ≤ 2147483647) :
    pushDigit n c = .ok ((10 * n + (c.toNat - 48) : Nat) : Int) := by
  have hd := isDigit_iff.2 hc
  unfold isDigit at hd
  simp only [Bool.and_eq_true, decide_eq_true_eq] at hd
  unfold pushDigit
  rw [if_pos (by omega)]
  simp only [R.pure_eq]
  congr 1
  omega

theorem pushDigit_inv {n : Nat} {c : Char} {v : Int} (hc : IsDigit c) (h : pushDigit n c = .ok v) :
    v = ((10 * n + (c.toNat - 48) : Nat) : Int) ∧ 10 * n + (c.toNat - 48) ≤ 2147483647 := by
  have hd := isDigit_iff.2 hc
  unfold isDigit at hd
  simp only [Bool.and_eq_true, decide_eq_true_eq] at hd
  unfold pushDigit at h
  split at h
  · rename_i hb
    cases h
    omega
  · cases h

theorem pushDigit_noPanic {n : Int} {c : Char} {s : String} : pushDigit n c ≠ .error (.panic s) := by
  unfold pushDigit
  split <;> simp

/-- The digits of a number are read one by one. -/
theorem go_digits (o : Overflow) (total : Int) : ∀ (ds : Str) (n : Nat) (rest : Str), (∀ c ∈ ds, IsDigit c) →
    cont n ds ≤ 2147483647 → go o total n (ds ++ rest) = go o total (cont n ds) rest := by
  intro ds
  induction ds with
  | nil => intro n rest _ _; rfl
  | cons c ds ih =>
    intro n rest hd hn
    rw [cont_cons] at hn
    have hc := hd c (by simp)
    have hle : 10 * n + (c.toNat - 48) ≤ 2147483647 := Nat.le_trans (cont_ge ds _) hn
    rw [List.cons_append, go, if_pos (isDigit_iff.2 hc), pushDigit_ok hc hle, R.bind_ok,
      ih _ rest (fun c h => hd c (by simp [h])) hn, cont_cons]

theorem multiplier_letter (u : TimeUnit) : multiplier u.letter = some (u.seconds : Int) := by
  cases u <;> rfl

theorem isDigit_letter (u : TimeUnit) : isDigit u.letter = false := by
  cases u <;> rfl

theorem multiplier_inv {c : Char} {m : Int} (h : multiplier c = some m) :
    ∃ u : TimeUnit, c = u.letter ∧ m = u.seconds := by
  unfold multiplier at h
  split at h
  · rename_i hc; cases h; exact ⟨.second, hc, rfl⟩
  · split at h
    · rename_i hc; cases h; exact ⟨.minute, hc, rfl⟩
    · split at h
      · rename_i hc; cases h; exact ⟨.hour, hc, rfl⟩
      · split at h
        · rename_i hc; cases h; exact ⟨.day, hc, rfl⟩
        · split at h
          · rename_i hc; cases h; exact ⟨.week, hc, rfl⟩
          · cases h

theorem asI32_id {x : Int} (h : -2147483648 ≤ x ∧ x ≤ 2147483647) : asI32 x = x := by
  unfold asI32
  rw [Int.bmod_eq_of_le (by omega) (by omega)]

theorem i32Op_ok {o : Overflow} {x : Int} {s : String} (h : -2147483648 ≤ x ∧ x ≤ 2147483647) :
    i32Op o x s = .ok x := by
  cases o
  · exact chkI32_eq_ok.2 ⟨h, rfl⟩
  · simp only [i32Op, asI32_id h]
    rfl

theorem i32Op_panics_inv {x v : Int} {s : String} (h : i32Op .panics x s = .ok v) :
    (-2147483648 ≤ x ∧ x ≤ 2147483647) ∧ v = x := chkI32_eq_ok.1 h

theorem go_unit (o : Overflow) (total n : Nat) (u : TimeUnit) (rest : Str)
    (h : total + n * u.seconds ≤ 2147483647) :
    go o (total : Int) (n : Int) (u.letter :: rest) = go o ((total + n * u.seconds : Nat) : Int) 0 rest := by
  have h1 : i32Op o ((n : Int) * (u.seconds : Int)) "current * multiplier" = .ok ((n : Int) * (u.seconds : Int)) := by
    apply i32Op_ok
    have : ((n * u.seconds : Nat) : Int) = (n : Int) * (u.seconds : Int) := by push_cast; rfl
    omega
  have h2 : i32Op o ((total : Int) + (n : Int) * (u.seconds : Int)) "total += .." =
      .ok ((total : Int) + (n : Int) * (u.seconds : Int)) := by
    apply i32Op_ok
    have : ((n * u.seconds : Nat) : Int) = (n : Int) * (u.seconds : Int) := by push_cast; rfl
    omega
  rw [go, if_neg (by simp [isDigit_letter]), multiplier_letter]
  simp only
  rw [h1, R.bind_ok, h2, R.bind_ok]
  congr 1

theorem timeText_cons (p : TimePart) (ps : List TimePart) :
    timeText (p :: ps) = p.digits ++ (p.unit.letter :: timeText ps) := by
  simp [timeText]

theorem timeSeconds_cons (p : TimePart) (ps : List TimePart) :
    timeSeconds (p :: ps) = decimal p.digits * p.unit.seconds + timeSeconds ps := by
  simp [timeSeconds]

theorem seconds_pos (u : TimeUnit) : 0 < u.seconds := by cases u <;> decide

theorem go_parts (o : Overflow) : ∀ (ps : List TimePart) (total : Nat) (rest : Str),
    (∀ p ∈ ps, p.IsTimePart) → total + timeSeconds ps ≤ 2147483647 →
    go o total 0 (timeText ps ++ rest) = go o ((total + timeSeconds ps : Nat) : Int) 0 rest := by
  intro ps
  induction ps with
  | nil => intro total rest _ _; simp [timeText, timeSeconds]
  | cons p ps ih =>
    intro total rest hp hs
    rw [timeSeconds_cons] at hs ⊢
    rw [timeText_cons, List.append_assoc, List.cons_append]
    have hd : cont 0 p.digits = decimal p.digits := rfl
    have hle : decimal p.digits ≤ decimal p.digits * p.unit.seconds := Nat.le_mul_of_pos_right _ (seconds_pos _)
    have := go_digits o total p.digits 0 (p.unit.letter :: (timeText ps ++ rest)) (hp p (by simp)) (by rw [hd]; omega)
    rw [show ((0 : Nat) : Int) = 0 from rfl] at this
    rw [this, hd, go_unit o total _ p.unit _ (by omega), ih _ rest (fun q h => hp q (by simp [h])) (by omega)]
    congr 2
    omega

/-- What an accepted string looks like. -/
theorem go_inv_panics : ∀ (s : Str) (total n : Nat) (v : Int), go .panics total n s = .ok v →
    ∃ (pre : Option (Str × TimeUnit)) (ps : List TimePart) (tail : Str),
      (∀ p ∈ ps, p.IsTimePart) ∧ (∀ c ∈ tail, IsDigit c) ∧
      (match pre with
        | none => ps = [] ∧ s = tail ∧ v = total
        | some (ds, u) => (∀ c ∈ ds, IsDigit c) ∧ s = ds ++ (u.letter :: (timeText ps ++ tail)) ∧
            v = ((total + cont n ds * u.seconds + timeSeconds ps : Nat) : Int) ∧ v ≤ 2147483647) := by
  intro s
  induction s with
  | nil =>
    intro total n v h
    rw [go] at h
    cases h
    exact ⟨none, [], [], by simp, by simp, rfl, rfl, rfl⟩
  | cons c s ih =>
    intro total n v h
    rw [go] at h
    by_cases hc : isDigit c = true
    · rw [if_pos hc, R.bind_eq_ok] at h
      obtain ⟨cur, h1, h2⟩ := h
      obtain ⟨rfl, hle⟩ := pushDigit_inv (isDigit_iff.1 hc) h1
      obtain ⟨pre, ps, tail, hps, htail, hm⟩ := ih _ _ _ h2
      cases pre with
      | none =>
        obtain ⟨rfl, rfl, rfl⟩ := hm
        refine ⟨none, [], c :: s, by simp, ?_, rfl, rfl, rfl⟩
        intro x hx
        rcases List.mem_cons.1 hx with rfl | hx
        · exact isDigit_iff.1 hc
        · exact htail x hx
      | some q =>
        obtain ⟨ds, u⟩ := q
        obtain ⟨hds, hs, hv, hle⟩ := hm
        refine ⟨some (c :: ds, u), ps, tail, hps, htail, ?_, by rw [hs]; rfl, ?_, hle⟩
        · intro x hx
          rcases List.mem_cons.1 hx with rfl | hx
          · exact isDigit_iff.1 hc
          · exact hds x hx
        · rw [cont_cons]; exact hv
    · rw [if_neg hc] at h
      cases hmul : multiplier c with
      | none => rw [hmul] at h; cases h
      | some m =>
        obtain ⟨u, rfl, rfl⟩ := multiplier_inv hmul
        rw [hmul] at h
        simp only at h
        rw [R.bind_eq_ok] at h
        obtain ⟨x, h1, h⟩ := h
        obtain ⟨hx, rfl⟩ := i32Op_panics_inv h1
        rw [R.bind_eq_ok] at h
        obtain ⟨t, h2, h⟩ := h
        obtain ⟨ht, rfl⟩ := i32Op_panics_inv h2
        have e : (total : Int) + (n : Int) * (u.seconds : Int) = ((total + n * u.seconds : Nat) : Int) := by
          push_cast; rfl
        rw [e] at h ht
        obtain ⟨pre, ps, tail, hps, htail, hm⟩ := ih _ 0 _ h
        cases pre with
        | none =>
          obtain ⟨rfl, rfl, rfl⟩ := hm
          exact ⟨some ([], u), [], s, by simp, htail, by simp, by simp [timeText], by simp [timeSeconds, cont_nil], ht.2⟩
        | some q =>
          obtain ⟨ds, u'⟩ := q
          obtain ⟨hds, hs, hv, hle⟩ := hm
          refine ⟨some ([], u), ⟨ds, u'⟩ :: ps, tail, ?_, htail, by simp, ?_, ?_, hle⟩
          · intro p hp
            rcases List.mem_cons.1 hp with rfl | hp
            · exact hds
            · exact hps p hp
          · rw [hs, timeText_cons]; simp
          · rw [hv, timeSeconds_cons]
            congr 1
            show total + n * u.seconds + decimal ds * u'.seconds + timeSeconds ps =
              total + n * u.seconds + (decimal ds * u'.seconds + timeSeconds ps)
            omega

/-- Characters that are no digit and no unit are refused. -/
theorem go_chars (o : Overflow) : ∀ (s : Str) (total cur v : Int), go o total cur s = .ok v →
    ∀ c ∈ s, IsDigit c ∨ ∃ u : TimeUnit, c = u.letter := by
  intro s
  induction s with
  | nil => intro _ _ _ _ c hc; cases hc
  | cons d s ih =>
    intro total cur v h c hc
    rw [go] at h
    by_cases hd : isDigit d = true
    · rw [if_pos hd, R.bind_eq_ok] at h
      obtain ⟨x, _, h⟩ := h
      rcases List.mem_cons.1 hc with rfl | hc
      · exact Or.inl (isDigit_iff.1 hd)
      · exact ih _ _ _ h c hc
    · rw [if_neg hd] at h
      cases hmul : multiplier d with
      | none => rw [hmul] at h; cases h
      | some m =>
        obtain ⟨u, rfl, rfl⟩ := multiplier_inv hmul
        rw [hmul] at h
        simp only at h
        rw [R.bind_eq_ok] at h
        obtain ⟨x, _, h⟩ := h
        rw [R.bind_eq_ok] at h
        obtain ⟨t, _, h⟩ := h
        rcases List.mem_cons.1 hc with rfl | hc
        · exact Or.inr ⟨u, rfl⟩
        · exact ih _ _ _ h c hc

theorem i32Op_wraps_noPanic {x : Int} {t s : String} : i32Op .wraps x t ≠ .error (.panic s) := by
  simp [i32Op]

theorem go_noPanic : ∀ (s : Str) (total cur : Int) (site : String), go .wraps total cur s ≠ .error (.panic site) := by
  intro s
  induction s with
  | nil => intro total cur site h; rw [go] at h; cases h
  | cons c s ih =>
    intro total cur site
    rw [go]
    split
    · cases h : pushDigit cur c with
      | ok x => rw [R.bind_ok]; exact ih _ _ _
      | error f =>
        rw [R.bind_error]
        intro hh
        cases hh
        exact pushDigit_noPanic h
    · cases hmul : multiplier c with
      | none => simp
      | some m =>
        simp only [i32Op, R.pure_eq, R.bind_ok]
        exact ih _ _ _

end Time

/-! Arguments -/
section args
variable {F : Type} {env : OptEnv F}

theorem needValue_eq_ok {l : List Str} {v : Str × List Str} : needValue l = .ok v ↔ l = v.1 :: v.2 := by
  cases l with
  | nil => simp [needValue]
  | cons a t =>
    obtain ⟨x, y⟩ := v
    simp [needValue]

theorem orErr_eq_ok {α : Type} {x : Option α} {a : α} {m : String} : orErr x m = .ok a ↔ x = some a := by
  cases x <;> simp [orErr]

/-- One turn consumes one wish. -/
theorem argStep_spells {o o' : Opts F} {a : Str} {rest rest' : List Str} (h : argStep env o a rest = .ok (o', rest')) :
    ∃ s : Setting F, o' = s.apply o ∧ rest'.length ≤ rest.length ∧
      ∀ ss, Spells env rest' ss → Spells env (a :: rest) (s :: ss) := by
  unfold argStep at h
  by_cases ha : a = "-i".toList ∨ a = "--input".toList
  · rw [if_pos ha] at h
    rw [R.bind_eq_ok] at h
    obtain ⟨v, hv, h⟩ := h
    rw [needValue_eq_ok] at hv
    subst hv
    cases h
    exact ⟨.input v.1, rfl, by simp, fun ss hs => .input (by simpa using ha) hs⟩
  rw [if_neg ha] at h
  by_cases ha : a = "-o".toList ∨ a = "--output".toList
  · rw [if_pos ha] at h
    rw [R.bind_eq_ok] at h
    obtain ⟨v, hv, h⟩ := h
    rw [needValue_eq_ok] at hv
    subst hv
    cases h
    exact ⟨.output v.1, rfl, by simp, fun ss hs => .output (by simpa using ha) hs⟩
  rw [if_neg ha] at h
  by_cases ha : a = "-a".toList ∨ a = "--any".toList
  · rw [if_pos ha] at h
    cases h
    exact ⟨.any, rfl, by simp, fun ss hs => .any (by simpa using ha) hs⟩
  rw [if_neg ha] at h
  by_cases ha : a = "-p".toList ∨ a = "--pref-exp".toList
  · rw [if_pos ha] at h
    rw [R.bind_eq_ok] at h
    obtain ⟨v, hv, h⟩ := h
    rw [needValue_eq_ok] at hv
    subst hv
    rw [R.bind_eq_ok] at h
    obtain ⟨x, hx, h⟩ := h
    rw [orErr_eq_ok] at hx
    cases h
    exact ⟨.prefExp x, rfl, by simp, fun ss hs => .prefExp (by simpa using ha) hx hs⟩
  rw [if_neg ha] at h
  by_cases ha : a = "-t".toList ∨ a = "--timeout".toList
  · rw [if_pos ha] at h
    rw [R.bind_eq_ok] at h
    obtain ⟨v, hv, h⟩ := h
    rw [needValue_eq_ok] at hv
    subst hv
    rw [R.bind_eq_ok] at h
    obtain ⟨x, hx, h⟩ := h
    cases h
    exact ⟨.timeout x, rfl, by simp, fun ss hs => .timeout (by simpa using ha) hx hs⟩
  rw [if_neg ha] at h
  by_cases ha : a = "--cs-timeout".toList
  · rw [if_pos ha] at h
    rw [R.bind_eq_ok] at h
    obtain ⟨v, hv, h⟩ := h
    rw [needValue_eq_ok] at hv
    subst hv
    rw [R.bind_eq_ok] at h
    obtain ⟨x, hx, h⟩ := h
    cases h
    subst ha
    exact ⟨.csTimeout x, rfl, by simp, fun ss hs => .csTimeout hx hs⟩
  rw [if_neg ha] at h
  by_cases ha : a = "--no-cs".toList
  · rw [if_pos ha] at h
    cases h
    subst ha
    exact ⟨.noCs, rfl, by simp, fun ss hs => .noCs hs⟩
  rw [if_neg ha] at h
  by_cases ha : a = "--no-cs-simp".toList
  · rw [if_pos ha] at h
    cases h
    subst ha
    exact ⟨.noCsSimp, rfl, by simp, fun ss hs => .noCsSimp hs⟩
  rw [if_neg ha] at h
  by_cases ha : a = "-j".toList ∨ a = "--threads".toList
  · rw [if_pos ha] at h
    rw [R.bind_eq_ok] at h
    obtain ⟨v, hv, h⟩ := h
    rw [needValue_eq_ok] at hv
    subst hv
    rw [R.bind_eq_ok] at h
    obtain ⟨x, hx, h⟩ := h
    rw [orErr_eq_ok] at hx
    cases h
    exact ⟨.threads x, rfl, by simp, fun ss hs => .threads (by simpa using ha) hx hs⟩
  rw [if_neg ha] at h
  by_cases ha : a = "-n".toList ∨ a = "--max-neighbors".toList
  · rw [if_pos ha] at h
    rw [R.bind_eq_ok] at h
    obtain ⟨v, hv, h⟩ := h
    rw [needValue_eq_ok] at hv
    subst hv
    rw [R.bind_eq_ok] at h
    obtain ⟨x, hx, h⟩ := h
    rw [orErr_eq_ok] at hx
    cases h
    exact ⟨.maxNeighbors x, rfl, by simp, fun ss hs => .maxNeighbors (by simpa using ha) hx hs⟩
  rw [if_neg ha] at h
  by_cases ha : a = "-g".toList ∨ a = "--greedy".toList
  · rw [if_pos ha] at h
    cases h
    exact ⟨.greedy, rfl, by simp, fun ss hs => .greedy (by simpa using ha) hs⟩
  rw [if_neg ha] at h
  by_cases ha : a = "-h".toList ∨ a = "--help".toList ∨ a = "--version".toList
  · rw [if_pos ha] at h
    cases h
    exact ⟨.information, rfl, by simp, fun ss hs => .information (by simpa using ha) hs⟩
  rw [if_neg ha] at h
  cases h

theorem argLoop_spells : ∀ (fuel : Nat) (o o' : Opts F) (args : List Str), argLoop env fuel o args = .ok o' →
    ∃ ss, Spells env args ss ∧ o' = ss.foldl Setting.apply o := by
  intro fuel
  induction fuel with
  | zero =>
    intro o o' args h
    cases args with
    | nil => rw [argLoop] at h; cases h; exact ⟨[], .nil, rfl⟩
    | cons a t => rw [argLoop] at h; cases h
  | succ fuel ih =>
    intro o o' args h
    cases args with
    | nil => rw [argLoop] at h; cases h; exact ⟨[], .nil, rfl⟩
    | cons a t =>
      rw [argLoop, R.bind_eq_ok] at h
      obtain ⟨⟨o1, t1⟩, h1, h2⟩ := h
      obtain ⟨s, rfl, _, hs⟩ := argStep_spells h1
      obtain ⟨ss, hss, rfl⟩ := ih _ _ _ h2
      exact ⟨s :: ss, hs ss hss, rfl⟩

theorem spells_argLoop {args : List Str} {ss : List (Setting F)} (h : Spells env args ss) :
    ∀ (o : Opts F) (fuel : Nat), args.length ≤ fuel → argLoop env fuel o args = .ok (ss.foldl Setting.apply o) := by
  induction h with
  | nil => intro o fuel _; cases fuel <;> rfl
  | @input a v rest ss ha _ ih =>
    intro o fuel hf
    obtain ⟨fuel, rfl⟩ : ∃ k, fuel = k + 1 := ⟨fuel - 1, by simp at hf; omega⟩
    have e : argStep env o a (v :: rest) = .ok (Setting.apply o (.input v), rest) := by
      rcases List.mem_pair.1 ha with rfl | rfl <;> rfl
    rw [argLoop, e]
    exact ih _ _ (by simp at hf; omega)
  | @output a v rest ss ha _ ih =>
    intro o fuel hf
    obtain ⟨fuel, rfl⟩ : ∃ k, fuel = k + 1 := ⟨fuel - 1, by simp at hf; omega⟩
    have e : argStep env o a (v :: rest) = .ok (Setting.apply o (.output v), rest) := by
      rcases List.mem_pair.1 ha with rfl | rfl <;> rfl
    rw [argLoop, e]
    exact ih _ _ (by simp at hf; omega)
  | @any a rest ss ha _ ih =>
    intro o fuel hf
    obtain ⟨fuel, rfl⟩ : ∃ k, fuel = k + 1 := ⟨fuel - 1, by simp at hf; omega⟩
    have e : argStep env o a rest = .ok (Setting.apply o .any, rest) := by
      rcases List.mem_pair.1 ha with rfl | rfl <;> rfl
    rw [argLoop, e]
    exact ih _ _ (by simp at hf; omega)
  | @prefExp a v x rest ss ha hx _ ih =>
    intro o fuel hf
    obtain ⟨fuel, rfl⟩ : ∃ k, fuel = k + 1 := ⟨fuel - 1, by simp at hf; omega⟩
    have e : argStep env o a (v :: rest) = (do
        let x ← orErr (env.parseF v) "invalid float"
        pure (Setting.apply o (.prefExp x), rest)) := by
      rcases List.mem_pair.1 ha with rfl | rfl <;> rfl
    rw [argLoop, e, hx]
    exact ih _ _ (by simp at hf; omega)
  | @timeout a v x rest ss ha hx _ ih =>
    intro o fuel hf
    obtain ⟨fuel, rfl⟩ : ∃ k, fuel = k + 1 := ⟨fuel - 1, by simp at hf; omega⟩
    have e : argStep env o a (v :: rest) = (do
        let x ← Time.parse env.overflow v
        pure (Setting.apply o (.timeout x), rest)) := by
      rcases List.mem_pair.1 ha with rfl | rfl <;> rfl
    rw [argLoop, e, hx]
    exact ih _ _ (by simp at hf; omega)
  | @csTimeout v x rest ss hx _ ih =>
    intro o fuel hf
    obtain ⟨fuel, rfl⟩ : ∃ k, fuel = k + 1 := ⟨fuel - 1, by simp at hf; omega⟩
    have e : argStep env o "--cs-timeout".toList (v :: rest) = (do
        let x ← Time.parse env.overflow v
        pure (Setting.apply o (.csTimeout x), rest)) := rfl
    rw [argLoop, e, hx]
    exact ih _ _ (by simp at hf; omega)
  | @noCs rest ss _ ih =>
    intro o fuel hf
    obtain ⟨fuel, rfl⟩ : ∃ k, fuel = k + 1 := ⟨fuel - 1, by simp at hf; omega⟩
    have e : argStep env o "--no-cs".toList rest = .ok (Setting.apply o .noCs, rest) := rfl
    rw [argLoop, e]
    exact ih _ _ (by simp at hf; omega)
  | @noCsSimp rest ss _ ih =>
    intro o fuel hf
    obtain ⟨fuel, rfl⟩ : ∃ k, fuel = k + 1 := ⟨fuel - 1, by simp at hf; omega⟩
    have e : argStep env o "--no-cs-simp".toList rest = .ok (Setting.apply o .noCsSimp, rest) := rfl
    rw [argLoop, e]
    exact ih _ _ (by simp at hf; omega)
  | @threads a v x rest ss ha hx _ ih =>
    intro o fuel hf
    obtain ⟨fuel, rfl⟩ : ∃ k, fuel = k + 1 := ⟨fuel - 1, by simp at hf; omega⟩
    have e : argStep env o a (v :: rest) = (do
        let x ← orErr (parseU32 v) "invalid number"
        pure (Setting.apply o (.threads x), rest)) := by
      rcases List.mem_pair.1 ha with rfl | rfl <;> rfl
    rw [argLoop, e, hx]
    exact ih _ _ (by simp at hf; omega)
  | @maxNeighbors a v x rest ss ha hx _ ih =>
    intro o fuel hf
    obtain ⟨fuel, rfl⟩ : ∃ k, fuel = k + 1 := ⟨fuel - 1, by simp at hf; omega⟩
    have e : argStep env o a (v :: rest) = (do
        let x ← orErr (parseU32 v) "invalid number"
        pure (Setting.apply o (.maxNeighbors x), rest)) := by
      rcases List.mem_pair.1 ha with rfl | rfl <;> rfl
    rw [argLoop, e, hx]
    exact ih _ _ (by simp at hf; omega)
  | @greedy a rest ss ha _ ih =>
    intro o fuel hf
    obtain ⟨fuel, rfl⟩ : ∃ k, fuel = k + 1 := ⟨fuel - 1, by simp at hf; omega⟩
    have e : argStep env o a rest = .ok (Setting.apply o .greedy, rest) := by
      rcases List.mem_pair.1 ha with rfl | rfl <;> rfl
    rw [argLoop, e]
    exact ih _ _ (by simp at hf; omega)
  | @information a rest ss ha _ ih =>
    intro o fuel hf
    obtain ⟨fuel, rfl⟩ : ∃ k, fuel = k + 1 := ⟨fuel - 1, by simp at hf; omega⟩
    have e : argStep env o a rest = .ok (Setting.apply o .information, rest) := by
      simp only [List.mem_cons, List.not_mem_nil, or_false] at ha
      rcases ha with rfl | rfl | rfl <;> rfl
    rw [argLoop, e]
    exact ih _ _ (by simp at hf; omega)

theorem mapM_dynStr {args : List Dyn} {texts : List Str} :
    args.mapM dynStr = .ok texts ↔ args = texts.map Dyn.str := by
  induction args generalizing texts with
  | nil => cases texts <;> simp
  | cons a t ih =>
    rw [List.mapM_cons, R.bind_eq_ok]
    constructor
    · rintro ⟨x, hx, h⟩
      rw [R.bind_eq_ok] at h
      obtain ⟨xs, hxs, h⟩ := h
      cases h
      cases a <;> simp [dynStr] at hx
      subst hx
      simp [ih.1 hxs]
    · intro h
      cases texts with
      | nil => simp at h
      | cons x xs =>
        simp only [List.map_cons, List.cons.injEq] at h
        obtain ⟨rfl, h⟩ := h
        refine ⟨x, rfl, ?_⟩
        rw [ih.2 h]
        rfl

theorem setArguments_eq {o : Opts F} {args : List Dyn} :
    setArguments env args o = match (do
      let values ← args.mapM dynStr
      argLoop env values.length o values : R (Opts F)) with
      | .ok next => (.ok (), next)
      | .error e => (.error e, o) := by
  show M.bind _ _ o = _
  unfold M.bind M.lift
  simp only
  cases args.mapM dynStr with
  | error e => rfl
  | ok values =>
    simp only [R.bind_ok]
    show M.bind _ _ o = _
    unfold M.bind M.get
    simp only
    show M.bind _ _ o = _
    unfold M.bind
    simp only
    cases argLoop env values.length o values <;> rfl

theorem setArguments_iff {o o' : Opts F} {args : List Dyn} :
    setArguments env args o = (.ok (), o') ↔
      ∃ texts ss, args = texts.map Dyn.str ∧ Spells env texts ss ∧ o' = ss.foldl Setting.apply o := by
  rw [setArguments_eq]
  constructor
  · intro h
    split at h
    · rename_i next hn
      cases h
      rw [R.bind_eq_ok] at hn
      obtain ⟨texts, ht, hl⟩ := hn
      obtain ⟨ss, hs, rfl⟩ := argLoop_spells _ _ _ _ hl
      exact ⟨texts, ss, mapM_dynStr.1 ht, hs, rfl⟩
    · cases h
  · rintro ⟨texts, ss, ha, hs, rfl⟩
    rw [mapM_dynStr.2 ha, R.bind_ok, spells_argLoop hs _ _ (Nat.le_refl _)]

theorem setArguments_failed {o o' : Opts F} {args : List Dyn} {f : Fault} (h : setArguments env args o = (.error f, o')) :
    o' = o := by
  rw [setArguments_eq] at h
  split at h <;> cases h
  rfl

end args
end Wassign
