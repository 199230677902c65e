import Verif.Proofs.Cli
import Verif.Props.Process
/-
C83: the command line means what the manual says.
-/
namespace Wassign
open Spec
namespace Cli
variable {F : Type} {env : OptEnv F}

theorem line_cons {arg : Str} {rest : List Str} {ss : List (Spec.Setting F)} : Line env (arg :: rest) ss ↔
    (arg = ['-', '-'] ∧ rest = [] ∧ ss = []) ∨
    (∃ cs ss1 rest' ss2, arg = '-' :: cs ∧ Combined env cs rest ss1 rest' ∧ Line env rest' ss2 ∧ ss = ss1 ++ ss2) ∨
    (∃ s x rest' ss', arg = '-' :: '-' :: s ∧ LongIs env rest s x rest' ∧ Line env rest' ss' ∧ ss = x :: ss') := by
  constructor
  · intro h
    cases h with
    | stop => exact .inl ⟨rfl, rfl, rfl⟩
    | short h1 h2 => exact .inr (.inl ⟨_, _, _, _, rfl, h1, h2, rfl⟩)
    | flag h1 h2 => exact .inr (.inr ⟨_, _, _, _, rfl, .flag rfl h1, h2, rfl⟩)
    | value h1 h2 h3 => exact .inr (.inr ⟨_, _, _, _, rfl, .value rfl rfl h1 h2, h3, rfl⟩)
    | @equals c l v s rest ss h1 h2 =>
      refine .inr (.inr ⟨l.toList ++ '=' :: v, _, _, _, ?_, .equals rfl h1, h2, rfl⟩)
      simp
  · rintro (⟨rfl, rfl, rfl⟩ | ⟨cs, ss1, rest', ss2, rfl, h1, h2, rfl⟩ | ⟨s, x, rest', ss', rfl, h1, h2, rfl⟩)
    · exact .stop
    · exact .short h1 h2
    · cases h1 with
      | flag hs hf => subst hs; exact .flag hf h2
      | value hs hr hf hsep => subst hs; subst hr; exact .value hf hsep h2
      | @equals c l v x hs hf =>
        subst hs
        have := Line.equals hf h2
        simpa using this

theorem help_cons {arg : Str} {rest : List Str} {ss : List (Spec.Setting F)} : Help env (arg :: rest) ss ↔
    (∃ c l, arg = '-' :: '-' :: l.toList ∧ Asking c l ∧ ss = []) ∨
    (∃ cs, arg = '-' :: cs ∧ CombinedHelp cs ss) ∨
    (∃ cs ss1 rest' ss2, arg = '-' :: cs ∧ Combined env cs rest ss1 rest' ∧ Help env rest' ss2 ∧ ss = ss1 ++ ss2) ∨
    (∃ s x rest' ss', arg = '-' :: '-' :: s ∧ LongIs env rest s x rest' ∧ Help env rest' ss' ∧ ss = x :: ss') := by
  constructor
  · intro h
    cases h with
    | here h => exact .inl ⟨_, _, rfl, h, rfl⟩
    | combined h => exact .inr (.inl ⟨_, rfl, h⟩)
    | short h1 h2 => exact .inr (.inr (.inl ⟨_, _, _, _, rfl, h1, h2, rfl⟩))
    | flag h1 h2 => exact .inr (.inr (.inr ⟨_, _, _, _, rfl, .flag rfl h1, h2, rfl⟩))
    | value h1 h2 h3 => exact .inr (.inr (.inr ⟨_, _, _, _, rfl, .value rfl rfl h1 h2, h3, rfl⟩))
    | @equals c l v s rest ss h1 h2 =>
      refine .inr (.inr (.inr ⟨l.toList ++ '=' :: v, _, _, _, ?_, .equals rfl h1, h2, rfl⟩))
      simp
  · rintro (⟨c, l, rfl, h, rfl⟩ | ⟨cs, rfl, h⟩ | ⟨cs, ss1, rest', ss2, rfl, h1, h2, rfl⟩ | ⟨s, x, rest', ss', rfl, h1, h2, rfl⟩)
    · exact .here h
    · exact .combined h
    · exact .short h1 h2
    · cases h1 with
      | flag hs hf => subst hs; exact .flag hf h2
      | value hs hr hf hsep => subst hs; subst hr; exact .value hf hsep h2
      | @equals c l v x hs hf =>
        subst hs
        have := Help.equals hf h2
        simpa using this

/-- The shapes of an argument. -/
theorem arg_shape (arg : Str) : arg = ['-', '-'] ∨ (∃ s, s ≠ [] ∧ arg = '-' :: '-' :: s) ∨ (∃ c s, c ≠ '-' ∧ arg = '-' :: c :: s) ∨
    (∀ c s, arg ≠ '-' :: c :: s) := by
  match arg with
  | [] => right; right; right; intro c s h; cases h
  | [a] => right; right; right; intro c s h; cases h
  | a :: c :: s =>
    by_cases ha : a = '-'
    · subst ha
      by_cases hc : c = '-'
      · subst hc
        by_cases hs : s = []
        · subst hs; exact .inl rfl
        · exact .inr (.inl ⟨s, hs, rfl⟩)
      · exact .inr (.inr (.inl ⟨c, s, hc, rfl⟩))
    · right; right; right; intro c' s' h; cases h; exact ha rfl

theorem loop_stop {fuel : Nat} {st : State F} {rest : List Str} : loop env (fuel + 1) st (['-', '-'] :: rest) =
    if rest.isEmpty then pure st else refuse := rfl

theorem loop_long {fuel : Nat} {st : State F} {s : Str} {rest : List Str} (h : s ≠ []) : loop env (fuel + 1) st (('-' :: '-' :: s) :: rest) =
    (do let (st, rest) ← long env rest st s; loop env fuel st rest) := by
  cases s with
  | nil => exact absurd rfl h
  | cons a t => rfl

theorem loop_short {fuel : Nat} {st : State F} {c : Char} {s : Str} {rest : List Str} (h : c ≠ '-') :
    loop env (fuel + 1) st (('-' :: c :: s) :: rest) = (do let (st, rest) ← shorts env rest st (c :: s); loop env fuel st rest) := by
  show (match '-' :: c :: s with
    | ['-', '-'] => if rest.isEmpty then pure st else refuse
    | '-' :: '-' :: s => do let (st, rest) ← long env rest st s; loop env fuel st rest
    | '-' :: c :: s => do let (st, rest) ← shorts env rest st (c :: s); loop env fuel st rest
    | _ => refuse) = _
  split
  · rename_i e; cases e; exact absurd rfl h
  · rename_i e; cases e; exact absurd rfl h
  · rename_i e; cases e; rfl
  · rename_i h1; exact absurd rfl (h1 _ _)

theorem loop_other {fuel : Nat} {st : State F} {arg : Str} {rest : List Str} (h : ∀ c s, arg ≠ '-' :: c :: s) :
    loop env (fuel + 1) st (arg :: rest) = refuse := by
  show (match arg with
    | ['-', '-'] => if rest.isEmpty then pure st else refuse
    | '-' :: '-' :: s => do let (st, rest) ← long env rest st s; loop env fuel st rest
    | '-' :: c :: s => do let (st, rest) ← shorts env rest st (c :: s); loop env fuel st rest
    | _ => refuse) = _
  split
  · exact absurd rfl (h _ _)
  · exact absurd rfl (h _ _)
  · exact absurd rfl (h _ _)
  · rfl

theorem combined_dash {s : Str} {after rest : List Str} {ss : List (Spec.Setting F)} : ¬ Combined env ('-' :: s) after ss rest := by
  intro h
  obtain ⟨id, h⟩ := combined_head h
  have : shortId '-' = none := by decide
  rw [this] at h
  cases h

theorem combinedHelp_dash {s : Str} {ss : List (Spec.Setting F)} : ¬ CombinedHelp ('-' :: s) ss := by
  intro h
  have e : shortId '-' = none := by decide
  cases h with
  | here h => obtain ⟨id, _, h, _⟩ := asking_id h; rw [e] at h; cases h
  | flags h _ => obtain ⟨id, _, _, h, _⟩ := flag_id h; have := h _ rfl; rw [e] at this; cases this

theorem combinedHelp_ne {ss : List (Spec.Setting F)} : ¬ CombinedHelp [] ss := by intro h; cases h

theorem loop_ok : ∀ (fuel : Nat) (args : List Str) {st st' : State F}, args.length ≤ fuel →
    (loop env fuel st args = .ok st' ↔ ∃ ss, Line env args ss ∧ Puts st ss st') := by
  intro fuel
  induction fuel with
  | zero =>
    intro args st st' h
    cases args with
    | nil =>
      constructor
      · intro h; cases h; exact ⟨[], .nil, .nil⟩
      · rintro ⟨ss, h, hp⟩; cases h; cases hp; rfl
    | cons a t => simp at h
  | succ fuel ih =>
    intro args st st' hlen
    cases args with
    | nil =>
      constructor
      · intro h; cases h; exact ⟨[], .nil, .nil⟩
      · rintro ⟨ss, h, hp⟩; cases h; cases hp; rfl
    | cons arg rest =>
      simp only [List.length_cons, Nat.add_le_add_iff_right] at hlen
      simp only [line_cons]
      rcases arg_shape arg with rfl | ⟨s, hs, rfl⟩ | ⟨c, s, hc, rfl⟩ | ho
      · rw [loop_stop]
        constructor
        · intro h
          split at h
          · rename_i he
            cases h
            exact ⟨[], .inl ⟨rfl, by simpa using he, rfl⟩, .nil⟩
          · cases h
        · rintro ⟨ss, (⟨_, rfl, rfl⟩ | ⟨cs, ss1, rest', ss2, e, h1, _⟩ | ⟨s, x, rest', ss', e, h1, _⟩), hp⟩
          · cases hp; rfl
          · cases e; exact absurd h1 combined_dash
          · cases e; exact absurd rfl (longIs_ne h1)
      · rw [loop_long hs, ebind_ok]
        constructor
        · rintro ⟨⟨st1, rest'⟩, h1, h2⟩
          obtain ⟨x, h3, h4⟩ := long_ok.1 h1
          obtain ⟨ss, h5, h6⟩ := (ih rest' (Nat.le_trans (longIs_length h3) hlen)).1 h2
          exact ⟨x :: ss, .inr (.inr ⟨s, x, rest', ss, rfl, h3, h5, rfl⟩), .cons h4 h6⟩
        · rintro ⟨ss, (⟨e, _, _⟩ | ⟨cs, ss1, rest', ss2, e, h1, _⟩ | ⟨s, x, rest', ss', e, h1, h2, rfl⟩), hp⟩
          · cases e; exact absurd rfl hs
          · cases e; exact absurd h1 combined_dash
          · cases e
            cases hp with
            | cons h4 h6 => exact ⟨(_, rest'), long_ok.2 ⟨x, h1, h4⟩, (ih rest' (Nat.le_trans (longIs_length h1) hlen)).2 ⟨ss', h2, h6⟩⟩
      · rw [loop_short hc, ebind_ok]
        constructor
        · rintro ⟨⟨st1, rest'⟩, h1, h2⟩
          obtain ⟨ss1, h3, h4⟩ := (shorts_ok _ (by simp)).1 h1
          obtain ⟨ss, h5, h6⟩ := (ih rest' (Nat.le_trans (combined_length h3) hlen)).1 h2
          exact ⟨ss1 ++ ss, .inr (.inl ⟨_, ss1, rest', ss, rfl, h3, h5, rfl⟩), h4.append h6⟩
        · rintro ⟨ss, (⟨e, _, _⟩ | ⟨cs, ss1, rest', ss2, e, h1, h2, rfl⟩ | ⟨s, x, rest', ss', e, h1, h2, rfl⟩), hp⟩
          · cases e; exact absurd rfl hc
          · cases e
            obtain ⟨st1, h4, h6⟩ := hp.split
            exact ⟨(st1, rest'), (shorts_ok _ (by simp)).2 ⟨ss1, h1, h4⟩, (ih rest' (Nat.le_trans (combined_length h1) hlen)).2 ⟨ss2, h2, h6⟩⟩
          · cases e; exact absurd rfl hc
      · rw [loop_other ho]
        refine ⟨fun h => (by cases h), ?_⟩
        rintro ⟨ss, (⟨e, _, _⟩ | ⟨cs, ss1, rest', ss2, e, h1, h2, rfl⟩ | ⟨s, x, rest', ss', e, h1, h2, rfl⟩), hp⟩
        · exact absurd e (ho _ _)
        · cases cs with
          | nil => exact absurd rfl (combined_ne h1)
          | cons c s => exact absurd e (ho _ _)
        · exact absurd e (ho _ _)

theorem loop_info : ∀ (fuel : Nat) (args : List Str) {st : State F}, args.length ≤ fuel →
    (loop env fuel st args = .error .information ↔ ∃ ss st', Help env args ss ∧ Puts st ss st') := by
  intro fuel
  induction fuel with
  | zero =>
    intro args st h
    cases args with
    | nil => exact ⟨fun h => (by cases h), fun ⟨_, _, h, _⟩ => (by cases h)⟩
    | cons a t => simp at h
  | succ fuel ih =>
    intro args st hlen
    cases args with
    | nil => exact ⟨fun h => (by cases h), fun ⟨_, _, h, _⟩ => (by cases h)⟩
    | cons arg rest =>
      simp only [List.length_cons, Nat.add_le_add_iff_right] at hlen
      simp only [help_cons]
      rcases arg_shape arg with rfl | ⟨s, hs, rfl⟩ | ⟨c, s, hc, rfl⟩ | ho
      · rw [loop_stop]
        constructor
        · intro h
          split at h
          · cases h
          · exact absurd h refuse_ne
        · rintro ⟨ss, st', (⟨c, l, e, ha, _⟩ | ⟨cs, e, h1⟩ | ⟨cs, ss1, rest', ss2, e, h1, _⟩ | ⟨s, x, rest', ss', e, h1, _⟩), hp⟩
          · cases ha <;> exact absurd e (by decide)
          · cases e; exact absurd h1 combinedHelp_dash
          · cases e; exact absurd h1 combined_dash
          · cases e; exact absurd rfl (longIs_ne h1)
      · rw [loop_long hs, ebind_info, long_info]
        constructor
        · rintro (⟨c, l, rfl, ha⟩ | ⟨⟨st1, rest'⟩, h1, h2⟩)
          · exact ⟨[], st, .inl ⟨c, l, rfl, ha, rfl⟩, .nil⟩
          · obtain ⟨x, h3, h4⟩ := long_ok.1 h1
            obtain ⟨ss, st', h5, h6⟩ := (ih rest' (Nat.le_trans (longIs_length h3) hlen)).1 h2
            exact ⟨x :: ss, st', .inr (.inr (.inr ⟨s, x, rest', ss, rfl, h3, h5, rfl⟩)), .cons h4 h6⟩
        · rintro ⟨ss, st', (⟨c, l, e, ha, _⟩ | ⟨cs, e, h1⟩ | ⟨cs, ss1, rest', ss2, e, h1, _⟩ | ⟨s, x, rest', ss', e, h1, h2, rfl⟩), hp⟩
          · exact .inl ⟨c, l, (by cases e; rfl), ha⟩
          · cases e; exact absurd h1 combinedHelp_dash
          · cases e; exact absurd h1 combined_dash
          · cases e
            cases hp with
            | cons h4 h6 =>
              exact .inr ⟨(_, rest'), long_ok.2 ⟨x, h1, h4⟩, (ih rest' (Nat.le_trans (longIs_length h1) hlen)).2 ⟨ss', st', h2, h6⟩⟩
      · rw [loop_short hc, ebind_info, shorts_info]
        constructor
        · rintro (⟨ss, st', h1, h2⟩ | ⟨⟨st1, rest'⟩, h1, h2⟩)
          · exact ⟨ss, st', .inr (.inl ⟨_, rfl, h1⟩), h2⟩
          · obtain ⟨ss1, h3, h4⟩ := (shorts_ok _ (by simp)).1 h1
            obtain ⟨ss, st', h5, h6⟩ := (ih rest' (Nat.le_trans (combined_length h3) hlen)).1 h2
            exact ⟨ss1 ++ ss, st', .inr (.inr (.inl ⟨_, ss1, rest', ss, rfl, h3, h5, rfl⟩)), h4.append h6⟩
        · rintro ⟨ss, st', (⟨c', l, e, ha, _⟩ | ⟨cs, e, h1⟩ | ⟨cs, ss1, rest', ss2, e, h1, h2, rfl⟩ | ⟨s, x, rest', ss', e, h1, h2, rfl⟩), hp⟩
          · cases e; exact absurd rfl hc
          · cases e; exact .inl ⟨ss, st', h1, hp⟩
          · cases e
            obtain ⟨st1, h4, h6⟩ := hp.split
            exact .inr ⟨(st1, rest'), (shorts_ok _ (by simp)).2 ⟨ss1, h1, h4⟩,
              (ih rest' (Nat.le_trans (combined_length h1) hlen)).2 ⟨ss2, st', h2, h6⟩⟩
          · cases e; exact absurd rfl hc
      · rw [loop_other ho]
        refine ⟨fun h => absurd h refuse_ne, ?_⟩
        rintro ⟨ss, st', (⟨c', l, e, ha, _⟩ | ⟨cs, e, h1⟩ | ⟨cs, ss1, rest', ss2, e, h1, h2, rfl⟩ | ⟨s, x, rest', ss', e, h1, h2, rfl⟩), hp⟩
        · exact absurd e (ho _ _)
        · cases cs with
          | nil => exact absurd h1 combinedHelp_ne
          | cons c s => exact absurd e (ho _ _)
        · cases cs with
          | nil => exact absurd rfl (combined_ne h1)
          | cons c s => exact absurd e (ho _ _)
        · exact absurd e (ho _ _)

/-! ### Given once -/

theorem idOf_name (s t : Spec.Setting F) : idOf s = idOf t ↔ s.name = t.name := by
  cases s <;> cases t <;> simp [idOf, Spec.Setting.name]

theorem idOf_input (s : Spec.Setting F) : idOf s = .input ↔ s.name = "input" := by
  cases s <;> simp [idOf, Spec.Setting.name]

theorem puts_iff {ss : List (Spec.Setting F)} : ∀ {st : State F}, (∃ st', Puts st ss st') ↔
    Once ss ∧ ∀ s ∈ ss, s.name ≠ "input" → idOf s ∉ st.given := by
  induction ss with
  | nil => intro st; exact ⟨fun _ => ⟨List.Pairwise.nil, by simp⟩, fun _ => ⟨st, .nil⟩⟩
  | cons s ss ih =>
    intro st
    have key : (∃ st', Puts st (s :: ss) st') ↔ (¬ (idOf s ≠ .input ∧ idOf s ∈ st.given)) ∧
        ∃ st', Puts ⟨s.apply st.opts, idOf s :: st.given⟩ ss st' := by
      constructor
      · rintro ⟨st', h⟩
        cases h with
        | cons h1 h2 => obtain ⟨h3, rfl⟩ := h1; exact ⟨h3, st', h2⟩
      · rintro ⟨h1, st', h2⟩
        exact ⟨st', .cons ⟨h1, rfl⟩ h2⟩
    rw [key, ih]
    unfold Once
    rw [List.pairwise_cons]
    constructor
    · rintro ⟨h1, h2, h3⟩
      refine ⟨⟨fun t ht e => ?_, h2⟩, ?_⟩
      · by_contra hne
        have hn : t.name ≠ "input" := by rw [← e]; exact hne
        exact h3 t ht hn (by simp [(idOf_name s t).2 e])
      · intro t ht hn
        rcases List.mem_cons.1 ht with rfl | ht
        · exact fun h => h1 ⟨fun h' => hn ((idOf_input t).1 h'), h⟩
        · exact fun h => h3 t ht hn (by simp [h])
    · rintro ⟨⟨h1, h2⟩, h3⟩
      refine ⟨fun h => h3 s (by simp) (fun h' => h.1 ((idOf_input s).2 h')) h.2, h2, ?_⟩
      intro t ht hn h
      rcases List.mem_cons.1 h with h | h
      · have e := (idOf_name s t).1 h.symm
        exact hn (e ▸ h1 t ht e)
      · exact h3 t (by simp [ht]) hn h

theorem puts_opts {ss : List (Spec.Setting F)} : ∀ {st st' : State F}, Puts st ss st' → st'.opts = ss.foldl Spec.Setting.apply st.opts := by
  induction ss with
  | nil => intro st st' h; cases h; rfl
  | cons s ss ih =>
    intro st st' h
    cases h with
    | cons h1 h2 => obtain ⟨_, rfl⟩ := h1; exact ih h2

theorem puts_once {ss : List (Spec.Setting F)} {o o' : Opts F} : (∃ st', Puts ⟨o, []⟩ ss st' ∧ st'.opts = o') ↔ Once ss ∧ o' = ss.foldl Spec.Setting.apply o := by
  constructor
  · rintro ⟨st', h, rfl⟩
    exact ⟨((puts_iff (st := ⟨o, []⟩)).1 ⟨st', h⟩).1, puts_opts h⟩
  · rintro ⟨h, rfl⟩
    obtain ⟨st', h'⟩ := (puts_iff (st := ⟨o, []⟩)).2 ⟨h, by simp⟩
    exact ⟨st', h', puts_opts h'⟩

theorem defaults_ok {three : F} {cores : Option Nat} (hc : Cores cores) : defaults env three cores = .ok (standard three cores) := by
  have h : ∀ o : Overflow, Time.parse o "60s".toList = .ok 60 ∧ Time.parse o "3s".toList = .ok 3 := by
    intro o; cases o <;> decide +kernel
  have e : threadCount cores = cores.getD 1 := by
    cases cores with
    | none => rfl
    | some n => simp [threadCount, hc n rfl]
  unfold defaults timeValue
  rw [(h env.overflow).1, (h env.overflow).2]
  simp only [standard, ← e]
  rfl

/-! ### The order -/

theorem apply_comm (o : Opts F) (s t : Spec.Setting F) (h : s.name = t.name → s = t) :
    (Spec.Setting.apply (Spec.Setting.apply o s) t) = Spec.Setting.apply (Spec.Setting.apply o t) s := by
  cases s <;> cases t <;> first | rfl | (have := h rfl; cases this; rfl)

/-- Input files first. -/
theorem files_first (ss : List (Spec.Setting F)) : ∀ (o : Opts F), ss.foldl Spec.Setting.apply o =
    (ss.filter (fun s => s.name ≠ "input")).foldl Spec.Setting.apply { o with inputFiles := o.inputFiles ++ files ss } := by
  induction ss with
  | nil => intro o; simp [files]
  | cons s ss ih =>
    intro o
    rw [List.foldl_cons, ih]
    cases s <;> simp [Spec.Setting.name, files, Spec.Setting.apply]

theorem once_symm {ss : List (Spec.Setting F)} (h : Once ss) : ∀ x ∈ ss, ∀ y ∈ ss, x ≠ y → x.name = y.name → x.name = "input" := by
  induction ss with
  | nil => intro x hx; cases hx
  | cons s ss ih =>
    obtain ⟨h1, h2⟩ := List.pairwise_cons.1 h
    intro x hx y hy hne e
    rcases List.mem_cons.1 hx with rfl | hx' <;> rcases List.mem_cons.1 hy with rfl | hy'
    · exact absurd rfl hne
    · exact h1 y hy' e
    · rw [e]; exact h1 x hx' e.symm
    · exact ih h2 x hx' y hy' hne e

theorem once_comm {ss : List (Spec.Setting F)} (h : Once ss) : ∀ x ∈ ss.filter (fun s => s.name ≠ "input"),
    ∀ y ∈ ss.filter (fun s => s.name ≠ "input"), x.name = y.name → x = y := by
  intro x hx y hy e
  by_contra hne
  simp only [List.mem_filter, decide_eq_true_eq] at hx hy
  exact hx.2 (once_symm h x hx.1 y hy.1 hne e)

theorem once_perm {ss ss' : List (Spec.Setting F)} (hp : ss.Perm ss') (h : Once ss) : Once ss' := by
  unfold Once at *
  refine (List.Perm.pairwise_iff (R := fun s t : Spec.Setting F => s.name = t.name → s.name = "input") ?_ hp).1 h
  intro a b hab e
  rw [e]
  exact hab e.symm

theorem order {ss ss' : List (Spec.Setting F)} (hp : ss.Perm ss') (h : Once ss) (hf : files ss = files ss') (o : Opts F) :
    ss.foldl Spec.Setting.apply o = ss'.foldl Spec.Setting.apply o := by
  rw [files_first ss, files_first ss', hf]
  refine List.Perm.foldl_eq' (hp.filter _) ?_ _
  intro x hx y hy z
  exact apply_comm z x y (once_comm h x hx y hy)

/-! ### No panic -/

/-- No panic. -/
def Safe {α : Type} (x : Except Stop α) : Prop := ∀ m, x ≠ .error (.fault (.panic m))

theorem safe_pure {α : Type} (a : α) : Safe (pure a : Except Stop α) := by intro m h; cases h
theorem safe_ok {α : Type} (a : α) : Safe (.ok a : Except Stop α) := by intro m h; cases h
theorem safe_refuse {α : Type} : Safe (refuse : Except Stop α) := by intro m h; cases h
theorem safe_info {α : Type} : Safe (.error .information : Except Stop α) := by intro m h; cases h

theorem safe_bind {α β : Type} {x : Except Stop α} {f : α → Except Stop β} (h : Safe x) (hf : ∀ a, x = .ok a → Safe (f a)) :
    Safe (x >>= f) := by
  intro m e
  cases x with
  | ok a => exact hf a rfl m e
  | error s => exact h m (by cases e; rfl)

theorem safe_time (hov : env.overflow = .wraps) (v : Str) : Safe (timeValue env v) := by
  intro m
  unfold timeValue
  rw [hov]
  split
  · intro h; cases h
  · rename_i f hf
    intro h
    cases h
    exact Time.go_noPanic v 0 0 m hf

theorem safe_setValue (hov : env.overflow = .wraps) (st : State F) (id : Id) (v : Str) : Safe (setValue env st id v) := by
  unfold setValue
  split
  · exact safe_refuse
  · refine safe_bind ?_ (fun _ _ => safe_ok _)
    have hu : Safe (u32Value v) := by
      unfold u32Value
      split
      · split
        · exact safe_ok _
        · exact safe_refuse
      · exact safe_refuse
    have hf : Safe (floatValue env v) := by
      unfold floatValue
      split
      · exact safe_ok _
      · exact safe_refuse
    cases id <;> first
      | exact safe_ok _
      | exact safe_bind hu (fun _ _ => safe_ok _)
      | exact safe_bind hf (fun _ _ => safe_ok _)
      | exact safe_bind (safe_time hov v) (fun _ _ => safe_ok _)

theorem safe_setFlag (st : State F) (id : Id) : Safe (setFlag st id) := by
  unfold setFlag
  split
  · exact safe_info
  · split
    · exact safe_refuse
    · exact safe_ok _

theorem safe_next (hov : env.overflow = .wraps) (st : State F) (id : Id) (rest : List Str) : Safe (nextValue env st id rest) := by
  unfold nextValue
  split
  · split
    · exact safe_bind (safe_setValue hov _ _ _) (fun _ _ => safe_pure _)
    · exact safe_refuse
  · exact safe_refuse

theorem safe_shorts (hov : env.overflow = .wraps) (rest : List Str) : ∀ (cs : Str) (st : State F), Safe (shorts env rest st cs) := by
  intro cs
  induction cs with
  | nil => intro st; exact safe_pure _
  | cons c cs ih =>
    intro st
    unfold shorts
    split
    · exact safe_refuse
    · split
      · split
        · exact safe_next hov _ _ _
        · exact safe_bind (safe_setValue hov _ _ _) (fun _ _ => safe_pure _)
        · exact safe_bind (safe_setValue hov _ _ _) (fun _ _ => safe_pure _)
      · exact safe_bind (safe_setFlag _ _) (fun _ _ => ih _)

theorem safe_long (hov : env.overflow = .wraps) (rest : List Str) (st : State F) (s : Str) : Safe (long env rest st s) := by
  unfold long
  split
  · exact safe_refuse
  · split
    · exact safe_next hov _ _ _
    · exact safe_bind (safe_setFlag _ _) (fun _ _ => safe_pure _)
  · split
    · exact safe_bind (safe_setValue hov _ _ _) (fun _ _ => safe_pure _)
    · exact safe_refuse

theorem safe_loop (hov : env.overflow = .wraps) : ∀ (fuel : Nat) (args : List Str) (st : State F), args.length ≤ fuel →
    Safe (loop env fuel st args) := by
  intro fuel
  induction fuel with
  | zero =>
    intro args st h
    cases args with
    | nil => exact safe_pure _
    | cons a t => simp at h
  | succ fuel ih =>
    intro args st hlen
    cases args with
    | nil => exact safe_pure _
    | cons arg rest =>
      simp only [List.length_cons, Nat.add_le_add_iff_right] at hlen
      rcases arg_shape arg with rfl | ⟨s, hs, rfl⟩ | ⟨c, s, hc, rfl⟩ | ho
      · rw [loop_stop]
        split
        · exact safe_pure _
        · exact safe_refuse
      · rw [loop_long hs]
        refine safe_bind (safe_long hov _ _ _) ?_
        rintro ⟨st1, rest'⟩ h1
        obtain ⟨x, h3, _⟩ := long_ok.1 h1
        exact ih _ _ (Nat.le_trans (longIs_length h3) hlen)
      · rw [loop_short hc]
        refine safe_bind (safe_shorts hov _ _ _) ?_
        rintro ⟨st1, rest'⟩ h1
        obtain ⟨ss1, h3, _⟩ := (shorts_ok _ (by simp)).1 h1
        exact ih _ _ (Nat.le_trans (combined_length h3) hlen)
      · rw [loop_other ho]
        exact safe_refuse

/-! ### `set_arguments` -/

theorem setValue_opts {st st' : State F} {id : Id} {v : Str} (h : setValue env st id v = .ok st') :
    ∃ o, newValue env st.opts id v = .ok o ∧ st'.opts = o := by
  unfold setValue at h
  split at h
  · cases h
  · obtain ⟨o, h1, h2⟩ := ebind_ok.1 h
    cases h2
    exact ⟨o, h1, rfl⟩

/-- One argument with its value. -/
theorem loop_valued {fuel : Nat} {st st' : State F} {a v : Str} {rest : List Str} (id : Id)
    (e : loop env (fuel + 1) st (a :: v :: rest) = (do let (st, rest) ← nextValue env st id (v :: rest); loop env fuel st rest))
    (h : loop env (fuel + 1) st (a :: v :: rest) = .ok st') :
    ∃ st1, newValue env st.opts id v = .ok st1.opts ∧ Separate v ∧ loop env fuel st1 rest = .ok st' := by
  rw [e] at h
  obtain ⟨⟨st1, rest1⟩, h1, h2⟩ := ebind_ok.1 h
  unfold nextValue at h1
  simp only at h1
  split at h1
  · rename_i hv
    obtain ⟨st2, h3, h4⟩ := ebind_ok.1 h1
    cases h4
    obtain ⟨o, h5, h6⟩ := setValue_opts h3
    refine ⟨st1, by rw [h5, h6], ?_, h2⟩
    unfold isValue at hv
    unfold Separate
    simpa [or_comm] using hv
  · cases h1

/-- One argument without value. -/
theorem loop_flagged {fuel : Nat} {st st' : State F} {a : Str} {rest : List Str} (id : Id)
    (e : loop env (fuel + 1) st (a :: rest) =
      (do let (st, rest) ← (do let st ← setFlag st id; pure (st, rest) : Except Stop (State F × List Str)); loop env fuel st rest))
    (h : loop env (fuel + 1) st (a :: rest) = .ok st') :
    ∃ st1, newFlag st.opts id = st1.opts ∧ id ≠ .help ∧ id ≠ .version ∧ loop env fuel st1 rest = .ok st' := by
  rw [e] at h
  obtain ⟨⟨st1, rest1⟩, h0, h2⟩ := ebind_ok.1 h
  obtain ⟨st2, h1, h3⟩ := ebind_ok.1 h0
  cases h3
  unfold setFlag at h1
  split at h1
  · cases h1
  · rename_i hh
    split at h1
    · cases h1
    · cases h1
      exact ⟨_, rfl, fun h => hh (.inl h), fun h => hh (.inr h), h2⟩

theorem parseU32_number {v : Str} {n : Nat} (h : parseU32 v = some n) : Number32 v n := by
  unfold parseU32 parseUnsigned at h
  cases v with
  | nil => cases h
  | cons c rest =>
    simp only at h
    split at h
    · rename_i hc
      subst hc
      split at h
      · cases h
      · rename_i hr
        obtain ⟨h1, rfl, h2⟩ := digitsVal_zero.1 h
        exact ⟨.plus (by simpa using hr) h1, h2⟩
    · obtain ⟨h1, rfl, h2⟩ := digitsVal_zero.1 h
      exact ⟨.plain (by simp) h1, h2⟩

theorem u32Value_of {v : Str} {n : Nat} (h : parseU32 v = some n) : u32Value v = .ok n := u32Value_ok.2 (parseU32_number h)

theorem loop_spells {args : List Str} {ss : List (Spec.Setting F)} (h : Spells env args ss) : ∀ (fuel : Nat) (st st' : State F),
    loop env fuel st args = .ok st' → st'.opts = ss.foldl Spec.Setting.apply st.opts := by
  induction h with
  | nil => intro fuel st st' h; cases fuel <;> (cases h; rfl)
  | @input a v rest ss ha hs ih =>
    intro fuel st st' h
    cases fuel with
    | zero => cases h
    | succ fuel =>
      simp only [List.mem_cons, List.not_mem_nil, or_false] at ha
      obtain ⟨st1, h1, hsep, h2⟩ := loop_valued .input (by rcases ha with rfl | rfl <;> rfl) h
      rw [ih fuel st1 st' h2, List.foldl_cons]
      congr 1
      exact ((Except.ok.injEq _ _).mp h1).symm
  | @output a v rest ss ha hs ih =>
    intro fuel st st' h
    cases fuel with
    | zero => cases h
    | succ fuel =>
      simp only [List.mem_cons, List.not_mem_nil, or_false] at ha
      obtain ⟨st1, h1, hsep, h2⟩ := loop_valued .output (by rcases ha with rfl | rfl <;> rfl) h
      rw [ih fuel st1 st' h2, List.foldl_cons]
      congr 1
      exact ((Except.ok.injEq _ _).mp h1).symm
  | @any a rest ss ha hs ih =>
    intro fuel st st' h
    cases fuel with
    | zero => cases h
    | succ fuel =>
      simp only [List.mem_cons, List.not_mem_nil, or_false] at ha
      obtain ⟨st1, h1, _, _, h2⟩ := loop_flagged .any (by rcases ha with rfl | rfl <;> rfl) h
      rw [ih fuel st1 st' h2, List.foldl_cons, ← h1]
      rfl
  | @prefExp a v x rest ss ha hx hs ih =>
    intro fuel st st' h
    cases fuel with
    | zero => cases h
    | succ fuel =>
      simp only [List.mem_cons, List.not_mem_nil, or_false] at ha
      obtain ⟨st1, h1, hsep, h2⟩ := loop_valued .prefExp (by rcases ha with rfl | rfl <;> rfl) h
      rw [ih fuel st1 st' h2, List.foldl_cons]
      congr 1
      unfold newValue at h1
      simp only [floatValue_ok.2 hx] at h1
      exact ((Except.ok.injEq _ _).mp h1).symm
  | @timeout a v x rest ss ha hx hs ih =>
    intro fuel st st' h
    cases fuel with
    | zero => cases h
    | succ fuel =>
      simp only [List.mem_cons, List.not_mem_nil, or_false] at ha
      obtain ⟨st1, h1, hsep, h2⟩ := loop_valued .timeout (by rcases ha with rfl | rfl <;> rfl) h
      rw [ih fuel st1 st' h2, List.foldl_cons]
      congr 1
      unfold newValue at h1
      simp only [timeValue_ok.2 hx] at h1
      exact ((Except.ok.injEq _ _).mp h1).symm
  | @csTimeout v x rest ss hx hs ih =>
    intro fuel st st' h
    cases fuel with
    | zero => cases h
    | succ fuel =>
      obtain ⟨st1, h1, hsep, h2⟩ := loop_valued .csTimeout rfl h
      rw [ih fuel st1 st' h2, List.foldl_cons]
      congr 1
      unfold newValue at h1
      simp only [timeValue_ok.2 hx] at h1
      exact ((Except.ok.injEq _ _).mp h1).symm
  | @noCs rest ss hs ih =>
    intro fuel st st' h
    cases fuel with
    | zero => cases h
    | succ fuel =>
      obtain ⟨st1, h1, _, _, h2⟩ := loop_flagged .noCs rfl h
      rw [ih fuel st1 st' h2, List.foldl_cons, ← h1]
      rfl
  | @noCsSimp rest ss hs ih =>
    intro fuel st st' h
    cases fuel with
    | zero => cases h
    | succ fuel =>
      obtain ⟨st1, h1, _, _, h2⟩ := loop_flagged .noCsSimp rfl h
      rw [ih fuel st1 st' h2, List.foldl_cons, ← h1]
      rfl
  | @threads a v x rest ss ha hx hs ih =>
    intro fuel st st' h
    cases fuel with
    | zero => cases h
    | succ fuel =>
      simp only [List.mem_cons, List.not_mem_nil, or_false] at ha
      obtain ⟨st1, h1, hsep, h2⟩ := loop_valued .threads (by rcases ha with rfl | rfl <;> rfl) h
      rw [ih fuel st1 st' h2, List.foldl_cons]
      congr 1
      unfold newValue at h1
      simp only [u32Value_of hx] at h1
      exact ((Except.ok.injEq _ _).mp h1).symm
  | @maxNeighbors a v x rest ss ha hx hs ih =>
    intro fuel st st' h
    cases fuel with
    | zero => cases h
    | succ fuel =>
      simp only [List.mem_cons, List.not_mem_nil, or_false] at ha
      obtain ⟨st1, h1, hsep, h2⟩ := loop_valued .maxNeighbors (by rcases ha with rfl | rfl <;> rfl) h
      rw [ih fuel st1 st' h2, List.foldl_cons]
      congr 1
      unfold newValue at h1
      simp only [u32Value_of hx] at h1
      exact ((Except.ok.injEq _ _).mp h1).symm
  | @greedy a rest ss ha hs ih =>
    intro fuel st st' h
    cases fuel with
    | zero => cases h
    | succ fuel =>
      simp only [List.mem_cons, List.not_mem_nil, or_false] at ha
      obtain ⟨st1, h1, _, _, h2⟩ := loop_flagged .greedy (by rcases ha with rfl | rfl <;> rfl) h
      rw [ih fuel st1 st' h2, List.foldl_cons, ← h1]
      rfl
  | @information a rest ss ha hs ih =>
    intro fuel st st' h
    cases fuel with
    | zero => cases h
    | succ fuel =>
      simp only [List.mem_cons, List.not_mem_nil, or_false] at ha
      rcases ha with rfl | rfl | rfl
      · cases h
      · cases h
      · cases h

end Cli

/-! ## C83 -/
open Cli
variable {F : Type} {env : OptEnv F}

/-- **C83**: the command line is accepted exactly if it consists of options in one of their spellings, none given twice except for
input files; then the options are the standard ones with what was asked for. -/
theorem C83_accepted (three : F) (cores : Option Nat) (hc : Cores cores) (args : List Str) (o : Opts F) :
    Cli.parse env three cores args = .ok o ↔
      ∃ ss, Line env args ss ∧ Once ss ∧ o = ss.foldl Spec.Setting.apply (standard three cores) := by
  unfold Cli.parse
  rw [defaults_ok hc]
  show ((loop env args.length ⟨standard three cores, []⟩ args >>= fun st => pure st.opts) = _) ↔ _
  rw [ebind_ok]
  constructor
  · rintro ⟨st, h, h2⟩
    cases h2
    obtain ⟨ss, h3, h4⟩ := (loop_ok _ args (Nat.le_refl _)).1 h
    exact ⟨ss, h3, puts_once.1 ⟨st, h4, rfl⟩⟩
  · rintro ⟨ss, h1, h2⟩
    obtain ⟨st, h3, rfl⟩ := puts_once.2 h2
    exact ⟨st, (loop_ok _ args (Nat.le_refl _)).2 ⟨ss, h1, h3⟩, rfl⟩

/-- **C83**: help or version is shown exactly if it is asked for and everything before it is well-formed. -/
theorem C83_help (three : F) (cores : Option Nat) (hc : Cores cores) (args : List Str) :
    Cli.parse env three cores args = .error .information ↔ ∃ ss, Help env args ss ∧ Once ss := by
  unfold Cli.parse
  rw [defaults_ok hc]
  show ((loop env args.length ⟨standard three cores, []⟩ args >>= fun st => pure st.opts) = _) ↔ _
  rw [ebind_info, loop_info _ args (Nat.le_refl _)]
  constructor
  · rintro (⟨ss, st', h1, h2⟩ | ⟨_, _, h⟩)
    · exact ⟨ss, h1, (puts_iff.1 ⟨st', h2⟩).1⟩
    · cases h
  · rintro ⟨ss, h1, h2⟩
    obtain ⟨st', h3⟩ := (puts_iff (st := ⟨standard three cores, []⟩)).2 ⟨h2, by simp⟩
    exact .inl ⟨ss, st', h1, h3⟩

/-- **C83**: without arguments the options are the standard ones, which are also those of `Options::default()`. -/
theorem C83_defaults (three : F) (cores : Option Nat) (hc : Cores cores) :
    Cli.parse env three cores [] = .ok (standard three cores) ∧ Cli.default three cores = standard three cores := by
  refine ⟨(C83_accepted three cores hc [] _).2 ⟨[], .nil, .nil, rfl⟩, ?_⟩
  unfold Cli.default standard threadCount
  cases cores with
  | none => rfl
  | some n => simp [hc n rfl]

/-- **C83**: the order of the options does not matter, except for that of the input files. -/
theorem C83_order (three : F) (cores : Option Nat) (hc : Cores cores) (args args' : List Str) (ss ss' : List (Spec.Setting F)) (o : Opts F)
    (h : Line env args ss) (hone : Once ss) (h' : Line env args' ss') (hperm : ss.Perm ss') (hfiles : files ss = files ss') :
    Cli.parse env three cores args = .ok o ↔ Cli.parse env three cores args' = .ok o := by
  have e1 := (C83_accepted three cores hc args _).2 ⟨ss, h, hone, rfl⟩
  have e2 := (C83_accepted three cores hc args' _).2 ⟨ss', h', once_perm hperm hone, rfl⟩
  rw [e1, e2, order hperm hone hfiles]

/-- **C83**: a command line that `set_arguments` understands too means the same there: both set the same options. -/
theorem C83_same_as_set_arguments (three : F) (cores : Option Nat) (hc : Cores cores) (args : List Str) (o o' : Opts F)
    (h : Cli.parse env three cores args = .ok o)
    (h' : (setArguments env (args.map Dyn.str) (standard three cores)) = (.ok (), o')) : o = o' := by
  obtain ⟨texts, ss, e, h1, rfl⟩ := setArguments_iff.1 h'
  have e : args = texts := List.map_injective_iff.2 (fun a b h => by cases h; rfl) e
  subst e
  unfold Cli.parse at h
  rw [defaults_ok hc] at h
  obtain ⟨st, h2, h3⟩ := ebind_ok.1 (show (loop env args.length ⟨standard three cores, []⟩ args >>= fun st => pure st.opts) = _ from h)
  cases h3
  exact loop_spells h1 _ _ _ h2

/-- **C83**: a line that is neither accepted nor asks for help is refused; there is no panic (in builds where arithmetic wraps). -/
theorem C83_refused (hov : env.overflow = .wraps) (three : F) (cores : Option Nat) (hc : Cores cores) (args : List Str) :
    (∃ m, Cli.parse env three cores args = .error (.fault (.error m))) ↔
      ¬ (∃ ss, (Line env args ss ∨ Help env args ss) ∧ Once ss) := by
  have hs : Safe (Cli.parse env three cores args) := by
    unfold Cli.parse
    rw [defaults_ok hc]
    exact safe_bind (safe_ok _) (fun _ _ => safe_bind (safe_loop hov _ _ _ (Nat.le_refl _)) (fun _ _ => safe_pure _))
  constructor
  · rintro ⟨m, h⟩ ⟨ss, h1 | h1, h2⟩
    · rw [(C83_accepted three cores hc args _).2 ⟨ss, h1, h2, rfl⟩] at h
      cases h
    · rw [(C83_help three cores hc args).2 ⟨ss, h1, h2⟩] at h
      cases h
  · intro h
    cases e : Cli.parse env three cores args with
    | ok o =>
      obtain ⟨ss, h1, h2, _⟩ := (C83_accepted three cores hc args o).1 e
      exact absurd ⟨ss, .inl h1, h2⟩ h
    | error x =>
      cases x with
      | information =>
        obtain ⟨ss, h1, h2⟩ := (C83_help three cores hc args).1 e
        exact absurd ⟨ss, .inr h1, h2⟩ h
      | fault f =>
        cases f with
        | error m => exact ⟨m, rfl⟩
        | panic m => exact absurd e (hs m)

/-- **C83**: the program ends with status 2 exactly if it refuses the command line; then it has done nothing. -/
theorem C83_status {σ : Type} (sys : Process.Sys) (out : Main.Outside F σ) (hov : out.opt.overflow = .wraps) (script : Str → Reader.Script)
    (three : F) (cores : Option Nat) (hc : Cores cores) (args : List Str) (code : Nat) (effects : List Process.Effect)
    (h : Process.RunsArgs sys out script three cores args code effects) :
    (code = 2 ↔ ¬ (∃ ss, (Line out.opt args ss ∨ Help out.opt args ss) ∧ Once ss)) ∧ (code = 2 → effects = []) := by
  rw [← C83_refused hov three cores hc args]
  have hcode : ∀ {opts : Opts F} {code : Nat} {done : List Process.Effect}, Process.Runs sys out script opts code done → code ≠ 2 := by
    intro opts code done h e
    subst e
    have hx : ∀ r, Process.exitCode r ≠ 2 := by
      intro r
      rcases r with (_ | _) | _ <;> simp [Process.exitCode]
    generalize hk : (2 : Nat) = k at h
    cases h with
    | unreadable _ => exact hx _ hk.symm
    | ran _ _ => exact hx _ hk.symm
  cases h with
  | information h => rw [h]; simp
  | refused h => rw [h]; simp
  | panicked h => rw [h]; simp
  | ran h h' => rw [h]; simp [hcode h']

/-- **C83**: asking for help or the version ends with status 0, and nothing is done. -/
theorem C83_help_status {σ : Type} (sys : Process.Sys) (out : Main.Outside F σ) (script : Str → Reader.Script)
    (three : F) (cores : Option Nat) (hc : Cores cores) (args : List Str) (ss : List (Spec.Setting F)) (hh : Help out.opt args ss)
    (hone : Once ss) (code : Nat) (effects : List Process.Effect) :
    Process.RunsArgs sys out script three cores args code effects ↔ code = 0 ∧ effects = [] := by
  have e := (C83_help three cores hc args).2 ⟨ss, hh, hone⟩
  constructor
  · intro h
    cases h with
    | information _ => exact ⟨rfl, rfl⟩
    | refused h => rw [e] at h; cases h
    | panicked h => rw [e] at h; cases h
    | ran h _ => rw [e] at h; cases h
  · rintro ⟨rfl, rfl⟩
    exact .information e

/-- **C83**: with a well-formed command line the program runs with the standard options and what was asked for. -/
theorem C83_runs {σ : Type} (sys : Process.Sys) (out : Main.Outside F σ) (script : Str → Reader.Script)
    (three : F) (cores : Option Nat) (hc : Cores cores) (args : List Str) (ss : List (Spec.Setting F)) (hl : Line out.opt args ss)
    (hone : Once ss) (code : Nat) (effects : List Process.Effect) :
    Process.RunsArgs sys out script three cores args code effects ↔
      Process.Runs sys out script (ss.foldl Spec.Setting.apply (standard three cores)) code effects := by
  have e := (C83_accepted three cores hc args _).2 ⟨ss, hl, hone, rfl⟩
  constructor
  · intro h
    cases h with
    | information h => rw [e] at h; cases h
    | refused h => rw [e] at h; cases h
    | panicked h => rw [e] at h; cases h
    | ran h h2 => rw [e] at h; cases h; exact h2
  · intro h
    exact .ran e h

end Wassign

/-! Non-trivial instances. -/
namespace Wassign.CliEx
open Spec Cli

/-- A platform whose only floating point numbers are signed integers. -/
def env : OptEnv Int := ⟨parseI64, .wraps⟩

def line (args : List String) : Except Stop (Opts Int) := Cli.parse env 3 (some 8) (args.map String.toList)

/-- Combined, attached, separate and `=` values, two input files; the others are the standard ones (C83). -/
example : line ["-agt5m", "-i", "a", "--input=b", "-j", "4", "-o=out", "--pref-exp=-1", "--"] =
    .ok ⟨["a".toList, "b".toList], some "out".toList, true, -1, 300, 3, false, false, 4, 12, true⟩ := by decide +kernel

/-- Asking for the same things in another order and spelling (C83). -/
example : line ["--any", "--greedy", "--timeout", "5m", "-ia", "-ib", "--threads=+4", "--output", "out", "-p-1"] =
    line ["-agt5m", "-i", "a", "--input=b", "-j", "4", "-o=out", "--pref-exp=-1", "--"] := by decide +kernel

/-- An option given twice, a value that looks like an option, a missing value, an unknown option, a number that is too large, and an
argument that is no option are refused (C83). -/
example : ∀ args ∈ [["-a", "--any"], ["-p", "-1"], ["-o"], ["--fast"], ["-j", "4294967296"], ["input.rhai"], ["--any=yes"],
    ["--", "-a"], ["-t", "soon"], ["-x"]], (line args).isOk = false ∧ line args ≠ .error .information := by decide +kernel

/-- Help is shown, whatever follows, unless something before it is wrong (C83). -/
example : (∀ args ∈ [["-a", "--help", "what"], ["-gV"], ["-h"], ["-i", "a", "--version", "-j"]], line args = .error .information) ∧
    line ["what", "--help"] = refuse := by decide +kernel

/-- The hypotheses of the general theorems: a line with its reading, given once. -/
example : Line env ["-ag".toList, "--input=b".toList, "-t".toList, "5m".toList] [.any, .greedy, .input "b".toList, .timeout 300] ∧
    Once ([.any, .greedy, .input "b".toList, .timeout 300] : List (Spec.Setting Int)) ∧ Cores (some 8) := by
  refine ⟨?_, by unfold Once; simp [Spec.Setting.name], by intro n h; cases h; decide⟩
  refine Line.short (ss := [.any, .greedy]) (.flags .any (.flag .greedy)) ?_
  refine Line.equals (l := "input") .input ?_
  exact Line.short (ss := [.timeout 300]) (ss' := []) (.next (.timeout (by decide +kernel)) (.inr (by decide))) .nil

/-- Both readings of a line that `set_arguments` understands (C83). -/
example : line ["-t", "1h", "-i", "a", "-g"] =
    .ok (setArguments env (["-t", "1h", "-i", "a", "-g"].map (fun s => Dyn.str s.toList)) (standard 3 (some 8))).2 := by decide +kernel

/-- What `set_arguments` accepts and the command line does not: an option given twice (C83). -/
theorem C83_not_twice : (setArguments env (["-g", "-g"].map (fun s => Dyn.str s.toList)) (standard 3 (some 8))).1 = .ok () ∧
    line ["-g", "-g"] = refuse := by decide +kernel

end Wassign.CliEx
