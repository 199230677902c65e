import Verif.Props.Cli
/-
C84: options set by the script are as good as options of the command line.
-/
namespace Wassign
open Spec Cli Process Main
namespace Cli
variable {F : Type} {env : OptEnv F}

/-- Reading a line in two parts. -/
theorem loop_append (B : List Str) : ∀ (fuel : Nat) (A : List Str) (fuel' : Nat) {st st1 st2 : State F}, A.length ≤ fuel → (A ++ B).length ≤ fuel' →
    loop env fuel st A = .ok st1 → loop env fuel' st (A ++ B) = .ok st2 → ∃ k, loop env k st1 B = .ok st2 := by
  intro fuel
  induction fuel with
  | zero =>
    intro A fuel' st st1 st2 hA hB h1 h2
    cases A with
    | nil => cases h1; exact ⟨fuel', h2⟩
    | cons a t => simp at hA
  | succ fuel ih =>
    intro A fuel' st st1 st2 hA hB h1 h2
    cases A with
    | nil => cases h1; exact ⟨fuel', h2⟩
    | cons arg rest =>
      cases fuel' with
      | zero => simp at hB
      | succ fuel' =>
        rw [List.cons_append] at h2 hB
        simp only [List.length_cons, Nat.add_le_add_iff_right] at hA hB
        have next : ∀ {st : State F} {id : Id} {p : State F × List Str}, nextValue env st id rest = .ok p →
            nextValue env st id (rest ++ B) = .ok (p.1, p.2 ++ B) ∧ p.2.length ≤ rest.length := by
          intro st id p h
          cases rest with
          | nil => cases h
          | cons v rest =>
            unfold nextValue at h
            unfold nextValue
            simp only [List.cons_append] at h ⊢
            split at h
            · rename_i hv
              rw [if_pos hv]
              obtain ⟨st', h1, h2⟩ := ebind_ok.1 h
              cases h2
              rw [h1]
              exact ⟨rfl, by simp⟩
            · cases h
        rcases arg_shape arg with rfl | ⟨s, hs, rfl⟩ | ⟨c, s, hc, rfl⟩ | ho
        · rw [loop_stop] at h1 h2
          split at h2
          · rename_i he
            simp only [List.isEmpty_iff, List.append_eq_nil_iff] at he
            obtain ⟨rfl, rfl⟩ := he
            cases h1
            exact ⟨0, h2⟩
          · cases h2
        · rw [loop_long hs] at h1 h2
          obtain ⟨p, h3, h4⟩ := ebind_ok.1 h1
          obtain ⟨p', h5, h6⟩ := ebind_ok.1 h2
          have key : long env (rest ++ B) st s = .ok (p.1, p.2 ++ B) ∧ p.2.length ≤ rest.length := by
            unfold long at h3 ⊢
            split at h3
            · cases h3
            · rename_i e1 e2
              split at h3
              · rename_i ht; rw [if_pos ht]; exact next h3
              · rename_i ht
                rw [if_neg ht]
                obtain ⟨st', h7, h8⟩ := ebind_ok.1 h3
                cases h8
                rw [h7]
                exact ⟨rfl, Nat.le_refl _⟩
            · split at h3
              · rename_i ht
                rw [if_pos ht]
                obtain ⟨st', h7, h8⟩ := ebind_ok.1 h3
                cases h8
                rw [h7]
                exact ⟨rfl, Nat.le_refl _⟩
              · cases h3
          rw [key.1] at h5
          cases h5
          refine ih p.2 fuel' (by omega) ?_ h4 h6
          rw [List.length_append] at *
          omega
        · rw [loop_short hc] at h1 h2
          obtain ⟨p, h3, h4⟩ := ebind_ok.1 h1
          obtain ⟨p', h5, h6⟩ := ebind_ok.1 h2
          have key : ∀ (cs : Str) (st : State F) {p : State F × List Str}, shorts env rest st cs = .ok p →
              shorts env (rest ++ B) st cs = .ok (p.1, p.2 ++ B) ∧ p.2.length ≤ rest.length := by
            intro cs
            induction cs with
            | nil => intro st p h; cases h; exact ⟨rfl, Nat.le_refl _⟩
            | cons c cs ihc =>
              intro st p h
              unfold shorts at h ⊢
              split at h
              · cases h
              · split at h
                · rename_i ht
                  rw [if_pos ht]
                  split at h
                  · exact next h
                  · obtain ⟨st', h7, h8⟩ := ebind_ok.1 h
                    cases h8
                    simp only [h7]
                    exact ⟨rfl, Nat.le_refl _⟩
                  · obtain ⟨st', h7, h8⟩ := ebind_ok.1 h
                    cases h8
                    simp only [h7]
                    exact ⟨rfl, Nat.le_refl _⟩
                · rename_i ht
                  rw [if_neg ht]
                  obtain ⟨st', h7, h8⟩ := ebind_ok.1 h
                  rw [h7]
                  exact ihc st' h8
          rw [(key _ _ h3).1] at h5
          cases h5
          refine ih p.2 fuel' (by have := (key _ _ h3).2; omega) ?_ h4 h6
          have := (key _ _ h3).2
          rw [List.length_append] at *
          omega
        · rw [loop_other ho] at h1
          cases h1
end Cli

variable {F σ : Type}

/-! ### The options do not matter for reading -/

namespace Reader
variable {env : OptEnv F}

/-- Two results of a step of `set_arguments`. -/
def Alike (Q : Opts F → Opts F → Prop) : R (Opts F × List Str) → R (Opts F × List Str) → Prop
  | .ok p, .ok p' => p.2 = p'.2 ∧ Q p.1 p'.1
  | .error f, .error f' => f = f'
  | _, _ => False

theorem alike_ite {Q : Opts F → Opts F → Prop} {c : Prop} [Decidable c] {x y x' y' : R (Opts F × List Str)} (h1 : Alike Q x x')
    (h2 : Alike Q y y') : Alike Q (if c then x else y) (if c then x' else y') := by
  split
  · exact h1
  · exact h2

theorem argStep_alike {Q : Opts F → Opts F → Prop} (hQ : ∀ (s : Spec.Setting F) o o', Q o o' → Q (s.apply o) (s.apply o'))
    {o o' : Opts F} (h : Q o o') (a : Str) (rest : List Str) : Alike Q (argStep env o a rest) (argStep env o' a rest) := by
  unfold argStep
  cases rest with
  | nil =>
    refine alike_ite rfl ?_
    refine alike_ite rfl ?_
    refine alike_ite ⟨rfl, hQ .any _ _ h⟩ ?_
    refine alike_ite rfl ?_
    refine alike_ite rfl ?_
    refine alike_ite rfl ?_
    refine alike_ite ⟨rfl, hQ .noCs _ _ h⟩ ?_
    refine alike_ite ⟨rfl, hQ .noCsSimp _ _ h⟩ ?_
    refine alike_ite rfl ?_
    refine alike_ite rfl ?_
    refine alike_ite ⟨rfl, hQ .greedy _ _ h⟩ ?_
    refine alike_ite ⟨rfl, h⟩ ?_
    exact rfl
  | cons v rest =>
    have val : ∀ {V : Type} (x : R V) (mk : V → Spec.Setting F),
        Alike Q (do let (v', rest') ← (needValue (v :: rest)); let y ← x; pure ((mk y).apply o, rest'))
          (do let (v', rest') ← (needValue (v :: rest)); let y ← x; pure ((mk y).apply o', rest')) := by
      intro V x mk
      cases x with
      | ok y => exact ⟨rfl, hQ (mk y) _ _ h⟩
      | error f => rfl
    refine alike_ite ⟨rfl, hQ (.input v) _ _ h⟩ ?_
    refine alike_ite ⟨rfl, hQ (.output v) _ _ h⟩ ?_
    refine alike_ite ⟨rfl, hQ .any _ _ h⟩ ?_
    refine alike_ite (val (orErr (env.parseF v) "invalid float") .prefExp) ?_
    refine alike_ite (val (Time.parse env.overflow v) .timeout) ?_
    refine alike_ite (val (Time.parse env.overflow v) .csTimeout) ?_
    refine alike_ite ⟨rfl, hQ .noCs _ _ h⟩ ?_
    refine alike_ite ⟨rfl, hQ .noCsSimp _ _ h⟩ ?_
    refine alike_ite (val (orErr (parseU32 v) "invalid number") .threads) ?_
    refine alike_ite (val (orErr (parseU32 v) "invalid number") .maxNeighbors) ?_
    refine alike_ite ⟨rfl, hQ .greedy _ _ h⟩ ?_
    refine alike_ite ⟨rfl, h⟩ ?_
    exact rfl

theorem argLoop_alike {Q : Opts F → Opts F → Prop} (hQ : ∀ (s : Spec.Setting F) o o', Q o o' → Q (s.apply o) (s.apply o')) :
    ∀ (fuel : Nat) (args : List Str) {o o' : Opts F}, Q o o' →
    (∃ f, argLoop env fuel o args = .error f ∧ argLoop env fuel o' args = .error f) ∨
    (∃ p p', argLoop env fuel o args = .ok p ∧ argLoop env fuel o' args = .ok p' ∧ Q p p') := by
  intro fuel
  induction fuel with
  | zero =>
    intro args o o' h
    cases args with
    | nil => exact .inr ⟨o, o', rfl, rfl, h⟩
    | cons a t => exact .inl ⟨_, rfl, rfl⟩
  | succ fuel ih =>
    intro args o o' h
    cases args with
    | nil => exact .inr ⟨o, o', rfl, rfl, h⟩
    | cons a rest =>
      have hs := argStep_alike (env := env) hQ h a rest
      simp only [argLoop]
      cases e : argStep env o a rest with
      | error f =>
        cases e' : argStep env o' a rest with
        | error f' => rw [e, e'] at hs; cases hs; exact .inl ⟨f, rfl, rfl⟩
        | ok p' => rw [e, e'] at hs; exact hs.elim
      | ok p =>
        cases e' : argStep env o' a rest with
        | error f' => rw [e, e'] at hs; exact hs.elim
        | ok p' =>
          rw [e, e'] at hs
          obtain ⟨h1, h2⟩ := hs
          obtain ⟨p1, p2⟩ := p
          obtain ⟨q1, q2⟩ := p'
          cases h1
          exact ih p2 h2

theorem setArguments_alike {Q : Opts F → Opts F → Prop} (hQ : ∀ (s : Spec.Setting F) o o', Q o o' → Q (s.apply o) (s.apply o'))
    {o o' : Opts F} (h : Q o o') (args : List Dyn) :
    (setArguments env args o).1 = (setArguments env args o').1 ∧ Q (setArguments env args o).2 (setArguments env args o').2 := by
  rw [setArguments_eq, setArguments_eq]
  cases e : args.mapM dynStr with
  | error f => exact ⟨rfl, h⟩
  | ok values =>
    rcases argLoop_alike (env := env) hQ values.length values h with ⟨f, h1, h2⟩ | ⟨p, p', h1, h2, h3⟩
    · simp only [R.bind_ok, h1, h2]
      exact ⟨trivial, h⟩
    · simp only [R.bind_ok, h1, h2]
      exact ⟨trivial, h3⟩

theorem exec_alike {Q : Opts F → Opts F → Prop} (hQ : ∀ (s : Spec.Setting F) o o', Q o o' → Q (s.apply o) (s.apply o'))
    {o o' : Opts F} (h : Q o o') (op : Op) (st : RState) :
    (exec env op ⟨st, o⟩).1 = (exec env op ⟨st, o'⟩).1 ∧ (exec env op ⟨st, o⟩).2.st = (exec env op ⟨st, o'⟩).2.st ∧
      Q (exec env op ⟨st, o⟩).2.opts (exec env op ⟨st, o'⟩).2.opts := by
  have onS : ∀ {β : Type} (m : M (Pool Str) β) (f : β → Reply), 
      let x := fun o : Opts F => (do let b ← onSlots m; Pure.pure (f b) : M (World F) Reply) ⟨st, o⟩
      (x o).1 = (x o').1 ∧ (x o).2.st = (x o').2.st ∧ Q (x o).2.opts (x o').2.opts := by
    intro β m f
    simp only [bind, M.bind, onSlots]
    cases e : (m st.slots).1 <;> exact ⟨rfl, rfl, h⟩
  have onC : ∀ {β : Type} (m : M (Pool Proto) β) (f : β → Reply), 
      let x := fun o : Opts F => (do let b ← onChoices m; Pure.pure (f b) : M (World F) Reply) ⟨st, o⟩
      (x o).1 = (x o').1 ∧ (x o).2.st = (x o').2.st ∧ Q (x o).2.opts (x o').2.opts := by
    intro β m f
    simp only [bind, M.bind, onChoices]
    cases e : (m st.choices).1 <;> exact ⟨rfl, rfl, h⟩
  have onP : ∀ {β : Type} (m : M (Pool Chooser) β) (f : β → Reply), 
      let x := fun o : Opts F => (do let b ← onChoosers m; Pure.pure (f b) : M (World F) Reply) ⟨st, o⟩
      (x o).1 = (x o').1 ∧ (x o).2.st = (x o').2.st ∧ Q (x o).2.opts (x o').2.opts := by
    intro β m f
    simp only [bind, M.bind, onChoosers]
    cases e : (m st.choosers).1 <;> exact ⟨rfl, rfl, h⟩
  have onL : ∀ {β : Type} (g : RState → R β) (f : β → Reply), 
      let x := fun o : Opts F => (do let w ← M.get; let b ← M.lift (g w.st); Pure.pure (f b) : M (World F) Reply) ⟨st, o⟩
      (x o).1 = (x o').1 ∧ (x o).2.st = (x o').2.st ∧ Q (x o).2.opts (x o').2.opts := by
    intro β g f
    simp only [bind, M.bind, M.get, M.lift]
    cases e : g st <;> exact ⟨rfl, rfl, h⟩
  cases op with
  | slot n => exact onS (findOrPush n n) Reply.ref
  | choice n tags => exact onC (choice n tags) Reply.ref
  | chooser n prefs => exact onP (chooser n prefs) Reply.ref
  | add k id =>
    cases k with
    | slot => exact onS (Pool.register id) (fun _ => .ref id)
    | choice => exact onC (Pool.register id) (fun _ => .ref id)
    | chooser => exact onP (Pool.register id) (fun _ => .ref id)
  | addExpr e => exact ⟨rfl, rfl, h⟩
  | setName k id n =>
    cases k with
    | slot => exact onS (Pool.rename id n) (fun _ => .ref id)
    | choice => exact onC (Pool.rename id n) (fun _ => .ref id)
    | chooser => exact onP (Pool.rename id n) (fun _ => .ref id)
  | getName k id =>
    cases k with
    | slot => exact onL (fun st => st.slots.nameOf id) .name
    | choice => exact onL (fun st => st.choices.nameOf id) .name
    | chooser => exact onL (fun st => st.choosers.nameOf id) .name
  | attr k id a => exact onL (fun st => Rhai.attr st k id a) .accessor
  | relate symbol l r => exact onL (fun st => Rhai.relate st symbol l r) .expr
  | setArguments args =>
    obtain ⟨h1, h2⟩ := setArguments_alike (env := env) hQ h args
    simp only [exec, bind, M.bind, onOpts]
    rw [h1]
    cases e : (setArguments env args o').1 <;> exact ⟨rfl, rfl, h2⟩

theorem run_alike {Q : Opts F → Opts F → Prop} (hQ : ∀ (s : Spec.Setting F) o o', Q o o' → Q (s.apply o) (s.apply o')) (script : Script) :
    ∀ {o o' : Opts F} (st : RState), Q o o' →
    (run env script ⟨st, o⟩).1 = (run env script ⟨st, o'⟩).1 ∧ (run env script ⟨st, o⟩).2.1.st = (run env script ⟨st, o'⟩).2.1.st ∧
    (run env script ⟨st, o⟩).2.2 = (run env script ⟨st, o'⟩).2.2 ∧
    Q (run env script ⟨st, o⟩).2.1.opts (run env script ⟨st, o'⟩).2.1.opts := by
  induction script with
  | done => intro o o' st h; exact ⟨rfl, rfl, rfl, h⟩
  | fail => intro o o' st h; exact ⟨rfl, rfl, rfl, h⟩
  | call op next ih =>
    intro o o' st h
    obtain ⟨h1, h2, h3⟩ := exec_alike (env := env) hQ h op st
    unfold run
    rcases e : exec env op ⟨st, o⟩ with ⟨r, ⟨st1, o1⟩⟩
    rcases e' : exec env op ⟨st, o'⟩ with ⟨r', ⟨st1', o1'⟩⟩
    rw [e, e'] at h1 h2 h3
    simp only at h1 h2 h3
    subst h1 h2
    rcases r with (_ | _) | r
    · obtain ⟨a, b, c, d⟩ := ih none st1 h3
      exact ⟨by simp only [a], b, c, d⟩
    · exact ⟨rfl, rfl, rfl, h3⟩
    · obtain ⟨a, b, c, d⟩ := ih (some r) st1 h3
      exact ⟨by simp only [a], b, c, d⟩

theorem read_alike {Q : Opts F → Opts F → Prop} (hQ : ∀ (s : Spec.Setting F) o o', Q o o' → Q (s.apply o) (s.apply o')) (script : Script)
    {o o' : Opts F} (h : Q o o') : (readInput env (new o) script).1 = (readInput env (new o') script).1 ∧
      Q (effectiveOptions (readInput env (new o) script).2) (effectiveOptions (readInput env (new o') script).2) := by
  obtain ⟨_, h2, h3, h4⟩ := run_alike (env := env) hQ script .empty h
  unfold readInput
  simp only [new]
  rw [← h3]
  split
  · exact ⟨rfl, h4⟩
  · exact ⟨rfl, h4⟩
  · rw [← h2]
    split
    · exact ⟨rfl, h4⟩
    · exact ⟨rfl, h4⟩

end Reader

/-- A script that calls `set_arguments` first. -/
def carrying (args : List Str) (script : Reader.Script) : Reader.Script :=
  .call (.setArguments (args.map Dyn.str)) (fun _ => script)

theorem read_call {env : OptEnv F} {o o' : Opts F} {args : List Str} (next : Option Reply → Reader.Script)
    (h : setArguments env (args.map Dyn.str) o = (.ok (), o')) :
    Reader.readInput env (Reader.new o) (.call (.setArguments (args.map Dyn.str)) next) =
      Reader.readInput env (Reader.new o') (next (some .unit)) := by
  have e : Reader.exec env (.setArguments (args.map Dyn.str)) { (Reader.new o).world with st := .empty } =
      (.ok .unit, { (Reader.new o').world with st := .empty }) := by
    obtain ⟨texts, ss, h1, h2, h3⟩ := setArguments_iff.1 h
    exact (C36_applies_all_in_order _ _ _).2 ⟨texts, ss, h1, h2, by rw [h3]; rfl⟩
  have e2 : (Reader.run env (.call (.setArguments (args.map Dyn.str)) next) { (Reader.new o).world with st := .empty }).2 =
      (Reader.run env (next (some .unit)) { (Reader.new o').world with st := .empty }).2 := by
    rw [Reader.run, e]
  unfold Reader.readInput
  simp only [e2]
  rfl

theorem read_carrying {env : OptEnv F} {o o' : Opts F} {args : List Str} (script : Reader.Script)
    (h : setArguments env (args.map Dyn.str) o = (.ok (), o')) :
    Reader.readInput env (Reader.new o) (carrying args script) = Reader.readInput env (Reader.new o') script := read_call _ h

theorem tryRun_congr {via : Sessions σ} {sys : Sys} {o : Outside F σ} {opts opts' : Opts F} {script script' : Reader.Script}
    {r : R Unit × List Effect} (e : Reader.readInput o.opt (Reader.new opts) script = Reader.readInput o.opt (Reader.new opts') script')
    (h : TryRunIO via sys o opts script r) : TryRunIO via sys o opts' script' r := by
  cases h with
  | rejected h1 => rw [e] at h1; exact .rejected h1
  | unprepared h1 h2 => rw [e] at h1 h2; exact .unprepared h1 h2
  | crashed h1 h2 h3 h4 h5 => rw [e] at h1 h2 h3; exact .crashed h1 h2 h3 h4 h5
  | solved h1 h2 h3 h4 h5 => rw [e] at h1 h2 h3; rw [e]; exact .solved h1 h2 h3 h4 h5

theorem runs_carrying {via : Sessions σ} {sys : Sys} {out : Outside F σ} {script : Str → Reader.Script} {o o' : Opts F} {args : List Str}
    (h : setArguments out.opt (args.map Dyn.str) o = (.ok (), o')) (hf : o.inputFiles = o'.inputFiles) (code : Nat) (effects : List Effect) :
    RunsVia via sys out (fun text => carrying args (script text)) o code effects ↔ RunsVia via sys out script o' code effects := by
  have er : readInputString sys o = readInputString sys o' := by unfold readInputString; rw [hf]
  constructor
  · intro h1
    cases h1 with
    | unreadable h1 => rw [er] at h1; exact .unreadable h1
    | ran h1 h2 => rw [er] at h1; exact .ran h1 (tryRun_congr (read_carrying _ h) h2)
  · intro h1
    cases h1 with
    | unreadable h1 => rw [← er] at h1; exact .unreadable h1
    | ran h1 h2 => rw [← er] at h1; exact .ran h1 (tryRun_congr (read_carrying _ h).symm h2)

/-! ## C84 -/

/-- **C84**: arguments may be moved from the end of the command line into a `set_arguments` call at the beginning of the script, except
for input files: the program can end in exactly the same ways. -/
theorem C84_moved_into_script (sys : Sys) (out : Outside F σ) (script : Str → Reader.Script) (three : F) (cores : Option Nat) (hc : Cores cores)
    (A B : List Str) (hA : ∃ o, Cli.parse out.opt three cores A = .ok o) (hAB : ∃ o, Cli.parse out.opt three cores (A ++ B) = .ok o)
    (ss : List (Spec.Setting F)) (hB : Spells out.opt B ss) (hin : ∀ f, Spec.Setting.input f ∉ ss) (code : Nat) (effects : List Effect) :
    RunsArgs sys out script three cores (A ++ B) code effects ↔
      RunsArgs sys out (fun text => carrying B (script text)) three cores A code effects := by
  obtain ⟨o, hA⟩ := hA
  obtain ⟨o', hAB⟩ := hAB
  have heq : o' = ss.foldl Spec.Setting.apply o := by
    have h1 := hA
    have h2 := hAB
    unfold Cli.parse at h1 h2
    rw [defaults_ok hc] at h1 h2
    obtain ⟨st1, h3, h4⟩ := ebind_ok.1 (show (loop out.opt A.length ⟨standard three cores, []⟩ A >>= fun st => pure st.opts) = _ from h1)
    obtain ⟨st2, h5, h6⟩ := ebind_ok.1 (show (loop out.opt (A ++ B).length ⟨standard three cores, []⟩ (A ++ B) >>= fun st => pure st.opts) = _ from h2)
    cases h4
    cases h6
    obtain ⟨k, h7⟩ := loop_append B _ A _ (Nat.le_refl _) (Nat.le_refl _) h3 h5
    exact loop_spells hB _ _ _ h7
  have key : setArguments out.opt (B.map Dyn.str) o = (.ok (), o') := setArguments_iff.2 ⟨B, ss, rfl, hB, heq⟩
  have hf : o.inputFiles = o'.inputFiles := by
    rw [heq]
    exact ((C36_unnamed_untouched o ss).1 (fun s hs x e => hin x (e ▸ hs))).symm
  constructor
  · intro h
    cases h with
    | information h => rw [hAB] at h; cases h
    | refused h => rw [hAB] at h; cases h
    | panicked h => rw [hAB] at h; cases h
    | ran h h' => rw [hAB] at h; cases h; exact .ran hA ((runs_carrying key hf _ _).2 h')
  · intro h
    cases h with
    | information h => rw [hA] at h; cases h
    | refused h => rw [hA] at h; cases h
    | panicked h => rw [hA] at h; cases h
    | ran h h' => rw [hA] at h; cases h; exact .ran hAB ((runs_carrying key hf _ _).1 h')

/-- **C84**: the input that a script describes does not depend on the options. -/
theorem C84_input_same_for_all_options (env : OptEnv F) (script : Reader.Script) (o o' : Opts F) :
    (Reader.readInput env (Reader.new o) script).1 = (Reader.readInput env (Reader.new o') script).1 :=
  (Reader.read_alike (Q := fun _ _ => True) (fun _ _ _ _ => trivial) script trivial).1

/-- Only `set_arguments` changes options. -/
theorem exec_opts_same {env : OptEnv F} {op : Op} {st : RState} {o : Opts F} (h : ¬ ∃ args, op = .setArguments args) :
    (Reader.exec env op ⟨st, o⟩).2.opts = o := by
  have onS : ∀ {β : Type} (m : M (Pool Str) β) (f : β → Reply),
      ((do let b ← Reader.onSlots m; Pure.pure (f b) : M (World F) Reply) ⟨st, o⟩).2.opts = o := by
    intro β m f
    simp only [bind, M.bind, Reader.onSlots]
    cases e : (m st.slots).1 <;> rfl
  have onC : ∀ {β : Type} (m : M (Pool Proto) β) (f : β → Reply),
      ((do let b ← Reader.onChoices m; Pure.pure (f b) : M (World F) Reply) ⟨st, o⟩).2.opts = o := by
    intro β m f
    simp only [bind, M.bind, Reader.onChoices]
    cases e : (m st.choices).1 <;> rfl
  have onP : ∀ {β : Type} (m : M (Pool Chooser) β) (f : β → Reply),
      ((do let b ← Reader.onChoosers m; Pure.pure (f b) : M (World F) Reply) ⟨st, o⟩).2.opts = o := by
    intro β m f
    simp only [bind, M.bind, Reader.onChoosers]
    cases e : (m st.choosers).1 <;> rfl
  have onL : ∀ {β : Type} (g : RState → R β) (f : β → Reply),
      ((do let w ← M.get; let b ← M.lift (g w.st); Pure.pure (f b) : M (World F) Reply) ⟨st, o⟩).2.opts = o := by
    intro β g f
    simp only [bind, M.bind, M.get, M.lift]
    cases e : g st <;> rfl
  cases op with
  | slot n => exact onS (Reader.findOrPush n n) Reply.ref
  | choice n tags => exact onC (Reader.choice n tags) Reply.ref
  | chooser n prefs => exact onP (Reader.chooser n prefs) Reply.ref
  | add k id =>
    cases k with
    | slot => exact onS (Pool.register id) (fun _ => .ref id)
    | choice => exact onC (Pool.register id) (fun _ => .ref id)
    | chooser => exact onP (Pool.register id) (fun _ => .ref id)
  | addExpr e => rfl
  | setName k id n =>
    cases k with
    | slot => exact onS (Pool.rename id n) (fun _ => .ref id)
    | choice => exact onC (Pool.rename id n) (fun _ => .ref id)
    | chooser => exact onP (Pool.rename id n) (fun _ => .ref id)
  | getName k id =>
    cases k with
    | slot => exact onL (fun st => st.slots.nameOf id) .name
    | choice => exact onL (fun st => st.choices.nameOf id) .name
    | chooser => exact onL (fun st => st.choosers.nameOf id) .name
  | attr k id a => exact onL (fun st => Rhai.attr st k id a) .accessor
  | relate symbol l r => exact onL (fun st => Rhai.relate st symbol l r) .expr
  | setArguments args => exact absurd ⟨args, rfl⟩ h

/-- The options after one call. -/
theorem exec_settings (env : OptEnv F) (op : Op) (st : RState) :
    ∃ ss : List (Spec.Setting F), ∀ o, (Reader.exec env op ⟨st, o⟩).2.opts = ss.foldl Spec.Setting.apply o := by
  by_cases hop : ∃ args, op = .setArguments args
  · obtain ⟨args, rfl⟩ := hop
    by_cases hs : ∃ texts ss, args = texts.map Dyn.str ∧ Spells env texts ss
    · obtain ⟨texts, ss, h1, h2⟩ := hs
      refine ⟨ss, fun o => ?_⟩
      rw [(C36_applies_all_in_order ⟨st, o⟩ _ _).2 ⟨texts, ss, h1, h2, rfl⟩]
    · refine ⟨[], fun o => ?_⟩
      rcases e : Reader.exec env (.setArguments args) ⟨st, o⟩ with ⟨r, w⟩
      cases r with
      | error f => rw [C36_failure_changes_nothing _ _ _ _ e]; rfl
      | ok x =>
        exfalso
        have hx : x = .unit := by
          simp only [Reader.exec, bind, M.bind, Reader.onOpts] at e
          cases e2 : (setArguments env args o).1 with
          | ok u => rw [e2] at e; cases e; rfl
          | error f => rw [e2] at e; cases e
        subst hx
        obtain ⟨texts, ss, h1, h2, _⟩ := (C36_applies_all_in_order _ _ _).1 e
        exact hs ⟨texts, ss, h1, h2⟩
  · refine ⟨[], fun o => ?_⟩
    exact exec_opts_same hop

/-- **C84**: what a script sets does not depend on the options it starts with. -/
theorem C84_script_settings (env : OptEnv F) (script : Reader.Script) :
    ∃ ss : List (Spec.Setting F), ∀ o, Reader.effectiveOptions (Reader.readInput env (Reader.new o) script).2 = ss.foldl Spec.Setting.apply o := by
  have key : ∀ (script : Reader.Script) (st : RState), ∃ ss : List (Spec.Setting F), ∀ o,
      (Reader.run env script ⟨st, o⟩).2.1.opts = ss.foldl Spec.Setting.apply o := by
    intro script
    induction script with
    | done => intro st; exact ⟨[], fun o => rfl⟩
    | fail => intro st; exact ⟨[], fun o => rfl⟩
    | call op next ih =>
      intro st
      by_cases hne : Nonempty (Opts F)
      · obtain ⟨o0⟩ := hne
        obtain ⟨ss, hss⟩ := exec_settings env op st
        have same := fun o => Reader.exec_alike (env := env) (Q := fun _ _ => True) (fun _ _ _ _ => trivial) (o := o) (o' := o0) trivial op st
        rcases e0 : Reader.exec env op ⟨st, o0⟩ with ⟨r, ⟨st1, o1⟩⟩
        rcases r with (m | m) | r
        · obtain ⟨ss', h'⟩ := ih none st1
          refine ⟨ss ++ ss', fun o => ?_⟩
          rcases e : Reader.exec env op ⟨st, o⟩ with ⟨r, ⟨st2, o2⟩⟩
          have h1 := same o
          have h2 := hss o
          rw [e0, e] at h1
          rw [e] at h2
          obtain ⟨a, b, _⟩ := h1
          simp only at a b h2
          subst a b
          unfold Reader.run
          rw [e]
          simp only
          rw [h', h2, List.foldl_append]
        · refine ⟨ss, fun o => ?_⟩
          rcases e : Reader.exec env op ⟨st, o⟩ with ⟨r, ⟨st2, o2⟩⟩
          have h1 := same o
          have h2 := hss o
          rw [e0, e] at h1
          rw [e] at h2
          obtain ⟨a, b, _⟩ := h1
          simp only at a b h2
          subst a b
          unfold Reader.run
          rw [e]
          exact h2
        · obtain ⟨ss', h'⟩ := ih (some r) st1
          refine ⟨ss ++ ss', fun o => ?_⟩
          rcases e : Reader.exec env op ⟨st, o⟩ with ⟨r, ⟨st2, o2⟩⟩
          have h1 := same o
          have h2 := hss o
          rw [e0, e] at h1
          rw [e] at h2
          obtain ⟨a, b, _⟩ := h1
          simp only at a b h2
          subst a b
          unfold Reader.run
          rw [e]
          simp only
          rw [h', h2, List.foldl_append]
      · exact ⟨[], fun o => absurd ⟨o⟩ hne⟩
  obtain ⟨ss, h⟩ := key script .empty
  refine ⟨ss, fun o => ?_⟩
  rw [← h o]
  unfold Reader.readInput Reader.effectiveOptions
  simp only [Reader.new]
  split
  · rfl
  · rfl
  · split <;> rfl

/-- Options that differ in the input files at most. -/
def SameButFiles (o o' : Opts F) : Prop := { o with inputFiles := [] } = { o' with inputFiles := [] }

theorem sameButFiles_apply (s : Spec.Setting F) (o o' : Opts F) (h : SameButFiles o o') : SameButFiles (s.apply o) (s.apply o') := by
  unfold SameButFiles at *
  obtain ⟨f, a2, a3, a4, a5, a6, a7, a8, a9, a10, a11⟩ := o
  obtain ⟨f', b2, b3, b4, b5, b6, b7, b8, b9, b10, b11⟩ := o'
  cases h
  cases s <;> rfl

theorem tryRun_files {via : Sessions σ} {sys : Sys} {o : Outside F σ} {opts opts' : Opts F} {script : Reader.Script}
    {r : R Unit × List Effect} (hs : SameButFiles opts opts') (h : TryRunIO via sys o opts script r) : TryRunIO via sys o opts' script r := by
  obtain ⟨e, hq⟩ := Reader.read_alike (env := o.opt) (Q := SameButFiles) sameButFiles_apply script hs
  have e1 : ∀ {a b : Opts F} (d : InputData), SameButFiles a b → prepare o d a = prepare o d b := by
    intro a b d h
    obtain ⟨f, a2, a3, a4, a5, a6, a7, a8, a9, a10, a11⟩ := a
    obtain ⟨f', b2, b3, b4, b5, b6, b7, b8, b9, b10, b11⟩ := b
    cases h
    rfl
  have e2 : ∀ {a b : Opts F} (p : Prepared), SameButFiles a b → setup o p a = setup o p b := by
    intro a b d h
    obtain ⟨f, a2, a3, a4, a5, a6, a7, a8, a9, a10, a11⟩ := a
    obtain ⟨f', b2, b3, b4, b5, b6, b7, b8, b9, b10, b11⟩ := b
    cases h
    rfl
  have e3 : ∀ {a b : Opts F} (p : Prepared) (sol : Solution), SameButFiles a b → handOut sys a p sol = handOut sys b p sol := by
    intro a b d sol h
    obtain ⟨f, a2, a3, a4, a5, a6, a7, a8, a9, a10, a11⟩ := a
    obtain ⟨f', b2, b3, b4, b5, b6, b7, b8, b9, b10, b11⟩ := b
    cases h
    rfl
  cases h with
  | rejected h1 => rw [e] at h1; exact .rejected h1
  | unprepared h1 h2 => rw [e] at h1; rw [e1 _ hq] at h2; exact .unprepared h1 h2
  | crashed h1 h2 h3 h4 h5 => rw [e] at h1; rw [e1 _ hq] at h2; rw [e2 _ hq] at h3; exact .crashed h1 h2 h3 h4 h5
  | solved h1 h2 h3 h4 h5 => rw [e] at h1; rw [e1 _ hq] at h2; rw [e2 _ hq] at h3; rw [e3 _ _ hq]; exact .solved h1 h2 h3 h4 h5

/-- **C84** (false for input files): `-i` in a script is accepted and has no effect. -/
theorem C84_files_in_script_ignored (via : Sessions σ) (sys : Sys) (out : Outside F σ) (script : Str → Reader.Script) (opts : Opts F) (file : Str)
    (code : Nat) (effects : List Effect) :
    RunsVia via sys out (fun text => carrying ["-i".toList, file] (script text)) opts code effects ↔ RunsVia via sys out script opts code effects := by
  have hs : ∀ sc : Reader.Script, Reader.readInput out.opt (Reader.new opts) (carrying ["-i".toList, file] sc) =
      Reader.readInput out.opt (Reader.new { opts with inputFiles := opts.inputFiles ++ [file] }) sc := by
    intro sc
    refine read_carrying sc (setArguments_iff.2 ⟨["-i".toList, file], [.input file], rfl, .input (by simp) .nil, rfl⟩)
  constructor
  · intro h
    cases h with
    | unreadable h => exact .unreadable h
    | ran h h2 => exact .ran h (tryRun_files (by rfl) (tryRun_congr (hs _) h2))
  · intro h
    cases h with
    | unreadable h => exact .unreadable h
    | ran h h2 => exact .ran h (tryRun_congr (hs _).symm (tryRun_files (by rfl) h2))

end Wassign

/-! ## A concrete run -/
namespace Wassign.CarriedEx
open Threaded Main Reader ReadEx Process Spec Cli

def plain (text : Str) : Script := if text = "first\nsecond\n".toList then MainEx.script else .fail
def filesGiven : List Str := ["-i".toList, "a.rhai".toList, "--input=b.rhai".toList]
def prefixGiven : List Str := ["-o".toList, "plan".toList]

/-- The hypotheses of C84: both lines are accepted, and the moved part is one that `set_arguments` understands, without input files. -/
theorem hyps : Cores (some 4) ∧ (∃ o, Cli.parse ProcEx.o.opt () (some 4) filesGiven = .ok o) ∧
    (∃ o, Cli.parse ProcEx.o.opt () (some 4) (filesGiven ++ prefixGiven) = .ok o) ∧
    Spells ProcEx.o.opt prefixGiven [.output "plan".toList] ∧ ∀ f, Spec.Setting.input f ∉ [Spec.Setting.output (F := Unit) "plan".toList] := by
  refine ⟨by intro n h; cases h; decide, ⟨ProcEx.opts, by decide +kernel⟩, ⟨{ ProcEx.opts with outputFile := some "plan".toList }, by decide +kernel⟩,
    .output (by simp) .nil, by simp⟩

/-- The program reads two files, runs four workers and writes two files, with the prefix given on the command line or by the script. -/
theorem both : RunsArgs ProcEx.sys ProcEx.o plain () (some 4) (filesGiven ++ prefixGiven) 0 ProcEx.files ∧
    RunsArgs ProcEx.sys ProcEx.o (fun text => carrying prefixGiven (plain text)) () (some 4) filesGiven 0 ProcEx.files := by
  obtain ⟨h1, h2, h3, h4, h5⟩ := hyps
  have hm := C84_moved_into_script ProcEx.sys ProcEx.o plain () (some 4) h1 _ _ h2 h3 _ h4 h5 0 ProcEx.files
  refine ⟨hm.2 ?_, ?_⟩ <;>
  · refine .ran (opts := ProcEx.opts) (by decide +kernel) ?_
    have hp : carrying prefixGiven (plain "first\nsecond\n".toList) = carrying prefixGiven MainEx.script := by
      unfold plain; rw [if_pos rfl]
    have e : readInput (seeded ProcEx.o ProcEx.sys).opt (new ProcEx.opts) ProcEx.script =
        readInput (seeded ProcEx.o ProcEx.sys).opt (new ProcEx.opts) (carrying prefixGiven MainEx.script) := by
      have hs : setArguments (seeded ProcEx.o ProcEx.sys).opt (prefixGiven.map Dyn.str) ProcEx.opts =
          (.ok (), { ProcEx.opts with outputFile := some "plan".toList }) := by decide +kernel
      exact (read_call _ hs).trans (read_carrying MainEx.script hs).symm
    have h : TryRunIO (fun cfg => Run cfg) ProcEx.sys (seeded ProcEx.o ProcEx.sys) ProcEx.opts ProcEx.script
        (handOut ProcEx.sys (effectiveOptions (readInput (seeded ProcEx.o ProcEx.sys).opt (new ProcEx.opts) ProcEx.script).2) ProcEx.prepared ProcEx.sol []) :=
      .solved ProcEx.read_ok ProcEx.prepare_ok (ThEx.exec_run ProcEx.cfg _ _) ProcEx.final_over ProcEx.wait_ok
    have := RunsVia.ran (o := ProcEx.o) (parse := fun text => carrying prefixGiven (plain text)) ProcEx.text_ok (by rw [hp]; exact tryRun_congr e h)
    rw [show handOut ProcEx.sys (effectiveOptions (readInput (seeded ProcEx.o ProcEx.sys).opt (new ProcEx.opts) ProcEx.script).2) ProcEx.prepared ProcEx.sol [] = _
      from ProcEx.handed] at this
    exact this

end Wassign.CarriedEx
