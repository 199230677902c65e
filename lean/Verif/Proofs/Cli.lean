import Verif.Model.Cli
import Verif.Spec.Cli
import Verif.Proofs.ReadInput
/-
The command line: what the parser accepts.
-/
namespace Wassign
open Spec
namespace Cli
variable {F : Type} {env : OptEnv F}

/-- What an argument with a value asks for. -/
def Reads (env : OptEnv F) : Id → Str → Setting F → Prop
  | .input, v, s => s = .input v
  | .output, v, s => s = .output v
  | .prefExp, v, s => ∃ x, env.parseF v = some x ∧ s = .prefExp x
  | .timeout, v, s => ∃ x, Time.parse env.overflow v = .ok x ∧ s = .timeout x
  | .csTimeout, v, s => ∃ x, Time.parse env.overflow v = .ok x ∧ s = .csTimeout x
  | .threads, v, s => ∃ n, Number32 v n ∧ s = .threads n
  | .maxNeighbors, v, s => ∃ n, Number32 v n ∧ s = .maxNeighbors n
  | _, _, _ => False

/-- What an argument without value asks for. -/
def Flags : Id → Setting F → Prop
  | .any, s => s = .any
  | .noCs, s => s = .noCs
  | .noCsSimp, s => s = .noCsSimp
  | .greedy, s => s = .greedy
  | _, _ => False

def idOf : Setting F → Id
  | .input _ => .input
  | .output _ => .output
  | .any => .any
  | .prefExp _ => .prefExp
  | .timeout _ => .timeout
  | .csTimeout _ => .csTimeout
  | .noCs => .noCs
  | .noCsSimp => .noCsSimp
  | .threads _ => .threads
  | .maxNeighbors _ => .maxNeighbors
  | .greedy => .greedy
  | .information => .help

/-- One setting. -/
def Put (st : State F) (s : Setting F) (st' : State F) : Prop :=
  ¬ (idOf s ≠ .input ∧ idOf s ∈ st.given) ∧ st' = ⟨s.apply st.opts, idOf s :: st.given⟩

/-- A list of settings. -/
inductive Puts : State F → List (Setting F) → State F → Prop
  | nil {st} : Puts st [] st
  | cons {st s st1 ss st'} : Put st s st1 → Puts st1 ss st' → Puts st (s :: ss) st'

theorem Puts.append {st st1 st2 : State F} {ss ss' : List (Setting F)} (h : Puts st ss st1) (h' : Puts st1 ss' st2) :
    Puts st (ss ++ ss') st2 := by
  induction h with
  | nil => exact h'
  | cons a _ ih => exact .cons a (ih h')

theorem Puts.split {st st2 : State F} : ∀ {ss ss' : List (Setting F)}, Puts st (ss ++ ss') st2 → ∃ st1, Puts st ss st1 ∧ Puts st1 ss' st2 := by
  intro ss
  induction ss generalizing st with
  | nil => intro ss' h; exact ⟨st, .nil, h⟩
  | cons s ss ih =>
    intro ss' h
    cases h with
    | cons a b =>
      obtain ⟨st1, h1, h2⟩ := ih b
      exact ⟨st1, .cons a h1, h2⟩

theorem Puts.one {st st' : State F} {s : Setting F} : Puts st [s] st' ↔ Put st s st' := by
  constructor
  · intro h
    cases h with
    | cons a b => cases b; exact a
  · intro h; exact .cons h .nil

theorem u32Value_ok {v : Str} {n : Nat} : u32Value v = .ok n ↔ Number32 v n := by
  unfold u32Value Number32 refuse
  cases hp : parseI64 v with
  | none =>
    simp only [reduceCtorEq, false_iff]
    rintro ⟨h, h2⟩
    have := parseI64_iff.2 ⟨h, by omega, by omega⟩
    rw [hp] at this
    cases this
  | some x =>
    have hx := parseI64_iff.1 hp
    simp only
    split
    · rename_i hr
      constructor
      · intro h
        cases h
        have : ((x.toNat : Nat) : Int) = x := by omega
        exact ⟨by rw [this]; exact hx.1, by omega⟩
      · rintro ⟨h, h2⟩
        have := parseI64_iff.2 ⟨h, by omega, by omega⟩
        rw [hp] at this
        cases this
        rfl
    · rename_i hr
      simp only [reduceCtorEq, false_iff]
      rintro ⟨h, h2⟩
      have := parseI64_iff.2 ⟨h, by omega, by omega⟩
      rw [hp] at this
      cases this
      omega

theorem timeValue_ok {v : Str} {n : Int} : timeValue env v = .ok n ↔ Time.parse env.overflow v = .ok n := by
  unfold timeValue
  split
  · rename_i x h; rw [h]; constructor <;> (intro h; cases h; rfl)
  · rename_i x h; rw [h]; constructor <;> (intro h; cases h)

theorem floatValue_ok {v : Str} {x : F} : floatValue env v = .ok x ↔ env.parseF v = some x := by
  unfold floatValue refuse
  split
  · rename_i x h; rw [h]; constructor <;> (intro h; cases h; rfl)
  · rename_i h; rw [h]; constructor <;> (intro h; cases h)

theorem ebind_ok {α β : Type} {x : Except Stop α} {f : α → Except Stop β} {b : β} : (x >>= f) = .ok b ↔ ∃ a, x = .ok a ∧ f a = .ok b := by
  cases x with
  | ok a => exact ⟨fun h => ⟨a, rfl, h⟩, fun ⟨_, h, h'⟩ => by cases h; exact h'⟩
  | error e => exact ⟨fun h => (by cases h), fun ⟨_, h, _⟩ => (by cases h)⟩

theorem ebind_info {α β : Type} {x : Except Stop α} {f : α → Except Stop β} : (x >>= f) = .error .information ↔
    x = .error .information ∨ ∃ a, x = .ok a ∧ f a = .error .information := by
  cases x with
  | ok a => exact ⟨fun h => .inr ⟨a, rfl, h⟩, fun h => by
      rcases h with h | ⟨_, h, h'⟩
      · cases h
      · cases h; exact h'⟩
  | error e => exact ⟨fun h => (by cases h; exact .inl rfl), fun h => by
      rcases h with h | ⟨_, h, _⟩
      · cases h; rfl
      · cases h⟩

theorem reads_idOf {id : Id} {v : Str} {s : Setting F} (h : Reads env id v s) : idOf s = id := by
  cases id <;> simp only [Reads] at h <;> first | (subst h; rfl) | (obtain ⟨_, _, rfl⟩ := h; rfl)

theorem newValue_ok {o o' : Opts F} {id : Id} {v : Str} (ht : takesValue id = true) :
    newValue env o id v = .ok o' ↔ ∃ s, Reads env id v s ∧ o' = s.apply o := by
  cases id <;> first | (cases ht; done) | skip
  all_goals simp only [newValue, Reads, ebind_ok, floatValue_ok, timeValue_ok, u32Value_ok]
  all_goals constructor
  all_goals first
    | (intro h; cases h; exact ⟨_, rfl, rfl⟩)
    | (rintro ⟨s, rfl, rfl⟩; rfl)
    | (rintro ⟨x, hx, h⟩; cases h; exact ⟨_, ⟨x, hx, rfl⟩, rfl⟩)
    | (rintro ⟨s, ⟨x, hx, rfl⟩, rfl⟩; exact ⟨x, hx, rfl⟩)

theorem setValue_ok {st st' : State F} {id : Id} {v : Str} (ht : takesValue id = true) :
    setValue env st id v = .ok st' ↔ ∃ s, Reads env id v s ∧ Put st s st' := by
  unfold setValue Put
  split
  · rename_i hd
    constructor
    · intro h; cases h
    · rintro ⟨s, hs, hp, _⟩
      rw [reads_idOf hs] at hp
      exact absurd hd hp
  · rename_i hd
    rw [ebind_ok]
    constructor
    · rintro ⟨o, ho, h⟩
      cases h
      obtain ⟨s, hs, rfl⟩ := (newValue_ok ht).1 ho
      exact ⟨s, hs, by rw [reads_idOf hs]; exact hd, by rw [reads_idOf hs]⟩
    · rintro ⟨s, hs, _, rfl⟩
      exact ⟨_, (newValue_ok ht).2 ⟨s, hs, rfl⟩, by rw [reads_idOf hs]⟩

theorem refuse_ne {α : Type} : (refuse : Except Stop α) ≠ .error .information := by unfold refuse; simp

theorem u32Value_ne (v : Str) : u32Value v ≠ .error .information := by
  unfold u32Value
  split
  · split
    · intro h; cases h
    · exact refuse_ne
  · exact refuse_ne

theorem timeValue_ne (v : Str) : timeValue env v ≠ .error .information := by
  unfold timeValue
  split <;> (intro h; cases h)

theorem floatValue_ne (v : Str) : floatValue env v ≠ .error .information := by
  unfold floatValue
  split
  · intro h; cases h
  · exact refuse_ne

theorem newValue_ne (o : Opts F) (id : Id) (v : Str) : newValue env o id v ≠ .error .information := by
  intro h
  cases id <;> simp only [newValue, ebind_info] at h
  all_goals first
    | (cases h; done)
    | (rcases h with h | ⟨_, _, h⟩
       · first | exact floatValue_ne _ h | exact timeValue_ne _ h | exact u32Value_ne _ h
       · cases h)

theorem setValue_ne (st : State F) (id : Id) (v : Str) : setValue env st id v ≠ .error .information := by
  intro h
  unfold setValue at h
  split at h
  · exact refuse_ne h
  · rw [ebind_info] at h
    rcases h with h | ⟨_, _, h⟩
    · exact newValue_ne _ _ _ h
    · cases h

theorem flags_spec {id : Id} {s : Setting F} (h : Flags id s) : idOf s = id ∧ id ≠ .input ∧ ¬ (id = .help ∨ id = .version) ∧
    ∀ o : Opts F, newFlag o id = s.apply o := by
  cases id <;> simp only [Flags] at h
  all_goals (subst h; exact ⟨rfl, by decide, by decide, fun _ => rfl⟩)

theorem setFlag_ok {st st' : State F} {id : Id} (ht : takesValue id = false) :
    setFlag st id = .ok st' ↔ ∃ s, Flags id s ∧ Put st s st' := by
  unfold setFlag Put
  constructor
  · intro h
    split at h
    · cases h
    · rename_i hh
      split at h
      · cases h
      · rename_i hd
        cases h
        have : ∃ s : Setting F, Flags id s := by
          cases id <;> first | (cases ht; done) | exact ⟨_, rfl⟩ | (exfalso; exact hh (by decide))
        obtain ⟨s, hs⟩ := this
        obtain ⟨h1, h2, h3, h4⟩ := flags_spec hs
        exact ⟨s, hs, by rw [h1]; exact fun h => hd h.2, by rw [h1, h4]⟩
  · rintro ⟨s, hs, hp, rfl⟩
    obtain ⟨h1, h2, h3, h4⟩ := flags_spec hs
    rw [h1] at hp ⊢
    rw [if_neg h3, if_neg (fun h => hp ⟨h2, h⟩), h4]

theorem setFlag_info {st : State F} {id : Id} : setFlag st id = .error .information ↔ id = .help ∨ id = .version := by
  unfold setFlag
  split
  · rename_i h; exact ⟨fun _ => h, fun _ => rfl⟩
  · rename_i h
    refine ⟨fun h' => ?_, fun h' => absurd h' h⟩
    exfalso
    split at h'
    · exact refuse_ne h'
    · cases h'

/-! ### Names -/

theorem withValue_id {c : Option Char} {l : String} {v : Str} {s : Setting F} (h : WithValue env c l v s) :
    ∃ id, longId l.toList = some id ∧ takesValue id = true ∧ (∀ ch, c = some ch → shortId ch = some id) ∧ Reads env id v s := by
  cases h with
  | input => exact ⟨.input, by decide, rfl, by rintro _ ⟨⟩; decide, rfl⟩
  | output => exact ⟨.output, by decide, rfl, by rintro _ ⟨⟩; decide, rfl⟩
  | prefExp h => exact ⟨.prefExp, by decide, rfl, by rintro _ ⟨⟩; decide, _, h, rfl⟩
  | timeout h => exact ⟨.timeout, by decide, rfl, by rintro _ ⟨⟩; decide, _, h, rfl⟩
  | csTimeout h => exact ⟨.csTimeout, by decide, rfl, (by rintro _ ⟨⟩), _, h, rfl⟩
  | threads h => exact ⟨.threads, by decide, rfl, by rintro _ ⟨⟩; decide, _, h, rfl⟩
  | maxNeighbors h => exact ⟨.maxNeighbors, by decide, rfl, by rintro _ ⟨⟩; decide, _, h, rfl⟩

theorem flag_id {c : Option Char} {l : String} {s : Setting F} (h : Flag c l s) :
    ∃ id, longId l.toList = some id ∧ takesValue id = false ∧ (∀ ch, c = some ch → shortId ch = some id) ∧ Flags id s := by
  cases h with
  | any => exact ⟨.any, by decide, rfl, by rintro _ ⟨⟩; decide, rfl⟩
  | noCs => exact ⟨.noCs, by decide, rfl, (by rintro _ ⟨⟩), rfl⟩
  | noCsSimp => exact ⟨.noCsSimp, by decide, rfl, (by rintro _ ⟨⟩), rfl⟩
  | greedy => exact ⟨.greedy, by decide, rfl, by rintro _ ⟨⟩; decide, rfl⟩

theorem asking_id {c : Char} {l : String} (h : Asking c l) :
    ∃ id, longId l.toList = some id ∧ shortId c = some id ∧ (id = .help ∨ id = .version) ∧ takesValue id = false := by
  cases h with
  | help => exact ⟨.help, by decide, by decide, .inl rfl, rfl⟩
  | version => exact ⟨.version, by decide, by decide, .inr rfl, rfl⟩

theorem shortId_cases {c : Char} {id : Id} (h : shortId c = some id) :
    (c = 'i' ∧ id = .input) ∨ (c = 'o' ∧ id = .output) ∨ (c = 'a' ∧ id = .any) ∨ (c = 'p' ∧ id = .prefExp) ∨ (c = 't' ∧ id = .timeout) ∨
    (c = 'j' ∧ id = .threads) ∨ (c = 'n' ∧ id = .maxNeighbors) ∨ (c = 'g' ∧ id = .greedy) ∨ (c = 'h' ∧ id = .help) ∨ (c = 'V' ∧ id = .version) := by
  unfold shortId at h
  repeat' split at h
  all_goals first | (cases h; simp_all; done) | (cases h; done)

theorem longId_cases {t : Str} {id : Id} (h : longId t = some id) :
    (t = "input".toList ∧ id = .input) ∨ (t = "output".toList ∧ id = .output) ∨ (t = "any".toList ∧ id = .any) ∨
    (t = "pref-exp".toList ∧ id = .prefExp) ∨ (t = "timeout".toList ∧ id = .timeout) ∨ (t = "cs-timeout".toList ∧ id = .csTimeout) ∨
    (t = "no-cs".toList ∧ id = .noCs) ∨ (t = "no-cs-simp".toList ∧ id = .noCsSimp) ∨ (t = "threads".toList ∧ id = .threads) ∨
    (t = "max-neighbors".toList ∧ id = .maxNeighbors) ∨ (t = "greedy".toList ∧ id = .greedy) ∨ (t = "help".toList ∧ id = .help) ∨
    (t = "version".toList ∧ id = .version) := by
  unfold longId at h
  by_cases e0 : t = "input".toList
  · rw [if_pos e0] at h
    cases h
    exact .inl ⟨e0, rfl⟩
  rw [if_neg e0] at h
  by_cases e1 : t = "output".toList
  · rw [if_pos e1] at h
    cases h
    exact .inr (.inl ⟨e1, rfl⟩)
  rw [if_neg e1] at h
  by_cases e2 : t = "any".toList
  · rw [if_pos e2] at h
    cases h
    exact .inr (.inr (.inl ⟨e2, rfl⟩))
  rw [if_neg e2] at h
  by_cases e3 : t = "pref-exp".toList
  · rw [if_pos e3] at h
    cases h
    exact .inr (.inr (.inr (.inl ⟨e3, rfl⟩)))
  rw [if_neg e3] at h
  by_cases e4 : t = "timeout".toList
  · rw [if_pos e4] at h
    cases h
    exact .inr (.inr (.inr (.inr (.inl ⟨e4, rfl⟩))))
  rw [if_neg e4] at h
  by_cases e5 : t = "cs-timeout".toList
  · rw [if_pos e5] at h
    cases h
    exact .inr (.inr (.inr (.inr (.inr (.inl ⟨e5, rfl⟩)))))
  rw [if_neg e5] at h
  by_cases e6 : t = "no-cs".toList
  · rw [if_pos e6] at h
    cases h
    exact .inr (.inr (.inr (.inr (.inr (.inr (.inl ⟨e6, rfl⟩))))))
  rw [if_neg e6] at h
  by_cases e7 : t = "no-cs-simp".toList
  · rw [if_pos e7] at h
    cases h
    exact .inr (.inr (.inr (.inr (.inr (.inr (.inr (.inl ⟨e7, rfl⟩)))))))
  rw [if_neg e7] at h
  by_cases e8 : t = "threads".toList
  · rw [if_pos e8] at h
    cases h
    exact .inr (.inr (.inr (.inr (.inr (.inr (.inr (.inr (.inl ⟨e8, rfl⟩))))))))
  rw [if_neg e8] at h
  by_cases e9 : t = "max-neighbors".toList
  · rw [if_pos e9] at h
    cases h
    exact .inr (.inr (.inr (.inr (.inr (.inr (.inr (.inr (.inr (.inl ⟨e9, rfl⟩)))))))))
  rw [if_neg e9] at h
  by_cases e10 : t = "greedy".toList
  · rw [if_pos e10] at h
    cases h
    exact .inr (.inr (.inr (.inr (.inr (.inr (.inr (.inr (.inr (.inr (.inl ⟨e10, rfl⟩))))))))))
  rw [if_neg e10] at h
  by_cases e11 : t = "help".toList
  · rw [if_pos e11] at h
    cases h
    exact .inr (.inr (.inr (.inr (.inr (.inr (.inr (.inr (.inr (.inr (.inr (.inl ⟨e11, rfl⟩)))))))))))
  rw [if_neg e11] at h
  by_cases e12 : t = "version".toList
  · rw [if_pos e12] at h
    cases h
    exact .inr (.inr (.inr (.inr (.inr (.inr (.inr (.inr (.inr (.inr (.inr (.inr (⟨e12, rfl⟩))))))))))))
  rw [if_neg e12] at h
  cases h

theorem short_value {c : Char} {id : Id} {v : Str} {s : Setting F} (h : shortId c = some id) (hr : Reads env id v s) :
    ∃ l, WithValue env (some c) l v s := by
  rcases shortId_cases h with ⟨rfl, rfl⟩ | ⟨rfl, rfl⟩ | ⟨rfl, rfl⟩ | ⟨rfl, rfl⟩ | ⟨rfl, rfl⟩ | ⟨rfl, rfl⟩ | ⟨rfl, rfl⟩ | ⟨rfl, rfl⟩ | ⟨rfl, rfl⟩ | ⟨rfl, rfl⟩ <;>
    simp only [Reads] at hr
  · subst hr; exact ⟨_, .input⟩
  · subst hr; exact ⟨_, .output⟩
  · obtain ⟨x, h, rfl⟩ := hr; exact ⟨_, .prefExp h⟩
  · obtain ⟨x, h, rfl⟩ := hr; exact ⟨_, .timeout h⟩
  · obtain ⟨x, h, rfl⟩ := hr; exact ⟨_, .threads h⟩
  · obtain ⟨x, h, rfl⟩ := hr; exact ⟨_, .maxNeighbors h⟩

theorem short_flag {c : Char} {id : Id} {s : Setting F} (h : shortId c = some id) (hr : Flags id s) : ∃ l, Flag (some c) l s := by
  rcases shortId_cases h with ⟨rfl, rfl⟩ | ⟨rfl, rfl⟩ | ⟨rfl, rfl⟩ | ⟨rfl, rfl⟩ | ⟨rfl, rfl⟩ | ⟨rfl, rfl⟩ | ⟨rfl, rfl⟩ | ⟨rfl, rfl⟩ | ⟨rfl, rfl⟩ | ⟨rfl, rfl⟩ <;>
    simp only [Flags] at hr
  · subst hr; exact ⟨_, .any⟩
  · subst hr; exact ⟨_, .greedy⟩

theorem short_asking {c : Char} {id : Id} (h : shortId c = some id) (hr : id = .help ∨ id = .version) : ∃ l, Asking c l := by
  rcases shortId_cases h with ⟨rfl, rfl⟩ | ⟨rfl, rfl⟩ | ⟨rfl, rfl⟩ | ⟨rfl, rfl⟩ | ⟨rfl, rfl⟩ | ⟨rfl, rfl⟩ | ⟨rfl, rfl⟩ | ⟨rfl, rfl⟩ | ⟨rfl, rfl⟩ | ⟨rfl, rfl⟩ <;>
    simp at hr
  · exact ⟨_, .help⟩
  · exact ⟨_, .version⟩

theorem long_value {t : Str} {id : Id} {v : Str} {s : Setting F} (h : longId t = some id) (hr : Reads env id v s) :
    ∃ c l, t = l.toList ∧ WithValue env c l v s := by
  rcases longId_cases h with ⟨rfl, rfl⟩ | ⟨rfl, rfl⟩ | ⟨rfl, rfl⟩ | ⟨rfl, rfl⟩ | ⟨rfl, rfl⟩ | ⟨rfl, rfl⟩ | ⟨rfl, rfl⟩ | ⟨rfl, rfl⟩ | ⟨rfl, rfl⟩ | ⟨rfl, rfl⟩ |
    ⟨rfl, rfl⟩ | ⟨rfl, rfl⟩ | ⟨rfl, rfl⟩ <;> simp only [Reads] at hr
  · subst hr; exact ⟨_, _, rfl, .input⟩
  · subst hr; exact ⟨_, _, rfl, .output⟩
  · obtain ⟨x, h, rfl⟩ := hr; exact ⟨_, _, rfl, .prefExp h⟩
  · obtain ⟨x, h, rfl⟩ := hr; exact ⟨_, _, rfl, .timeout h⟩
  · obtain ⟨x, h, rfl⟩ := hr; exact ⟨_, _, rfl, .csTimeout h⟩
  · obtain ⟨x, h, rfl⟩ := hr; exact ⟨_, _, rfl, .threads h⟩
  · obtain ⟨x, h, rfl⟩ := hr; exact ⟨_, _, rfl, .maxNeighbors h⟩

theorem long_flag {t : Str} {id : Id} {s : Setting F} (h : longId t = some id) (hr : Flags id s) : ∃ c l, t = l.toList ∧ Flag c l s := by
  rcases longId_cases h with ⟨rfl, rfl⟩ | ⟨rfl, rfl⟩ | ⟨rfl, rfl⟩ | ⟨rfl, rfl⟩ | ⟨rfl, rfl⟩ | ⟨rfl, rfl⟩ | ⟨rfl, rfl⟩ | ⟨rfl, rfl⟩ | ⟨rfl, rfl⟩ | ⟨rfl, rfl⟩ |
    ⟨rfl, rfl⟩ | ⟨rfl, rfl⟩ | ⟨rfl, rfl⟩ <;> simp only [Flags] at hr
  · subst hr; exact ⟨_, _, rfl, .any⟩
  · subst hr; exact ⟨_, _, rfl, .noCs⟩
  · subst hr; exact ⟨_, _, rfl, .noCsSimp⟩
  · subst hr; exact ⟨_, _, rfl, .greedy⟩

theorem long_asking {t : Str} {id : Id} (h : longId t = some id) (hr : id = .help ∨ id = .version) : ∃ c l, t = l.toList ∧ Asking c l := by
  rcases longId_cases h with ⟨rfl, rfl⟩ | ⟨rfl, rfl⟩ | ⟨rfl, rfl⟩ | ⟨rfl, rfl⟩ | ⟨rfl, rfl⟩ | ⟨rfl, rfl⟩ | ⟨rfl, rfl⟩ | ⟨rfl, rfl⟩ | ⟨rfl, rfl⟩ | ⟨rfl, rfl⟩ |
    ⟨rfl, rfl⟩ | ⟨rfl, rfl⟩ | ⟨rfl, rfl⟩ <;> simp at hr
  · exact ⟨_, _, rfl, .help⟩
  · exact ⟨_, _, rfl, .version⟩

/-! ### The arguments -/

theorem isValue_iff {v : Str} : isValue v = true ↔ Separate v := by
  unfold isValue Separate
  simp only [Bool.or_eq_true, bne_iff_ne, beq_iff_eq]
  exact Or.comm

theorem nextValue_ok {st st' : State F} {id : Id} {args rest : List Str} (ht : takesValue id = true) :
    nextValue env st id args = .ok (st', rest) ↔ ∃ v s, args = v :: rest ∧ Separate v ∧ Reads env id v s ∧ Put st s st' := by
  cases args with
  | nil => exact ⟨fun h => (by cases h), fun ⟨_, _, h, _⟩ => (by cases h)⟩
  | cons v rest' =>
    rw [nextValue]
    by_cases hv : isValue v = true
    · rw [if_pos hv, ebind_ok]
      constructor
      · rintro ⟨st1, h1, h2⟩
        cases h2
        obtain ⟨s, h3, h4⟩ := (setValue_ok ht).1 h1
        exact ⟨v, s, rfl, isValue_iff.1 hv, h3, h4⟩
      · rintro ⟨v', s, h, _, h3, h4⟩
        cases h
        exact ⟨st', (setValue_ok ht).2 ⟨s, h3, h4⟩, rfl⟩
    · rw [if_neg hv]
      refine ⟨fun h => (by cases h), ?_⟩
      rintro ⟨v', s, h, h2, _⟩
      cases h
      exact absurd (isValue_iff.2 h2) hv

theorem nextValue_ne (st : State F) (id : Id) (args : List Str) : nextValue env st id args ≠ .error .information := by
  cases args with
  | nil => exact refuse_ne
  | cons v rest =>
    rw [nextValue]
    split
    · rw [Ne, ebind_info]
      rintro (h | ⟨_, _, h⟩)
      · exact setValue_ne _ _ _ h
      · cases h
    · exact refuse_ne

/-- The three ways to write the value of a short option. -/
theorem shorts_value {rest : List Str} {st : State F} {c : Char} {cs : Str} {id : Id} (hid : shortId c = some id) (ht : takesValue id = true) :
    shorts env rest st (c :: cs) = match cs with
      | [] => nextValue env st id rest
      | '=' :: v => (do let st ← setValue env st id v; pure (st, rest))
      | v => (do let st ← setValue env st id v; pure (st, rest)) := by
  rw [shorts, hid]
  simp only [ht, if_true]
  rfl

theorem shorts_flag {rest : List Str} {st : State F} {c : Char} {cs : Str} {id : Id} (hid : shortId c = some id) (ht : takesValue id = false) :
    shorts env rest st (c :: cs) = (do let st ← setFlag st id; shorts env rest st cs) := by
  rw [shorts, hid]
  simp only [ht, Bool.false_eq_true, if_false]

theorem combined_ne {cs : Str} {after rest : List Str} {ss : List (Setting F)} (h : Combined env cs after ss rest) : cs ≠ [] := by
  cases h <;> simp

theorem combined_head {c : Char} {cs : Str} {after rest : List Str} {ss : List (Setting F)} (h : Combined env (c :: cs) after ss rest) :
    ∃ id, shortId c = some id := by
  cases h with
  | flag h => obtain ⟨id, _, _, h, _⟩ := flag_id h; exact ⟨id, h _ rfl⟩
  | flags h _ => obtain ⟨id, _, _, h, _⟩ := flag_id h; exact ⟨id, h _ rfl⟩
  | attached h _ _ => obtain ⟨id, _, _, h, _⟩ := withValue_id h; exact ⟨id, h _ rfl⟩
  | equals h => obtain ⟨id, _, _, h, _⟩ := withValue_id h; exact ⟨id, h _ rfl⟩
  | next h _ => obtain ⟨id, _, _, h, _⟩ := withValue_id h; exact ⟨id, h _ rfl⟩

theorem shorts_attached {rest rest' : List Str} {st st' : State F} {id : Id} {v : Str} (ht : takesValue id = true) :
    (do let st ← setValue env st id v; pure (st, rest) : Except Stop (State F × List Str)) = .ok (st', rest') ↔
      rest' = rest ∧ ∃ s, Reads env id v s ∧ Put st s st' := by
  rw [ebind_ok]
  constructor
  · rintro ⟨st1, h1, h2⟩
    cases h2
    exact ⟨rfl, (setValue_ok ht).1 h1⟩
  · rintro ⟨rfl, h⟩
    exact ⟨st', (setValue_ok ht).2 h, rfl⟩

theorem shorts_ok {rest rest' : List Str} : ∀ (cs : Str) {st st' : State F}, cs ≠ [] →
    (shorts env rest st cs = .ok (st', rest') ↔ ∃ ss, Combined env cs rest ss rest' ∧ Puts st ss st') := by
  intro cs
  induction cs with
  | nil => intro st st' h; exact absurd rfl h
  | cons c cs ih =>
    intro st st' _
    cases hid : shortId c with
    | none =>
      constructor
      · intro h; rw [shorts, hid] at h; cases h
      · rintro ⟨ss, h, _⟩
        obtain ⟨id, h⟩ := combined_head h
        rw [hid] at h; cases h
    | some id =>
      have same : ∀ {id'}, shortId c = some id' → id' = id := fun h => by rw [hid] at h; cases h; rfl
      cases ht : takesValue id with
      | true =>
        rw [shorts_value hid ht]
        have noflag : ∀ {l : String} {s : Setting F}, ¬ Flag (some c) l s := fun h => by
          obtain ⟨id', _, h2, h3, _⟩ := flag_id h
          rw [same (h3 _ rfl), ht] at h2; cases h2
        have reads : ∀ {l : String} {v : Str} {s : Setting F}, WithValue env (some c) l v s → Reads env id v s := fun h => by
          obtain ⟨id', _, _, h3, h4⟩ := withValue_id h
          rwa [same (h3 _ rfl)] at h4
        split
        · rw [nextValue_ok ht]
          constructor
          · rintro ⟨v, s, rfl, h1, h2, h3⟩
            obtain ⟨l, hl⟩ := short_value hid h2
            exact ⟨[s], .next hl h1, Puts.one.2 h3⟩
          · rintro ⟨ss, h, hp⟩
            cases h with
            | flag h => exact absurd h noflag
            | flags h _ => exact absurd h noflag
            | attached _ h _ => exact absurd rfl h
            | next h1 h2 => exact ⟨_, _, rfl, h2, reads h1, Puts.one.1 hp⟩
        · rename_i v
          rw [shorts_attached ht]
          constructor
          · rintro ⟨rfl, s, h2, h3⟩
            obtain ⟨l, hl⟩ := short_value hid h2
            exact ⟨[s], .equals hl, Puts.one.2 h3⟩
          · rintro ⟨ss, h, hp⟩
            cases h with
            | flags h _ => exact absurd h noflag
            | attached _ _ h => exact absurd rfl h
            | equals h => exact ⟨rfl, _, reads h, Puts.one.1 hp⟩
        · rename_i hne heq
          rw [shorts_attached ht]
          have hh : cs.head? ≠ some '=' := by
            intro h
            cases cs with
            | nil => cases h
            | cons d t => cases h; exact heq t rfl
          constructor
          · rintro ⟨rfl, s, h2, h3⟩
            obtain ⟨l, hl⟩ := short_value hid h2
            exact ⟨[s], .attached hl (fun h => hne h) hh, Puts.one.2 h3⟩
          · rintro ⟨ss, h, hp⟩
            cases h with
            | flag h => exact absurd rfl hne
            | flags h _ => exact absurd h noflag
            | attached h _ _ => exact ⟨rfl, _, reads h, Puts.one.1 hp⟩
            | equals h => exact absurd rfl hh
            | next h _ => exact absurd rfl hne
      | false =>
        rw [shorts_flag hid ht, ebind_ok]
        have noval : ∀ {l : String} {v : Str} {s : Setting F}, ¬ WithValue env (some c) l v s := fun h => by
          obtain ⟨id', _, h2, h3, _⟩ := withValue_id h
          rw [same (h3 _ rfl), ht] at h2; cases h2
        have flags : ∀ {l : String} {s : Setting F}, Flag (some c) l s → Flags id s := fun h => by
          obtain ⟨id', _, _, h3, h4⟩ := flag_id h
          rwa [same (h3 _ rfl)] at h4
        constructor
        · rintro ⟨st1, h1, h2⟩
          obtain ⟨s, h3, h4⟩ := (setFlag_ok ht).1 h1
          obtain ⟨l, hl⟩ := short_flag hid h3
          by_cases hcs : cs = []
          · subst hcs
            rw [shorts] at h2
            cases h2
            exact ⟨[s], .flag hl, Puts.one.2 h4⟩
          · obtain ⟨ss, h5, h6⟩ := (ih hcs).1 h2
            exact ⟨s :: ss, .flags hl h5, .cons h4 h6⟩
        · rintro ⟨ss, h, hp⟩
          cases h with
          | flag h => exact ⟨st', (setFlag_ok ht).2 ⟨_, flags h, Puts.one.1 hp⟩, rfl⟩
          | flags h h5 =>
            cases hp with
            | cons h4 h6 => exact ⟨_, (setFlag_ok ht).2 ⟨_, flags h, h4⟩, (ih (combined_ne h5)).2 ⟨_, h5, h6⟩⟩
          | attached h _ _ => exact absurd h noval
          | equals h => exact absurd h noval
          | next h _ => exact absurd h noval

theorem shorts_info {rest : List Str} : ∀ (cs : Str) {st : State F},
    shorts env rest st cs = .error .information ↔ ∃ ss st', CombinedHelp cs ss ∧ Puts st ss st' := by
  intro cs
  induction cs with
  | nil =>
    intro st
    refine ⟨fun h => (by cases h), ?_⟩
    rintro ⟨_, _, h, _⟩
    cases h
  | cons c cs ih =>
    intro st
    cases hid : shortId c with
    | none =>
      constructor
      · intro h; rw [shorts, hid] at h; exact absurd h refuse_ne
      · rintro ⟨ss, st', h, _⟩
        cases h with
        | here h => obtain ⟨id, _, h, _⟩ := asking_id h; rw [hid] at h; cases h
        | flags h _ => obtain ⟨id, _, _, h, _⟩ := flag_id h; have := h _ rfl; rw [hid] at this; cases this
    | some id =>
      have same : ∀ {id'}, shortId c = some id' → id' = id := fun h => by rw [hid] at h; cases h; rfl
      cases ht : takesValue id with
      | true =>
        rw [shorts_value hid ht]
        constructor
        · intro h
          exfalso
          split at h
          · exact nextValue_ne _ _ _ h
          · rw [ebind_info] at h
            rcases h with h | ⟨_, _, h⟩
            · exact setValue_ne _ _ _ h
            · cases h
          · rw [ebind_info] at h
            rcases h with h | ⟨_, _, h⟩
            · exact setValue_ne _ _ _ h
            · cases h
        · rintro ⟨ss, st', h, _⟩
          exfalso
          cases h with
          | here h => obtain ⟨id', _, h1, _, h2⟩ := asking_id h; rw [same h1, ht] at h2; cases h2
          | flags h _ => obtain ⟨id', _, h2, h1, _⟩ := flag_id h; rw [same (h1 _ rfl), ht] at h2; cases h2
      | false =>
        rw [shorts_flag hid ht, ebind_info, setFlag_info]
        constructor
        · rintro (h | ⟨st1, h1, h2⟩)
          · obtain ⟨l, hl⟩ := short_asking hid h
            exact ⟨[], st, .here hl, .nil⟩
          · obtain ⟨s, h3, h4⟩ := (setFlag_ok ht).1 h1
            obtain ⟨l, hl⟩ := short_flag hid h3
            obtain ⟨ss, st', h5, h6⟩ := ih.1 h2
            exact ⟨s :: ss, st', .flags hl h5, .cons h4 h6⟩
        · rintro ⟨ss, st', h, hp⟩
          cases h with
          | here h => obtain ⟨id', _, h1, h2, _⟩ := asking_id h; rw [same h1] at h2; exact .inl h2
          | flags h h5 =>
            obtain ⟨id', _, _, h3, h4⟩ := flag_id h
            rw [same (h3 _ rfl)] at h4
            cases hp with
            | cons h7 h6 => exact .inr ⟨_, (setFlag_ok ht).2 ⟨_, h4, h7⟩, ih.2 ⟨_, _, h5, h6⟩⟩

/-! ### Long options -/

theorem splitEq_plain : ∀ {s : Str}, '=' ∉ s → splitEq s = (s, none) := by
  intro s
  induction s with
  | nil => intro _; rfl
  | cons c s ih =>
    intro h
    rw [splitEq, if_neg (by intro e; exact h (by simp [e])), ih (fun h' => h (by simp [h']))]

theorem splitEq_eq : ∀ {s v : Str}, '=' ∉ s → splitEq (s ++ '=' :: v) = (s, some v) := by
  intro s v
  induction s with
  | nil => intro _; rfl
  | cons c s ih =>
    intro h
    rw [List.cons_append, splitEq, if_neg (by intro e; exact h (by simp [e])), ih (fun h' => h (by simp [h']))]

theorem splitEq_inv : ∀ {s n : Str} {v : Option Str}, splitEq s = (n, v) → match v with
    | none => s = n
    | some v => s = n ++ '=' :: v := by
  intro s
  induction s with
  | nil => intro n v h; cases h; rfl
  | cons c s ih =>
    intro n v h
    rw [splitEq] at h
    split at h
    · rename_i e; cases h; subst e; rfl
    · cases h
      have := ih (n := (splitEq s).1) (v := (splitEq s).2) rfl
      split <;> rename_i e <;> rw [e] at this <;> simp only at this
      · rw [← this]
      · rw [List.cons_append, ← this]

theorem longId_noEq {t : Str} {id : Id} (h : longId t = some id) : '=' ∉ t ∧ t ≠ [] := by
  rcases longId_cases h with ⟨rfl, _⟩ | ⟨rfl, _⟩ | ⟨rfl, _⟩ | ⟨rfl, _⟩ | ⟨rfl, _⟩ | ⟨rfl, _⟩ | ⟨rfl, _⟩ | ⟨rfl, _⟩ | ⟨rfl, _⟩ | ⟨rfl, _⟩ |
    ⟨rfl, _⟩ | ⟨rfl, _⟩ | ⟨rfl, _⟩ <;> decide

/-- What a long option asks for. -/
inductive LongIs (env : OptEnv F) (rest : List Str) (s : Str) : Setting F → List Str → Prop
  | flag {c l x} : s = l.toList → Flag c l x → LongIs env rest s x rest
  | value {c l v x rest'} : s = l.toList → rest = v :: rest' → WithValue env c l v x → Separate v → LongIs env rest s x rest'
  | equals {c l v x} : s = l.toList ++ '=' :: v → WithValue env c l v x → LongIs env rest s x rest

theorem long_ok {rest rest' : List Str} {st st' : State F} {s : Str} :
    long env rest st s = .ok (st', rest') ↔ ∃ x, LongIs env rest s x rest' ∧ Put st x st' := by
  unfold long
  constructor
  · intro h
    cases hs : splitEq s with
    | mk n v =>
      rw [hs] at h
      simp only at h
      have hinv := splitEq_inv hs
      split at h
      · cases h
      · rename_i id hid
        simp only at hinv
        subst hinv
        cases ht : takesValue id with
        | true =>
          rw [ht] at h
          simp only [if_true] at h
          obtain ⟨v, x, h1, h2, h3, h4⟩ := (nextValue_ok ht).1 h
          obtain ⟨c, l, h5, h6⟩ := long_value hid h3
          exact ⟨x, .value h5 h1 h6 h2, h4⟩
        | false =>
          rw [ht] at h
          simp only [Bool.false_eq_true, if_false] at h
          rw [ebind_ok] at h
          obtain ⟨st1, h1, h2⟩ := h
          cases h2
          obtain ⟨x, h3, h4⟩ := (setFlag_ok ht).1 h1
          obtain ⟨c, l, h5, h6⟩ := long_flag hid h3
          exact ⟨x, .flag h5 h6, h4⟩
      · rename_i id v hid
        simp only at hinv
        cases ht : takesValue id with
        | true =>
          rw [ht] at h
          simp only [if_true] at h
          obtain ⟨rfl, x, h3, h4⟩ := (shorts_attached ht).1 h
          obtain ⟨c, l, h5, h6⟩ := long_value hid h3
          exact ⟨x, .equals (by rw [hinv, h5]) h6, h4⟩
        | false =>
          rw [ht] at h
          simp only [Bool.false_eq_true, if_false] at h
          cases h
  · rintro ⟨x, h, hp⟩
    cases h with
    | flag hs hf =>
      obtain ⟨id, h1, h2, _, h4⟩ := flag_id hf
      rw [hs, splitEq_plain (longId_noEq h1).1]
      simp only [h1, h2, Bool.false_eq_true, if_false]
      rw [ebind_ok]
      exact ⟨_, (setFlag_ok h2).2 ⟨_, h4, hp⟩, rfl⟩
    | value hs hr hv hsep =>
      obtain ⟨id, h1, h2, _, h4⟩ := withValue_id hv
      rw [hs, splitEq_plain (longId_noEq h1).1]
      simp only [h1, h2, if_true]
      exact (nextValue_ok h2).2 ⟨_, _, hr, hsep, h4, hp⟩
    | equals hs hv =>
      obtain ⟨id, h1, h2, _, h4⟩ := withValue_id hv
      rw [hs, splitEq_eq (longId_noEq h1).1]
      simp only [h1, h2, if_true]
      exact (shorts_attached h2).2 ⟨rfl, _, h4, hp⟩

theorem long_info {rest : List Str} {st : State F} {s : Str} :
    long env rest st s = .error .information ↔ ∃ c l, s = l.toList ∧ Asking c l := by
  unfold long
  constructor
  · intro h
    cases hs : splitEq s with
    | mk n v =>
      rw [hs] at h
      simp only at h
      have hinv := splitEq_inv hs
      split at h
      · exact absurd h refuse_ne
      · rename_i id hid
        simp only at hinv
        subst hinv
        split at h
        · exact absurd h (nextValue_ne _ _ _)
        · rw [ebind_info, setFlag_info] at h
          rcases h with h | ⟨_, _, h⟩
          · exact long_asking hid h
          · cases h
      · split at h
        · rw [ebind_info] at h
          rcases h with h | ⟨_, _, h⟩
          · exact absurd h (setValue_ne _ _ _)
          · cases h
        · exact absurd h refuse_ne
  · rintro ⟨c, l, rfl, h⟩
    obtain ⟨id, h1, _, h2, h3⟩ := asking_id h
    rw [splitEq_plain (longId_noEq h1).1]
    simp only [h1, h3, Bool.false_eq_true, if_false]
    rw [ebind_info]
    exact .inl (setFlag_info.2 h2)

theorem longIs_length {rest rest' : List Str} {s : Str} {x : Setting F} (h : LongIs env rest s x rest') : rest'.length ≤ rest.length := by
  cases h with
  | flag => exact Nat.le_refl _
  | value _ h => rw [h]; simp
  | equals => exact Nat.le_refl _

theorem longIs_ne {rest rest' : List Str} {s : Str} {x : Setting F} (h : LongIs env rest s x rest') : s ≠ [] := by
  cases h with
  | flag h hf => obtain ⟨id, h1, _⟩ := flag_id hf; rw [h]; exact (longId_noEq h1).2
  | value h _ hf => obtain ⟨id, h1, _⟩ := withValue_id hf; rw [h]; exact (longId_noEq h1).2
  | equals h hf => rw [h]; simp

theorem combined_length {cs : Str} {after rest : List Str} {ss : List (Setting F)} (h : Combined env cs after ss rest) :
    rest.length ≤ after.length := by
  induction h with
  | flag => exact Nat.le_refl _
  | flags _ _ ih => exact ih
  | attached => exact Nat.le_refl _
  | equals => exact Nat.le_refl _
  | next => simp

end Cli
end Wassign
