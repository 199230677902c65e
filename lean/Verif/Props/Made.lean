import Verif.Proofs.Made
import Verif.Props.Reader
/-
C55: the input read is the input the script describes.
-/
namespace Wassign
open Spec Reader

variable {F : Type} {env : OptEnv F}

theorem outcome_made (opts : Opts F) (s : Script) : Made (outcome env opts s).1 (outcome env opts s).2.1.st := by
  have := run_made (env := env) s ⟨.empty, opts⟩ [] Made.empty
  simpa using this

/-- **C55**: what `read_input` returns is built from exactly the slots, choices, choosers and constraints the script added,
in the order of the (first) additions: every object has the name it was given last, and the numbers of the call that first
returned it. Asking for an existing object with other numbers changes nothing, and failed calls do not count. -/
theorem C55_input_as_described (r : InputReader F) (s : Script) (d : InputData) (h : (readInput env r s).1 = .ok d) :
    ∃ raw, Describes (outcome env r.world.opts s).1 raw ∧ Build.build raw = .ok d := by
  obtain ⟨_, sy, hs, hf⟩ := readInput_inv h
  refine ⟨_, describes (outcome_made _ _) hs, ?_⟩
  unfold finish at hf
  split at hf
  · cases hf
  · split at hf
    · cases hf
    · split at hf
      · cases hf
      · exact hf

theorem firstGiven_unique {tr post post' : List Event} {k : ObjKind} {id : Nat} {op op' : Op} {n n' : Str}
    (h : FirstGiven tr k id op post) (h' : FirstGiven tr k id op' post') (ha : asksFor op = some (k, n))
    (ha' : asksFor op' = some (k, n')) : op = op' ∧ post = post' := by
  obtain ⟨pre, h1, h2⟩ := h
  obtain ⟨pre', h1', h2'⟩ := h'
  have hl : pre = pre' := by
    rw [h1] at h1'
    rw [List.append_eq_append_iff] at h1'
    rcases h1' with ⟨a, ha1, ha2⟩ | ⟨a, ha1, ha2⟩
    · cases a with
      | nil => simpa using ha1.symm
      | cons e t =>
        exfalso
        simp only [List.cons_append, List.cons.injEq] at ha2
        exact h2' ⟨e, by rw [ha1]; simp, n, by rw [← ha2.1]; exact ha, by rw [← ha2.1]⟩
    · cases a with
      | nil => simpa using ha1
      | cons e t =>
        exfalso
        simp only [List.cons_append, List.cons.injEq] at ha2
        exact h2 ⟨e, by rw [ha1]; simp, n', by rw [← ha2.1]; exact ha', by rw [← ha2.1]⟩
  subst hl
  rw [h1] at h1'
  have := List.append_cancel_left h1'
  simp only [List.cons.injEq, Event.mk.injEq, and_true] at this
  exact this

theorem numeral_unique {s : Str} {v w : Int} (h : Numeral s v) (h' : Numeral s w) : v = w := by
  have hd := plusMinus_not_digit
  cases h with
  | plain h1 h2 =>
    cases h' with
    | plain => rfl
    | plus => exact absurd (h2 _ (by simp)) hd.1
    | minus => exact absurd (h2 _ (by simp)) hd.2
  | plus h1 h2 =>
    cases h' with
    | plain _ h3 => exact absurd (h3 _ (by simp)) hd.1
    | plus => rfl
  | minus h1 h2 =>
    cases h' with
    | plain _ h3 => exact absurd (h3 _ (by simp)) hd.2
    | minus => rfl

theorem prefValue_unique {x : Dyn} {n m : Nat} (h : PrefValue x n) (h' : PrefValue x m) : n = m := by
  obtain ⟨_, h⟩ := h
  obtain ⟨_, h'⟩ := h'
  cases x with
  | int v => simp only at h h'; omega
  | int32 v => simp only at h h'; omega
  | str s => have := numeral_unique h h'; omega
  | other => exact absurd h id

theorem forall₂_unique {α β : Type} {P : α → β → Prop} (hP : ∀ a b c, P a b → P a c → b = c) {l : List α} {x y : List β}
    (h : List.Forall₂ P l x) (h' : List.Forall₂ P l y) : x = y := by
  induction h generalizing y with
  | nil => cases h'; rfl
  | cons h1 _ ih =>
    cases h' with
    | cons h2 h3 => rw [hP _ _ _ h1 h2, ih h3]

/-- **C55**: the calls of a script describe at most one input. -/
theorem C55_at_most_one (tr : List Event) (raw raw' : Raw) (h : Describes tr raw) (h' : Describes tr raw') : raw = raw' := by
  have e1 := forall₂_unique (P := IsSlot tr) (by
    rintro id a b ⟨n, post, h1, rfl⟩ ⟨n', post', h1', rfl⟩
    obtain ⟨e1, rfl⟩ := firstGiven_unique h1 h1' rfl rfl
    cases e1
    rfl) h.slots h'.slots
  have e2 := forall₂_unique (P := IsChoice tr) (by
    rintro id a b ⟨n, tags, post, h1, h2, h3⟩ ⟨n', tags', post', h1', h2', h3'⟩
    obtain ⟨e1, rfl⟩ := firstGiven_unique h1 h1' rfl rfl
    cases e1
    have hmin : a.min = b.min := by have := h3.min.trans h3'.min.symm; omega
    have hmax : a.max = b.max := by have := h3.max.trans h3'.max.symm; omega
    have hparts : a.parts = b.parts := by have := h3.parts.trans h3'.parts.symm; omega
    have hopt : a.optional = b.optional := Bool.eq_iff_iff.2 (h3.optional.trans h3'.optional.symm)
    have hn : a.name = b.name := h2.trans h2'.symm
    cases a
    cases b
    simp only at hmin hmax hparts hopt hn
    subst hmin hmax hparts hopt hn
    rfl) h.choices h'.choices
  have e3 := forall₂_unique (P := IsChooser tr) (by
    rintro id a b ⟨n, tags, post, h1, h2, h3⟩ ⟨n', tags', post', h1', h2', h3'⟩
    obtain ⟨e1, rfl⟩ := firstGiven_unique h1 h1' rfl rfl
    cases e1
    have hn : a.name = b.name := h2.trans h2'.symm
    have hp : a.prefs = b.prefs := forall₂_unique (P := PrefValue) (fun _ _ _ => prefValue_unique) h3 h3'
    cases a
    cases b
    simp only at hn hp
    subst hn hp
    rfl) h.choosers h'.choosers
  have e4 := h.constraints.trans h'.constraints.symm
  cases raw
  cases raw'
  simp only at e1 e2 e3 e4
  subst e1 e2 e3 e4
  rfl

/-- The numbers of an accepted input fit in 32 bits. -/
theorem described_fit {tr : List Event} {raw : Raw} (h : Describes tr raw) :
    (∀ p ∈ raw.choices, p.min ≤ u32Max ∧ p.max ≤ u32Max ∧ p.parts ≤ u32Max) ∧
    (∀ p ∈ raw.choosers, ∀ v ∈ p.prefs, v ≤ u32Max) := by
  have last : ∀ (l : List Int) (n : Nat), (n : Int) = lastOr 1 l → (∀ v ∈ l, 0 ≤ v ∧ v ≤ 4294967295) → n ≤ u32Max := by
    intro l n hn hl
    unfold lastOr at hn
    cases hg : l.getLast? with
    | none => rw [hg] at hn; simp only [Option.getD_none] at hn; unfold u32Max; omega
    | some v =>
      rw [hg] at hn
      simp only [Option.getD_some] at hn
      have := hl v (List.mem_of_getLast? hg)
      unfold u32Max; omega
  constructor
  · intro p hp
    obtain ⟨j, hj⟩ := List.mem_iff_getElem?.1 hp
    obtain ⟨hlt, hge⟩ := List.getElem?_eq_some_iff.1 hj
    have hl := h.choices.length_eq
    obtain ⟨n, tags, post, h1, h2, h3⟩ := List.Forall₂.get h.choices (i := j) (by omega) hlt
    simp only [List.get_eq_getElem, hge] at h3
    refine ⟨last _ _ h3.min (fun v hv => h3.range v (by simp [hv])), last _ _ h3.max (fun v hv => h3.range v (by simp [hv])),
      last _ _ h3.parts (fun v hv => h3.range v (by simp [hv]))⟩
  · intro p hp v hv
    obtain ⟨j, hj⟩ := List.mem_iff_getElem?.1 hp
    obtain ⟨hlt, hge⟩ := List.getElem?_eq_some_iff.1 hj
    have hl := h.choosers.length_eq
    obtain ⟨n, prefs, post, h1, h2, h3⟩ := List.Forall₂.get h.choosers (i := j) (by omega) hlt
    simp only [List.get_eq_getElem, hge] at h3
    obtain ⟨m, hm⟩ := List.mem_iff_getElem?.1 hv
    obtain ⟨hlt2, hge2⟩ := List.getElem?_eq_some_iff.1 hm
    have hl2 := h3.length_eq
    have := (List.Forall₂.get h3 (i := m) (by omega) hlt2).1
    simp only [List.get_eq_getElem, hge2] at this
    unfold u32Max; omega

end Wassign

namespace Wassign.ReadEx
open Spec Reader

/-- The script is accepted, so its calls describe an input (C55): the two choices in order, with the bounds of the calls. -/
example : ∃ raw, Describes (outcome env opts script).1 raw ∧ raw.choices.map (·.max) = [1, 5] := by
  have hacc : ∃ d, (readInput env (new opts) script).1 = .ok d := by
    have := accepted
    cases h : (readInput env (new opts) script).1 with
    | ok d => exact ⟨d, rfl⟩
    | error e => rw [h] at this; cases this
  obtain ⟨d, hd⟩ := hacc
  obtain ⟨_, sy, hs, _⟩ := readInput_inv hd
  refine ⟨_, describes (outcome_made _ _) hs, ?_⟩
  have : (sync (outcome env opts script).2.1.st).toOption.map (fun s => s.choices.map (·.max)) = some [1, 5] := by decide +kernel
  have hs : sync (outcome env opts script).2.1.st = .ok sy := hs
  rw [hs] at this
  exact Option.some.inj this

/-- Asking again for a registered choice with other numbers gives the old one, whose numbers stay (C55). -/
example : ((exec env (.choice "Chess".toList [tagInt .max 9]) (outcome env opts script).2.1).2.st.choices.objs[1]?).map
    (·.data.max) = some 5 := by decide +kernel

end Wassign.ReadEx
