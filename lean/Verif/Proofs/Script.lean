import Verif.Proofs.Reader
/-
What holds after a whole script.
-/
namespace Wassign
open Spec
namespace Reader
variable {F : Type} {env : OptEnv F}

/-- A failed call changes nothing. -/
theorem exec_failed {w w' : World F} {op : Op} {e : Fault} (hw : Ok w.st) (h : exec env op w = (.error e, w')) : w' = w := by
  have key : ∀ {α : Type} [Named α] {k : ObjKind} {p q : Pool α} {op : Op} {e : Fault}, KStep k p op (.error e) q → q = p := by
    intro α _ k p q op e h
    cases h
    rfl
  obtain ⟨h1, h2, h3⟩ := exec_steps hw h
  have h1 := key h1
  have h2 := key h2
  have h3 := key h3
  have hx : w'.st.exprs = w.st.exprs ∧ w'.opts = w.opts := by
    cases op with
    | slot n =>
      have e' : exec env (.slot n) w = _ := onX (findOrPush n n) Reply.ref (onSlots (findOrPush n n)) (w := w) (s := w.st.slots) rfl
      rw [e'] at h
      have := congrArg Prod.snd h
      simp only at this
      rw [← this]
      exact ⟨rfl, rfl⟩
    | choice n tags =>
      have e' : exec env (.choice n tags) w = _ :=
        onX (choice n tags) Reply.ref (onChoices (choice n tags)) (w := w) (s := w.st.choices) rfl
      rw [e'] at h
      have := congrArg Prod.snd h
      simp only at this
      rw [← this]
      exact ⟨rfl, rfl⟩
    | chooser n prefs =>
      have e' : exec env (.chooser n prefs) w = _ :=
        onX (chooser n prefs) Reply.ref (onChoosers (chooser n prefs)) (w := w) (s := w.st.choosers) rfl
      rw [e'] at h
      have := congrArg Prod.snd h
      simp only at this
      rw [← this]
      exact ⟨rfl, rfl⟩
    | add k id =>
      cases k with
      | slot =>
        have e' : exec env (.add .slot id) w = _ :=
          onX (Pool.register id) (fun _ => Reply.ref id) (onSlots (Pool.register id)) (w := w) (s := w.st.slots) rfl
        rw [e'] at h
        have := congrArg Prod.snd h
        simp only at this
        rw [← this]
        exact ⟨rfl, rfl⟩
      | choice =>
        have e' : exec env (.add .choice id) w = _ :=
          onX (Pool.register id) (fun _ => Reply.ref id) (onChoices (Pool.register id)) (w := w) (s := w.st.choices) rfl
        rw [e'] at h
        have := congrArg Prod.snd h
        simp only at this
        rw [← this]
        exact ⟨rfl, rfl⟩
      | chooser =>
        have e' : exec env (.add .chooser id) w = _ :=
          onX (Pool.register id) (fun _ => Reply.ref id) (onChoosers (Pool.register id)) (w := w) (s := w.st.choosers) rfl
        rw [e'] at h
        have := congrArg Prod.snd h
        simp only at this
        rw [← this]
        exact ⟨rfl, rfl⟩
    | addExpr x => cases h
    | setName k id n =>
      cases k with
      | slot =>
        have e' : exec env (.setName .slot id n) w = _ :=
          onX (Pool.rename id n) (fun _ => Reply.ref id) (onSlots (Pool.rename id n)) (w := w) (s := w.st.slots) rfl
        rw [e'] at h
        have := congrArg Prod.snd h
        simp only at this
        rw [← this]
        exact ⟨rfl, rfl⟩
      | choice =>
        have e' : exec env (.setName .choice id n) w = _ :=
          onX (Pool.rename id n) (fun _ => Reply.ref id) (onChoices (Pool.rename id n)) (w := w) (s := w.st.choices) rfl
        rw [e'] at h
        have := congrArg Prod.snd h
        simp only at this
        rw [← this]
        exact ⟨rfl, rfl⟩
      | chooser =>
        have e' : exec env (.setName .chooser id n) w = _ :=
          onX (Pool.rename id n) (fun _ => Reply.ref id) (onChoosers (Pool.rename id n)) (w := w) (s := w.st.choosers) rfl
        rw [e'] at h
        have := congrArg Prod.snd h
        simp only at this
        rw [← this]
        exact ⟨rfl, rfl⟩
    | getName k id =>
      cases k with
      | slot =>
        have e' : exec env (.getName .slot id) w = _ :=
          onX (M.lift (w.st.slots.nameOf id)) Reply.name (M.lift (w.st.slots.nameOf id)) (w := w) (s := ()) rfl
        rw [e'] at h
        have := congrArg Prod.snd h
        simp only at this
        rw [← this]
        exact ⟨rfl, rfl⟩
      | choice =>
        have e' : exec env (.getName .choice id) w = _ :=
          onX (M.lift (w.st.choices.nameOf id)) Reply.name (M.lift (w.st.choices.nameOf id)) (w := w) (s := ()) rfl
        rw [e'] at h
        have := congrArg Prod.snd h
        simp only at this
        rw [← this]
        exact ⟨rfl, rfl⟩
      | chooser =>
        have e' : exec env (.getName .chooser id) w = _ :=
          onX (M.lift (w.st.choosers.nameOf id)) Reply.name (M.lift (w.st.choosers.nameOf id)) (w := w) (s := ()) rfl
        rw [e'] at h
        have := congrArg Prod.snd h
        simp only at this
        rw [← this]
        exact ⟨rfl, rfl⟩
    | attr k id a =>
      have e' : exec env (.attr k id a) w = _ :=
        onX (M.lift (Rhai.attr w.st k id a)) Reply.accessor (M.lift (Rhai.attr w.st k id a)) (w := w) (s := ()) rfl
      rw [e'] at h
      have := congrArg Prod.snd h
      simp only at this
      rw [← this]
      exact ⟨rfl, rfl⟩
    | relate symbol l r =>
      have e' : exec env (.relate symbol l r) w = _ :=
        onX (M.lift (Rhai.relate w.st symbol l r)) Reply.expr (M.lift (Rhai.relate w.st symbol l r)) (w := w) (s := ()) rfl
      rw [e'] at h
      have := congrArg Prod.snd h
      simp only at this
      rw [← this]
      exact ⟨rfl, rfl⟩
    | setArguments args =>
      have e' : exec env (.setArguments args) w = _ :=
        onX (setArguments env args) (fun _ => Reply.unit) (onOpts (setArguments env args)) (w := w) (s := w.opts) rfl
      rw [e'] at h
      have hfst := congrArg Prod.fst h
      have := congrArg Prod.snd h
      simp only at this hfst
      rw [← this]
      refine ⟨rfl, ?_⟩
      cases hs : setArguments env args w.opts with
      | mk r o =>
        rw [hs] at hfst
        cases r with
        | ok u => cases hfst
        | error f =>
          have := setArguments_failed hs
          show (setArguments env args w.opts).2 = w.opts
          rw [hs, this]
  obtain ⟨st', o'⟩ := w'
  obtain ⟨st, o⟩ := w
  obtain ⟨a', b', c', d'⟩ := st'
  obtain ⟨a, b, c, d⟩ := st
  simp only at h1 h2 h3 hx
  rw [h1, h2, h3, hx.1, hx.2]

/-- The pool of kind `k` after the calls `tr`. -/
structure KInv {α : Type} [Named α] (k : ObjKind) (tr : List Event) (p : Pool α) : Prop where
  wf : p.WF
  added : ∀ i, i ∈ p.ids ↔ Added tr k i
  given : ∀ i, i < p.objs.length ↔ Given tr k i
  names : NoLateRename tr → (regNames p).Nodup

theorem KInv.empty {α : Type} [Named α] (k : ObjKind) : KInv k [] (⟨[], []⟩ : Pool α) where
  wf := Pool.WF.empty
  added := by simp [Added]
  given := by simp [Given]
  names := by simp [regNames]

theorem added_append {tr : List Event} {k : ObjKind} {i : Nat} {e : Event} :
    Added (tr ++ [e]) k i ↔ Added tr k i ∨ (e.op = .add k i ∧ e.reply.isSome) := by
  unfold Added
  simp only [List.mem_append, List.mem_singleton]
  constructor
  · rintro ⟨x, hx | rfl, h⟩
    · exact Or.inl ⟨x, hx, h⟩
    · exact Or.inr h
  · rintro (⟨x, hx, h⟩ | h)
    · exact ⟨x, Or.inl hx, h⟩
    · exact ⟨e, Or.inr rfl, h⟩

theorem given_append {tr : List Event} {k : ObjKind} {i : Nat} {e : Event} :
    Given (tr ++ [e]) k i ↔ Given tr k i ∨ (∃ n, asksFor e.op = some (k, n) ∧ e.reply = some (.ref i)) := by
  unfold Given
  simp only [List.mem_append, List.mem_singleton]
  constructor
  · rintro ⟨x, hx | rfl, h⟩
    · exact Or.inl ⟨x, hx, h⟩
    · exact Or.inr h
  · rintro (⟨x, hx, h⟩ | h)
    · exact ⟨x, Or.inl hx, h⟩
    · exact ⟨e, Or.inr rfl, h⟩

theorem noLateRename_of_append {tr : List Event} {e : Event} (h : NoLateRename (tr ++ [e])) : NoLateRename tr := by
  intro pre x post k id n he
  exact h pre x (post ++ [e]) k id n (by rw [he]; simp)

/-- The reply seen by the script. -/
def replyOf (r : R Reply) : Option Reply :=
  match r with
  | .ok x => some x
  | .error _ => none

theorem regNames_congr {α : Type} [Named α] {ids : List Nat} {a b : List (Obj α)}
    (h : ∀ i ∈ ids, (a[i]?).map (fun o => Named.name o.data) = (b[i]?).map (fun o => Named.name o.data)) :
    regNames (⟨a, ids⟩ : Pool α) = regNames ⟨b, ids⟩ := by
  unfold regNames
  simp only
  exact List.filterMap_congr h

theorem KInv.next {α : Type} [Named α] {k : ObjKind} {tr : List Event} {p q : Pool α} {op : Op} {r : R Reply}
    (hi : KInv k tr p) (h : KStep k p op r q) : KInv k (tr ++ [⟨op, replyOf r⟩]) q := by
  have hwf := h.step.wf hi.wf
  cases h with
  | @found op n id ha hl =>
    refine ⟨hwf, fun i => ?_, fun i => ?_, fun h => hi.names (noLateRename_of_append h)⟩
    · rw [added_append, hi.added]
      constructor
      · exact Or.inl
      · rintro (h | ⟨h, _⟩)
        · exact h
        · simp only at h; subst h; simp [asksFor] at ha
    · rw [given_append, hi.given]
      constructor
      · exact Or.inl
      · rintro (h | ⟨n', _, h⟩)
        · exact h
        · simp only [replyOf, Option.some.injEq, Reply.ref.injEq] at h
          subst h
          rw [← hi.given]
          exact hi.wf.range _ (Pool.lookup_mem hi.wf.range hl)
  | @made op n x ha hl hx =>
    refine ⟨hwf, fun i => ?_, fun i => ?_, fun h => ?_⟩
    · rw [added_append, ← hi.added]
      constructor
      · exact Or.inl
      · rintro (h | ⟨h, _⟩)
        · exact h
        · simp only at h; subst h; simp [asksFor] at ha
    · rw [given_append, ← hi.given]
      simp only [List.length_append, List.length_singleton, replyOf, Option.some.injEq, Reply.ref.injEq]
      constructor
      · intro h
        by_cases he : i < p.objs.length
        · exact Or.inl he
        · exact Or.inr ⟨n, ha, by omega⟩
      · rintro (h | ⟨_, _, h⟩)
        · omega
        · omega
    · have := hi.names (noLateRename_of_append h)
      obtain ⟨objs, ids⟩ := p
      simp only at this ⊢
      rw [regNames_congr (b := objs)]
      · exact this
      · intro i hmem
        have := hi.wf.range i hmem
        simp only at this
        rw [List.getElem?_append_left this]
  | @again id o ho hm ht =>
    refine ⟨hwf, fun i => ?_, fun i => ?_, fun h => hi.names (noLateRename_of_append h)⟩
    · rw [added_append, ← hi.added]
      constructor
      · exact Or.inl
      · rintro (h | ⟨h, _⟩)
        · exact h
        · simp only [Op.add.injEq] at h; obtain ⟨_, rfl⟩ := h; exact hm
    · rw [given_append, ← hi.given]
      simp [asksFor]
  | @added id o ho hm ht =>
    refine ⟨hwf, fun i => ?_, fun i => ?_, fun h => ?_⟩
    · rw [added_append, ← hi.added]
      simp only [List.mem_append, List.mem_singleton, Op.add.injEq, true_and, replyOf, Option.isSome_some, and_true]
      constructor
      · rintro (h | h)
        · exact Or.inl h
        · exact Or.inr h.symm
      · rintro (h | h)
        · exact Or.inl h
        · exact Or.inr h.symm
    · rw [given_append, ← hi.given]
      simp [asksFor]
    · have hn := hi.names (noLateRename_of_append h)
      have hlt : id < p.objs.length := (List.getElem?_eq_some_iff.1 ho).1
      have e : regNames (⟨p.objs.set id { o with registered := true }, p.ids ++ [id]⟩ : Pool α) =
          regNames p ++ [Named.name o.data] := by
        have e1 := regNames_congr (ids := p.ids ++ [id]) (a := p.objs.set id { o with registered := true }) (b := p.objs)
          (by
            intro i _
            rw [List.getElem?_set]
            by_cases he : id = i
            · subst he
              rw [if_pos rfl, if_pos hlt, ho]
              rfl
            · rw [if_neg he])
        rw [e1]
        unfold regNames
        rw [List.filterMap_append]
        simp [ho]
      rw [e]
      refine List.nodup_append.2 ⟨hn, by simp, ?_⟩
      intro a ha b hb hab
      rw [List.mem_singleton] at hb
      subst hb
      subst hab
      unfold regNames at ha
      rw [List.mem_filterMap] at ha
      obtain ⟨j, hj, hje⟩ := ha
      rw [Option.map_eq_some_iff] at hje
      obtain ⟨o', ho', hname⟩ := hje
      exact ht ⟨j, hj, fun hjid => hm (hjid ▸ hj), o', ho', hname⟩
  | @renamed id o n ho =>
    have hlt : id < p.objs.length := (List.getElem?_eq_some_iff.1 ho).1
    refine ⟨hwf, fun i => ?_, fun i => ?_, fun h => ?_⟩
    · rw [added_append, ← hi.added]
      simp
    · rw [given_append, ← hi.given]
      simp [asksFor]
    · have hn := hi.names (noLateRename_of_append h)
      have hna := h tr ⟨.setName k id n, some (.ref id)⟩ [] k id n rfl rfl rfl
      rw [← hi.added] at hna
      obtain ⟨objs, ids⟩ := p
      simp only at hna hn ⊢
      rw [regNames_congr (b := objs)]
      · exact hn
      · intro i hmem
        rw [List.getElem?_set, if_neg (fun he => hna (by rw [he]; exact hmem))]
  | failed =>
    refine ⟨hwf, fun i => ?_, fun i => ?_, fun h => hi.names (noLateRename_of_append h)⟩
    · rw [added_append, ← hi.added]; simp [replyOf]
    · rw [given_append, ← hi.given]; simp [replyOf]
  | @other op r h1 h2 h3 =>
    refine ⟨hwf, fun i => ?_, fun i => ?_, fun h => hi.names (noLateRename_of_append h)⟩
    · rw [added_append, ← hi.added]
      simp [h2]
    · rw [given_append, ← hi.given]
      simp [h1]

/-- All three pools. -/
structure Inv (tr : List Event) (st : RState) : Prop where
  slots : KInv .slot tr st.slots
  choices : KInv .choice tr st.choices
  choosers : KInv .chooser tr st.choosers

theorem Inv.empty : Inv [] .empty := ⟨KInv.empty _, KInv.empty _, KInv.empty _⟩

theorem Inv.ok {tr : List Event} {st : RState} (h : Inv tr st) : Ok st := ⟨h.slots.wf, h.choices.wf, h.choosers.wf⟩

theorem Inv.next {tr : List Event} {w w' : World F} {op : Op} {r : R Reply} (hi : Inv tr w.st)
    (h : exec env op w = (r, w')) : Inv (tr ++ [⟨op, replyOf r⟩]) w'.st := by
  obtain ⟨h1, h2, h3⟩ := exec_steps hi.ok h
  exact ⟨hi.slots.next h1, hi.choices.next h2, hi.choosers.next h3⟩

theorem run_inv : ∀ (s : Script) (w : World F) (pre : List Event), Inv pre w.st →
    Inv (pre ++ (run env s w).1) (run env s w).2.1.st := by
  intro s
  induction s with
  | done => intro w pre h; simpa [run] using h
  | fail => intro w pre h; simpa [run] using h
  | call op next ih =>
    intro w pre h
    rw [run]
    split
    · rename_i r w' he
      have h' := h.next he
      have := ih (some r) w' _ h'
      simpa [replyOf] using this
    · rename_i msg w' he
      have h' := h.next he
      have := ih none w' _ h'
      simpa [replyOf] using this
    · rename_i site w' he
      cases exec_failed h.ok he
      simpa using h

end Reader
end Wassign
