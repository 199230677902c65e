import Verif.Spec.Made
import Verif.Proofs.ReadInput
import Verif.Proofs.Script
/-
Objects keep the data of the call that made them.
-/
namespace Wassign
open Spec
namespace Reader
variable {F : Type} {env : OptEnv F}

theorem lastOr_append {α : Type} (d : α) (l : List α) (x : α) : lastOr d (l ++ [x]) = x := by
  unfold lastOr; simp

theorem lastOr_cons {α : Type} (d x : α) (l : List α) : lastOr d (x :: l) = lastOr x l := by
  unfold lastOr
  cases l with
  | nil => rfl
  | cons y t => rw [List.getLast?_cons_cons, List.getLast?_eq_getLast_of_ne_nil (by simp)]; rfl

/-- Data laws of renaming. -/
class LawfulNamed (α : Type) [Named α] : Prop where
  rename_name : ∀ x : α, Named.rename x (Named.name x) = x
  rename_rename : ∀ (x : α) (a b : Str), Named.rename (Named.rename x a) b = Named.rename x b

instance : LawfulNamed Str := ⟨fun _ => rfl, fun _ _ _ => rfl⟩
instance : LawfulNamed Proto := ⟨fun _ => rfl, fun _ _ _ => rfl⟩
instance : LawfulNamed Chooser := ⟨fun _ => rfl, fun _ _ _ => rfl⟩

theorem nameAfter_append (k : ObjKind) (id : Nat) (start : Str) (tr : List Event) (e : Event) :
    nameAfter k id start (tr ++ [e]) =
      match e.op, e.reply with
      | .setName k' id' n, some _ => if k' = k ∧ id' = id then n else nameAfter k id start tr
      | _, _ => nameAfter k id start tr := by
  unfold nameAfter
  rw [List.filterMap_append]
  obtain ⟨op, r⟩ := e
  cases op with
  | setName k' id' n =>
    cases r with
    | none => simp
    | some r =>
      by_cases h : k' = k ∧ id' = id
      · simp only [List.filterMap_cons, List.filterMap_nil, if_pos h]
        rw [lastOr_append]
      · simp [if_neg h]
  | _ => simp

/-- Where the objects of one kind come from. -/
def KMade {α : Type} [Named α] (k : ObjKind) (D : Op → α → Prop) (tr : List Event) (p : Pool α) : Prop :=
  ∀ id o, p.objs[id]? = some o → ∃ op n x post, FirstGiven tr k id op post ∧ asksFor op = some (k, n) ∧ D op x ∧
    Named.name x = n ∧ o.data = Named.rename x (nameAfter k id n post)

theorem firstGiven_append {tr post : List Event} {k : ObjKind} {id : Nat} {op : Op} (h : FirstGiven tr k id op post) (e : Event) :
    FirstGiven (tr ++ [e]) k id op (post ++ [e]) := by
  obtain ⟨pre, h1, h2⟩ := h
  exact ⟨pre, by rw [h1]; simp, h2⟩

theorem KMade.next {α : Type} [Named α] [LawfulNamed α] {k : ObjKind} {D : Op → α → Prop} {tr : List Event} {p q : Pool α} {op : Op} {r : R Reply}
    (hi : KInv k tr p) (hm : KMade k D tr p) (h : KStep k p op r q)
    (hD : ∀ n x, asksFor op = some (k, n) → p.lookup n = .ok none → q = { p with objs := p.objs ++ [⟨x, false⟩] } → D op x) :
    KMade k D (tr ++ [⟨op, replyOf r⟩]) q := by
  -- objects that keep their data
  have keep : ∀ id o, p.objs[id]? = some o → (∀ n, op ≠ .setName k id n ∨ replyOf r = none) →
      ∃ op' n x post, FirstGiven (tr ++ [⟨op, replyOf r⟩]) k id op' post ∧ asksFor op' = some (k, n) ∧ D op' x ∧
        Named.name x = n ∧ o.data = Named.rename x (nameAfter k id n post) := by
    intro id o ho hne
    obtain ⟨op', n, x, post, h1, h2, h3, h4, h5⟩ := hm id o ho
    refine ⟨op', n, x, _, firstGiven_append h1 _, h2, h3, h4, ?_⟩
    rw [h5, nameAfter_append]
    congr 1
    cases op with
    | setName k' id' n' =>
      simp only
      cases hr : replyOf r with
      | none => rfl
      | some _ =>
        simp only
        by_cases hc : k' = k ∧ id' = id
        · obtain ⟨rfl, rfl⟩ := hc
          rcases hne n' with h | h
          · exact absurd rfl h
          · rw [hr] at h; cases h
        · rw [if_neg hc]
    | _ => rfl
  cases h with
  | @found _ n id ha hl =>
    intro id o ho
    exact keep id o ho (fun n' => Or.inl (by rintro rfl; simp [asksFor] at ha))
  | @made _ n x ha hl hx =>
    intro id o ho
    simp only at ho
    by_cases hlt : id < p.objs.length
    · rw [List.getElem?_append_left hlt] at ho
      exact keep id o ho (fun n' => Or.inl (by rintro rfl; simp [asksFor] at ha))
    · rw [List.getElem?_append_right (by omega)] at ho
      have h0 : id - p.objs.length = 0 := by
        apply Classical.byContradiction
        intro hne
        rw [List.getElem?_eq_none (by simp; omega)] at ho
        cases ho
      rw [h0] at ho
      cases ho
      have hid : id = p.objs.length := by omega
      subst hid
      refine ⟨op, n, x, [], ⟨tr, rfl, ?_⟩, ha, hD n x ha hl rfl, hx, ?_⟩
      · rw [← hi.given]; omega
      · show x = Named.rename x n
        rw [← hx, LawfulNamed.rename_name]
  | @again id o' _ _ _ =>
    intro id o ho
    exact keep id o ho (fun n' => Or.inl (by simp))
  | @added id o' ho' _ _ =>
    intro id2 o ho
    simp only [List.getElem?_set] at ho
    by_cases he : id = id2
    · subst he
      rw [if_pos rfl, if_pos (List.getElem?_eq_some_iff.1 ho').1] at ho
      cases ho
      exact keep id o' ho' (fun n' => Or.inl (by simp))
    · rw [if_neg he] at ho
      exact keep id2 o ho (fun n' => Or.inl (by simp))
  | @renamed id o' n' ho' =>
    intro id2 o ho
    simp only [List.getElem?_set] at ho
    by_cases he : id = id2
    · subst he
      rw [if_pos rfl, if_pos (List.getElem?_eq_some_iff.1 ho').1] at ho
      cases ho
      obtain ⟨op', n, x, post, h1, h2, h3, h4, h5⟩ := hm id o' ho'
      refine ⟨op', n, x, _, firstGiven_append h1 _, h2, h3, h4, ?_⟩
      rw [nameAfter_append]
      simp only [replyOf, and_self, if_true]
      rw [h5, LawfulNamed.rename_rename]
    · rw [if_neg he] at ho
      exact keep id2 o ho (fun n => Or.inl (by simp [he]))
  | failed =>
    intro id o ho
    exact keep id o ho (fun n' => Or.inr rfl)
  | @other _ r h1 h2 h3 =>
    intro id o ho
    exact keep id o ho (fun n' => Or.inl (h3 id n'))

/-- How a call made an object. -/
def slotBy (op : Op) (x : Str) : Prop := op = .slot x
def choiceBy (op : Op) (x : Proto) : Prop := ∃ n tags, op = .choice n tags ∧ tags.foldlM applyTag (defaultProto n) = .ok x
def chooserBy (op : Op) (x : Chooser) : Prop := ∃ n prefs ps, op = .chooser n prefs ∧ prefs.mapM dynPref = .ok ps ∧ x = ⟨n, ps⟩

theorem firsts_append (l : List Nat) (x : Nat) : firsts (l ++ [x]) = if x ∈ firsts l then firsts l else firsts l ++ [x] := by
  unfold firsts
  rw [List.foldl_append]
  rfl

theorem additions_append (tr : List Event) (k : ObjKind) (e : Event) : additions (tr ++ [e]) k =
    match e.op, e.reply with
    | .add k' id, some _ => if k' = k then additions tr k ++ [id] else additions tr k
    | _, _ => additions tr k := by
  unfold additions
  rw [List.filterMap_append]
  obtain ⟨op, r⟩ := e
  cases op with
  | add k' id =>
    cases r with
    | none => simp
    | some r =>
      by_cases h : k' = k
      · simp [h]
      · simp [h]
  | _ => simp

/-- The registered ids are the additions in order. -/
theorem ids_next {α : Type} [Named α] {k : ObjKind} {tr : List Event} {p q : Pool α} {op : Op} {r : R Reply}
    (hi : p.ids = firsts (additions tr k)) (h : KStep k p op r q) : q.ids = firsts (additions (tr ++ [⟨op, replyOf r⟩]) k) := by
  rw [additions_append]
  cases h with
  | @found _ n id ha hl =>
    cases op with
    | add => simp [asksFor] at ha
    | _ => exact hi
  | @made _ n x ha hl hx =>
    cases op with
    | add => simp [asksFor] at ha
    | _ => exact hi
  | @again id o _ hm _ =>
    simp only [replyOf, if_true]
    rw [firsts_append, if_pos (hi ▸ hm)]
    exact hi
  | @added id o _ hm _ =>
    simp only [replyOf, if_true]
    rw [firsts_append, if_neg (hi ▸ hm), hi]
  | @renamed id o n _ => exact hi
  | failed =>
    cases op with
    | add => exact hi
    | _ => exact hi
  | @other _ r h1 h2 h3 =>
    cases op with
    | add k' id =>
      simp only [replyOf]
      rw [if_neg (by rintro rfl; exact h2 id rfl)]
      exact hi
    | _ => exact hi

theorem exprs_next {w w' : World F} {op : Op} {r : R Reply} (hw : Ok w.st) (h : exec env op w = (r, w')) :
    w'.st.exprs = w.st.exprs ++ constraintsOf [⟨op, replyOf r⟩] := by
  cases r with
  | error e => rw [exec_failed hw h]; cases op <;> simp [constraintsOf, replyOf]
  | ok x =>
    have key : (∀ y, op ≠ .addExpr y) → w'.st.exprs = w.st.exprs → w'.st.exprs = w.st.exprs ++ constraintsOf [⟨op, some x⟩] := by
      intro h1 h2
      rw [h2]
      cases op with
      | addExpr y => exact absurd rfl (h1 y)
      | _ => simp [constraintsOf]
    cases op with
    | addExpr y =>
      cases h
      rfl
    | slot n =>
      refine key (by simp) ?_
      have e' : exec env (.slot n) w = _ := onX (findOrPush n n) Reply.ref (onSlots (findOrPush n n)) (w := w) (s := w.st.slots) rfl
      rw [e'] at h
      exact congrArg (fun z => z.2.st.exprs) h.symm
    | choice n tags =>
      refine key (by simp) ?_
      have e' : exec env (.choice n tags) w = _ :=
        onX (choice n tags) Reply.ref (onChoices (choice n tags)) (w := w) (s := w.st.choices) rfl
      rw [e'] at h
      exact congrArg (fun z => z.2.st.exprs) h.symm
    | chooser n prefs =>
      refine key (by simp) ?_
      have e' : exec env (.chooser n prefs) w = _ :=
        onX (chooser n prefs) Reply.ref (onChoosers (chooser n prefs)) (w := w) (s := w.st.choosers) rfl
      rw [e'] at h
      exact congrArg (fun z => z.2.st.exprs) h.symm
    | add k id =>
      refine key (by simp) ?_
      cases k with
      | slot =>
        have e' : exec env (.add .slot id) w = _ :=
          onX (Pool.register id) (fun _ => Reply.ref id) (onSlots (Pool.register id)) (w := w) (s := w.st.slots) rfl
        rw [e'] at h
        exact congrArg (fun z => z.2.st.exprs) h.symm
      | choice =>
        have e' : exec env (.add .choice id) w = _ :=
          onX (Pool.register id) (fun _ => Reply.ref id) (onChoices (Pool.register id)) (w := w) (s := w.st.choices) rfl
        rw [e'] at h
        exact congrArg (fun z => z.2.st.exprs) h.symm
      | chooser =>
        have e' : exec env (.add .chooser id) w = _ :=
          onX (Pool.register id) (fun _ => Reply.ref id) (onChoosers (Pool.register id)) (w := w) (s := w.st.choosers) rfl
        rw [e'] at h
        exact congrArg (fun z => z.2.st.exprs) h.symm
    | setName k id n =>
      refine key (by simp) ?_
      cases k with
      | slot =>
        have e' : exec env (.setName .slot id n) w = _ :=
          onX (Pool.rename id n) (fun _ => Reply.ref id) (onSlots (Pool.rename id n)) (w := w) (s := w.st.slots) rfl
        rw [e'] at h
        exact congrArg (fun z => z.2.st.exprs) h.symm
      | choice =>
        have e' : exec env (.setName .choice id n) w = _ :=
          onX (Pool.rename id n) (fun _ => Reply.ref id) (onChoices (Pool.rename id n)) (w := w) (s := w.st.choices) rfl
        rw [e'] at h
        exact congrArg (fun z => z.2.st.exprs) h.symm
      | chooser =>
        have e' : exec env (.setName .chooser id n) w = _ :=
          onX (Pool.rename id n) (fun _ => Reply.ref id) (onChoosers (Pool.rename id n)) (w := w) (s := w.st.choosers) rfl
        rw [e'] at h
        exact congrArg (fun z => z.2.st.exprs) h.symm
    | getName k id =>
      refine key (by simp) ?_
      cases k with
      | slot =>
        have e' : exec env (.getName .slot id) w = _ :=
          onX (M.lift (w.st.slots.nameOf id)) Reply.name (M.lift (w.st.slots.nameOf id)) (w := w) (s := ()) rfl
        rw [e'] at h
        exact congrArg (fun z => z.2.st.exprs) h.symm
      | choice =>
        have e' : exec env (.getName .choice id) w = _ :=
          onX (M.lift (w.st.choices.nameOf id)) Reply.name (M.lift (w.st.choices.nameOf id)) (w := w) (s := ()) rfl
        rw [e'] at h
        exact congrArg (fun z => z.2.st.exprs) h.symm
      | chooser =>
        have e' : exec env (.getName .chooser id) w = _ :=
          onX (M.lift (w.st.choosers.nameOf id)) Reply.name (M.lift (w.st.choosers.nameOf id)) (w := w) (s := ()) rfl
        rw [e'] at h
        exact congrArg (fun z => z.2.st.exprs) h.symm
    | attr k id a =>
      refine key (by simp) ?_
      have e' : exec env (.attr k id a) w = _ :=
        onX (M.lift (Rhai.attr w.st k id a)) Reply.accessor (M.lift (Rhai.attr w.st k id a)) (w := w) (s := ()) rfl
      rw [e'] at h
      exact congrArg (fun z => z.2.st.exprs) h.symm
    | relate symbol l r =>
      refine key (by simp) ?_
      have e' : exec env (.relate symbol l r) w = _ :=
        onX (M.lift (Rhai.relate w.st symbol l r)) Reply.expr (M.lift (Rhai.relate w.st symbol l r)) (w := w) (s := ()) rfl
      rw [e'] at h
      exact congrArg (fun z => z.2.st.exprs) h.symm
    | setArguments args =>
      refine key (by simp) ?_
      have e' : exec env (.setArguments args) w = _ :=
        onX (setArguments env args) (fun _ => Reply.unit) (onOpts (setArguments env args)) (w := w) (s := w.opts) rfl
      rw [e'] at h
      exact congrArg (fun z => z.2.st.exprs) h.symm

/-- The whole state after the calls `tr`. -/
structure Made (tr : List Event) (st : RState) : Prop where
  inv : Inv tr st
  slots : KMade .slot slotBy tr st.slots
  choices : KMade .choice choiceBy tr st.choices
  choosers : KMade .chooser chooserBy tr st.choosers
  slotIds : st.slots.ids = firsts (additions tr .slot)
  choiceIds : st.choices.ids = firsts (additions tr .choice)
  chooserIds : st.choosers.ids = firsts (additions tr .chooser)
  exprs : st.exprs = constraintsOf tr

theorem Made.empty : Made [] .empty where
  inv := Inv.empty
  slots := by intro id o h; simp [RState.empty] at h
  choices := by intro id o h; simp [RState.empty] at h
  choosers := by intro id o h; simp [RState.empty] at h
  slotIds := rfl
  choiceIds := rfl
  chooserIds := rfl
  exprs := rfl

theorem pool_push_inj {α : Type} {p : Pool α} {x y : α}
    (h : ({ p with objs := p.objs ++ [⟨x, false⟩] } : Pool α) = { p with objs := p.objs ++ [⟨y, false⟩] }) : x = y := by
  simpa using congrArg Pool.objs h

theorem Made.next {tr : List Event} {w w' : World F} {op : Op} {r : R Reply} (hi : Made tr w.st)
    (h : exec env op w = (r, w')) : Made (tr ++ [⟨op, replyOf r⟩]) w'.st := by
  obtain ⟨h1, h2, h3⟩ := exec_steps hi.inv.ok h
  refine ⟨hi.inv.next h, hi.slots.next hi.inv.slots h1 ?_, hi.choices.next hi.inv.choices h2 ?_,
    hi.choosers.next hi.inv.choosers h3 ?_, ids_next hi.slotIds h1, ids_next hi.choiceIds h2, ids_next hi.chooserIds h3, ?_⟩
  · intro n x ha hl hq
    cases op with
    | slot n' =>
      simp only [asksFor, Option.some.injEq, Prod.mk.injEq, true_and] at ha
      subst ha
      have e : exec env (.slot n') w = _ := onX (findOrPush n' n') Reply.ref (onSlots (findOrPush n' n')) (w := w) (s := w.st.slots) rfl
      rw [e] at h
      have h := congrArg (fun z => z.2.st.slots) h
      have h : (findOrPush n' n' w.st.slots).2 = w'.st.slots := h
      rw [findOrPush_eq, hl, hq] at h
      rw [pool_push_inj h.symm]
      rfl
    | _ => simp [asksFor] at ha
  · intro n x ha hl hq
    cases op with
    | choice n' tags =>
      simp only [asksFor, Option.some.injEq, Prod.mk.injEq, true_and] at ha
      subst ha
      have e : exec env (.choice n' tags) w = _ :=
        onX (choice n' tags) Reply.ref (onChoices (choice n' tags)) (w := w) (s := w.st.choices) rfl
      rw [e] at h
      have h := congrArg (fun z => z.2.st.choices) h
      have h : (choice n' tags w.st.choices).2 = w'.st.choices := h
      rw [choice_eq, hl, hq] at h
      simp only at h
      cases hx : tags.foldlM applyTag (defaultProto n') with
      | error e =>
        rw [hx] at h
        simpa using congrArg (fun z => z.objs.length) h
      | ok y =>
        rw [hx] at h
        exact ⟨n', tags, rfl, by rw [hx, pool_push_inj h.symm]⟩
    | _ => simp [asksFor] at ha
  · intro n x ha hl hq
    cases op with
    | chooser n' prefs =>
      simp only [asksFor, Option.some.injEq, Prod.mk.injEq, true_and] at ha
      subst ha
      have e : exec env (.chooser n' prefs) w = _ :=
        onX (chooser n' prefs) Reply.ref (onChoosers (chooser n' prefs)) (w := w) (s := w.st.choosers) rfl
      rw [e] at h
      have h := congrArg (fun z => z.2.st.choosers) h
      have h : (chooser n' prefs w.st.choosers).2 = w'.st.choosers := h
      rw [chooser_eq, hq] at h
      cases hx : prefs.mapM dynPref with
      | error e =>
        rw [hx] at h
        simpa using congrArg (fun z => z.objs.length) h
      | ok ps =>
        rw [hx] at h
        simp only at h
        rw [findOrPush_eq, hl] at h
        exact ⟨n', prefs, ps, rfl, hx, pool_push_inj h.symm⟩
    | _ => simp [asksFor] at ha
  · rw [exprs_next hi.inv.ok h, hi.exprs]
    unfold constraintsOf
    rw [List.filterMap_append]

theorem run_made : ∀ (s : Script) (w : World F) (pre : List Event), Made pre w.st →
    Made (pre ++ (run env s w).1) (run env s w).2.1.st := by
  intro s
  induction s with
  | done => intro w pre h; simpa [run] using h
  | fail => intro w pre h; simpa [run] using h
  | call op next ih =>
    intro w pre h
    rw [run]
    split
    · rename_i r w' he
      have h' := h.next he
      have := ih (some r) w' _ h'
      simpa [replyOf] using this
    · rename_i msg w' he
      have h' := h.next he
      have := ih none w' _ h'
      simpa [replyOf] using this
    · rename_i site w' he
      cases exec_failed h.inv.ok he
      simpa using h

/-! ### The data of a choice and a chooser -/

theorem applyTags_describe : ∀ (tags : List Tagged) {p q : Proto}, tags.foldlM applyTag p = .ok q →
    (q.min : Int) = lastOr (p.min : Int) (minGiven tags) ∧ (q.max : Int) = lastOr (p.max : Int) (maxGiven tags) ∧
    (q.parts : Int) = lastOr (p.parts : Int) (partsGiven tags) ∧
    (q.optional = lastOr p.optional ((optionalGiven tags).map (fun v => v == 1))) ∧
    ∀ v ∈ minGiven tags ++ maxGiven tags ++ partsGiven tags, 0 ≤ v ∧ v ≤ 4294967295 := by
  intro tags
  induction tags with
  | nil => intro p q h; cases h; exact ⟨rfl, rfl, rfl, rfl, by simp [minGiven, maxGiven, partsGiven]⟩
  | cons t ts ih =>
    intro p q h
    rw [List.foldlM_cons, R.bind_eq_ok] at h
    obtain ⟨x, hx, h⟩ := h
    obtain ⟨i1, i2, i3, i4, i5⟩ := ih h
    obtain ⟨tag, values⟩ := t
    unfold applyTag at hx
    have hr : ∀ (v : Int) (n : Nat), u32OfInt v = .ok n → v = n ∧ 0 ≤ v ∧ v ≤ 4294967295 := by
      intro v n hv
      obtain ⟨rfl, h2⟩ := u32OfInt_iff.1 hv
      unfold u32Max at h2
      exact ⟨rfl, by omega, by omega⟩
    have mem : ∀ v, v ∈ minGiven ts ++ maxGiven ts ++ partsGiven ts ↔ v ∈ minGiven ts ∨ v ∈ maxGiven ts ∨ v ∈ partsGiven ts := by
      intro v; simp
    cases tag with
    | min =>
      simp only [R.bind_eq_ok] at hx
      obtain ⟨v, hv, n, hn, hx⟩ := hx
      cases hx
      rw [idx_eq_ok] at hv
      obtain ⟨e, h1, h2⟩ := hr _ _ hn
      have e1 : minGiven (⟨.min, values⟩ :: ts) = v :: minGiven ts := by simp [minGiven, hv]
      have e2 : maxGiven (⟨.min, values⟩ :: ts) = maxGiven ts := by simp [maxGiven]
      have e3 : partsGiven (⟨.min, values⟩ :: ts) = partsGiven ts := by simp [partsGiven]
      have e4 : optionalGiven (⟨.min, values⟩ :: ts) = optionalGiven ts := by simp [optionalGiven]
      rw [e1, e2, e3, e4, lastOr_cons, e]
      refine ⟨i1, i2, i3, i4, ?_⟩
      intro u hu
      simp only [List.cons_append, List.mem_cons] at hu
      rcases hu with rfl | hu
      · exact ⟨by omega, by omega⟩
      · exact i5 u hu
    | max =>
      simp only [R.bind_eq_ok] at hx
      obtain ⟨v, hv, n, hn, hx⟩ := hx
      cases hx
      rw [idx_eq_ok] at hv
      obtain ⟨e, h1, h2⟩ := hr _ _ hn
      have e1 : minGiven (⟨.max, values⟩ :: ts) = minGiven ts := by simp [minGiven]
      have e2 : maxGiven (⟨.max, values⟩ :: ts) = v :: maxGiven ts := by simp [maxGiven, hv]
      have e3 : partsGiven (⟨.max, values⟩ :: ts) = partsGiven ts := by simp [partsGiven]
      have e4 : optionalGiven (⟨.max, values⟩ :: ts) = optionalGiven ts := by simp [optionalGiven]
      rw [e1, e2, e3, e4, lastOr_cons, e]
      refine ⟨i1, i2, i3, i4, ?_⟩
      intro u hu
      simp only [List.mem_append, List.mem_cons] at hu
      rcases hu with (hu | rfl | hu) | hu
      · exact i5 u ((mem u).2 (Or.inl hu))
      · exact ⟨by omega, by omega⟩
      · exact i5 u ((mem u).2 (Or.inr (Or.inl hu)))
      · exact i5 u ((mem u).2 (Or.inr (Or.inr hu)))
    | bounds =>
      simp only [R.bind_eq_ok] at hx
      obtain ⟨v, hv, n, hn, v', hv', n', hn', hx⟩ := hx
      cases hx
      rw [idx_eq_ok] at hv hv'
      obtain ⟨e, h1, h2⟩ := hr _ _ hn
      obtain ⟨e', h1', h2'⟩ := hr _ _ hn'
      have e1 : minGiven (⟨.bounds, values⟩ :: ts) = v :: minGiven ts := by simp [minGiven, hv]
      have e2 : maxGiven (⟨.bounds, values⟩ :: ts) = v' :: maxGiven ts := by simp [maxGiven, hv']
      have e3 : partsGiven (⟨.bounds, values⟩ :: ts) = partsGiven ts := by simp [partsGiven]
      have e4 : optionalGiven (⟨.bounds, values⟩ :: ts) = optionalGiven ts := by simp [optionalGiven]
      rw [e1, e2, e3, e4, lastOr_cons, lastOr_cons, e, e']
      refine ⟨i1, i2, i3, i4, ?_⟩
      intro u hu
      simp only [List.mem_append, List.mem_cons] at hu
      rcases hu with ((rfl | hu) | rfl | hu) | hu
      · exact ⟨by omega, by omega⟩
      · exact i5 u ((mem u).2 (Or.inl hu))
      · exact ⟨by omega, by omega⟩
      · exact i5 u ((mem u).2 (Or.inr (Or.inl hu)))
      · exact i5 u ((mem u).2 (Or.inr (Or.inr hu)))
    | parts =>
      simp only [R.bind_eq_ok] at hx
      obtain ⟨v, hv, n, hn, hx⟩ := hx
      cases hx
      rw [idx_eq_ok] at hv
      obtain ⟨e, h1, h2⟩ := hr _ _ hn
      have e1 : minGiven (⟨.parts, values⟩ :: ts) = minGiven ts := by simp [minGiven]
      have e2 : maxGiven (⟨.parts, values⟩ :: ts) = maxGiven ts := by simp [maxGiven]
      have e3 : partsGiven (⟨.parts, values⟩ :: ts) = v :: partsGiven ts := by simp [partsGiven, hv]
      have e4 : optionalGiven (⟨.parts, values⟩ :: ts) = optionalGiven ts := by simp [optionalGiven]
      rw [e1, e2, e3, e4, lastOr_cons, e]
      refine ⟨i1, i2, i3, i4, ?_⟩
      intro u hu
      simp only [List.mem_append, List.mem_cons] at hu
      rcases hu with (hu | hu) | rfl | hu
      · exact i5 u ((mem u).2 (Or.inl hu))
      · exact i5 u ((mem u).2 (Or.inr (Or.inl hu)))
      · exact ⟨by omega, by omega⟩
      · exact i5 u ((mem u).2 (Or.inr (Or.inr hu)))
    | optional =>
      simp only [R.bind_eq_ok] at hx
      obtain ⟨v, hv, hx⟩ := hx
      cases hx
      rw [idx_eq_ok] at hv
      have e1 : minGiven (⟨.optional, values⟩ :: ts) = minGiven ts := by simp [minGiven]
      have e2 : maxGiven (⟨.optional, values⟩ :: ts) = maxGiven ts := by simp [maxGiven]
      have e3 : partsGiven (⟨.optional, values⟩ :: ts) = partsGiven ts := by simp [partsGiven]
      have e4 : optionalGiven (⟨.optional, values⟩ :: ts) = v :: optionalGiven ts := by simp [optionalGiven, hv]
      rw [e1, e2, e3, e4, List.map_cons, lastOr_cons]
      exact ⟨i1, i2, i3, i4, i5⟩

theorem lastOr_map {α β : Type} (f : α → β) (d : α) (l : List α) : lastOr (f d) (l.map f) = f (lastOr d l) := by
  unfold lastOr
  rw [List.getLast?_map]
  cases l.getLast? <;> rfl

theorem describesChoice {tags : List Tagged} {n : Str} {p : Proto} (h : tags.foldlM applyTag (defaultProto n) = .ok p) :
    DescribesChoice tags p := by
  obtain ⟨h1, h2, h3, h4, h5⟩ := applyTags_describe tags h
  refine ⟨h1, h2, h3, ?_, h5⟩
  have h4 : p.optional = lastOr ((fun v : Int => v == 1) 0) ((optionalGiven tags).map (fun v => v == 1)) := h4
  rw [lastOr_map (fun v : Int => v == 1)] at h4
  rw [h4]
  simp

theorem dynPref_iff (x : Dyn) (n : Nat) : dynPref x = .ok n ↔ PrefValue x n := by
  unfold PrefValue
  cases x with
  | int v => show u32OfInt v = .ok n ↔ _; rw [u32OfInt_iff]; exact And.comm
  | int32 v => show u32OfInt v = .ok n ↔ _; rw [u32OfInt_iff]; exact And.comm
  | str s => show parseStringUint s = .ok n ↔ _; rw [parseStringUint_iff]; exact And.comm
  | other => simp [dynPref]

theorem mapM_forall₂ {α β : Type} {f : α → R β} : ∀ {l : List α} {ys : List β}, l.mapM f = .ok ys →
    List.Forall₂ (fun x y => f x = .ok y) l ys := by
  intro l
  induction l with
  | nil => intro ys h; cases h; exact .nil
  | cons a t ih =>
    intro ys h
    rw [List.mapM_cons, R.bind_eq_ok] at h
    obtain ⟨y, hy, h⟩ := h
    rw [R.bind_eq_ok] at h
    obtain ⟨zs, hz, h⟩ := h
    cases h
    exact .cons hy (ih hz)

/-- The registered objects of a pool, given what is known about the objects. -/
theorem registered_forall₂ {α : Type} [Named α] {p : Pool α} (hr : ∀ i ∈ p.ids, i < p.objs.length) {Q : Nat → α → Prop}
    (hq : ∀ id o, p.objs[id]? = some o → Q id o.data) {vs : List (Nat × α)} (hv : p.registered = .ok vs) :
    List.Forall₂ Q p.ids (vs.map (·.2)) := by
  obtain ⟨vs', hv', h1, h0, h3⟩ := Pool.registered_eq hr
  clear h0
  rw [hv] at hv'
  cases hv'
  rw [← h1]
  clear h1 hv
  induction vs with
  | nil => exact .nil
  | cons v t ih =>
    obtain ⟨o, ho, hd⟩ := h3 v (by simp)
    refine .cons ?_ (ih (fun v hv => h3 v (by simp [hv])))
    show Q v.1 v.2
    rw [← hd]
    exact hq _ _ ho

/-- Reading: the input is the one the calls describe. -/
theorem describes {tr : List Event} {st : RState} (h : Made tr st) {sy : Synced} (hs : sync st = .ok sy) :
    Describes tr ⟨sy.sets, sy.choices, sy.choosers, sy.exprs⟩ := by
  unfold sync at hs
  simp only [R.bind_eq_ok] at hs
  obtain ⟨vs, hvs, vc, hvc, vp, hvp, hs⟩ := hs
  cases hs
  refine ⟨?_, ?_, ?_, h.exprs⟩
  · rw [← h.slotIds]
    refine registered_forall₂ h.inv.slots.wf.range ?_ hvs
    intro id o ho
    obtain ⟨op, n, x, post, h1, h2, h3, h4, h5⟩ := h.slots id o ho
    cases h3
    cases h4
    exact ⟨_, post, h1, h5⟩
  · rw [← h.choiceIds]
    refine registered_forall₂ h.inv.choices.wf.range ?_ hvc
    intro id o ho
    obtain ⟨op, n, x, post, h1, h2, ⟨n', tags, rfl, h3⟩, h4, h5⟩ := h.choices id o ho
    simp only [asksFor, Option.some.injEq, Prod.mk.injEq, true_and] at h2
    subst h2
    refine ⟨n', tags, post, h1, by rw [h5]; rfl, ?_⟩
    have hd := describesChoice h3
    rw [h5]
    exact ⟨hd.min, hd.max, hd.parts, hd.optional, hd.range⟩
  · rw [← h.chooserIds]
    refine registered_forall₂ h.inv.choosers.wf.range ?_ hvp
    intro id o ho
    obtain ⟨op, n, x, post, h1, h2, ⟨n', prefs, ps, rfl, h3, rfl⟩, h4, h5⟩ := h.choosers id o ho
    simp only [asksFor, Option.some.injEq, Prod.mk.injEq, true_and] at h2
    subst h2
    refine ⟨n', prefs, post, h1, by rw [h5]; rfl, ?_⟩
    rw [h5]
    exact (mapM_forall₂ h3).imp (fun x n h => (dynPref_iff x n).1 h)

end Reader
end Wassign
