import Verif.Spec.Script
import Verif.Spec.Names
import Verif.Proofs.Fuzzy
import Verif.Proofs.Options
/-
What the calls of a script do to the objects.
-/
namespace Wassign
open Spec
namespace M
variable {σ α β : Type}

theorem bind_def (m : M σ α) (f : α → M σ β) (s : σ) : (m >>= f) s = match m s with
    | (.ok a, s') => f a s'
    | (.error e, s') => (.error e, s') := rfl
theorem pure_def (a : α) (s : σ) : (pure a : M σ α) s = (.ok a, s) := rfl
theorem lift_def (x : R α) (s : σ) : (lift x : M σ α) s = (x, s) := rfl
theorem get_def (s : σ) : (get : M σ σ) s = (.ok s, s) := rfl
theorem set_def (x s : σ) : (set x : M σ Unit) s = (.ok (), x) := rfl

end M

namespace Pool
variable {α : Type} [Named α]

/-- The state of a pool that only the interface has touched. -/
structure WF (p : Pool α) : Prop where
  nodup : p.ids.Nodup
  range : ∀ i ∈ p.ids, i < p.objs.length
  flag : ∀ i o, p.objs[i]? = some o → (o.registered = true ↔ i ∈ p.ids)

theorem WF.empty : (⟨[], []⟩ : Pool α).WF where
  nodup := List.nodup_nil
  range := by simp
  flag := by simp

theorem registered_eq {p : Pool α} (h : ∀ i ∈ p.ids, i < p.objs.length) :
    ∃ vs, p.registered = .ok vs ∧ vs.map (·.1) = p.ids ∧ vs.map (fun v => Named.name v.2) = regNames p ∧
      ∀ v ∈ vs, ∃ o, p.objs[v.1]? = some o ∧ o.data = v.2 := by
  obtain ⟨objs, ids⟩ := p
  unfold registered regNames
  simp only at h ⊢
  induction ids with
  | nil => exact ⟨[], rfl, rfl, rfl, by simp⟩
  | cons i t ih =>
    obtain ⟨vs, hv, h1, h2, h3⟩ := ih (fun j hj => h j (by simp [hj]))
    have hi := h i (by simp)
    refine ⟨(i, objs[i].data) :: vs, ?_, by simp [h1], ?_, ?_⟩
    · rw [List.mapM_cons, idx_ok hi]
      simp only [R.bind_ok, R.pure_eq]
      simp only [R.pure_eq] at hv
      rw [hv]
      rfl
    · rw [List.map_cons, h2, List.filterMap_cons]
      simp [List.getElem?_eq_getElem hi]
    · intro v hv
      rcases List.mem_cons.1 hv with rfl | hv
      · exact ⟨objs[i], by simp [hi], rfl⟩
      · exact h3 v hv

theorem lookup_eq {p : Pool α} (h : ∀ i ∈ p.ids, i < p.objs.length) (key : Str) :
    p.lookup key = match fuzzyFind key (regNames p) with
      | [] => .ok none
      | [j] => .ok p.ids[j]?
      | _ :: _ :: _ => .error (.error "The name is ambiguous.") := by
  obtain ⟨vs, hv, h1, h2, _⟩ := registered_eq h
  unfold lookup
  rw [hv, R.bind_ok, h2]
  simp only
  cases hm : fuzzyFind key (regNames p) with
  | nil => simp
  | cons j t =>
    cases t with
    | cons k t => simp
    | nil =>
      have hlt : j < (regNames p).length := fuzzyFind_lt (by rw [hm]; simp)
      rw [← h2, List.length_map] at hlt
      simp only [List.length_cons, List.length_nil, Nat.zero_add, gt_iff_lt, Nat.lt_irrefl, if_false]
      rw [idx_ok hlt, R.bind_ok, ← h1]
      simp [hlt]

theorem lookup_noPanic {p : Pool α} (h : ∀ i ∈ p.ids, i < p.objs.length) (key : Str) (s : String) :
    p.lookup key ≠ .error (.panic s) := by
  rw [lookup_eq h]
  split <;> simp

theorem lookup_mem {p : Pool α} (h : ∀ i ∈ p.ids, i < p.objs.length) {key : Str} {id : Nat}
    (hl : p.lookup key = .ok (some id)) : id ∈ p.ids := by
  rw [lookup_eq h] at hl
  split at hl
  · cases hl
  · injection hl with hl
    exact List.mem_of_getElem? hl
  · cases hl

/-- The duplicate check. -/
theorem clash_eq {p : Pool α} (h : ∀ i ∈ p.ids, i < p.objs.length) (id : Nat) (name : Str) :
    ∃ b, p.ids.anyM (fun j => if j ≠ id then do
        let o' ← idx p.objs j "state.objects[id]"
        pure (Named.name o'.data == name)
      else (pure false : R Bool)) = .ok b ∧
      (b = true ↔ ∃ j ∈ p.ids, j ≠ id ∧ ∃ o, p.objs[j]? = some o ∧ Named.name o.data = name) := by
  obtain ⟨objs, ids⟩ := p
  simp only at h ⊢
  induction ids with
  | nil => exact ⟨false, rfl, by simp⟩
  | cons i t ih =>
    obtain ⟨b, hb, hbt⟩ := ih (fun j hj => h j (by simp [hj]))
    have hi := h i (by simp)
    rw [List.anyM]
    by_cases he : i = id
    · rw [if_neg (by simp [he])]
      refine ⟨b, ?_, ?_⟩
      · simpa using hb
      · rw [hbt]
        constructor
        · rintro ⟨j, hj, hne, x⟩
          exact ⟨j, by simp [hj], hne, x⟩
        · rintro ⟨j, hj, hne, x⟩
          rcases List.mem_cons.1 hj with rfl | hj
          · exact absurd he hne
          · exact ⟨j, hj, hne, x⟩
    · rw [if_pos he, idx_ok hi]
      simp only [R.bind_ok, R.pure_eq]
      cases hn : (Named.name objs[i].data == name) with
      | true =>
        refine ⟨true, rfl, ?_⟩
        simp only [true_iff]
        exact ⟨i, by simp, he, objs[i], by simp [hi], by simpa using hn⟩
      | false =>
        refine ⟨b, by simpa using hb, ?_⟩
        rw [hbt]
        constructor
        · rintro ⟨j, hj, hne, x⟩
          exact ⟨j, by simp [hj], hne, x⟩
        · rintro ⟨j, hj, hne, o, ho, hx⟩
          rcases List.mem_cons.1 hj with rfl | hj
          · rw [List.getElem?_eq_getElem hi] at ho
            cases ho
            simp [hx] at hn
          · exact ⟨j, hj, hne, o, ho, hx⟩

/-- Another registered object has that name. -/
def Taken (p : Pool α) (id : Nat) (name : Str) : Prop :=
  ∃ j ∈ p.ids, j ≠ id ∧ ∃ o, p.objs[j]? = some o ∧ Named.name o.data = name

/-- Adding an object. -/
theorem register_eq {p : Pool α} (hp : p.WF) {id : Nat} {o : Obj α} (ho : p.objs[id]? = some o) :
    (p.Taken id (Named.name o.data) ∧ Pool.register id p = (.error (.error "Duplicate name."), p)) ∨
    (¬ p.Taken id (Named.name o.data) ∧ id ∈ p.ids ∧ Pool.register id p = (.ok (), p)) ∨
    (¬ p.Taken id (Named.name o.data) ∧ id ∉ p.ids ∧
      Pool.register id p = (.ok (), ⟨p.objs.set id { o with registered := true }, p.ids ++ [id]⟩)) := by
  obtain ⟨b, hb, hbt⟩ := clash_eq hp.range id (Named.name o.data)
  have hi : idx p.objs id "state.objects[id]" = .ok o := idx_eq_ok.2 ho
  have e : Pool.register id p = if b = true then (.error (.error "Duplicate name."), p)
      else if p.ids.contains id = true then (.ok (), p)
      else (.ok (), ⟨p.objs.set id { o with registered := true }, p.ids ++ [id]⟩) := by
    unfold Pool.register
    simp only [M.bind_def, M.get_def, M.lift_def, hi, hb]
    split
    · rfl
    · split
      · rfl
      · simp only [M.bind_def, M.get_def, M.lift_def, M.set_def, hi]
  rw [e]
  by_cases hbb : b = true
  · exact Or.inl ⟨hbt.1 hbb, by rw [if_pos hbb]⟩
  · refine Or.inr ?_
    rw [if_neg hbb]
    have hnt : ¬ p.Taken id (Named.name o.data) := fun h => hbb (hbt.2 h)
    by_cases hc : id ∈ p.ids
    · exact Or.inl ⟨hnt, hc, by rw [if_pos (by simpa using hc)]⟩
    · exact Or.inr ⟨hnt, hc, by rw [if_neg (by simpa using hc)]⟩

theorem register_panic {p : Pool α} {id : Nat} (ho : p.objs[id]? = none) :
    Pool.register id p = (panic' "state.objects[id]", p) := by
  have hi : idx p.objs id "state.objects[id]" = panic' "state.objects[id]" := by unfold idx; rw [ho]
  unfold Pool.register
  simp only [M.bind_def, M.get_def, M.lift_def, hi]
  rfl

theorem rename_eq {p : Pool α} {id : Nat} {o : Obj α} (ho : p.objs[id]? = some o) (n : Str) :
    Pool.rename id n p = (.ok (), { p with objs := p.objs.set id { o with data := Named.rename o.data n } }) := by
  have hi : idx p.objs id "state.objects[id]" = .ok o := idx_eq_ok.2 ho
  unfold Pool.rename
  simp only [M.bind_def, M.get_def, M.lift_def, M.set_def, hi]

theorem rename_panic {p : Pool α} {id : Nat} (ho : p.objs[id]? = none) (n : Str) :
    Pool.rename id n p = (panic' "state.objects[id]", p) := by
  have hi : idx p.objs id "state.objects[id]" = panic' "state.objects[id]" := by unfold idx; rw [ho]
  unfold Pool.rename
  simp only [M.bind_def, M.get_def, M.lift_def, hi]
  rfl

theorem push_eq (p : Pool α) (x : α) : Pool.push x p = (.ok p.objs.length, { p with objs := p.objs ++ [⟨x, false⟩] }) := rfl

/-- What can happen to a pool. -/
inductive Step (p : Pool α) : Pool α → Prop
  | same : Step p p
  | push (x : α) : Step p { p with objs := p.objs ++ [⟨x, false⟩] }
  | register (id : Nat) (o : Obj α) : p.objs[id]? = some o → id ∉ p.ids → ¬ p.Taken id (Named.name o.data) →
      Step p ⟨p.objs.set id { o with registered := true }, p.ids ++ [id]⟩
  | rename (id : Nat) (o : Obj α) (n : Str) : p.objs[id]? = some o →
      Step p { p with objs := p.objs.set id { o with data := Named.rename o.data n } }

theorem Step.wf {p q : Pool α} (hp : p.WF) (h : Step p q) : q.WF := by
  cases h with
  | same => exact hp
  | push x =>
    refine ⟨hp.nodup, fun i hi => ?_, fun i o ho => ?_⟩
    · have := hp.range i hi
      simp only [List.length_append, List.length_singleton]
      omega
    · simp only at ho ⊢
      by_cases hlt : i < p.objs.length
      · rw [List.getElem?_append_left hlt] at ho
        exact hp.flag i o ho
      · rw [List.getElem?_append_right (by omega)] at ho
        have : i - p.objs.length = 0 := by
          by_contra hne
          rw [List.getElem?_eq_none (by simp; omega)] at ho
          cases ho
        rw [this] at ho
        cases ho
        constructor
        · intro h; cases h
        · intro h; exact absurd (hp.range i h) hlt
  | register id o ho hn ht =>
    have hlt : id < p.objs.length := (List.getElem?_eq_some_iff.1 ho).1
    refine ⟨?_, fun i hi => ?_, fun i o' ho' => ?_⟩
    · exact List.nodup_append.2 ⟨hp.nodup, by simp, by
        intro a ha b hb
        rw [List.mem_singleton] at hb
        subst hb
        intro e
        subst e
        exact hn ha⟩
    · simp only [List.mem_append, List.mem_singleton] at hi
      simp only [List.length_set]
      rcases hi with hi | rfl
      · exact hp.range i hi
      · exact hlt
    · simp only [List.mem_append, List.mem_singleton]
      simp only [List.getElem?_set] at ho'
      by_cases he : id = i
      · rw [if_pos he, if_pos hlt] at ho'
        cases ho'
        simp [he]
      · rw [if_neg he] at ho'
        rw [hp.flag i o' ho']
        constructor
        · exact Or.inl
        · rintro (h | h)
          · exact h
          · exact absurd h.symm he
  | rename id o n ho =>
    refine ⟨hp.nodup, fun i hi => by simpa using hp.range i hi, fun i o' ho' => ?_⟩
    simp only [List.getElem?_set] at ho'
    have hlt : id < p.objs.length := (List.getElem?_eq_some_iff.1 ho).1
    by_cases he : id = i
    · rw [if_pos he, if_pos hlt] at ho'
      cases ho'
      subst he
      exact hp.flag id o ho
    · rw [if_neg he] at ho'
      exact hp.flag i o' ho'

end Pool
end Wassign

namespace Wassign
open Spec
namespace Reader
variable {F : Type} {env : OptEnv F}

/-- What a call does to the pool of kind `k`. -/
inductive KStep {α : Type} [Named α] (k : ObjKind) (p : Pool α) : Op → R Reply → Pool α → Prop
  | found {op n id} : asksFor op = some (k, n) → p.lookup n = .ok (some id) → KStep k p op (.ok (.ref id)) p
  | made {op n x} : asksFor op = some (k, n) → p.lookup n = .ok none → Named.name x = n →
      KStep k p op (.ok (.ref p.objs.length)) { p with objs := p.objs ++ [⟨x, false⟩] }
  | again {id o} : p.objs[id]? = some o → id ∈ p.ids → ¬ p.Taken id (Named.name o.data) →
      KStep k p (.add k id) (.ok (.ref id)) p
  | added {id o} : p.objs[id]? = some o → id ∉ p.ids → ¬ p.Taken id (Named.name o.data) →
      KStep k p (.add k id) (.ok (.ref id)) ⟨p.objs.set id { o with registered := true }, p.ids ++ [id]⟩
  | renamed {id o n} : p.objs[id]? = some o →
      KStep k p (.setName k id n) (.ok (.ref id)) { p with objs := p.objs.set id { o with data := Named.rename o.data n } }
  | failed {op e} : KStep k p op (.error e) p
  | other {op r} : (∀ n, asksFor op ≠ some (k, n)) → (∀ id, op ≠ .add k id) → (∀ id n, op ≠ .setName k id n) →
      KStep k p op (.ok r) p

theorem KStep.step {α : Type} [Named α] {k : ObjKind} {p q : Pool α} {op : Op} {r : R Reply} (h : KStep k p op r q) :
    Pool.Step p q := by
  cases h with
  | found _ _ => exact .same
  | made _ _ _ => exact .push _
  | again _ _ _ => exact .same
  | added h1 h2 h3 => exact .register _ _ h1 h2 h3
  | renamed h => exact .rename _ _ _ h
  | failed => exact .same
  | other _ _ _ => exact .same

theorem KStep.register {α : Type} [Named α] {k : ObjKind} {p : Pool α} (hp : p.WF) (id : Nat) :
    KStep k p (.add k id) ((Pool.register id p).1.bind (fun _ => .ok (.ref id))) (Pool.register id p).2 := by
  cases ho : p.objs[id]? with
  | none => rw [Pool.register_panic ho]; exact .failed
  | some o =>
    rcases Pool.register_eq hp ho with ⟨_, e⟩ | ⟨h1, h2, e⟩ | ⟨h1, h2, e⟩
    · rw [e]; exact .failed
    · rw [e]; exact .again ho h2 h1
    · rw [e]; exact .added ho h2 h1

theorem KStep.rename {α : Type} [Named α] {k : ObjKind} {p : Pool α} (id : Nat) (n : Str) :
    KStep k p (.setName k id n) ((Pool.rename id n p).1.bind (fun _ => .ok (.ref id))) (Pool.rename id n p).2 := by
  cases ho : p.objs[id]? with
  | none => rw [Pool.rename_panic ho]; exact .failed
  | some o => rw [Pool.rename_eq ho]; exact .renamed ho

theorem findOrPush_eq {α : Type} [Named α] (p : Pool α) (n : Str) (x : α) :
    findOrPush n x p = match p.lookup n with
      | .ok (some id) => (.ok id, p)
      | .ok none => (.ok p.objs.length, { p with objs := p.objs ++ [⟨x, false⟩] })
      | .error e => (.error e, p) := by
  unfold findOrPush
  simp only [M.bind_def, M.get_def, M.lift_def]
  cases p.lookup n with
  | error e => rfl
  | ok v => cases v <;> rfl

theorem choice_eq (p : Pool Proto) (n : Str) (tags : List Tagged) :
    choice n tags p = match p.lookup n with
      | .ok (some id) => (.ok id, p)
      | .ok none =>
        match tags.foldlM applyTag (defaultProto n) with
        | .ok x => (.ok p.objs.length, { p with objs := p.objs ++ [⟨x, false⟩] })
        | .error e => (.error e, p)
      | .error e => (.error e, p) := by
  unfold choice
  simp only [M.bind_def, M.get_def, M.lift_def]
  cases p.lookup n with
  | error e => rfl
  | ok v =>
    cases v with
    | some id => rfl
    | none =>
      simp only [M.bind_def, M.lift_def]
      cases tags.foldlM applyTag (defaultProto n) <;> rfl

theorem chooser_eq (p : Pool Chooser) (n : Str) (prefs : List Dyn) :
    chooser n prefs p = match prefs.mapM dynPref with
      | .ok ps => findOrPush n ⟨n, ps⟩ p
      | .error e => (.error e, p) := by
  unfold chooser
  simp only [M.bind_def, M.lift_def]
  cases prefs.mapM dynPref <;> rfl

theorem applyTag_name {p q : Proto} {t : Tagged} (h : applyTag p t = .ok q) : q.name = p.name := by
  unfold applyTag at h
  split at h <;>
  · simp only [R.bind_eq_ok] at h
    first
    | (obtain ⟨v, _, n, _, h⟩ := h; cases h; rfl)
    | (obtain ⟨v, _, n, _, w, _, m, _, h⟩ := h; cases h; rfl)
    | (obtain ⟨v, _, h⟩ := h; cases h; rfl)

theorem applyTags_name : ∀ (tags : List Tagged) {p q : Proto}, tags.foldlM applyTag p = .ok q → q.name = p.name := by
  intro tags
  induction tags with
  | nil => intro p q h; cases h; rfl
  | cons t ts ih =>
    intro p q h
    rw [List.foldlM_cons, R.bind_eq_ok] at h
    obtain ⟨x, hx, h⟩ := h
    rw [ih h, applyTag_name hx]

theorem KStep.ask {α : Type} [Named α] {k : ObjKind} {p : Pool α} {op : Op} {n : Str} (ha : asksFor op = some (k, n))
    (x : α) (hx : Named.name x = n) :
    KStep k p op ((findOrPush n x p).1.bind (fun id => .ok (.ref id))) (findOrPush n x p).2 := by
  rw [findOrPush_eq]
  cases hl : p.lookup n with
  | error e => exact .failed
  | ok v =>
    cases v with
    | some id => exact .found ha hl
    | none => exact .made ha hl hx

theorem KStep.choice {p : Pool Proto} (n : Str) (tags : List Tagged) :
    KStep .choice p (.choice n tags) ((Reader.choice n tags p).1.bind (fun id => .ok (.ref id))) (Reader.choice n tags p).2 := by
  rw [choice_eq]
  cases hl : p.lookup n with
  | error e => exact .failed
  | ok v =>
    cases v with
    | some id => exact .found rfl hl
    | none =>
      simp only
      cases hx : tags.foldlM applyTag (defaultProto n) with
      | error e => exact .failed
      | ok x => exact .made rfl hl (applyTags_name tags hx)

/-- All three pools are as only the interface leaves them. -/
structure Ok (st : RState) : Prop where
  slots : st.slots.WF
  choices : st.choices.WF
  choosers : st.choosers.WF

theorem Ok.empty : Ok .empty := ⟨Pool.WF.empty, Pool.WF.empty, Pool.WF.empty⟩

theorem onX {β σ τ : Type} (m : M σ β) (f : β → Reply) (g : M τ β) {w : τ} {s : σ} (h : (g w).1 = (m s).1) :
    (do
      let b ← g
      pure (f b) : M τ Reply) w = ((m s).1.bind (fun b => .ok (f b)), (g w).2) := by
  rw [M.bind_def, ← h]
  rcases g w with ⟨r, w'⟩
  cases r <;> rfl

/-- The effect of every call on every pool. -/
theorem exec_steps {w w' : World F} {op : Op} {r : R Reply} (hw : Ok w.st) (h : exec env op w = (r, w')) :
    KStep .slot w.st.slots op r w'.st.slots ∧ KStep .choice w.st.choices op r w'.st.choices ∧
    KStep .chooser w.st.choosers op r w'.st.choosers := by
  have oth : ∀ {α : Type} [Named α] (k : ObjKind) (p : Pool α) (op : Op) (r : R Reply),
      (∀ n, asksFor op ≠ some (k, n)) → (∀ id, op ≠ .add k id) → (∀ id n, op ≠ .setName k id n) → KStep k p op r p := by
    intro α _ k p op r h1 h2 h3
    cases r with
    | ok r => exact .other h1 h2 h3
    | error e => exact .failed
  cases op with
  | slot n =>
    have e : exec env (.slot n) w = _ := onX (findOrPush n n) Reply.ref (onSlots (findOrPush n n)) (w := w) (s := w.st.slots) rfl
    rw [e] at h
    cases h
    exact ⟨KStep.ask (by rfl) _ rfl, oth _ _ _ _ (by simp [asksFor]) (by simp) (by simp),
      oth _ _ _ _ (by simp [asksFor]) (by simp) (by simp)⟩
  | choice n tags =>
    have e : exec env (.choice n tags) w = _ :=
      onX (choice n tags) Reply.ref (onChoices (choice n tags)) (w := w) (s := w.st.choices) rfl
    rw [e] at h
    cases h
    exact ⟨oth _ _ _ _ (by simp [asksFor]) (by simp) (by simp), KStep.choice n tags,
      oth _ _ _ _ (by simp [asksFor]) (by simp) (by simp)⟩
  | chooser n prefs =>
    have e : exec env (.chooser n prefs) w = _ :=
      onX (chooser n prefs) Reply.ref (onChoosers (chooser n prefs)) (w := w) (s := w.st.choosers) rfl
    rw [e] at h
    cases h
    refine ⟨oth _ _ _ _ (by simp [asksFor]) (by simp) (by simp), oth _ _ _ _ (by simp [asksFor]) (by simp) (by simp), ?_⟩
    show KStep .chooser w.st.choosers (.chooser n prefs) ((chooser n prefs w.st.choosers).1.bind (fun id => .ok (.ref id)))
      (chooser n prefs w.st.choosers).2
    rw [chooser_eq]
    cases prefs.mapM dynPref with
    | error e => exact .failed
    | ok ps => exact KStep.ask (by rfl) _ rfl
  | add k id =>
    cases k with
    | slot =>
      have e : exec env (.add .slot id) w = _ :=
        onX (Pool.register id) (fun _ => Reply.ref id) (onSlots (Pool.register id)) (w := w) (s := w.st.slots) rfl
      rw [e] at h
      cases h
      exact ⟨KStep.register hw.slots id, oth _ _ _ _ (by simp [asksFor]) (by simp) (by simp),
        oth _ _ _ _ (by simp [asksFor]) (by simp) (by simp)⟩
    | choice =>
      have e : exec env (.add .choice id) w = _ :=
        onX (Pool.register id) (fun _ => Reply.ref id) (onChoices (Pool.register id)) (w := w) (s := w.st.choices) rfl
      rw [e] at h
      cases h
      exact ⟨oth _ _ _ _ (by simp [asksFor]) (by simp) (by simp), KStep.register hw.choices id,
        oth _ _ _ _ (by simp [asksFor]) (by simp) (by simp)⟩
    | chooser =>
      have e : exec env (.add .chooser id) w = _ :=
        onX (Pool.register id) (fun _ => Reply.ref id) (onChoosers (Pool.register id)) (w := w) (s := w.st.choosers) rfl
      rw [e] at h
      cases h
      exact ⟨oth _ _ _ _ (by simp [asksFor]) (by simp) (by simp), oth _ _ _ _ (by simp [asksFor]) (by simp) (by simp),
        KStep.register hw.choosers id⟩
  | addExpr x =>
    cases h
    exact ⟨oth _ _ _ _ (by simp [asksFor]) (by simp) (by simp), oth _ _ _ _ (by simp [asksFor]) (by simp) (by simp),
      oth _ _ _ _ (by simp [asksFor]) (by simp) (by simp)⟩
  | setName k id n =>
    cases k with
    | slot =>
      have e : exec env (.setName .slot id n) w = _ :=
        onX (Pool.rename id n) (fun _ => Reply.ref id) (onSlots (Pool.rename id n)) (w := w) (s := w.st.slots) rfl
      rw [e] at h
      cases h
      exact ⟨KStep.rename id n, oth _ _ _ _ (by simp [asksFor]) (by simp) (by simp),
        oth _ _ _ _ (by simp [asksFor]) (by simp) (by simp)⟩
    | choice =>
      have e : exec env (.setName .choice id n) w = _ :=
        onX (Pool.rename id n) (fun _ => Reply.ref id) (onChoices (Pool.rename id n)) (w := w) (s := w.st.choices) rfl
      rw [e] at h
      cases h
      exact ⟨oth _ _ _ _ (by simp [asksFor]) (by simp) (by simp), KStep.rename id n,
        oth _ _ _ _ (by simp [asksFor]) (by simp) (by simp)⟩
    | chooser =>
      have e : exec env (.setName .chooser id n) w = _ :=
        onX (Pool.rename id n) (fun _ => Reply.ref id) (onChoosers (Pool.rename id n)) (w := w) (s := w.st.choosers) rfl
      rw [e] at h
      cases h
      exact ⟨oth _ _ _ _ (by simp [asksFor]) (by simp) (by simp), oth _ _ _ _ (by simp [asksFor]) (by simp) (by simp),
        KStep.rename id n⟩
  | getName k id =>
    have e : (exec env (.getName k id) w).2 = w := by
      cases k with
      | slot =>
        have e : exec env (.getName .slot id) w = _ :=
          onX (M.lift (w.st.slots.nameOf id)) Reply.name (M.lift (w.st.slots.nameOf id)) (w := w) (s := ()) rfl
        rw [e]; rfl
      | choice =>
        have e : exec env (.getName .choice id) w = _ :=
          onX (M.lift (w.st.choices.nameOf id)) Reply.name (M.lift (w.st.choices.nameOf id)) (w := w) (s := ()) rfl
        rw [e]; rfl
      | chooser =>
        have e : exec env (.getName .chooser id) w = _ :=
          onX (M.lift (w.st.choosers.nameOf id)) Reply.name (M.lift (w.st.choosers.nameOf id)) (w := w) (s := ()) rfl
        rw [e]; rfl
    rw [h] at e
    cases e
    exact ⟨oth _ _ _ _ (by simp [asksFor]) (by simp) (by simp), oth _ _ _ _ (by simp [asksFor]) (by simp) (by simp),
      oth _ _ _ _ (by simp [asksFor]) (by simp) (by simp)⟩
  | attr k id a =>
    have e : exec env (.attr k id a) w = _ :=
      onX (M.lift (Rhai.attr w.st k id a)) Reply.accessor (M.lift (Rhai.attr w.st k id a)) (w := w) (s := ()) rfl
    rw [e] at h
    cases h
    exact ⟨oth _ _ _ _ (by simp [asksFor]) (by simp) (by simp), oth _ _ _ _ (by simp [asksFor]) (by simp) (by simp),
      oth _ _ _ _ (by simp [asksFor]) (by simp) (by simp)⟩
  | relate symbol l r =>
    have e : exec env (.relate symbol l r) w = _ :=
      onX (M.lift (Rhai.relate w.st symbol l r)) Reply.expr (M.lift (Rhai.relate w.st symbol l r)) (w := w) (s := ()) rfl
    rw [e] at h
    cases h
    exact ⟨oth _ _ _ _ (by simp [asksFor]) (by simp) (by simp), oth _ _ _ _ (by simp [asksFor]) (by simp) (by simp),
      oth _ _ _ _ (by simp [asksFor]) (by simp) (by simp)⟩
  | setArguments args =>
    have e : exec env (.setArguments args) w = _ :=
      onX (setArguments env args) (fun _ => Reply.unit) (onOpts (setArguments env args)) (w := w) (s := w.opts) rfl
    rw [e] at h
    cases h
    exact ⟨oth _ _ _ _ (by simp [asksFor]) (by simp) (by simp), oth _ _ _ _ (by simp [asksFor]) (by simp) (by simp),
      oth _ _ _ _ (by simp [asksFor]) (by simp) (by simp)⟩

theorem exec_ok {w w' : World F} {op : Op} {r : R Reply} (hw : Ok w.st) (h : exec env op w = (r, w')) : Ok w'.st := by
  obtain ⟨h1, h2, h3⟩ := exec_steps hw h
  exact ⟨h1.step.wf hw.slots, h2.step.wf hw.choices, h3.step.wf hw.choosers⟩

end Reader
end Wassign
