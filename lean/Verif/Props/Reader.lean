import Verif.Proofs.ReadInput
/-
Reading an input: C32-C38, C50, C53, C54.
-/
namespace Wassign
open Spec Reader

variable {F : Type} {env : OptEnv F}

/-- The outcome of a script in a reset reader: the calls made, the resulting state and options, how it ended. -/
abbrev outcome (env : OptEnv F) (opts : Opts F) (s : Script) : List Event × World F × Ending := run env s ⟨.empty, opts⟩

theorem outcome_inv (opts : Opts F) (s : Script) : Inv (outcome env opts s).1 (outcome env opts s).2.1.st := by
  have := run_inv (env := env) s ⟨.empty, opts⟩ [] Inv.empty
  simpa using this

/-- The name of an object. -/
def objName (st : RState) (k : ObjKind) (id : Nat) : Option Str :=
  match k with
  | .slot => (st.slots.objs[id]?).map (·.data)
  | .choice => (st.choices.objs[id]?).map (fun o => o.data.name)
  | .chooser => (st.choosers.objs[id]?).map (fun o => o.data.name)

theorem no_match {names : List Str} {n : Str} (h : ∀ m ∈ names, ¬ Occurs n m) : fuzzyFind n names = [] := by
  rcases fuzzyFind_cases n names with ⟨lvl, h1, h2, _⟩ | ⟨h1, _⟩
  · exfalso
    obtain ⟨j, t, hj⟩ := List.exists_cons_of_ne_nil h2
    have hmem : j ∈ fuzzyFind n names := by rw [hj]; simp
    rw [h1] at hmem
    obtain ⟨v, hv, hmt⟩ := (level_spec n names lvl j).1 hmem
    refine h v (List.mem_of_getElem? hv) ?_
    match lvl, hmt with
    | 0, hmt => exact ⟨[], [], by rw [show v = n from hmt]; simp⟩
    | 1, hmt => obtain ⟨b, hb, _⟩ := hmt; exact ⟨[], b, by simp [hb]⟩
    | 2, hmt => obtain ⟨a, b, hb, _⟩ := hmt; exact ⟨a, b, hb⟩
    | 3, hmt => exact hmt
  · exact h1

theorem lookup_fresh {α : Type} [Named α] {p : Pool α} (hp : p.WF) {n : Str} (h : ∀ m ∈ regNames p, ¬ Occurs n m) :
    p.lookup n = .ok none := by
  rw [Pool.lookup_eq hp.range, no_match h]

/-! ## C32: a fresh name creates a fresh object -/

/-- **C32** (partial: the name must not occur *inside* a registered name either): asking for a slot, choice or chooser
whose name does not occur in the name of any registered object of that kind makes a new object with that name and the
given data; it is none of the objects given out before, and nothing else changes. -/
theorem C32_fresh_name_partial (opts : Opts F) (s : Script) (n : Str) :
    let tr := (outcome env opts s).1
    let w := (outcome env opts s).2.1
    ((∀ m ∈ namesOf w.st .slot, ¬ Occurs n m) → ∃ id, ¬ Given tr .slot id ∧
      exec env (.slot n) w = (.ok (.ref id),
        { w with st := { w.st with slots := { w.st.slots with objs := w.st.slots.objs ++ [⟨n, false⟩] } } })) ∧
    ((∀ m ∈ namesOf w.st .choice, ¬ Occurs n m) → ∀ tags p, tags.foldlM applyTag ⟨n, 1, 1, 1, false⟩ = .ok p →
      p.name = n ∧ ∃ id, ¬ Given tr .choice id ∧ exec env (.choice n tags) w = (.ok (.ref id),
        { w with st := { w.st with choices := { w.st.choices with objs := w.st.choices.objs ++ [⟨p, false⟩] } } })) ∧
    ((∀ m ∈ namesOf w.st .chooser, ¬ Occurs n m) → ∀ prefs ps, prefs.mapM dynPref = .ok ps →
      ∃ id, ¬ Given tr .chooser id ∧ exec env (.chooser n prefs) w = (.ok (.ref id),
        { w with st := { w.st with choosers := { w.st.choosers with objs := w.st.choosers.objs ++ [⟨⟨n, ps⟩, false⟩] } } })) := by
  intro tr w
  have hi : Inv tr w.st := outcome_inv opts s
  refine ⟨fun h => ?_, fun h tags p hp => ?_, fun h prefs ps hps => ?_⟩
  · refine ⟨w.st.slots.objs.length, ?_, ?_⟩
    · rw [← hi.slots.given]; omega
    · have e : exec env (.slot n) w = _ := onX (findOrPush n n) Reply.ref (onSlots (findOrPush n n)) (w := w) (s := w.st.slots) rfl
      rw [e]
      unfold onSlots
      rw [findOrPush_eq, lookup_fresh hi.slots.wf h]
      rfl
  · refine ⟨applyTags_name tags hp, w.st.choices.objs.length, ?_, ?_⟩
    · rw [← hi.choices.given]; omega
    · have e : exec env (.choice n tags) w = _ :=
        onX (choice n tags) Reply.ref (onChoices (choice n tags)) (w := w) (s := w.st.choices) rfl
      rw [e]
      unfold onChoices
      have hp' : tags.foldlM applyTag (defaultProto n) = .ok p := hp
      rw [choice_eq, lookup_fresh hi.choices.wf h]
      simp only [hp']
      rfl
  · refine ⟨w.st.choosers.objs.length, ?_, ?_⟩
    · rw [← hi.choosers.given]; omega
    · have e : exec env (.chooser n prefs) w = _ :=
        onX (chooser n prefs) Reply.ref (onChoosers (chooser n prefs)) (w := w) (s := w.st.choosers) rfl
      rw [e]
      unfold onChoosers
      rw [chooser_eq, hps]
      simp only
      rw [findOrPush_eq, lookup_fresh hi.choosers.wf h]
      rfl

/-- A name that is found: the object was added, and its name is the only one that matches on the best level that matches. -/
theorem lookup_best {α : Type} [Named α] {p : Pool α} (hp : p.WF) {n : Str} {id : Nat} (hl : p.lookup n = .ok (some id)) :
    id ∈ p.ids ∧ ∃ lvl : Fin 4, ∃ name, (p.objs[id]?).map (fun o => Named.name o.data) = some name ∧ Matches lvl n name ∧
      (∀ l' : Fin 4, l' < lvl → ∀ m ∈ regNames p, ¬ Matches l' n m) ∧ ∀ m ∈ regNames p, Matches lvl n m → m = name := by
  refine ⟨Pool.lookup_mem hp.range hl, ?_⟩
  rw [Pool.lookup_eq hp.range] at hl
  rcases fuzzyFind_cases n (regNames p) with ⟨lvl, h1, h2, h3⟩ | ⟨h1, _⟩
  · split at hl
    · cases hl
    · rename_i j hj
      injection hl with hl
      have hsing : ∀ k, k ∈ fuzzyFind n (regNames p) ↔ k = j := by rw [hj]; simp
      have hjm := (hsing j).2 rfl
      rw [h1] at hjm
      obtain ⟨name, hname, hmt⟩ := (level_spec n _ lvl j).1 hjm
      have hnm : (p.objs[id]?).map (fun o => Named.name o.data) = some name := by
        obtain ⟨vs, _, g1, g2, g3⟩ := Pool.registered_eq hp.range
        rw [← g2, List.getElem?_map, Option.map_eq_some_iff] at hname
        obtain ⟨v, hv, hvn⟩ := hname
        obtain ⟨o, ho, hod⟩ := g3 v (List.mem_of_getElem? hv)
        rw [← g1, List.getElem?_map, hv] at hl
        simp only [Option.map_some, Option.some.injEq] at hl
        rw [hl] at ho
        simp only [ho, Option.map_some, hod]
        exact congrArg some hvn
      refine ⟨lvl, name, hnm, hmt, h3, ?_⟩
      intro m hm hmm
      obtain ⟨k, hk⟩ := List.mem_iff_getElem?.1 hm
      have := (level_spec n (regNames p) lvl k).2 ⟨m, hk, hmm⟩
      rw [← h1, hsing] at this
      subst this
      have hk' : (regNames p)[k]? = some m := hk
      rw [hname] at hk'
      cases hk'
      rfl
    · cases hl
  · rw [h1] at hl
    cases hl

/-- `slot(n)`, `choice(n, …)` or `chooser(n, …)`. -/
inductive Asks (n : Str) : ObjKind → Op → Prop
  | slot : Asks n .slot (.slot n)
  | choice {tags} : Asks n .choice (.choice n tags)
  | chooser {prefs} : Asks n .chooser (.chooser n prefs)

/-- When an existing object is answered instead, its name matches the key, and no registered name matches it better:
asking for `n` gives the object added earlier whose name is the only one matching on the best level that matches. The other
arguments of the call are ignored: nothing changes. -/
theorem C32_existing_matches (opts : Opts F) (s : Script) (k : ObjKind) (op : Op) (n : Str) (hop : Asks n k op) (id : Nat)
    (h : (exec env op (outcome env opts s).2.1).1 = .ok (.ref id)) (hg : Given (outcome env opts s).1 k id) :
    (exec env op (outcome env opts s).2.1).2 = (outcome env opts s).2.1 ∧
    Added (outcome env opts s).1 k id ∧ ∃ lvl : Fin 4, ∃ name, objName (outcome env opts s).2.1.st k id = some name ∧
      Matches lvl n name ∧
      (∀ l' : Fin 4, l' < lvl → ∀ m ∈ namesOf (outcome env opts s).2.1.st k, ¬ Matches l' n m) ∧
      ∀ m ∈ namesOf (outcome env opts s).2.1.st k, Matches lvl n m → m = name := by
  generalize hw : outcome env opts s = out at *
  have hi : Inv out.1 out.2.1.st := by rw [← hw]; exact outcome_inv opts s
  cases hop with
  | slot =>
    have e : exec env (.slot n) out.2.1 = _ :=
      onX (findOrPush n n) Reply.ref (onSlots (findOrPush n n)) (w := out.2.1) (s := out.2.1.st.slots) rfl
    rw [e] at h ⊢
    unfold onSlots
    rw [findOrPush_eq] at h ⊢
    have hlt := (hi.slots.given id).2 hg
    cases hl : out.2.1.st.slots.lookup n with
    | error f => rw [hl] at h; cases h
    | ok v =>
      cases v with
      | none =>
        rw [hl] at h
        have h : (Except.ok (Reply.ref out.2.1.st.slots.objs.length) : R Reply) = .ok (.ref id) := h
        simp only [Except.ok.injEq, Reply.ref.injEq] at h
        omega
      | some id' =>
        rw [hl] at h
        have h : (Except.ok (Reply.ref id') : R Reply) = .ok (.ref id) := h
        simp only [Except.ok.injEq, Reply.ref.injEq] at h
        subst h
        obtain ⟨h1, h2⟩ := lookup_best hi.slots.wf hl
        exact ⟨rfl, (hi.slots.added _).1 h1, h2⟩
  | @choice tags =>
    have e : exec env (.choice n tags) out.2.1 = _ :=
      onX (choice n tags) Reply.ref (onChoices (choice n tags)) (w := out.2.1) (s := out.2.1.st.choices) rfl
    rw [e] at h ⊢
    unfold onChoices
    rw [choice_eq] at h ⊢
    have hlt := (hi.choices.given id).2 hg
    cases hl : out.2.1.st.choices.lookup n with
    | error f => rw [hl] at h; cases h
    | ok v =>
      cases v with
      | none =>
        rw [hl] at h
        cases ht : tags.foldlM applyTag (defaultProto n) with
        | error f => simp only [ht] at h; cases h
        | ok x =>
          simp only [ht] at h
          have h : (Except.ok (Reply.ref out.2.1.st.choices.objs.length) : R Reply) = .ok (.ref id) := h
          simp only [Except.ok.injEq, Reply.ref.injEq] at h
          omega
      | some id' =>
        rw [hl] at h
        have h : (Except.ok (Reply.ref id') : R Reply) = .ok (.ref id) := h
        simp only [Except.ok.injEq, Reply.ref.injEq] at h
        subst h
        obtain ⟨h1, h2⟩ := lookup_best hi.choices.wf hl
        exact ⟨rfl, (hi.choices.added _).1 h1, h2⟩
  | @chooser prefs =>
    have e : exec env (.chooser n prefs) out.2.1 = _ :=
      onX (chooser n prefs) Reply.ref (onChoosers (chooser n prefs)) (w := out.2.1) (s := out.2.1.st.choosers) rfl
    rw [e] at h ⊢
    unfold onChoosers
    rw [chooser_eq] at h ⊢
    have hlt := (hi.choosers.given id).2 hg
    cases hps : prefs.mapM dynPref with
    | error f => rw [hps] at h; cases h
    | ok ps =>
      simp only [hps] at h ⊢
      rw [findOrPush_eq] at h ⊢
      cases hl : out.2.1.st.choosers.lookup n with
      | error f => rw [hl] at h; cases h
      | ok v =>
        cases v with
        | none =>
          rw [hl] at h
          have h : (Except.ok (Reply.ref out.2.1.st.choosers.objs.length) : R Reply) = .ok (.ref id) := h
          simp only [Except.ok.injEq, Reply.ref.injEq] at h
          omega
        | some id' =>
          rw [hl] at h
          have h : (Except.ok (Reply.ref id') : R Reply) = .ok (.ref id) := h
          simp only [Except.ok.injEq, Reply.ref.injEq] at h
          subst h
          obtain ⟨h1, h2⟩ := lookup_best hi.choosers.wf hl
          exact ⟨rfl, (hi.choosers.added _).1 h1, h2⟩

/-! ## C33: names of registered objects -/

/-- **C33**: unless an object is renamed after it was added, no two added objects of a kind have the same name. -/
theorem C33_names_unique (opts : Opts F) (s : Script) (h : NoLateRename (outcome env opts s).1) (k : ObjKind) :
    (namesOf (outcome env opts s).2.1.st k).Nodup := by
  have hi := outcome_inv (env := env) opts s
  cases k
  · exact hi.slots.names h
  · exact hi.choices.names h
  · exact hi.choosers.names h

theorem nodup_notTaken {α : Type} [Named α] {p : Pool α} (hp : p.WF) (hn : (regNames p).Nodup) {id : Nat} {o : Obj α}
    (ho : p.objs[id]? = some o) (hm : id ∈ p.ids) : ¬ p.Taken id (Named.name o.data) := by
  rintro ⟨j, hj, hne, o', ho', hname⟩
  obtain ⟨vs, _, h1, h2, h3⟩ := Pool.registered_eq hp.range
  rw [← h2] at hn
  rw [← h1, List.mem_map] at hm hj
  obtain ⟨a, ha, hae⟩ := hm
  obtain ⟨b, hb, hbe⟩ := hj
  obtain ⟨oa, hoa, hda⟩ := h3 a ha
  obtain ⟨ob, hob, hdb⟩ := h3 b hb
  rw [hae, ho] at hoa
  rw [hbe, ho'] at hob
  cases hoa
  cases hob
  have heq : Named.name a.2 = Named.name b.2 := by rw [← hda, ← hdb, hname]
  have := List.inj_on_of_nodup_map hn ha hb heq
  rw [this] at hae
  exact hne (hbe.symm.trans hae)

/-- **C33**: adding an object again succeeds and changes nothing. -/
theorem C33_add_again (opts : Opts F) (s : Script) (h : NoLateRename (outcome env opts s).1) (k : ObjKind) (id : Nat)
    (ha : Added (outcome env opts s).1 k id) :
    exec env (.add k id) (outcome env opts s).2.1 = (.ok (.ref id), (outcome env opts s).2.1) := by
  generalize hw : outcome env opts s = out at *
  have hi : Inv out.1 out.2.1.st := by rw [← hw]; exact outcome_inv opts s
  have core : ∀ {α : Type} [Named α] {p : Pool α}, KInv k out.1 p → Pool.register id p = (.ok (), p) := by
    intro α _ p hk
    have hmem := (hk.added id).2 ha
    have ho := List.getElem?_eq_getElem (hk.wf.range id hmem)
    rcases Pool.register_eq hk.wf ho with ⟨ht, _⟩ | ⟨_, _, e⟩ | ⟨_, hn, _⟩
    · exact absurd ht (nodup_notTaken hk.wf (hk.names h) ho hmem)
    · exact e
    · exact absurd hmem hn
  cases k with
  | slot =>
    have e : exec env (.add .slot id) out.2.1 = _ :=
      onX (Pool.register id) (fun _ => Reply.ref id) (onSlots (Pool.register id)) (w := out.2.1) (s := out.2.1.st.slots) rfl
    rw [e]
    unfold onSlots
    rw [core hi.slots]
    rfl
  | choice =>
    have e : exec env (.add .choice id) out.2.1 = _ :=
      onX (Pool.register id) (fun _ => Reply.ref id) (onChoices (Pool.register id)) (w := out.2.1) (s := out.2.1.st.choices) rfl
    rw [e]
    unfold onChoices
    rw [core hi.choices]
    rfl
  | chooser =>
    have e : exec env (.add .chooser id) out.2.1 = _ :=
      onX (Pool.register id) (fun _ => Reply.ref id) (onChoosers (Pool.register id)) (w := out.2.1) (s := out.2.1.st.choosers) rfl
    rw [e]
    unfold onChoosers
    rw [core hi.choosers]
    rfl

/-- **C33**: adding an object whose name another added object of the kind already has is refused, and changes nothing. -/
theorem C33_duplicate_rejected (opts : Opts F) (s : Script) (k : ObjKind) (id j : Nat) (name : Str)
    (ha : Added (outcome env opts s).1 k j) (hne : j ≠ id)
    (hj : objName (outcome env opts s).2.1.st k j = some name) (hid : objName (outcome env opts s).2.1.st k id = some name) :
    ∃ msg, exec env (.add k id) (outcome env opts s).2.1 = (.error (.error msg), (outcome env opts s).2.1) := by
  generalize hw : outcome env opts s = out at *
  have hi : Inv out.1 out.2.1.st := by rw [← hw]; exact outcome_inv opts s
  have core : ∀ {α : Type} [Named α] {p : Pool α}, KInv k out.1 p →
      (p.objs[j]?).map (fun o => Named.name o.data) = some name → (p.objs[id]?).map (fun o => Named.name o.data) = some name →
      ∃ msg, Pool.register id p = (.error (.error msg), p) := by
    intro α _ p hk h1 h2
    rw [Option.map_eq_some_iff] at h1 h2
    obtain ⟨oj, hoj, hnj⟩ := h1
    obtain ⟨oi, hoi, hni⟩ := h2
    have ht : p.Taken id (Named.name oi.data) := ⟨j, (hk.added j).2 ha, hne, oj, hoj, by rw [hnj, hni]⟩
    rcases Pool.register_eq hk.wf hoi with ⟨_, e⟩ | ⟨hn, _⟩ | ⟨hn, _⟩
    · exact ⟨_, e⟩
    · exact absurd ht hn
    · exact absurd ht hn
  cases k with
  | slot =>
    obtain ⟨msg, hm⟩ := core hi.slots hj hid
    have e : exec env (.add .slot id) out.2.1 = _ :=
      onX (Pool.register id) (fun _ => Reply.ref id) (onSlots (Pool.register id)) (w := out.2.1) (s := out.2.1.st.slots) rfl
    refine ⟨msg, ?_⟩
    rw [e]
    unfold onSlots
    rw [hm]
    rfl
  | choice =>
    obtain ⟨msg, hm⟩ := core hi.choices hj hid
    have e : exec env (.add .choice id) out.2.1 = _ :=
      onX (Pool.register id) (fun _ => Reply.ref id) (onChoices (Pool.register id)) (w := out.2.1) (s := out.2.1.st.choices) rfl
    refine ⟨msg, ?_⟩
    rw [e]
    unfold onChoices
    rw [hm]
    rfl
  | chooser =>
    obtain ⟨msg, hm⟩ := core hi.choosers hj hid
    have e : exec env (.add .chooser id) out.2.1 = _ :=
      onX (Pool.register id) (fun _ => Reply.ref id) (onChoosers (Pool.register id)) (w := out.2.1) (s := out.2.1.st.choosers) rfl
    refine ⟨msg, ?_⟩
    rw [e]
    unfold onChoosers
    rw [hm]
    rfl

/-! ## C34: what an accepted input looks like -/

theorem build_prefs {raw : Raw} {d : InputData} (h : Build.build raw = .ok d) :
    ∀ c ∈ raw.choosers, c.prefs.length = raw.choices.length := by
  unfold Build.build at h
  rw [R.bind_eq_ok] at h
  obtain ⟨⟨m, cs⟩, h1, _⟩ := h
  unfold Build.buildPreferences at h1
  rw [R.bind_eq_ok] at h1
  obtain ⟨m', h1, _⟩ := h1
  generalize 0 = a at h1
  revert a
  generalize raw.choosers = l
  intro a h1
  induction l generalizing a with
  | nil => intro c hc; cases hc
  | cons x t ih =>
    rw [List.foldlM_cons, R.bind_eq_ok] at h1
    obtain ⟨a', hx, ht⟩ := h1
    intro c hc
    rcases List.mem_cons.1 hc with rfl | hc
    · unfold Build.prefCheck at hx
      split at hx
      · cases hx
      · rename_i h; simpa using h
    · exact ih a' ht c hc

theorem build_slots {raw : Raw} {d : InputData} (h : Build.build raw = .ok d) :
    d.slots = if raw.slots.isEmpty then [Build.generatedSlotName] else raw.slots := by
  unfold Build.build at h
  rw [R.bind_eq_ok] at h
  obtain ⟨⟨m, cs⟩, _, h⟩ := h
  simp only at h
  rw [R.bind_eq_ok] at h
  obtain ⟨d1, h1, h⟩ := h
  rw [R.bind_eq_ok] at h
  obtain ⟨maps, _, h⟩ := h
  cases h
  simp only
  unfold Build.buildConstraints at h1
  rw [R.bind_eq_ok] at h1
  obtain ⟨_, _, h1⟩ := h1
  rw [R.bind_eq_ok] at h1
  obtain ⟨r, _, h1⟩ := h1
  split at h1
  · cases h1
  · simp only [R.bind_eq_ok] at h1
    obtain ⟨_, _, _, _, _, _, _, _, _, _, h1⟩ := h1
    cases h1
    rfl

theorem readInput_inv {r : InputReader F} {s : Script} {d : InputData} (h : (readInput env r s).1 = .ok d) :
    (outcome env r.world.opts s).2.2 = .finished ∧ ∃ sy, sync (outcome env r.world.opts s).2.1.st = .ok sy ∧ finish sy = .ok d := by
  unfold readInput at h
  simp only at h
  cases he : (run env s { r.world with st := .empty }).2.2 with
  | failed => rw [he] at h; cases h
  | panicked x => rw [he] at h; cases h
  | finished =>
    rw [he] at h
    simp only at h
    refine ⟨rfl, ?_⟩
    cases hs : sync (run env s { r.world with st := .empty }).2.1.st with
    | error f => rw [hs] at h; cases h
    | ok sy => rw [hs] at h; exact ⟨sy, rfl, h⟩

/-- **C34**: `read_input` succeeds only if the script ran to its end, every object it was given was added, at least one
choice and at least one chooser were added, and every added chooser has exactly one preference per added choice. The
slots are the added slots in order, or one generated slot if there are none. -/
theorem C34_accepted_inputs (r : InputReader F) (s : Script) (d : InputData) (h : (readInput env r s).1 = .ok d) :
    let tr := (outcome env r.world.opts s).1
    let st := (outcome env r.world.opts s).2.1.st
    (outcome env r.world.opts s).2.2 = .finished ∧
    (∀ k id, Given tr k id → Added tr k id) ∧ (∃ id, Added tr .choice id) ∧ (∃ id, Added tr .chooser id) ∧
    (∀ id o, Added tr .chooser id → st.choosers.objs[id]? = some o → o.data.prefs.length = (namesOf st .choice).length) ∧
    d.slots = (if namesOf st .slot = [] then ["Generated Slot".toList] else namesOf st .slot) := by
  intro tr st
  obtain ⟨hend, sy, hs, hf⟩ := readInput_inv h
  have hi : Inv tr st := outcome_inv _ _
  obtain ⟨vs, hvs, vs1, vs2, vs3⟩ := Pool.registered_eq hi.slots.wf.range
  obtain ⟨vc, hvc, vc1, vc2, vc3⟩ := Pool.registered_eq hi.choices.wf.range
  obtain ⟨vp, hvp, vp1, vp2, vp3⟩ := Pool.registered_eq hi.choosers.wf.range
  have hsy : sync st = .ok {
      sets := vs.map (·.2)
      choices := vc.map (·.2)
      choosers := vp.map (·.2)
      objects := st.slots.objs.map (·.registered) ++ st.choices.objs.map (·.registered) ++ st.choosers.objs.map (·.registered)
      exprs := st.exprs } := by
    unfold sync
    rw [hvs, hvc, hvp]
    rfl
  have hs' : sync st = .ok sy := hs
  rw [hsy] at hs'
  cases hs'
  unfold finish at hf
  simp only at hf
  by_cases hobj : (st.slots.objs.map (·.registered) ++ st.choices.objs.map (·.registered) ++
      st.choosers.objs.map (·.registered)).any (fun b => !b) = true
  · rw [if_pos hobj] at hf; cases hf
  rw [if_neg hobj] at hf
  by_cases hch : (vc.map (·.2)).isEmpty = true
  · rw [if_pos hch] at hf; cases hf
  rw [if_neg hch] at hf
  by_cases hpe : (vp.map (·.2)).isEmpty = true
  · rw [if_pos hpe] at hf; cases hf
  rw [if_neg hpe] at hf
  refine ⟨hend, ?_, ?_, ?_, ?_, ?_⟩
  · have all : ∀ b ∈ st.slots.objs.map (·.registered) ++ st.choices.objs.map (·.registered) ++
        st.choosers.objs.map (·.registered), b = true := by
      intro b hb
      cases b with
      | true => rfl
      | false => exact absurd (List.any_eq_true.2 ⟨false, hb, rfl⟩) hobj
    have core : ∀ {α : Type} [Named α] {p : Pool α} (k : ObjKind), KInv k tr p →
        (∀ b ∈ p.objs.map (·.registered), b = true) → ∀ id, Given tr k id → Added tr k id := by
      intro α _ p k hk hall id hg
      have hlt := (hk.given id).2 hg
      have := hall (p.objs[id].registered) (List.mem_map.2 ⟨p.objs[id], by simp, rfl⟩)
      exact (hk.added id).1 ((hk.wf.flag id p.objs[id] (by simp [hlt])).1 this)
    intro k
    cases k with
    | slot => exact core .slot hi.slots (fun b hb => all b (List.mem_append_left _ (List.mem_append_left _ hb)))
    | choice => exact core .choice hi.choices (fun b hb => all b (List.mem_append_left _ (List.mem_append_right _ hb)))
    | chooser => exact core .chooser hi.choosers (fun b hb => all b (List.mem_append_right _ hb))
  · cases vc with
    | nil => simp at hch
    | cons v t => exact ⟨v.1, (hi.choices.added _).1 (by rw [← vc1]; simp)⟩
  · cases vp with
    | nil => simp at hpe
    | cons v t => exact ⟨v.1, (hi.choosers.added _).1 (by rw [← vp1]; simp)⟩
  · intro id o ha ho
    have hmem := (hi.choosers.added id).2 ha
    rw [← vp1, List.mem_map] at hmem
    obtain ⟨v, hv, rfl⟩ := hmem
    obtain ⟨o', ho', hd⟩ := vp3 v hv
    have ho : st.choosers.objs[v.1]? = some o := ho
    rw [ho] at ho'
    cases ho'
    have := build_prefs hf v.2 (List.mem_map.2 ⟨v, hv, rfl⟩)
    simp only [List.length_map] at this
    rw [hd, this]
    show vc.length = (regNames st.choices).length
    rw [← vc2]
    simp
  · have e : vs.map (·.2) = namesOf st .slot := vs2
    have := build_slots hf
    rw [this]
    show (if (vs.map (·.2)).isEmpty = true then _ else vs.map (·.2)) = _
    rw [e]
    cases hnm : namesOf st .slot with
    | nil => exact Eq.trans (if_pos rfl) (Eq.symm (if_pos rfl))
    | cons a t => exact Eq.trans (if_neg (by simp)) (Eq.symm (if_neg (by simp)))

/-! ## C35: independence of earlier reads -/

/-- The reader after reading one script after the other. -/
def readAll (env : OptEnv F) (r : InputReader F) (ss : List Script) : InputReader F :=
  ss.foldl (fun r s => (readInput env r s).2) r

/-- **C35**: what `read_input` returns for a script does not depend on what the reader has read before, successfully or
not, nor on the options. -/
theorem C35_independent_of_history (opts opts' : Opts F) (before : List Script) (s : Script) :
    (readInput env (readAll env (new opts) before) s).1 = (readInput env (new opts') s).1 :=
  readInput_opts _ _ _

/-! ## C36: set_arguments -/

/-- **C36**: `set_arguments` succeeds exactly if its arguments are strings that spell a sequence of settings, and then
applies these settings in order. -/
theorem C36_applies_all_in_order (w w' : World F) (args : List Dyn) :
    exec env (.setArguments args) w = (.ok .unit, w') ↔
      ∃ texts ss, args = texts.map Dyn.str ∧ Spells env texts ss ∧ w' = { w with opts := ss.foldl Setting.apply w.opts } := by
  have e : exec env (.setArguments args) w = _ :=
    onX (setArguments env args) (fun _ => Reply.unit) (onOpts (setArguments env args)) (w := w) (s := w.opts) rfl
  rw [e]
  constructor
  · intro h
    have h1 := congrArg Prod.fst h
    have h2 := congrArg Prod.snd h
    simp only at h1 h2
    rcases hs : setArguments env args w.opts with ⟨r, o⟩
    rw [hs] at h1
    cases r with
    | error f => cases h1
    | ok u =>
      obtain ⟨texts, ss, ha, hsp, ho⟩ := setArguments_iff.1 hs
      refine ⟨texts, ss, ha, hsp, ?_⟩
      rw [← h2]
      unfold onOpts
      rw [hs]
      simp only [ho]
  · rintro ⟨texts, ss, ha, hsp, rfl⟩
    have hs : setArguments env args w.opts = (.ok (), ss.foldl Setting.apply w.opts) :=
      setArguments_iff.2 ⟨texts, ss, ha, hsp, rfl⟩
    unfold onOpts
    rw [hs]
    rfl

/-- **C36**: if it fails, neither the options nor anything else changes. -/
theorem C36_failure_changes_nothing (w w' : World F) (args : List Dyn) (f : Fault)
    (h : exec env (.setArguments args) w = (.error f, w')) : w' = w := by
  have e : exec env (.setArguments args) w = _ :=
    onX (setArguments env args) (fun _ => Reply.unit) (onOpts (setArguments env args)) (w := w) (s := w.opts) rfl
  rw [e] at h
  have h1 := congrArg Prod.fst h
  have h2 := congrArg Prod.snd h
  simp only at h1 h2
  rcases hs : setArguments env args w.opts with ⟨r, o⟩
  rw [hs] at h1
  cases r with
  | ok u => cases h1
  | error f =>
    have := setArguments_failed hs
    rw [← h2]
    unfold onOpts
    rw [hs, this]

theorem foldl_keeps {α β : Type} (f : Opts F → α) {ss : List β} {step : Opts F → β → Opts F}
    (h : ∀ s ∈ ss, ∀ o, f (step o s) = f o) : ∀ o, f (ss.foldl step o) = f o := by
  induction ss with
  | nil => intro o; rfl
  | cons s t ih =>
    intro o
    rw [List.foldl_cons, ih (fun s hs => h s (by simp [hs])), h s (by simp)]

/-- **C36**: an option that no setting names keeps its value. -/
theorem C36_unnamed_untouched (o : Opts F) (ss : List (Setting F)) :
    ((∀ s ∈ ss, ∀ x, s ≠ .input x) → (ss.foldl Setting.apply o).inputFiles = o.inputFiles) ∧
    ((∀ s ∈ ss, ∀ x, s ≠ .output x) → (ss.foldl Setting.apply o).outputFile = o.outputFile) ∧
    ((∀ s ∈ ss, s ≠ .any) → (ss.foldl Setting.apply o).any = o.any) ∧
    ((∀ s ∈ ss, ∀ x, s ≠ .prefExp x) → (ss.foldl Setting.apply o).prefExp = o.prefExp) ∧
    ((∀ s ∈ ss, ∀ x, s ≠ .timeout x) → (ss.foldl Setting.apply o).timeout = o.timeout) ∧
    ((∀ s ∈ ss, ∀ x, s ≠ .csTimeout x) → (ss.foldl Setting.apply o).csTimeout = o.csTimeout) ∧
    ((∀ s ∈ ss, s ≠ .noCs) → (ss.foldl Setting.apply o).noCs = o.noCs) ∧
    ((∀ s ∈ ss, s ≠ .noCsSimp) → (ss.foldl Setting.apply o).noCsSimp = o.noCsSimp) ∧
    ((∀ s ∈ ss, ∀ x, s ≠ .threads x) → (ss.foldl Setting.apply o).threads = o.threads) ∧
    ((∀ s ∈ ss, ∀ x, s ≠ .maxNeighbors x) → (ss.foldl Setting.apply o).maxNeighbors = o.maxNeighbors) ∧
    ((∀ s ∈ ss, s ≠ .greedy) → (ss.foldl Setting.apply o).greedy = o.greedy) := by
  refine ⟨fun h => ?_, fun h => ?_, fun h => ?_, fun h => ?_, fun h => ?_, fun h => ?_, fun h => ?_, fun h => ?_,
    fun h => ?_, fun h => ?_, fun h => ?_⟩
  · exact foldl_keeps (·.inputFiles) (fun s hs o => by cases s <;> first | rfl | exact absurd rfl (h _ hs _)) o
  · exact foldl_keeps (·.outputFile) (fun s hs o => by cases s <;> first | rfl | exact absurd rfl (h _ hs _)) o
  · exact foldl_keeps (·.any) (fun s hs o => by cases s <;> first | rfl | exact absurd rfl (h _ hs)) o
  · exact foldl_keeps (·.prefExp) (fun s hs o => by cases s <;> first | rfl | exact absurd rfl (h _ hs _)) o
  · exact foldl_keeps (·.timeout) (fun s hs o => by cases s <;> first | rfl | exact absurd rfl (h _ hs _)) o
  · exact foldl_keeps (·.csTimeout) (fun s hs o => by cases s <;> first | rfl | exact absurd rfl (h _ hs _)) o
  · exact foldl_keeps (·.noCs) (fun s hs o => by cases s <;> first | rfl | exact absurd rfl (h _ hs)) o
  · exact foldl_keeps (·.noCsSimp) (fun s hs o => by cases s <;> first | rfl | exact absurd rfl (h _ hs)) o
  · exact foldl_keeps (·.threads) (fun s hs o => by cases s <;> first | rfl | exact absurd rfl (h _ hs _)) o
  · exact foldl_keeps (·.maxNeighbors) (fun s hs o => by cases s <;> first | rfl | exact absurd rfl (h _ hs _)) o
  · exact foldl_keeps (·.greedy) (fun s hs o => by cases s <;> first | rfl | exact absurd rfl (h _ hs)) o

/-! ## C37: time strings -/

/-- **C37**: components written one after the other mean the sum of their seconds, if that fits in an `i32`. -/
theorem C37_components_sum (o : Overflow) (ps : List TimePart) (hp : ∀ p ∈ ps, p.IsTimePart)
    (hs : timeSeconds ps ≤ 2147483647) : Time.parse o (timeText ps) = .ok (timeSeconds ps : Int) := by
  have := Time.go_parts o ps 0 [] hp (by simpa using hs)
  simp only [List.append_nil, Nat.zero_add] at this
  exact this

/-- **C37**: a string with any other character is refused. -/
theorem C37_rejects_other_characters (o : Overflow) (s : Str) (c : Char) (hc : c ∈ s) (hd : ¬ IsDigit c)
    (hu : ∀ u : TimeUnit, c ≠ u.letter) : ∀ v, Time.parse o s ≠ .ok v := by
  intro v h
  rcases Time.go_chars o s _ _ _ h c hc with h | ⟨u, h⟩
  · exact hd h
  · exact hu u h

/-- **C37** (partial: builds in which overflow panics): an accepted string consists of components, followed perhaps by
digits without a unit (which are ignored), and its value is the exact sum of the components; overflow is not
accepted. -/
theorem C37_no_silent_overflow_partial (s : Str) (v : Int) (h : Time.parse .panics s = .ok v) :
    ∃ (ps : List TimePart) (tail : Str), (∀ p ∈ ps, p.IsTimePart) ∧ (∀ c ∈ tail, IsDigit c) ∧
      s = timeText ps ++ tail ∧ v = timeSeconds ps ∧ v ≤ 2147483647 := by
  obtain ⟨pre, ps, tail, hps, htail, hm⟩ := Time.go_inv_panics s 0 0 v h
  cases pre with
  | none =>
    obtain ⟨rfl, rfl, rfl⟩ := hm
    exact ⟨[], s, by simp, htail, by simp [timeText], by simp [timeSeconds], by simp⟩
  | some q =>
    obtain ⟨ds, u⟩ := q
    obtain ⟨hds, hs, hv, hle⟩ := hm
    refine ⟨⟨ds, u⟩ :: ps, tail, ?_, htail, ?_, ?_, hle⟩
    · intro p hp
      rcases List.mem_cons.1 hp with rfl | hp
      · exact hds
      · exact hps p hp
    · rw [hs, Time.timeText_cons]; simp
    · rw [hv, Time.timeSeconds_cons, Nat.zero_add]
      rfl

/-- C37 is false in release builds: `parse_time("4000w")` is accepted with a negative value. -/
theorem C37_release_overflow_accepted : Time.parse .wraps "4000w".toList = .ok (-1875767296) := by decide +kernel

/-- Digits without a unit are silently ignored: `parse_time("1m30")` is one minute and `parse_time("90")` is zero. -/
theorem C37_trailing_digits_ignored (o : Overflow) (ps : List TimePart) (tail : Str) (hp : ∀ p ∈ ps, p.IsTimePart)
    (hs : timeSeconds ps ≤ 2147483647) (ht : ∀ c ∈ tail, IsDigit c) (hv : decimal tail ≤ 2147483647) :
    Time.parse o (timeText ps ++ tail) = .ok (timeSeconds ps : Int) := by
  have h1 := Time.go_parts o ps 0 tail hp (by simpa using hs)
  have h2 := Time.go_digits o ((0 + timeSeconds ps : Nat) : Int) tail 0 [] ht hv
  rw [List.append_nil] at h2
  have h1' : Time.parse o (timeText ps ++ tail) = Time.go o ((0 + timeSeconds ps : Nat) : Int) 0 tail := h1
  rw [h1']
  have h2' : Time.go o ((0 + timeSeconds ps : Nat) : Int) 0 tail =
      Time.go o ((0 + timeSeconds ps : Nat) : Int) (Time.cont 0 tail) [] := h2
  rw [h2', Nat.zero_add]
  rfl

example : Time.parse .panics "1h30m".toList = .ok 5400 := by decide +kernel
example : Time.parse .panics "90".toList = .ok 0 := by decide +kernel

/-! ## C38: range and slice -/

theorem mem_rangeGo : ∀ (n : Nat) (a v : Int), v ∈ Rhai.rangeGo n a ↔ a ≤ v ∧ v < a + n := by
  intro n
  induction n with
  | zero => intro a v; simp [Rhai.rangeGo]
  | succ n ih =>
    intro a v
    rw [Rhai.rangeGo, List.mem_cons, ih]
    omega

theorem sorted_rangeGo : ∀ (n : Nat) (a : Int), (Rhai.rangeGo n a).Pairwise (· < ·) := by
  intro n
  induction n with
  | zero => intro a; exact .nil
  | succ n ih =>
    intro a
    rw [Rhai.rangeGo]
    refine List.pairwise_cons.2 ⟨fun v hv => ?_, ih _⟩
    rw [mem_rangeGo] at hv
    omega

/-- **C38**: `range(x, y)` lists exactly the integers from `x` to `y`, both included, in increasing order. -/
theorem C38_range (x y : Int) : (∀ v, v ∈ Rhai.range x y ↔ x ≤ v ∧ v ≤ y) ∧ (Rhai.range x y).Pairwise (· < ·) := by
  unfold Rhai.range
  split
  · refine ⟨fun v => ?_, sorted_rangeGo _ _⟩
    rw [mem_rangeGo]
    omega
  · refine ⟨fun v => ?_, .nil⟩
    simp only [List.not_mem_nil, false_iff]
    omega

/-- The index that `slice` takes as its last: `end` is the last index of the list. -/
def sliceEnd {α : Type} (values : List α) (y : Int) : Int := if y = Rhai.end' then (values.length : Int) - 1 else y

/-- **C38**: `slice(x, y)` succeeds exactly for indices inside the list (`end` being the last one) and then returns the
elements at the positions from `x` to `y`, both included; otherwise it fails. -/
theorem C38_slice {α : Type} (values : List α) (x y : Int) :
    ((∃ l, Rhai.slice values x y = .ok l) ↔
      0 ≤ x ∧ x < values.length ∧ 0 ≤ sliceEnd values y ∧ sliceEnd values y < values.length) ∧
    (∀ l, Rhai.slice values x y = .ok l →
      ∀ k : Nat, l[k]? = if x + k ≤ sliceEnd values y then values[x.toNat + k]? else none) := by
  have he : Rhai.end' = 9223372036854775807 := rfl
  constructor
  · unfold Rhai.slice sliceEnd
    split
    · rename_i h
      simp only [reduceCtorEq, exists_false, false_iff]
      split <;> omega
    split
    · rename_i h
      simp only [reduceCtorEq, exists_false, false_iff]
      split <;> omega
    split
    · rename_i h1 h2 h3
      constructor
      · intro _; omega
      · intro _
        simp only
        split
        · exact ⟨_, rfl⟩
        · exact ⟨_, rfl⟩
    · rename_i h1 h2 h3
      split
      · simp only [reduceCtorEq, exists_false, false_iff]; omega
      · split
        · simp only [R.pure_eq, Except.ok.injEq, exists_eq', true_iff]; omega
        · simp only [R.pure_eq, Except.ok.injEq, exists_eq', true_iff]; omega
  · intro l hl k
    unfold Rhai.slice at hl
    unfold sliceEnd
    split at hl
    · cases hl
    split at hl
    · cases hl
    rename_i h1 h2
    split at hl
    · rename_i h3
      rw [if_pos h3]
      simp only at hl
      split at hl
      · omega
      · cases hl
        rw [List.getElem?_take, List.getElem?_drop]
        split
        · rw [if_pos (by omega)]
        · rw [if_neg (by omega)]
    · rename_i h3
      rw [if_neg h3]
      split at hl
      · cases hl
      split at hl
      · cases hl
        rw [if_neg (by omega)]
        rfl
      · cases hl
        rw [List.getElem?_take, List.getElem?_drop]
        split
        · rw [if_pos (by omega)]
        · rw [if_neg (by omega)]

/-- An empty list has no indices: slicing it always fails, also with `end`. -/
theorem C38_empty_cannot_be_sliced {α : Type} (x y : Int) : ∀ l : List α, Rhai.slice ([] : List α) x y ≠ .ok l := by
  intro l h
  have := (C38_slice ([] : List α) x y).1.1 ⟨l, h⟩
  simp at this
  omega

example : Rhai.slice [10, 20, 30, 40] 1 2 = .ok [20, 30] := by decide +kernel
example : Rhai.slice [10, 20, 30, 40] 2 Rhai.end' = .ok [30, 40] := by decide +kernel
example : Rhai.range (-1) 2 = [-1, 0, 1, 2] := by decide +kernel

/-! ## C50: numeric arguments -/

/-- **C50** (partial: integers that fit in an `i32`): `min(v)`, `max(v)`, `parts(v)` and `bounds(v, w)` set the bound or
the number of parts to exactly that value, and negative values are refused. -/
theorem C50_integers_partial (p : Proto) (v w : Int) (hv : -2147483648 ≤ v ∧ v ≤ 2147483647)
    (hw : -2147483648 ≤ w ∧ w ≤ 2147483647) :
    (0 ≤ v → applyTag p (tagInt .min v) = .ok { p with min := v.toNat } ∧
      applyTag p (tagInt .max v) = .ok { p with max := v.toNat } ∧
      applyTag p (tagInt .parts v) = .ok { p with parts := v.toNat }) ∧
    (0 ≤ v → 0 ≤ w → applyTag p (boundsInt v w) = .ok { p with
        min := v.toNat
        max := w.toNat }) ∧
    (v < 0 → ∀ q, applyTag p (tagInt .min v) ≠ .ok q ∧ applyTag p (tagInt .max v) ≠ .ok q ∧
      applyTag p (tagInt .parts v) ≠ .ok q ∧ applyTag p (boundsInt v w) ≠ .ok q ∧ applyTag p (boundsInt w v) ≠ .ok q) := by
  have ev : asI32 v = v := Time.asI32_id hv
  have ew : asI32 w = w := Time.asI32_id hw
  have u : ∀ x : Int, 0 ≤ x → x ≤ 2147483647 → u32OfInt x = .ok x.toNat := by
    intro x h1 h2
    rw [u32OfInt_iff]
    exact ⟨by omega, by unfold u32Max; omega⟩
  have un : ∀ x : Int, x < 0 → ∀ n, u32OfInt x ≠ .ok n := by
    intro x h1 n h
    rw [u32OfInt_iff] at h
    omega
  refine ⟨fun h => ?_, fun h h' => ?_, fun h q => ?_⟩
  · simp [applyTag, tagInt, ev, idx, u v h hv.2]
  · simp [applyTag, boundsInt, ev, ew, idx, u v h hv.2, u w h' hw.2]
  · refine ⟨?_, ?_, ?_, ?_, ?_⟩
    · intro hq
      simp only [applyTag, tagInt, ev, idx, List.getElem?_cons_zero, R.bind_ok, R.bind_eq_ok] at hq
      obtain ⟨n, hn, _⟩ := hq
      exact un v h n hn
    · intro hq
      simp only [applyTag, tagInt, ev, idx, List.getElem?_cons_zero, R.bind_ok, R.bind_eq_ok] at hq
      obtain ⟨n, hn, _⟩ := hq
      exact un v h n hn
    · intro hq
      simp only [applyTag, tagInt, ev, idx, List.getElem?_cons_zero, R.bind_ok, R.bind_eq_ok] at hq
      obtain ⟨n, hn, _⟩ := hq
      exact un v h n hn
    · intro hq
      simp only [applyTag, boundsInt, ev, ew, idx, List.getElem?_cons_zero, R.bind_ok, R.bind_eq_ok] at hq
      obtain ⟨n, hn, _⟩ := hq
      exact un v h n hn
    · intro hq
      simp only [applyTag, boundsInt, ev, ew, idx, List.getElem?_cons_zero, List.getElem?_cons_succ, R.bind_ok, R.bind_eq_ok] at hq
      obtain ⟨_, _, n, hn, _⟩ := hq
      exact un v h n hn

/-- C50 is false for larger integers: `min(4294967297)` means `min(1)`. -/
theorem C50_large_integers_truncated (p : Proto) : applyTag p (tagInt .min 4294967297) = .ok { p with min := 1 } := by
  have e : asI32 4294967297 = 1 := by decide +kernel
  simp [applyTag, tagInt, e, idx, u32OfInt]

/-- **C50**: a string is accepted as a bound exactly if it is a decimal number between 0 and 2^31-1, and then means that
number. -/
theorem C50_strings (p q : Proto) (s : Str) :
    ((∃ t, tagStr .min s = .ok t ∧ applyTag p t = .ok q) ↔
      ∃ n : Nat, Numeral s n ∧ n ≤ 2147483647 ∧ q = { p with min := n }) ∧
    ((∃ t, tagStr .max s = .ok t ∧ applyTag p t = .ok q) ↔
      ∃ n : Nat, Numeral s n ∧ n ≤ 2147483647 ∧ q = { p with max := n }) ∧
    ((∃ t, tagStr .parts s = .ok t ∧ applyTag p t = .ok q) ↔
      ∃ n : Nat, Numeral s n ∧ n ≤ 2147483647 ∧ q = { p with parts := n }) := by
  have hu : ∀ n : Nat, n ≤ 2147483647 → u32OfInt (n : Int) = .ok n := fun n hn => u32OfInt_iff.2 ⟨rfl, by unfold u32Max; omega⟩
  have htag : ∀ (k : TagKind) (t : Tagged), tagStr k s = .ok t ↔ ∃ n : Nat, Numeral s n ∧ n ≤ 2147483647 ∧ t = ⟨k, [(n : Int)]⟩ := by
    intro k t
    unfold tagStr
    simp only [R.bind_eq_ok, parseStringUint_iff, i32OfU32_iff, R.pure_eq, Except.ok.injEq]
    constructor
    · rintro ⟨n, ⟨h1, _⟩, v, ⟨rfl, h2⟩, rfl⟩; exact ⟨n, h1, h2, rfl⟩
    · rintro ⟨n, h1, h2, rfl⟩; exact ⟨n, ⟨h1, by unfold u32Max; omega⟩, n, ⟨rfl, h2⟩, rfl⟩
  simp only [htag]
  refine ⟨?_, ?_, ?_⟩
  · constructor
    · rintro ⟨t, ⟨n, h1, h2, rfl⟩, h⟩
      simp only [applyTag, idx, List.getElem?_cons_zero, R.bind_ok, hu n h2, R.pure_eq, Except.ok.injEq] at h
      exact ⟨n, h1, h2, h.symm⟩
    · rintro ⟨n, h1, h2, rfl⟩
      exact ⟨_, ⟨n, h1, h2, rfl⟩, by simp [applyTag, idx, hu n h2]⟩
  · constructor
    · rintro ⟨t, ⟨n, h1, h2, rfl⟩, h⟩
      simp only [applyTag, idx, List.getElem?_cons_zero, R.bind_ok, hu n h2, R.pure_eq, Except.ok.injEq] at h
      exact ⟨n, h1, h2, h.symm⟩
    · rintro ⟨n, h1, h2, rfl⟩
      exact ⟨_, ⟨n, h1, h2, rfl⟩, by simp [applyTag, idx, hu n h2]⟩
  · constructor
    · rintro ⟨t, ⟨n, h1, h2, rfl⟩, h⟩
      simp only [applyTag, idx, List.getElem?_cons_zero, R.bind_ok, hu n h2, R.pure_eq, Except.ok.injEq] at h
      exact ⟨n, h1, h2, h.symm⟩
    · rintro ⟨n, h1, h2, rfl⟩
      exact ⟨_, ⟨n, h1, h2, rfl⟩, by simp [applyTag, idx, hu n h2]⟩

/-- **C50**: `bounds` of two strings. -/
theorem C50_bounds_strings (p q : Proto) (s s' : Str) :
    (∃ t, boundsStr s s' = .ok t ∧ applyTag p t = .ok q) ↔
      ∃ n m : Nat, Numeral s n ∧ Numeral s' m ∧ n ≤ 2147483647 ∧ m ≤ 2147483647 ∧ q = { p with
        min := n
        max := m } := by
  have hu : ∀ n : Nat, n ≤ 2147483647 → u32OfInt (n : Int) = .ok n := fun n hn => u32OfInt_iff.2 ⟨rfl, by unfold u32Max; omega⟩
  unfold boundsStr
  simp only [R.bind_eq_ok, parseStringUint_iff, i32OfU32_iff, R.pure_eq, Except.ok.injEq]
  constructor
  · rintro ⟨t, ⟨n, ⟨h1, _⟩, m, ⟨h2, _⟩, v, ⟨rfl, h3⟩, w, ⟨rfl, h4⟩, rfl⟩, h⟩
    simp only [applyTag, idx, List.getElem?_cons_zero, List.getElem?_cons_succ, R.bind_ok, hu n h3, hu m h4, R.pure_eq,
      Except.ok.injEq] at h
    exact ⟨n, m, h1, h2, h3, h4, h.symm⟩
  · rintro ⟨n, m, h1, h2, h3, h4, rfl⟩
    refine ⟨⟨.bounds, [(n : Int), (m : Int)]⟩, ⟨n, ⟨h1, by unfold u32Max; omega⟩, m, ⟨h2, by unfold u32Max; omega⟩,
      n, ⟨rfl, h3⟩, m, ⟨rfl, h4⟩, rfl⟩, ?_⟩
    simp [applyTag, idx, hu n h3, hu m h4]

/-- **C50** for preferences: a preference is an integer or numeric string with a value between 0 and 2^32-1, and means
that value; everything else is refused. -/
theorem C50_preferences (x : Dyn) (n : Nat) : dynPref x = .ok n ↔ n ≤ 4294967295 ∧ match x with
    | .int v => v = n
    | .int32 v => v = n
    | .str s => Numeral s n
    | .other => False := by
  cases x with
  | int v => show u32OfInt v = .ok n ↔ _; rw [u32OfInt_iff]; exact And.comm
  | int32 v => show u32OfInt v = .ok n ↔ _; rw [u32OfInt_iff]; exact And.comm
  | str s => show parseStringUint s = .ok n ↔ _; rw [parseStringUint_iff]; exact And.comm
  | other => simp [dynPref]

/-! ## C53, C54: failing calls -/

/-- **C53**: a call that fails changes nothing, so catching its error in the script is safe: afterwards everything is as
if the call had not been made. -/
theorem C53_failed_call_has_no_effect (opts : Opts F) (s : Script) (op : Op) (f : Fault) (w' : World F)
    (h : exec env op (outcome env opts s).2.1 = (.error f, w')) : w' = (outcome env opts s).2.1 :=
  exec_failed (outcome_inv opts s).ok h

/-- **C54**: evaluating a script never panics (in builds where arithmetic wraps; otherwise an overlong time in
`set_arguments` can), as long as the script uses only objects it was given. -/
theorem C54_scripts_never_panic (hov : env.overflow = .wraps) (opts : Opts F) (s : Script) (hs : Honest [] s) (site : String) :
    (outcome env opts s).2.2 ≠ .panicked site :=
  run_noPanic hov s [] _ hs Ok.empty (by intro k id h; cases h) site

/-! ## Concrete scripts -/
end Wassign

namespace Wassign.ReadEx
open Spec Reader

def opts : Opts Unit := ⟨[], none, false, (), 60, 3, false, false, 4, 12, false⟩
def env : OptEnv Unit := ⟨fun _ => none, .wraps⟩

/-- A call whose failure ends the script, and whose answer is an object used from here on. -/
def given (op : Op) (next : Nat → Script) : Script := .call op (fun
  | some (.ref id) => next id
  | _ => .fail)

/-- A call whose failure ends the script. -/
def then' (op : Op) (next : Script) : Script := .call op (fun
  | some _ => next
  | none => .fail)

/-- `+slot("Monday"); +choice("Swimming pool"); +choice("Chess", max(5)); +chooser("Ann", [1, "2"])` -/
def script : Script :=
  given (.slot "Monday".toList) fun s => then' (.add .slot s) <|
  given (.choice "Swimming pool".toList []) fun a => then' (.add .choice a) <|
  given (.choice "Chess".toList [tagInt .max 5]) fun b => then' (.add .choice b) <|
  given (.chooser "Ann".toList [.int 1, .str "2".toList]) fun p => then' (.add .chooser p) .done

/-- The script is accepted. -/
theorem accepted : ((readInput env (new opts) script).1.toOption.map (fun d => (d.nc, d.np, d.ns))) = some (2, 1, 1) := by
  decide +kernel

theorem honest : Honest [] script := by
  refine ⟨by simp [mentions], by simp, fun r => ?_⟩
  rcases r with _ | _ | s | _ <;> try exact trivial
  refine ⟨by simp [mentions, asksFor], by simp, fun r => ?_⟩
  rcases r with _ | _
  · exact trivial
  refine ⟨by simp [mentions], by simp, fun r => ?_⟩
  rcases r with _ | _ | a | _ <;> try exact trivial
  refine ⟨by simp [mentions, asksFor], by simp, fun r => ?_⟩
  rcases r with _ | _
  · exact trivial
  refine ⟨by simp [mentions], by simp [tagInt, IsTag], fun r => ?_⟩
  rcases r with _ | _ | b | _ <;> try exact trivial
  refine ⟨by simp [mentions, asksFor], by simp, fun r => ?_⟩
  rcases r with _ | _
  · exact trivial
  refine ⟨by simp [mentions], by simp, fun r => ?_⟩
  rcases r with _ | _ | p | _ <;> try exact trivial
  refine ⟨by simp [mentions, asksFor], by simp, fun r => ?_⟩
  rcases r with _ | _
  · exact trivial
  · exact trivial

/-- Nothing is renamed. -/
theorem noRename : NoLateRename (outcome env opts script).1 := by
  intro pre e post k id n h he
  exfalso
  have hm : e ∈ (outcome env opts script).1 := by rw [h]; simp
  have : (outcome env opts script).1.all (fun e => match e.op with | .setName .. => false | _ => true) = true := by
    decide +kernel
  have := List.all_eq_true.1 this e hm
  rw [he] at this
  cases this

/-- A name that is fresh for C32 after the script. -/
example : ∀ m ∈ namesOf (outcome env opts script).2.1.st .choice, ¬ Occurs "Judo".toList m := by
  have : namesOf (outcome env opts script).2.1.st .choice = ["Swimming pool".toList, "Chess".toList] := by decide +kernel
  rw [this]
  intro m hm ho
  rcases List.mem_cons.1 hm with rfl | hm
  · exact absurd (containsStr_iff.2 ho) (by decide +kernel)
  rcases List.mem_cons.1 hm with rfl | hm
  · exact absurd (containsStr_iff.2 ho) (by decide +kernel)
  · cases hm

/-- C32 as stated is false: after `+choice("Swimming pool")` no object is called `Swimming`, but
`choice("Swimming", max(9))` is the swimming pool, and the new bound is dropped. -/
theorem C32_similar_name_is_not_fresh :
    "Swimming".toList ∉ namesOf (outcome env opts script).2.1.st .choice ∧
    Given (outcome env opts script).1 .choice 0 ∧
    objName (outcome env opts script).2.1.st .choice 0 = some "Swimming pool".toList ∧
    (exec env (.choice "Swimming".toList [tagInt .max 9]) (outcome env opts script).2.1).1 = .ok (.ref 0) ∧
    ((exec env (.choice "Swimming".toList [tagInt .max 9]) (outcome env opts script).2.1).2.st.choices.objs[0]?).map
      (·.data.max) = some 1 := by
  have h0 : (⟨.choice "Swimming pool".toList [], some (.ref 0)⟩ : Event) ∈ (outcome env opts script).1 := by decide +kernel
  refine ⟨by decide +kernel, ⟨_, h0, _, rfl, rfl⟩, by decide +kernel, by decide +kernel, by decide +kernel⟩

/-- `+slot("Monday"); let t = +slot("Tuesday"); t.name = "Monday"` -/
def lateRename : Script :=
  given (.slot "Monday".toList) fun s => then' (.add .slot s) <|
  given (.slot "Tuesday".toList) fun t => then' (.add .slot t) <| then' (.setName .slot t "Monday".toList) .done

/-- Without the condition on renaming C33 is false: two slots end up with the same name, and the second cannot be added
again. -/
theorem C33_late_rename_duplicates : namesOf (outcome env opts lateRename).2.1.st .slot = ["Monday".toList, "Monday".toList] ∧
    (outcome env opts lateRename).2.2 = .finished ∧
    (exec env (.add .slot 1) (outcome env opts lateRename).2.1).1 ≠ .ok (.ref 1) := by decide +kernel

/-- Each read is independent, but options set by one script are still in effect after the next one. -/
theorem C35_options_persist : ∃ (before s : Script),
    (effectiveOptions (readAll env (new opts) [s])).any = false ∧
    (effectiveOptions (readAll env (new opts) [before, s])).any = true :=
  ⟨then' (.setArguments [.str "--any".toList]) script, script, by decide +kernel, by decide +kernel⟩

/-- Arguments that spell two settings (C36). -/
example : (exec env (.setArguments [.str "--timeout".toList, .str "1h30m".toList, .str "-g".toList]) (new opts).world).1 =
    .ok .unit := by decide +kernel
/-- Arguments of which the second is refused: the first has no effect either (C36). -/
example : (exec env (.setArguments [.str "--any".toList, .str "--timeout".toList, .str "soon".toList]) (new opts).world).1.isOk =
    false := by decide +kernel

end Wassign.ReadEx
