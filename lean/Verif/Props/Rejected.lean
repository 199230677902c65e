import Verif.Proofs.Rejected
import Verif.Props.Total
/-
C82: an input is rejected only for a reason, which the message tells; and it is rejected if there is one.
-/
namespace Wassign
open Spec Reader Build

variable {F : Type} {env : OptEnv F}

theorem unused_iff {α : Type} [Named α] {tr : List Reader.Event} {p : Pool α} {k : ObjKind} (hk : KInv k tr p) :
    (∃ b ∈ p.objs.map (·.registered), b = false) ↔ ∃ id, Given tr k id ∧ ¬ Added tr k id := by
  constructor
  · rintro ⟨b, hb, rfl⟩
    obtain ⟨o, ho, hf⟩ := List.mem_map.1 hb
    obtain ⟨id, hid⟩ := List.mem_iff_getElem?.1 ho
    refine ⟨id, (hk.given id).1 (List.getElem?_eq_some_iff.1 hid).1, fun ha => ?_⟩
    have := (hk.wf.flag id o hid).2 ((hk.added id).2 ha)
    rw [this] at hf
    cases hf
  · rintro ⟨id, hg, ha⟩
    have hlt := (hk.given id).2 hg
    refine ⟨p.objs[id].registered, List.mem_map.2 ⟨_, by simp, rfl⟩, ?_⟩
    cases hb : p.objs[id].registered with
    | false => rfl
    | true => exact absurd ((hk.added id).1 ((hk.wf.flag id p.objs[id] (by simp [hlt])).1 hb)) ha

theorem notUsed_iff {tr : List Reader.Event} {st : RState} (hi : Inv tr st) :
    (st.slots.objs.map (·.registered) ++ st.choices.objs.map (·.registered) ++ st.choosers.objs.map (·.registered)).any (fun b => !b)
      = true ↔ ∃ k id, Given tr k id ∧ ¬ Added tr k id := by
  have h1 := unused_iff hi.slots
  have h2 := unused_iff hi.choices
  have h3 := unused_iff hi.choosers
  rw [List.any_eq_true]
  constructor
  · rintro ⟨b, hb, hf⟩
    have hf : b = false := by simpa using hf
    rw [List.mem_append, List.mem_append] at hb
    rcases hb with (hb | hb) | hb
    · exact ⟨_, h1.1 ⟨b, hb, hf⟩⟩
    · exact ⟨_, h2.1 ⟨b, hb, hf⟩⟩
    · exact ⟨_, h3.1 ⟨b, hb, hf⟩⟩
  · rintro ⟨k, h⟩
    cases k with
    | slot => obtain ⟨b, hb, hf⟩ := h1.2 h; exact ⟨b, by simp [hb], by simp [hf]⟩
    | choice => obtain ⟨b, hb, hf⟩ := h2.2 h; exact ⟨b, by simp [hb], by simp [hf]⟩
    | chooser => obtain ⟨b, hb, hf⟩ := h3.2 h; exact ⟨b, by simp [hb], by simp [hf]⟩

/-- Every script describes an input. -/
theorem sync_reasons (opts : Opts F) (s : Script) : ∃ sy, sync (outcome env opts s).2.1.st = .ok sy ∧
    Describes (outcome env opts s).1 ⟨sy.sets, sy.choices, sy.choosers, sy.exprs⟩ ∧
    (sy.objects.any (fun b => !b) = true ↔ ∃ k id, Given (outcome env opts s).1 k id ∧ ¬ Added (outcome env opts s).1 k id) ∧
    (sy.choices.isEmpty = true ↔ ¬ ∃ id, Added (outcome env opts s).1 .choice id) ∧
    (sy.choosers.isEmpty = true ↔ ¬ ∃ id, Added (outcome env opts s).1 .chooser id) := by
  have hi : Inv (outcome env opts s).1 (outcome env opts s).2.1.st := outcome_inv _ _
  obtain ⟨vs, hvs, _⟩ := Pool.registered_eq hi.slots.wf.range
  obtain ⟨vc, hvc, vc1, _⟩ := Pool.registered_eq hi.choices.wf.range
  obtain ⟨vp, hvp, vp1, _⟩ := Pool.registered_eq hi.choosers.wf.range
  have hsy : sync (outcome env opts s).2.1.st = .ok {
      sets := vs.map (·.2)
      choices := vc.map (·.2)
      choosers := vp.map (·.2)
      objects := (outcome env opts s).2.1.st.slots.objs.map (·.registered) ++ (outcome env opts s).2.1.st.choices.objs.map (·.registered) ++
        (outcome env opts s).2.1.st.choosers.objs.map (·.registered)
      exprs := (outcome env opts s).2.1.st.exprs } := by
    unfold sync
    rw [hvs, hvc, hvp]
    rfl
  refine ⟨_, hsy, describes (outcome_made _ _) hsy, notUsed_iff hi, ?_, ?_⟩
  · have key : ∀ id, Added (outcome env opts s).1 .choice id ↔ id ∈ vc.map (·.1) := fun id => by rw [vc1]; exact (hi.choices.added id).symm
    simp only [key]
    cases vc with
    | nil => simp
    | cons v t => simp only [List.map_cons, List.isEmpty_cons, Bool.false_eq_true, false_iff, not_not]; exact ⟨v.1, by simp⟩
  · have key : ∀ id, Added (outcome env opts s).1 .chooser id ↔ id ∈ vp.map (·.1) := fun id => by rw [vp1]; exact (hi.choosers.added id).symm
    simp only [key]
    cases vp with
    | nil => simp
    | cons v t => simp only [List.map_cons, List.isEmpty_cons, Bool.false_eq_true, false_iff, not_not]; exact ⟨v.1, by simp⟩

/-- The two possibilities: an error with its reason, or success and no reason. -/
theorem readInput_reason (hov : env.overflow = .wraps) (r : InputReader F) (script : Script) (hh : Honest [] script)
    (hm : ∀ raw, Describes (outcome env r.world.opts script).1 raw → ManageableRaw raw) :
    (∃ msg, (readInput env r script).1 = .error (.error msg) ∧
      Reason (outcome env r.world.opts script).1 (outcome env r.world.opts script).2.2 msg) ∨
    ((∃ d, (readInput env r script).1 = .ok d) ∧
      ∀ msg, ¬ Reason (outcome env r.world.opts script).1 (outcome env r.world.opts script).2.2 msg) := by
  have np := C54_scripts_never_panic hov r.world.opts script hh
  obtain ⟨sy, hsy, hd, ho, hc, hp⟩ := sync_reasons (env := env) r.world.opts script
  have hfit := described_fit hd
  have hrd : (readInput env r script).1 = match (outcome env r.world.opts script).2.2 with
      | .failed => .error (.error "script error")
      | .panicked s => panic' s
      | .finished => finish sy := by
    have hsy' : sync (run env script { r.world with st := .empty }).2.1.st = .ok sy := hsy
    unfold readInput
    simp only
    rw [hsy']
    cases hend : (run env script { r.world with st := .empty }).2.2 <;> rfl
  rw [hrd]
  cases he : (outcome env r.world.opts script).2.2 with
  | failed => exact .inl ⟨_, rfl, .script rfl⟩
  | panicked s => exact absurd he (np s)
  | finished =>
    simp only
    unfold finish
    by_cases h1 : sy.objects.any (fun b => !b) = true
    · rw [if_pos h1]
      obtain ⟨k, id, hg, ha⟩ := ho.1 h1
      exact .inl ⟨_, rfl, .notUsed hg ha⟩
    rw [if_neg h1]
    by_cases h2 : sy.choices.isEmpty = true
    · rw [if_pos h2]
      exact .inl ⟨_, rfl, .noChoices (hc.1 h2)⟩
    rw [if_neg h2]
    by_cases h3 : sy.choosers.isEmpty = true
    · rw [if_pos h3]
      exact .inl ⟨_, rfl, .noChoosers (hp.1 h3)⟩
    rw [if_neg h3]
    have hmr := hm _ hd
    rcases build_reason (fun p hp => (hfit.1 p hp).2.1) (by
        have := hmr.parts
        show (List.map width _).sum ≤ i32Max
        unfold i32Max width
        omega) (fun e he a ha hk n hn => by
        have := hmr.numbers e he a ha hk n hn
        unfold u32Max; omega) with ⟨msg, hb, hr⟩ | ⟨hb, hr⟩
    · refine .inl ⟨msg, hb, ?_⟩
      cases hr with
      | wrongCount a b => exact .wrongCount hd a b
      | constraint a b => exact .constraint hd a b
      | slotsEqual a b => exact .slotsEqual hd a b
    · refine .inr ⟨hb, ?_⟩
      intro msg hreason
      cases hreason with
      | script h => cases h
      | notUsed hg ha => exact h1 (ho.2 ⟨_, _, hg, ha⟩)
      | noChoices h => exact h2 (hc.2 h)
      | noChoosers h => exact h3 (hp.2 h)
      | wrongCount hd' a b => cases C55_at_most_one _ _ _ hd hd'; exact hr _ (.wrongCount a b)
      | constraint hd' a b => cases C55_at_most_one _ _ _ hd hd'; exact hr _ (.constraint a b)
      | slotsEqual hd' a b => cases C55_at_most_one _ _ _ hd hd'; exact hr _ (.slotsEqual a b)

/-- **C82**: if an input is rejected, what the message says is true: an object was not added, there is no choice, no chooser, a
chooser does not have one preference per choice, a constraint uses a name that several objects have, a part that does not
exist, a negative number or a form that there is not, or two different slots are to have the same choices. -/
theorem C82_message_is_true (hov : env.overflow = .wraps) (r : InputReader F) (script : Script) (hh : Honest [] script)
    (hm : ∀ raw, Describes (outcome env r.world.opts script).1 raw → ManageableRaw raw) (f : Fault)
    (h : (readInput env r script).1 = .error f) :
    ∃ msg, f = .error msg ∧ Reason (outcome env r.world.opts script).1 (outcome env r.world.opts script).2.2 msg := by
  rcases readInput_reason hov r script hh hm with ⟨msg, h1, h2⟩ | ⟨⟨d, h1⟩, _⟩
  · rw [h] at h1
    cases h1
    exact ⟨msg, rfl, h2⟩
  · rw [h] at h1
    cases h1

/-- **C82**: an input is accepted if and only if nothing of this kind is wrong with it. -/
theorem C82_accepted_iff (hov : env.overflow = .wraps) (r : InputReader F) (script : Script) (hh : Honest [] script)
    (hm : ∀ raw, Describes (outcome env r.world.opts script).1 raw → ManageableRaw raw) :
    (∃ d, (readInput env r script).1 = .ok d) ↔
      ¬ ∃ msg, Reason (outcome env r.world.opts script).1 (outcome env r.world.opts script).2.2 msg := by
  rcases readInput_reason hov r script hh hm with ⟨msg, h1, h2⟩ | ⟨hd, h2⟩
  · rw [h1]
    exact ⟨fun ⟨d, h⟩ => (by cases h), fun h => absurd ⟨msg, h2⟩ h⟩
  · exact ⟨fun _ ⟨msg, h⟩ => h2 msg h, fun _ => hd⟩

/-- **C82**: without constraints: an input of at least one choice and one chooser, all objects added and one preference per
chooser and choice, is accepted. -/
theorem C82_plain_input_accepted (hov : env.overflow = .wraps) (r : InputReader F) (script : Script) (hh : Honest [] script)
    (hm : ∀ raw, Describes (outcome env r.world.opts script).1 raw → ManageableRaw raw)
    (hend : (outcome env r.world.opts script).2.2 = .finished)
    (hused : ∀ k id, Given (outcome env r.world.opts script).1 k id → Added (outcome env r.world.opts script).1 k id)
    (hc : ∃ id, Added (outcome env r.world.opts script).1 .choice id) (hp : ∃ id, Added (outcome env r.world.opts script).1 .chooser id)
    (hcount : ∀ raw, Describes (outcome env r.world.opts script).1 raw → ∀ p ∈ raw.choosers, p.prefs.length = raw.choices.length)
    (hcon : constraintsOf (outcome env r.world.opts script).1 = []) : ∃ d, (readInput env r script).1 = .ok d := by
  rw [C82_accepted_iff hov r script hh hm]
  rintro ⟨msg, h⟩
  cases h with
  | script h => rw [hend] at h; cases h
  | notUsed hg ha => exact ha (hused _ _ hg)
  | noChoices h => exact h hc
  | noChoosers h => exact h hp
  | wrongCount hd a b => exact b (hcount _ hd _ a)
  | constraint hd a _ => rw [hd.constraints, hcon] at a; cases a
  | slotsEqual hd a _ => rw [hd.constraints, hcon] at a; cases a

/-- **C82**: "not satisfiable" is never said of constraints that could be satisfied: if two different slots are to have the same
choices, nobody can have a choice in each slot. -/
theorem C82_really_unsatisfiable (raw : Raw) (e : CExpr) (h : SlotsEqual raw e) (d : InputData) (hd : d.slots = namesFor raw .slot)
    (hp : 0 < d.np) (s : Scheduling) (a : Assignment) (ho : OnePerSlot d s a) :
    ∃ t u, OnlyName e.left.name (namesFor raw .slot) t ∧ OnlyName e.right.name (namesFor raw .slot) u ∧
      ¬ Means d s a (.choicesIn t) .eq (.choicesIn u) := by
  obtain ⟨_, _, _, _, _, t, u, hne, h1, h2⟩ := h
  refine ⟨t, u, h1, h2, fun hmeans => ?_⟩
  have ht : t < d.ns := by
    have := findName_lt (findName_only h1)
    show t < d.slots.length
    rw [hd]; exact this
  obtain ⟨c, ⟨_, hc⟩, _⟩ := ho 0 hp t ht
  have := (hmeans c).1 hc
  rw [hc] at this
  cases this
  exact hne rfl

end Wassign

/-! ## The hypotheses are met -/
namespace Wassign.RejectEx
open Spec Reader Build MainEx ReadEx

def message (s : Script) : Option String := match (readInput MainEx.outside.opt (new ReadEx.opts) s).1 with
  | .error (.error m) => some m
  | _ => none

/-- The accepted script of C49 meets the hypotheses, so nothing is wrong with it. -/
example : ¬ ∃ msg, Reason (outcome MainEx.outside.opt ReadEx.opts MainEx.script).1 (outcome MainEx.outside.opt ReadEx.opts MainEx.script).2.2 msg :=
  (C82_accepted_iff rfl (new ReadEx.opts) MainEx.script MainEx.honest (fun raw h => (MainEx.manageable raw h).1)).1
    ⟨_, MainEx.read_ok⟩

/-- Two slots that are to have the same choices. -/
def equalSlots : Script :=
  given (.slot "Monday".toList) fun s => then' (.add .slot s) <|
  given (.slot "Tuesday".toList) fun t => then' (.add .slot t) <|
  given (.choice "Chess".toList []) fun a => then' (.add .choice a) <|
  given (.chooser "Ann".toList (prefs [1])) fun p => then' (.add .chooser p) <|
  then' (.addExpr ⟨⟨.slot, .choice, "Monday".toList, 0⟩, .eq, ⟨.slot, .choice, "Tuesday".toList, 0⟩⟩) .done

theorem honest : Honest [] equalSlots := by
  refine ⟨by simp [mentions], by simp, fun r => ?_⟩
  rcases r with _ | _ | s | _ <;> try exact trivial
  refine ⟨by simp [mentions, asksFor], by simp, fun r => ?_⟩
  rcases r with _ | _
  · exact trivial
  refine ⟨by simp [mentions], by simp, fun r => ?_⟩
  rcases r with _ | _ | s | _ <;> try exact trivial
  refine ⟨by simp [mentions, asksFor], by simp, fun r => ?_⟩
  rcases r with _ | _
  · exact trivial
  refine ⟨by simp [mentions], (by rintro n tags h t ht; cases h; cases ht), fun r => ?_⟩
  rcases r with _ | _ | a | _ <;> try exact trivial
  refine ⟨by simp [mentions, asksFor], by simp, fun r => ?_⟩
  rcases r with _ | _
  · exact trivial
  refine ⟨by simp [mentions], by simp, fun r => ?_⟩
  rcases r with _ | _ | p | _ <;> try exact trivial
  refine ⟨by simp [mentions, asksFor], by simp, fun r => ?_⟩
  rcases r with _ | _
  · exact trivial
  refine ⟨by simp [mentions, asksFor], by simp, fun r => ?_⟩
  rcases r with _ | _
  · exact trivial
  · exact trivial

def synced : Synced := match sync (outcome MainEx.outside.opt ReadEx.opts equalSlots).2.1.st with
  | .ok s => s
  | .error _ => ⟨[], [], [], [], []⟩

theorem manageable (raw : Raw) (h : Describes (outcome MainEx.outside.opt ReadEx.opts equalSlots).1 raw) : ManageableRaw raw := by
  have hs : sync (outcome MainEx.outside.opt ReadEx.opts equalSlots).2.1.st = .ok synced := by
    have h : (sync (outcome MainEx.outside.opt ReadEx.opts equalSlots).2.1.st).isOk = true := by decide +kernel
    unfold synced
    cases e : sync (outcome MainEx.outside.opt ReadEx.opts equalSlots).2.1.st with
    | ok s => rfl
    | error f => rw [e] at h; cases h
  have := C55_at_most_one _ _ _ h (describes (outcome_made _ _) hs)
  subst this
  refine ⟨by decide +kernel, ?_⟩
  intro e he a ha hk n hn
  have : synced.exprs = [⟨⟨.slot, .choice, "Monday".toList, 0⟩, .eq, ⟨.slot, .choice, "Tuesday".toList, 0⟩⟩] := by decide +kernel
  rw [this] at he
  have := List.mem_singleton.1 he
  subst this
  rcases ha with rfl | rfl <;> cases hk

/-- It is rejected, and for the right reason. -/
example : Reason (outcome MainEx.outside.opt ReadEx.opts equalSlots).1 (outcome MainEx.outside.opt ReadEx.opts equalSlots).2.2
    "The given constraints are not satisfiable." := by
  have hmsg : message equalSlots = some "The given constraints are not satisfiable." := by decide +kernel
  unfold message at hmsg
  split at hmsg
  · rename_i m hm
    cases hmsg
    obtain ⟨msg, h1, h2⟩ := C82_message_is_true rfl (new ReadEx.opts) equalSlots honest manageable _ hm
    cases h1
    exact h2
  · cases hmsg

/-- One choice with two parts, one chooser, and a constraint. -/
def withExpr (e : CExpr) : Script :=
  given (.slot "Monday".toList) fun s => then' (.add .slot s) <|
  given (.choice "Chess".toList [tagInt .parts 2]) fun a => then' (.add .choice a) <|
  given (.choice "Chess club".toList []) fun a => then' (.add .choice a) <|
  given (.chooser "Ann".toList (prefs [1, 1])) fun p => then' (.add .chooser p) <|
  then' (.addExpr e) .done

/-- All the messages occur. -/
example : [message .fail,
    message (given (.slot "Monday".toList) fun _ => .done),
    message .done,
    message (given (.choice "Chess".toList []) fun a => then' (.add .choice a) .done),
    message (given (.choice "Chess".toList []) fun a => then' (.add .choice a) <|
      given (.chooser "Ann".toList (prefs [1, 2])) fun p => then' (.add .chooser p) .done),
    message (withExpr ⟨⟨.choice, .slot, "Che".toList, 0⟩, .eq, ⟨.slot, .notSet, "Monday".toList, 0⟩⟩),
    message (withExpr ⟨⟨.choice, .slot, "Chess".toList, 2⟩, .eq, ⟨.slot, .notSet, "Monday".toList, 0⟩⟩),
    message (withExpr ⟨⟨.slot, .size, "Monday".toList, 0⟩, .leq, ⟨.integer, .notSet, "-1".toList, 0⟩⟩),
    message (withExpr ⟨⟨.choice, .slot, "Chess".toList, 0⟩, .leq, ⟨.slot, .notSet, "Monday".toList, 0⟩⟩)] =
  [some "script error", some "Newly created object not used. Did you try to access an existing one instead of creating a new one?", some "No choices defined in input.", some "No choosers defined in input.",
    some "Wrong number of preferences given for chooser \"Ann\".", some "The name \"Che\" is ambiguous.",
    some "The given choice doesn't have a part 2.",
    some "invalid digit found in string", some "Unsupported constraint."] := by decide +kernel

end Wassign.RejectEx
