import Verif.Spec.Stated
import Verif.Props.Made
import Verif.Props.Main
/-
C68: a constraint is about the objects it was written with.
-/
namespace Wassign
open Spec Reader Rhai Build

variable {F : Type} {env : OptEnv F}

/-- Every call of a run was made in a state that fits the calls before it. -/
theorem run_split : ∀ (s : Script) (w : World F) (tr0 : List Reader.Event), Made tr0 w.st → ∀ (pre : List Reader.Event) (e : Reader.Event)
    (post : List Reader.Event), (run env s w).1 = pre ++ e :: post →
    ∃ w1 w2 r, Made (tr0 ++ pre) w1.st ∧ exec env e.op w1 = (r, w2) ∧ replyOf r = e.reply := by
  intro s
  induction s with
  | done => intro w tr0 _ pre e post h; simp [run] at h
  | fail => intro w tr0 _ pre e post h; simp [run] at h
  | call op next ih =>
    intro w tr0 hm pre e post h
    have step : ∀ (x : Option Reply) (r : R Reply) (w' : World F), exec env op w = (r, w') → replyOf r = x →
        (⟨op, x⟩ :: (run env (next x) w').1 : List Reader.Event) = pre ++ e :: post →
        ∃ w1 w2 r, Made (tr0 ++ pre) w1.st ∧ exec env e.op w1 = (r, w2) ∧ replyOf r = e.reply := by
      intro x r w' he hr h
      cases pre with
      | nil =>
        simp only [List.nil_append, List.cons.injEq] at h
        exact ⟨w, w', r, by simpa using hm, by rw [← h.1]; exact he, by rw [← h.1]; exact hr⟩
      | cons p ps =>
        simp only [List.cons_append, List.cons.injEq] at h
        have h' := hm.next he
        rw [hr] at h'
        obtain ⟨w1, w2, r', i1, i2, i3⟩ := ih x w' _ h' ps e post h.2
        refine ⟨w1, w2, r', ?_, i2, i3⟩
        rw [← h.1]
        simpa using i1
    rw [run] at h
    split at h
    · rename_i r w' he
      exact step (some r) (.ok r) w' he rfl h
    · rename_i msg w' he
      exact step none _ w' he rfl h
    · simp at h

theorem outcome_split {opts : Opts F} {s : Script} {pre post : List Reader.Event} {op : Op} {x : Reply}
    (h : (outcome env opts s).1 = pre ++ ⟨op, some x⟩ :: post) :
    ∃ w1 w2, Made pre w1.st ∧ exec env op w1 = (.ok x, w2) := by
  obtain ⟨w1, w2, r, h1, h2, h3⟩ := run_split (env := env) s ⟨.empty, opts⟩ [] Made.empty pre _ post h
  cases r with
  | error f => cases h3
  | ok y =>
    cases h3
    exact ⟨w1, w2, by simpa using h1, h2⟩

/-! ### Names -/

theorem nameAfter_keep {k : ObjKind} {id : Nat} {start : Str} {post rest : List Reader.Event}
    (h : ∀ e ∈ rest, ∀ n, e.op = .setName k id n → e.reply = none) :
    nameAfter k id start (post ++ rest) = nameAfter k id start post := by
  unfold nameAfter
  rw [List.filterMap_append]
  congr 1
  rw [List.append_right_eq_self, List.filterMap_eq_nil_iff]
  intro e he
  obtain ⟨op, r⟩ := e
  cases op with
  | setName k' id' n =>
    cases r with
    | none => rfl
    | some r =>
      simp only
      split
      · rename_i hc
        obtain ⟨rfl, rfl⟩ := hc
        have := h _ he n rfl
        cases this
      · rfl
  | _ => rfl

theorem firstGiven_more {pre post : List Reader.Event} {k : ObjKind} {id : Nat} {op : Op} (h : FirstGiven pre k id op post)
    (rest : List Reader.Event) : FirstGiven (pre ++ rest) k id op (post ++ rest) := by
  obtain ⟨p, h1, h2⟩ := h
  exact ⟨p, by rw [h1]; simp, h2⟩

theorem first_kept {tr pre post post' : List Reader.Event} {k : ObjKind} {id : Nat} {op op' : Op} {n n' : Str}
    (h : FirstGiven pre k id op post) (ha : asksFor op = some (k, n)) (hk : Keeps tr pre k id)
    (h' : FirstGiven tr k id op' post') (ha' : asksFor op' = some (k, n')) :
    nameAfter k id n' post' = nameAfter k id n post := by
  obtain ⟨rest, rfl, hr⟩ := hk
  obtain ⟨rfl, rfl⟩ := firstGiven_unique (firstGiven_more h rest) h' ha ha'
  rw [ha] at ha'
  cases ha'
  exact nameAfter_keep hr

/-- The names of the objects of the input. -/
def rawNames (raw : Raw) : ObjKind → List Str
  | .slot => raw.slots
  | .choice => raw.choices.map (·.name)
  | .chooser => raw.choosers.map (·.name)

theorem forall₂_at {α β : Type} {P : α → β → Prop} {l : List α} {m : List β} (h : List.Forall₂ P l m) {i : Nat} {a : α}
    (ha : l[i]? = some a) : ∃ b, m[i]? = some b ∧ P a b := by
  induction h generalizing i with
  | nil => simp at ha
  | cons h1 _ ih =>
    cases i with
    | zero => simp at ha; subst ha; exact ⟨_, rfl, h1⟩
    | succ i => simpa using ih (by simpa using ha)

theorem kmade_name {α : Type} [Named α] {k : ObjKind} {D : Op → α → Prop} {tr : List Reader.Event} {p : Pool α}
    (hm : KMade k D tr p) (hnr : ∀ (x : α) (n : Str), Named.name (Named.rename x n) = n) {id : Nat} {s : Str}
    (h : p.nameOf id = .ok s) : ∃ op n post, FirstGiven tr k id op post ∧ asksFor op = some (k, n) ∧ s = nameAfter k id n post := by
  unfold Pool.nameOf at h
  rw [R.bind_eq_ok] at h
  obtain ⟨o, ho, h⟩ := h
  cases h
  obtain ⟨op, n, x, post, h1, h2, _, _, h5⟩ := hm id o (idx_eq_ok.1 ho)
  exact ⟨op, n, post, h1, h2, by rw [h5, hnr]⟩

/-- The name an object has when it is used is the name of that object in the input, if it is not renamed afterwards. -/
theorem name_kept {tr pre : List Reader.Event} {raw : Raw} {st : RState} (hd : Describes tr raw) (hm : Made pre st) {k : ObjKind}
    {id i : Nat} {s : Str} (hs : nameValue st k id = .ok s) (hk : Keeps tr pre k id) (hn : Numbered tr k id i) :
    (rawNames raw k)[i]? = some s := by
  cases k with
  | slot =>
    obtain ⟨op, n, post, h1, h2, h3⟩ := kmade_name hm.slots (fun _ _ => rfl) hs
    obtain ⟨x, hx, n', post', g1, g2⟩ := forall₂_at hd.slots hn
    rw [h3, ← first_kept h1 h2 hk g1 rfl, ← g2]
    exact hx
  | choice =>
    obtain ⟨op, n, post, h1, h2, h3⟩ := kmade_name hm.choices (fun _ _ => rfl) hs
    obtain ⟨x, hx, n', tags, post', g1, g2, _⟩ := forall₂_at hd.choices hn
    rw [h3, ← first_kept h1 h2 hk g1 rfl, ← g2]
    simp [rawNames, hx]
  | chooser =>
    obtain ⟨op, n, post, h1, h2, h3⟩ := kmade_name hm.choosers (fun _ _ => rfl) hs
    obtain ⟨x, hx, n', prefs, post', g1, g2, _⟩ := forall₂_at hd.choosers hn
    rw [h3, ← first_kept h1 h2 hk g1 rfl, ← g2]
    simp [rawNames, hx]

/-! ### The input data -/

/-- How the input data `d` is made from `raw`, as far as names are concerned. -/
structure Laid (raw : Raw) (d : InputData) : Prop where
  slots : ∀ (i : Nat) (n : Str), raw.slots[i]? = some n → d.slots[i]? = some n
  choices : ∀ (k : Nat) (n : Str) (c : Nat), (raw.choices.map (·.name))[k]? = some n → IsPart raw.choices k 0 c → (d.choices.map (·.name))[c]? = some n
  choosers : ∀ (i : Nat) (n : Str), (raw.choosers.map (·.name))[i]? = some n → (d.choosers.map (·.name))[i]? = some n
  next : ∀ k j c, IsPart raw.choices k j c → ∃ ch, d.choices[c]? = some ch ∧
    ∀ n, ch.continuation = some n ↔ n = c + 1 ∧ IsPart raw.choices k (j + 1) (c + 1)

theorem laid {raw : Raw} {d : InputData} (hmax : ∀ p ∈ raw.choices, p.max ≤ u32Max) (h : build raw = .ok d) : Laid raw d := by
  obtain ⟨m, written, hb⟩ := build_spec hmax h
  obtain ⟨_, _, _, _, hch, _⟩ := C48_well_formed raw d hmax h
  refine ⟨?_, ?_, ?_, ?_⟩
  · intro i n hi
    rw [hb.slots]
    cases hr : raw.slots with
    | nil => rw [hr] at hi; simp at hi
    | cons a t => rw [hr] at hi; simpa using hi
  · intro k n c hn hc
    rw [List.getElem?_map, Option.map_eq_some_iff] at hn
    obtain ⟨p, hp, rfl⟩ := hn
    obtain ⟨ch, h1, _, h3, _⟩ := hch k 0 c p hc hp
    rw [List.getElem?_map, h1, ← h3 rfl]
    rfl
  · intro i n hn
    rw [List.getElem?_map, Option.map_eq_some_iff] at hn
    obtain ⟨p, hp, rfl⟩ := hn
    obtain ⟨hlt, he⟩ := List.getElem?_eq_some_iff.1 hp
    obtain ⟨ch, h1, h2, _⟩ := hb.names i hlt
    rw [List.getElem?_map, h1, ← he, ← h2]
    rfl
  · intro k j c hc
    obtain ⟨p, hp, hj, hcc⟩ := hc
    obtain ⟨ch, h1, _, _, h4⟩ := hch k j c p ⟨p, hp, hj, hcc⟩ hp
    refine ⟨ch, h1, fun n => ?_⟩
    rw [h4]
    constructor
    · intro hn
      split at hn
      · rename_i hlt
        cases hn
        exact ⟨rfl, p, hp, hlt, by omega⟩
      · cases hn
    · rintro ⟨rfl, p', hp', hlt, _⟩
      rw [hp] at hp'
      cases hp'
      rw [if_pos hlt]

theorem Laid.part {raw : Raw} {d : InputData} (hl : Laid raw d) {k : Nat} : ∀ (m : Nat) {j c : Nat}, IsPart raw.choices k j c →
    IsPart raw.choices k (j + m) (c + m) → Part d c m (c + m) := by
  intro m
  induction m with
  | zero => intro j c _ _; exact .zero c
  | succ m ih =>
    intro j c h h'
    obtain ⟨ch, h1, h2⟩ := hl.next k j c h
    have hnext : IsPart raw.choices k (j + 1) (c + 1) := by
      obtain ⟨p, a1, a2, a3⟩ := h
      obtain ⟨p', b1, b2, _⟩ := h'
      rw [a1] at b1
      cases b1
      exact ⟨p, a1, by omega, by omega⟩
    have := ih hnext (by
      have e1 : j + 1 + m = j + (m + 1) := by omega
      have e2 : c + 1 + m = c + (m + 1) := by omega
      rw [e1, e2]; exact h')
    have e2 : c + 1 + m = c + (m + 1) := by omega
    rw [e2] at this
    exact .succ h1 ((h2 _).2 ⟨rfl, hnext⟩) this

theorem isPart_zero {ps : List Proto} {k j c : Nat} (h : IsPart ps k j c) : IsPart ps k 0 (c - j) ∧ c - j + j = c := by
  obtain ⟨p, h1, h2, h3⟩ := h
  exact ⟨⟨p, h1, by omega, by omega⟩, by omega⟩

theorem Laid.from_zero {raw : Raw} {d : InputData} (hl : Laid raw d) {k j c : Nat} (h : IsPart raw.choices k j c) :
    Part d (c - j) j c := by
  obtain ⟨h0, e⟩ := isPart_zero h
  have := hl.part j h0 (by rw [Nat.zero_add, e]; exact h)
  rwa [e] at this

/-! ### Accessors -/

theorem object_denotes {tr pre : List Reader.Event} {raw : Raw} {d : InputData} {st : RState} (hd : Describes tr raw) (hl : Laid raw d)
    (hm : Made pre st) {k : ObjKind} {id : Nat} {s : Str} {o : Operand} (hs : nameValue st k id = .ok s)
    (ho : ObjectIs tr raw.choices k id o) (hk : Keeps tr pre k id) : Denotes d (objAcc k s) o ∧ o.simple = true ∧ ∀ n, o ≠ .number n := by
  cases ho with
  | slot hn => exact ⟨.theSlot (hl.slots _ _ (name_kept hd hm hs hk hn)), rfl, by simp⟩
  | choice hn hp => exact ⟨.theChoice (hl.choices _ _ _ (name_kept hd hm hs hk hn) hp), rfl, by simp⟩
  | chooser hn => exact ⟨.theChooser (hl.choosers _ _ (name_kept hd hm hs hk hn)), rfl, by simp⟩

theorem usizeOfInt_nat (j : Nat) : usizeOfInt (j : Int) = .ok j := by
  unfold usizeOfInt
  rw [if_pos (by omega)]
  simp

theorem property_denotes {tr pre : List Reader.Event} {raw : Raw} {d : InputData} {st : RState} (hd : Describes tr raw) (hl : Laid raw d)
    (hm : Made pre st) {k : ObjKind} {id : Nat} {a : Attr} {x : Accessor} {o : Operand} (hs : attr st k id a = .ok x)
    (ho : PropertyIs tr raw.choices k id a o) (hk : Keeps tr pre k id) : Denotes d x o ∧ o.simple = false := by
  unfold attr at hs
  rw [R.bind_eq_ok] at hs
  obtain ⟨s, hs, h⟩ := hs
  cases ho with
  | choicesIn hn => cases h; exact ⟨.choicesIn (hl.slots _ _ (name_kept hd hm hs hk hn)), rfl⟩
  | sizeOf hn => cases h; exact ⟨.sizeOf (hl.slots _ _ (name_kept hd hm hs hk hn)), rfl⟩
  | slotOf hn hp => cases h; exact ⟨.slotOf (hl.choices _ _ _ (name_kept hd hm hs hk hn) hp) (.zero _), rfl⟩
  | slotOfPart hn hp =>
    simp only [choiceSlotPart, usizeOfInt_nat, R.bind_ok] at h
    cases h
    exact ⟨.slotOf (hl.choices _ _ _ (name_kept hd hm hs hk hn) (isPart_zero hp).1) (hl.from_zero hp), rfl⟩
  | attendeesOf hn hp => cases h; exact ⟨.attendeesOf (hl.choices _ _ _ (name_kept hd hm hs hk hn) hp) (.zero _), rfl⟩
  | attendeesOfPart hn hp =>
    simp only [choiceChoosersPart, usizeOfInt_nat, R.bind_ok] at h
    cases h
    exact ⟨.attendeesOf (hl.choices _ _ _ (name_kept hd hm hs hk hn) (isPart_zero hp).1) (hl.from_zero hp), rfl⟩
  | attendedBy hn => cases h; exact ⟨.attendedBy (hl.choosers _ _ (name_kept hd hm hs hk hn)), rfl⟩

theorem exec_attr {w w' : World F} {k : ObjKind} {id : Nat} {a : Attr} {y : Reply}
    (h : exec env (.attr k id a) w = (.ok y, w')) : ∃ x, attr w.st k id a = .ok x ∧ y = .accessor x := by
  have e : exec env (.attr k id a) w = _ :=
    onX (M.lift (attr w.st k id a)) Reply.accessor (M.lift (attr w.st k id a)) (w := w) (s := ()) rfl
  rw [e] at h
  have h := congrArg Prod.fst h
  simp only at h
  cases hx : attr w.st k id a with
  | error f => rw [hx] at h; cases h
  | ok x => rw [hx] at h; cases h; exact ⟨x, rfl, rfl⟩

theorem exec_relate {w w' : World F} {symbol : String} {l r : Term} {y : Reply}
    (h : exec env (.relate symbol l r) w = (.ok y, w')) : ∃ x, relate w.st symbol l r = .ok x ∧ y = .expr x := by
  have e : exec env (.relate symbol l r) w = _ :=
    onX (M.lift (relate w.st symbol l r)) Reply.expr (M.lift (relate w.st symbol l r)) (w := w) (s := ()) rfl
  rw [e] at h
  have h := congrArg Prod.fst h
  simp only at h
  cases hx : relate w.st symbol l r with
  | error f => rw [hx] at h; cases h
  | ok x => rw [hx] at h; cases h; exact ⟨x, rfl, rfl⟩

theorem relationOf_some {symbol : String} {rel : RelT} (h : relationOf symbol = some rel) :
    symbolOf rel = symbol ∧ rel ≠ .contains ∧ rel ≠ .notContains := by
  unfold relationOf at h
  simp only [List.lookup] at h
  repeat' split at h
  all_goals first
    | (rename_i e; cases h; rw [beq_iff_eq] at e; subst e; exact ⟨rfl, by decide, by decide⟩)
    | cases h

theorem containmentOf_some {symbol : String} {rel : RelT} (h : containmentOf symbol = some rel) :
    symbolOf rel = symbol ∧ (rel = .contains ∨ rel = .notContains) := by
  unfold containmentOf at h
  simp only [List.lookup] at h
  repeat' split at h
  all_goals first
    | (rename_i e; cases h; rw [beq_iff_eq] at e; subst e; exact ⟨rfl, by simp⟩)
    | cases h

/-- The accessor a value of the script is turned into. -/
inductive TermAcc (st : RState) : Term → Accessor → Prop
  | obj {k : ObjKind} {id : Nat} {s : Str} : nameValue st k id = .ok s → TermAcc st (.obj k id) (objAcc k s)
  | acc (a : Accessor) : TermAcc st (.acc a) a
  | int (v : Int) : TermAcc st (.int v) (intAcc v)

/-- Which constraints can be written. -/
def Shape (l : Term) (rel : RelT) (r : Term) : Prop :=
  ((rel ≠ .contains ∧ rel ≠ .notContains) ∧ ((∃ a, l = .acc a) ∨ (∃ a, r = .acc a))) ∨
  ((rel = .contains ∨ rel = .notContains) ∧ (∃ a, l = .acc a) ∧ ∃ k id, r = .obj k id)

theorem relate_ok {st : RState} {symbol : String} {l r : Term} {e : CExpr} (h : relate st symbol l r = .ok e) :
    symbolOf e.rel = symbol ∧ TermAcc st l e.left ∧ TermAcc st r e.right ∧ Shape l e.rel r := by
  unfold relate at h
  split at h
  · rename_i rel hrel
    obtain ⟨h1, h2⟩ := relationOf_some hrel
    split at h
    · cases h; exact ⟨h1, .acc _, .acc _, .inl ⟨h2, .inl ⟨_, rfl⟩⟩⟩
    · rw [R.bind_eq_ok] at h
      obtain ⟨n, hn, h⟩ := h
      cases h; exact ⟨h1, .acc _, .obj hn, .inl ⟨h2, .inl ⟨_, rfl⟩⟩⟩
    · rw [R.bind_eq_ok] at h
      obtain ⟨n, hn, h⟩ := h
      cases h; exact ⟨h1, .obj hn, .acc _, .inl ⟨h2, .inr ⟨_, rfl⟩⟩⟩
    · cases h; exact ⟨h1, .acc _, .int _, .inl ⟨h2, .inl ⟨_, rfl⟩⟩⟩
    · cases h; exact ⟨h1, .int _, .acc _, .inl ⟨h2, .inr ⟨_, rfl⟩⟩⟩
    · cases h
  · split at h
    · rename_i rel hrel
      obtain ⟨h1, h2⟩ := containmentOf_some hrel
      split at h
      · rw [R.bind_eq_ok] at h
        obtain ⟨n, hn, h⟩ := h
        cases h; exact ⟨h1, .acc _, .obj hn, .inr ⟨h2, ⟨_, rfl⟩, _, _, rfl⟩⟩
      · cases h
    · cases h

/-- What a value of the script stands for is what its accessor denotes. -/
theorem stands_denotes {opts : Opts F} {s : Script} {raw : Raw} {d : InputData} {pre post : List Reader.Event} {st : RState}
    (htr : (outcome env opts s).1 = pre ++ post) (hd : Describes (outcome env opts s).1 raw) (hl : Laid raw d)
    (hm : Made pre st) {t : Term} {x : Accessor} {o : Operand} (hx : TermAcc st t x)
    (hs : Stands (outcome env opts s).1 raw.choices pre t o) :
    Denotes d x o ∧ ((∃ a, t = .acc a) → o.simple = false) ∧ ((∃ k id, t = .obj k id) → o.simple = true ∧ ∀ n, o ≠ .number n) := by
  cases hs with
  | obj ho hk =>
    cases hx with
    | obj hn =>
      obtain ⟨h1, h2⟩ := object_denotes hd hl hm hn ho hk
      exact ⟨h1, (by rintro ⟨a, ha⟩; cases ha), fun _ => h2⟩
  | int hn =>
    cases hx
    exact ⟨.number _ hn, (by rintro ⟨a, ha⟩; cases ha), (by rintro ⟨k, id, ha⟩; cases ha)⟩
  | @acc before after k id a y o hpre ho hk =>
    cases hx
    rw [hpre, List.append_assoc, List.cons_append] at htr
    obtain ⟨w1, w2, hm', he⟩ := outcome_split htr
    obtain ⟨y, hy, e⟩ := exec_attr he
    cases e
    obtain ⟨h1, h2⟩ := property_denotes hd hl hm' hy ho hk
    exact ⟨h1, fun _ => h2, (by rintro ⟨k, id, ha⟩; cases ha)⟩

theorem constructible_of_shape {l r : Term} {rel : RelT} {ol or : Operand} (h : Shape l rel r)
    (h1 : (∃ a, l = .acc a) → ol.simple = false) (h2 : (∃ a, r = .acc a) → or.simple = false)
    (h3 : (∃ k id, r = .obj k id) → or.simple = true ∧ ∀ n, or ≠ .number n) : Constructible ol rel or := by
  rcases h with ⟨⟨n1, n2⟩, h⟩ | ⟨hc, ha, hb⟩
  · have : ol.simple = false ∨ or.simple = false := h.imp h1 h2
    cases rel <;> first | exact this | exact absurd rfl n1 | exact absurd rfl n2
  · have : ol.simple = false ∧ or.simple = true ∧ ∀ n, or ≠ .number n := ⟨h1 ha, h3 hb⟩
    rcases hc with rfl | rfl <;> exact this

/-- **C68** (what a constraint says): the constraint made by `l symbol r` relates the objects `l` and `r` stand for, by
the relation of that symbol. -/
theorem C68_says_what_was_written (rd : InputReader F) (s : Script) (d : InputData) (h : (readInput env rd s).1 = .ok d) :
    let tr := (outcome env rd.world.opts s).1
    ∃ raw, Describes tr raw ∧ build raw = .ok d ∧
      ∀ pre symbol l r e post ol or, tr = pre ++ ⟨.relate symbol l r, some (.expr e)⟩ :: post →
        Stands tr raw.choices pre l ol → Stands tr raw.choices pre r or → symbolOf e.rel = symbol ∧ Says d e ol or := by
  intro tr
  obtain ⟨raw, hd, hb⟩ := C55_input_as_described rd s d h
  have hl := laid (fun p hp => ((described_fit hd).1 p hp).2.1) hb
  refine ⟨raw, hd, hb, ?_⟩
  intro pre symbol l r e post ol or htr h1 h2
  obtain ⟨w1, w2, hm, he⟩ := outcome_split htr
  obtain ⟨e', he, hee⟩ := exec_relate he
  cases hee
  obtain ⟨g1, g2, g3, g4⟩ := relate_ok he
  obtain ⟨a1, a2, a3⟩ := stands_denotes htr hd hl hm g2 h1
  obtain ⟨b1, b2, b3⟩ := stands_denotes htr hd hl hm g3 h2
  exact ⟨g1, a1, b1, constructible_of_shape g4 a2 b2 b3⟩

/-! ### Every constraint of an accepted script -/

theorem parseUsize_int {v : Int} {n : Nat} (hv : v ≤ 9223372036854775807) (h : parseUsize (intStr v) = some n) : v = n := by
  by_cases hneg : v < 0
  · exfalso
    unfold intStr at h
    rw [if_pos hneg] at h
    simp [parseUsize, parseUnsigned, digitsVal, isDigit] at h
  · obtain ⟨m, rfl⟩ := Int.eq_ofNat_of_zero_le (by omega : 0 ≤ v)
    rw [parseUsize_intStr (by unfold usizeMax; omega)] at h
    cases h
    rfl

theorem tableKind_kinds {e : CExpr} {x : Kind × Extra} (h : tableKind e = some x) :
    (e.left.kind = .slot ∨ e.left.kind = .choice ∨ e.left.kind = .chooser) ∧
    (e.right.kind = .slot ∨ e.right.kind = .choice ∨ e.right.kind = .chooser ∨ e.right.kind = .integer) := by
  unfold tableKind at h
  split at h <;> first | (cases h; done) | (cases h; simp_all; done) | (simp_all; done)

/-- If names are found, both accessors of an accepted expression resolve, and its number has 32 bits. -/
def Resolves (d : InputData) (x : Accessor) : Prop :=
  (∃ y, resolveAccessor d x = .ok y) ∧ (x.kind = .integer → ∃ n, n ≤ u32Max ∧ parseUsize x.name = some n)

theorem addConstraint_resolved {d : InputData} {e : CExpr} {k : Kind} {x : Extra} {L : List Constraint}
    (h : addConstraint d e k x = .ok L) (hk : tableKind e = some (k, x))
    (hr : ∀ y, resolveAccessor d e.right = .ok y → y ≠ none) : Resolves d e.left ∧ Resolves d e.right := by
  obtain ⟨hkl, hkr⟩ := tableKind_kinds hk
  unfold addConstraint at h
  rw [R.bind_eq_ok] at h
  obtain ⟨t, ht, h⟩ := h
  have right : Resolves d e.right ∧ t ≠ none := by
    unfold resolveRight at ht
    rcases hkr with e1 | e1 | e1 | e1
    case inr.inr.inr =>
      rw [e1] at ht
      simp only [R.bind_eq_ok] at ht
      obtain ⟨y, hy, ht⟩ := ht
      have hy0 := hr y hy
      cases y with
      | none => exact absurd rfl hy0
      | some n =>
        simp only [R.bind_eq_ok] at ht
        obtain ⟨l, hl, ht⟩ := ht
        cases ht
        refine ⟨⟨⟨_, hy⟩, fun _ => ?_⟩, by simp⟩
        unfold resolveAccessor at hy
        rw [e1] at hy
        simp only at hy
        cases hp : parseUsize e.right.name with
        | none => rw [hp] at hy; cases hy
        | some m =>
          rw [hp] at hy
          cases hy
          refine ⟨n, ?_, rfl⟩
          unfold toU32 at hl
          split at hl
          · assumption
          · cases hl
    all_goals
      rw [e1] at ht
      simp only [R.bind_eq_ok] at ht
      obtain ⟨y, hy, ht⟩ := ht
      have hy0 := hr y hy
      cases y with
      | none => exact absurd rfl hy0
      | some n =>
        cases ht
        exact ⟨⟨⟨_, hy⟩, by rw [e1]; intro hc; cases hc⟩, by simp⟩
  cases t with
  | none => exact absurd rfl right.2
  | some t =>
    simp only [R.bind_eq_ok] at h
    obtain ⟨y, hy, _⟩ := h
    refine ⟨⟨⟨y, hy⟩, ?_⟩, right.1⟩
    intro hc
    rw [hc] at hkl
    simp at hkl

theorem buildExpr_resolved {d : InputData} {e : CExpr} {L : List Constraint} (h : buildExpr d e = .ok L)
    (hf : ∀ x, x = e.left ∨ x = e.right → ∀ y, resolveAccessor d x = .ok y → y ≠ none) :
    Resolves d e.left ∧ Resolves d e.right := by
  unfold buildExpr at h
  split at h
  · rename_i k x hk
    exact addConstraint_resolved h hk (hf _ (.inr rfl))
  · split at h
    · rename_i k x hk
      exact (addConstraint_resolved (e := e.swap) h hk (hf _ (.inl rfl))).symm
    · cases h

theorem reply_of_bind {β τ : Type} (m : M τ β) (f : β → Reply) {w w' : τ} {y : Reply}
    (h : (do
      let b ← m
      pure (f b) : M τ Reply) w = (.ok y, w')) : ∃ b, y = f b := by
  rw [M.bind_def] at h
  generalize m w = x at h
  rcases x with ⟨r, w1⟩
  cases r with
  | error e => cases h
  | ok b => cases h; exact ⟨b, rfl⟩

/-- Properties and constraints are answers to these calls only. -/
theorem exec_kind {w w' : World F} {op : Op} {y : Reply} (h : exec env op w = (.ok y, w')) :
    (∀ x, y = .accessor x → ∃ k id a, op = .attr k id a) ∧ (∀ x, y = .expr x → ∃ symbol l r, op = .relate symbol l r) := by
  have other : ∀ (P : Prop), (∃ b, y = .ref b) ∨ (∃ b, y = .name b) ∨ y = .unit →
      (∀ x, y = .accessor x → P) := by
    intro P h x hx
    rcases h with ⟨b, rfl⟩ | ⟨b, rfl⟩ | rfl <;> cases hx
  have other' : ∀ (P : Prop), (∃ b, y = .ref b) ∨ (∃ b, y = .name b) ∨ y = .unit →
      (∀ x, y = .expr x → P) := by
    intro P h x hx
    rcases h with ⟨b, rfl⟩ | ⟨b, rfl⟩ | rfl <;> cases hx
  cases op with
  | attr k id a =>
    refine ⟨fun _ _ => ⟨k, id, a, rfl⟩, ?_⟩
    obtain ⟨x, _, rfl⟩ := exec_attr h
    intro x hx
    cases hx
  | relate symbol l r =>
    refine ⟨?_, fun _ _ => ⟨symbol, l, r, rfl⟩⟩
    obtain ⟨x, _, rfl⟩ := exec_relate h
    intro x hx
    cases hx
  | slot n =>
    have := reply_of_bind (onSlots (findOrPush n n)) Reply.ref h
    exact ⟨fun x hx => other _ (.inl this) x hx, fun x hx => other' _ (.inl this) x hx⟩
  | choice n tags =>
    have := reply_of_bind (onChoices (choice n tags)) Reply.ref h
    exact ⟨fun x hx => other _ (.inl this) x hx, fun x hx => other' _ (.inl this) x hx⟩
  | chooser n prefs =>
    have := reply_of_bind (onChoosers (chooser n prefs)) Reply.ref h
    exact ⟨fun x hx => other _ (.inl this) x hx, fun x hx => other' _ (.inl this) x hx⟩
  | add k id =>
    have : ∃ b, y = .ref b := by
      cases k with
      | slot => obtain ⟨_, e⟩ := reply_of_bind (onSlots (Pool.register id)) (fun _ => Reply.ref id) h; exact ⟨_, e⟩
      | choice => obtain ⟨_, e⟩ := reply_of_bind (onChoices (Pool.register id)) (fun _ => Reply.ref id) h; exact ⟨_, e⟩
      | chooser => obtain ⟨_, e⟩ := reply_of_bind (onChoosers (Pool.register id)) (fun _ => Reply.ref id) h; exact ⟨_, e⟩
    exact ⟨fun x hx => other _ (.inl this) x hx, fun x hx => other' _ (.inl this) x hx⟩
  | setName k id n =>
    have : ∃ b, y = .ref b := by
      cases k with
      | slot => obtain ⟨_, e⟩ := reply_of_bind (onSlots (Pool.rename id n)) (fun _ => Reply.ref id) h; exact ⟨_, e⟩
      | choice => obtain ⟨_, e⟩ := reply_of_bind (onChoices (Pool.rename id n)) (fun _ => Reply.ref id) h; exact ⟨_, e⟩
      | chooser => obtain ⟨_, e⟩ := reply_of_bind (onChoosers (Pool.rename id n)) (fun _ => Reply.ref id) h; exact ⟨_, e⟩
    exact ⟨fun x hx => other _ (.inl this) x hx, fun x hx => other' _ (.inl this) x hx⟩
  | addExpr e =>
    have : y = .unit := by cases h; rfl
    exact ⟨fun x hx => other _ (.inr (.inr this)) x hx, fun x hx => other' _ (.inr (.inr this)) x hx⟩
  | getName k id =>
    have : ∃ b, y = .name b := by
      cases k with
      | slot => exact reply_of_bind (M.lift (w.st.slots.nameOf id)) Reply.name h
      | choice => exact reply_of_bind (M.lift (w.st.choices.nameOf id)) Reply.name h
      | chooser => exact reply_of_bind (M.lift (w.st.choosers.nameOf id)) Reply.name h
    exact ⟨fun x hx => other _ (.inr (.inl this)) x hx, fun x hx => other' _ (.inr (.inl this)) x hx⟩
  | setArguments args =>
    obtain ⟨_, this⟩ := reply_of_bind (onOpts (setArguments env args)) (fun _ => Reply.unit) h
    exact ⟨fun x hx => other _ (.inr (.inr this)) x hx, fun x hx => other' _ (.inr (.inr this)) x hx⟩

/-- An object that is used has a number in an accepted script. -/
theorem numbered_of_used {tr pre post : List Reader.Event} {st st' : RState} (htr : tr = pre ++ post) (hf : Made tr st')
    (hadd : ∀ k id, Given tr k id → Added tr k id) (hm : Made pre st) {k : ObjKind} {id : Nat} {s : Str}
    (hs : nameValue st k id = .ok s) : ∃ i, Numbered tr k id i := by
  have hg : Given tr k id := by
    have up : ∀ {op n p}, FirstGiven pre k id op p → asksFor op = some (k, n) → Given tr k id := by
      intro op n p h1 h2
      obtain ⟨q, h1, _⟩ := h1
      exact ⟨⟨op, some (.ref id)⟩, by rw [htr, h1]; simp, n, h2, rfl⟩
    cases k with
    | slot => obtain ⟨op, n, p, h1, h2, _⟩ := kmade_name hm.slots (fun _ _ => rfl) hs; exact up h1 h2
    | choice => obtain ⟨op, n, p, h1, h2, _⟩ := kmade_name hm.choices (fun _ _ => rfl) hs; exact up h1 h2
    | chooser => obtain ⟨op, n, p, h1, h2, _⟩ := kmade_name hm.choosers (fun _ _ => rfl) hs; exact up h1 h2
  have ha := hadd k id hg
  apply List.mem_iff_getElem?.1
  cases k with
  | slot => rw [← hf.slotIds]; exact (hf.inv.slots.added id).2 ha
  | choice => rw [← hf.choiceIds]; exact (hf.inv.choices.added id).2 ha
  | chooser => rw [← hf.chooserIds]; exact (hf.inv.choosers.added id).2 ha

theorem first_part {tr : List Reader.Event} {raw : Raw} (hd : Describes tr raw) {id k : Nat} (hn : Numbered tr .choice id k) :
    ∃ c, IsPart raw.choices k 0 c := by
  obtain ⟨p, hp, _⟩ := forall₂_at hd.choices hn
  exact ⟨_, p, hp, by unfold width; omega, rfl⟩

theorem Laid.walk {raw : Raw} {d : InputData} (hl : Laid raw d) {k asked : Nat} : ∀ (m : Nat) {j c c' : Nat}, IsPart raw.choices k j c →
    walkParts d asked m c = .ok c' → IsPart raw.choices k (j + m) c' := by
  intro m
  induction m with
  | zero => intro j c c' h h'; cases h'; exact h
  | succ m ih =>
    intro j c c' h h'
    obtain ⟨ch, h1, h2⟩ := hl.next k j c h
    unfold walkParts at h'
    rw [R.bind_eq_ok] at h'
    obtain ⟨ch', hc, h'⟩ := h'
    rw [idx_eq_ok, h1] at hc
    cases hc
    cases hn : ch.continuation with
    | none => rw [hn] at h'; cases h'
    | some n =>
      rw [hn] at h'
      obtain ⟨rfl, hp⟩ := (h2 n).1 hn
      have := ih hp h'
      have e : j + 1 + m = j + (m + 1) := by omega
      rwa [e] at this

/-- The name of an object that is used is found. -/
structure Ready (tr : List Reader.Event) (raw : Raw) (d : InputData) (st' : RState) : Prop where
  described : Describes tr raw
  laid : Laid raw d
  made : Made tr st'
  added : ∀ k id, Given tr k id → Added tr k id

theorem Ready.obj {tr pre post : List Reader.Event} {raw : Raw} {d : InputData} {st st' : RState} (hr : Ready tr raw d st')
    (htr : tr = pre ++ post) (hm : Made pre st) {k : ObjKind} {id : Nat} {s : Str} (hs : nameValue st k id = .ok s)
    (hk : Keeps tr pre k id) :
    (∀ y, resolveAccessor d (objAcc k s) = .ok y → y ≠ none) ∧ ∃ o, ObjectIs tr raw.choices k id o := by
  obtain ⟨i, hi⟩ := numbered_of_used htr hr.made hr.added hm hs
  have hn := name_kept hr.described hm hs hk hi
  cases k with
  | slot => exact ⟨fun y hy => by rw [findName_present (hr.laid.slots _ _ hn) hy]; simp, _, .slot hi⟩
  | chooser => exact ⟨fun y hy => by rw [findName_present (hr.laid.choosers _ _ hn) hy]; simp, _, .chooser hi⟩
  | choice =>
    obtain ⟨c, hc⟩ := first_part hr.described hi
    refine ⟨fun y hy => ?_, _, .choice hi hc⟩
    simp only [resolveAccessor, objAcc, R.bind_eq_ok] at hy
    obtain ⟨z, hz, hy⟩ := hy
    rw [findName_present (hr.laid.choices _ _ _ hn hc) hz] at hy
    cases hy
    simp

theorem Ready.property {tr pre post : List Reader.Event} {raw : Raw} {d : InputData} {st st' : RState} (hr : Ready tr raw d st')
    (htr : tr = pre ++ post) (hm : Made pre st) {k : ObjKind} {id : Nat} {a : Attr} {x : Accessor} (hs : attr st k id a = .ok x)
    (hk : Keeps tr pre k id) :
    (∀ y, resolveAccessor d x = .ok y → y ≠ none) ∧ ((∃ y, resolveAccessor d x = .ok y) → ∃ o, PropertyIs tr raw.choices k id a o) := by
  unfold attr at hs
  rw [R.bind_eq_ok] at hs
  obtain ⟨s, hs, h⟩ := hs
  obtain ⟨i, hi⟩ := numbered_of_used htr hr.made hr.added hm hs
  have hn := name_kept hr.described hm hs hk hi
  have slot : ∀ (sub : Acc), k = .slot → ∀ y, resolveAccessor d ⟨.slot, sub, s, 0⟩ = .ok y → y ≠ none := by
    intro sub hk y hy
    subst hk
    rw [findName_present (hr.laid.slots _ _ hn) hy]
    simp
  have part : ∀ (sub : Acc) (j : Nat), k = .choice → (∀ y, resolveAccessor d ⟨.choice, sub, s, j⟩ = .ok y → y ≠ none) ∧
      ((∃ y, resolveAccessor d ⟨.choice, sub, s, j⟩ = .ok y) → ∃ c, IsPart raw.choices i j c) := by
    intro sub j hk
    subst hk
    obtain ⟨c, hc⟩ := first_part hr.described hi
    have key : ∀ y, resolveAccessor d ⟨.choice, sub, s, j⟩ = .ok y → ∃ c', y = some c' ∧ walkParts d j j c = .ok c' := by
      intro y hy
      simp only [resolveAccessor, R.bind_eq_ok] at hy
      obtain ⟨z, hz, hy⟩ := hy
      rw [findName_present (hr.laid.choices _ _ _ hn hc) hz] at hy
      simp only [R.bind_eq_ok] at hy
      obtain ⟨c', hc', hy⟩ := hy
      cases hy
      exact ⟨c', rfl, hc'⟩
    constructor
    · intro y hy
      obtain ⟨c', rfl, _⟩ := key y hy
      simp
    · rintro ⟨y, hy⟩
      obtain ⟨c', _, hw⟩ := key y hy
      have := hr.laid.walk j hc hw
      rw [Nat.zero_add] at this
      exact ⟨c', this⟩
  cases k with
  | slot =>
    cases a with
    | choices => cases h; exact ⟨slot _ rfl, fun _ => ⟨_, .choicesIn hi⟩⟩
    | size => cases h; exact ⟨slot _ rfl, fun _ => ⟨_, .sizeOf hi⟩⟩
    | _ => cases h
  | chooser =>
    cases a with
    | choices =>
      cases h
      exact ⟨fun y hy => by rw [findName_present (hr.laid.choosers _ _ hn) hy]; simp, fun _ => ⟨_, .attendedBy hi⟩⟩
    | _ => cases h
  | choice =>
    have nat : ∀ {p : Int} {j : Nat}, usizeOfInt p = .ok j → p = j := by
      intro p j hj
      unfold usizeOfInt at hj
      split at hj
      · cases hj; omega
      · cases hj
    cases a with
    | slot =>
      cases h
      obtain ⟨p1, p2⟩ := part .slot 0 rfl
      exact ⟨p1, fun hy => let ⟨c, hc⟩ := p2 hy; ⟨_, .slotOf hi hc⟩⟩
    | choosers =>
      cases h
      obtain ⟨p1, p2⟩ := part .chooser 0 rfl
      exact ⟨p1, fun hy => let ⟨c, hc⟩ := p2 hy; ⟨_, .attendeesOf hi hc⟩⟩
    | slotPart p =>
      simp only [choiceSlotPart, R.bind_eq_ok] at h
      obtain ⟨j, hj, h⟩ := h
      cases h
      rw [nat hj]
      obtain ⟨p1, p2⟩ := part .slot j rfl
      exact ⟨p1, fun hy => let ⟨c, hc⟩ := p2 hy; ⟨_, .slotOfPart hi hc⟩⟩
    | choosersPart p =>
      simp only [choiceChoosersPart, R.bind_eq_ok] at h
      obtain ⟨j, hj, h⟩ := h
      cases h
      rw [nat hj]
      obtain ⟨p1, p2⟩ := part .chooser j rfl
      exact ⟨p1, fun hy => let ⟨c, hc⟩ := p2 hy; ⟨_, .attendeesOfPart hi hc⟩⟩
    | _ => cases h

theorem Ready.term {opts : Opts F} {s : Script} {raw : Raw} {d : InputData} {pre post : List Reader.Event} {st st' : RState}
    (hr : Ready (outcome env opts s).1 raw d st') (htr : (outcome env opts s).1 = pre ++ post) (hm : Made pre st)
    {t : Term} {x : Accessor} (hx : TermAcc st t x)
    (hobj : ∀ k id, t = .obj k id → Keeps (outcome env opts s).1 pre k id)
    (hacc : ∀ a, t = .acc a → ∃ e ∈ pre, e.reply = some (.accessor a))
    (hint : ∀ v, t = .int v → v ≤ 9223372036854775807)
    (hprop : ∀ before k id a reply after, (outcome env opts s).1 = before ++ ⟨.attr k id a, reply⟩ :: after →
      Keeps (outcome env opts s).1 before k id) :
    (∀ y, resolveAccessor d x = .ok y → y ≠ none) ∧
    (Resolves d x → ∃ o, Stands (outcome env opts s).1 raw.choices pre t o) := by
  cases hx with
  | obj hn =>
    obtain ⟨h1, o, h2⟩ := hr.obj htr hm hn (hobj _ _ rfl)
    exact ⟨h1, fun _ => ⟨o, .obj h2 (hobj _ _ rfl)⟩⟩
  | int v =>
    refine ⟨?_, ?_⟩
    · intro y hy
      simp only [resolveAccessor, intAcc] at hy
      split at hy
      · cases hy; simp
      · cases hy
    · rintro ⟨_, h⟩
      obtain ⟨n, hn, hp⟩ := h rfl
      have := parseUsize_int (hint v rfl) hp
      subst this
      exact ⟨_, .int hn⟩
  | acc _ =>
    obtain ⟨e, he, hrep⟩ := hacc x rfl
    obtain ⟨before, after, hpre⟩ := List.append_of_mem he
    obtain ⟨op, reply⟩ := e
    simp only at hrep
    subst hrep
    have htr' : (outcome env opts s).1 = before ++ ⟨op, some (.accessor x)⟩ :: (after ++ post) := by rw [htr, hpre]; simp
    obtain ⟨w1, w2, hm', hex⟩ := outcome_split htr'
    obtain ⟨k, id, at', rfl⟩ := (exec_kind hex).1 x rfl
    obtain ⟨y, hy, hyy⟩ := exec_attr hex
    have e : y = x := by cases hyy; rfl
    subst e
    have hkeep := hprop _ _ _ _ _ _ htr'
    obtain ⟨h1, h2⟩ := hr.property htr' hm' hy hkeep
    refine ⟨h1, ?_⟩
    rintro ⟨hres, _⟩
    obtain ⟨o, ho⟩ := h2 hres
    exact ⟨o, .acc hpre ho hkeep⟩

/-- **C68** (every constraint): if the script makes its constraints with the interface and renames no object after using it
in one, every constraint of an accepted input says exactly what the script wrote: it is a relation `l symbol r` between
existing objects, properties of existing objects (and existing parts), and numbers. -/
theorem C68_every_constraint_partial (rd : InputReader F) (s : Script) (d : InputData) (h : (readInput env rd s).1 = .ok d)
    (hi : FromInterface (outcome env rd.world.opts s).1) (hk : NoRenameAfterUse (outcome env rd.world.opts s).1) :
    let tr := (outcome env rd.world.opts s).1
    ∃ raw, Describes tr raw ∧ build raw = .ok d ∧
      ∀ e ∈ raw.exprs, ∃ ol or, Wrote tr raw.choices e ol or ∧ Says d e ol or := by
  intro tr
  obtain ⟨raw, hd, hb, hw⟩ := C68_says_what_was_written rd s d h
  refine ⟨raw, hd, hb, ?_⟩
  have hmax : ∀ p ∈ raw.choices, p.max ≤ u32Max := fun p hp => ((described_fit hd).1 p hp).2.1
  obtain ⟨m, written, hbt⟩ := build_spec hmax hb
  have hr : Ready tr raw d _ := ⟨hd, laid hmax hb, outcome_made _ _, (C34_accepted_inputs rd s d h).2.1⟩
  intro e he
  obtain ⟨L, hL⟩ := hbt.compiled e he
  rw [hd.constraints] at he
  unfold constraintsOf at he
  rw [List.mem_filterMap] at he
  obtain ⟨ev, hev, hx⟩ := he
  obtain ⟨op, reply⟩ := ev
  have hop : op = .addExpr e := by
    split at hx
    · rename_i h1 h2; cases hx; exact h1
    · cases hx
  subst hop
  obtain ⟨pre, post, htr⟩ := List.append_of_mem hev
  obtain ⟨ev', hev', hrep⟩ := hi.exprs pre e reply post htr
  obtain ⟨op, reply'⟩ := ev'
  simp only at hrep
  subst hrep
  obtain ⟨pre', mid, hpre⟩ := List.append_of_mem hev'
  have htr' : tr = pre' ++ ⟨op, some (.expr e)⟩ :: (mid ++ ⟨.addExpr e, reply⟩ :: post) := by
    show (outcome env rd.world.opts s).1 = _
    rw [htr, hpre]; simp
  obtain ⟨w1, w2, hm, hex⟩ := outcome_split htr'
  obtain ⟨symbol, l, r, rfl⟩ := (exec_kind hex).2 e rfl
  obtain ⟨e', hrel, hee⟩ := exec_relate hex
  cases hee
  obtain ⟨g1, g2, g3, _⟩ := relate_ok hrel
  have hmem : (⟨.relate symbol l r, some (.expr e)⟩ : Reader.Event) ∈ tr := by rw [htr']; simp
  obtain ⟨a1, a2⟩ := hr.term htr' hm g2 (fun k id e => hk.2 _ _ _ _ _ _ htr' k id (.inl e))
    (fun a e => hi.accessors _ _ _ _ _ _ htr' a (.inl e)) (fun v e => (hi.integers _ _ _ _ hmem v (.inl e)).2) hk.1
  obtain ⟨b1, b2⟩ := hr.term htr' hm g3 (fun k id e => hk.2 _ _ _ _ _ _ htr' k id (.inr e))
    (fun a e => hi.accessors _ _ _ _ _ _ htr' a (.inr e)) (fun v e => (hi.integers _ _ _ _ hmem v (.inr e)).2) hk.1
  obtain ⟨rl, rr⟩ := buildExpr_resolved hL (by
    intro x hx
    rcases hx with rfl | rfl
    · exact a1
    · exact b1)
  obtain ⟨ol, hol⟩ := a2 rl
  obtain ⟨or, hor⟩ := b2 rr
  subst g1
  exact ⟨ol, or, ⟨pre', l, r, _, htr', hol, hor⟩, (hw pre' _ l r e _ ol or htr' hol hor).2⟩

/-- **C68** (the printed timetable): every constraint the script wrote holds in the timetable, for the objects it was
written with (except for order comparisons with the number on the left, see C30). -/
theorem C68_printed_timetable_partial {σ : Type} (o : Main.Outside F σ) (hrng : o.rng.Lawful) (opts : Opts F) (script : Script)
    (sched : Option Str) (asg : Str) (h : Main.TryRun o opts script (.ok (.tables sched asg)))
    (hi : FromInterface (outcome o.opt opts script).1) (hk : NoRenameAfterUse (outcome o.opt opts script).1) :
    let tr := (outcome o.opt opts script).1
    ∃ raw d s a, Describes tr raw ∧ build raw = .ok d ∧ Answer raw d s a ∧
      (∃ table, asg = csv table ∧ AssignmentTable d s a table) ∧
      (if 1 < d.ns then ∃ table, sched = some (csv table) ∧ SchedulingTable d s table else sched = none) ∧
      ∀ e ∈ constraintsOf tr, ∃ ol or, Wrote tr raw.choices e ol or ∧
        ((∀ n, ol = .number n → e.rel = .eq ∨ e.rel = .neq) → Means d s a ol e.rel or) := by
  intro tr
  obtain ⟨raw, d, s, a, h1, h2, h3, h4, h5, h6⟩ := C52_printed_timetable o hrng opts script sched asg h
  refine ⟨raw, d, s, a, h1, h2, h3, h5, h6, ?_⟩
  have hread : ∃ d', (readInput o.opt (new opts) script).1 = .ok d' := by
    generalize hres : (Except.ok (Main.Output.tables sched asg) : R Main.Output) = res at h
    cases h with
    | rejected => cases hres
    | unprepared => cases hres
    | solved g1 => exact ⟨_, g1⟩
  obtain ⟨d', hread⟩ := hread
  obtain ⟨raw', g1, g2, g3⟩ := C68_every_constraint_partial (new opts) script d' hread hi hk
  have e1 : raw' = raw := C55_at_most_one _ _ _ g1 h1
  subst e1
  have e2 : d' = d := by rw [h2] at g2; cases g2; rfl
  subst e2
  intro e he
  rw [← h1.constraints] at he
  obtain ⟨ol, or, k1, k2⟩ := g3 e he
  exact ⟨ol, or, k1, h4 e he ol or k2⟩

end Wassign

/-! ## The hypotheses are met; and why renamed is excluded -/
namespace Wassign.StatedEx
open Spec Reader Rhai Build ReadEx

theorem split_at {α : Type} {l pre post : List α} {x : α} (h : l = pre ++ x :: post) :
    l[pre.length]? = some x ∧ pre = l.take pre.length ∧ pre.length < l.length := by
  subst h
  simp

/-- A check of `FromInterface` by running through the calls. -/
def interfaceCheck (tr : List Reader.Event) : Bool :=
  (List.range tr.length).all fun i =>
    let said := fun y => (tr.take i).any fun e => e.reply == some y
    let ok := fun (t : Term) => match t with
      | .obj _ _ => true
      | .acc a => said (.accessor a)
      | .int v => decide (-9223372036854775808 ≤ v ∧ v ≤ 9223372036854775807)
    match tr[i]? with
    | some ⟨.addExpr x, _⟩ => said (.expr x)
    | some ⟨.relate _ l r, _⟩ => ok l && ok r
    | _ => true

theorem fromInterface_of_check {tr : List Reader.Event} (h : interfaceCheck tr = true) : FromInterface tr := by
  unfold interfaceCheck at h
  rw [List.all_eq_true] at h
  have said : ∀ {i : Nat} {y : Reply}, ((tr.take i).any fun e => e.reply == some y) = true → ∃ e ∈ tr.take i, e.reply = some y := by
    intro i y h
    rw [List.any_eq_true] at h
    obtain ⟨e, h1, h2⟩ := h
    exact ⟨e, h1, by simpa using h2⟩
  refine ⟨?_, ?_, ?_⟩
  · intro pre x reply post htr
    obtain ⟨h1, h2, h3⟩ := split_at htr
    have := h _ (List.mem_range.2 h3)
    simp only [h1] at this
    rw [h2]
    exact said this
  · intro pre symbol l r reply post htr a ha
    obtain ⟨h1, h2, h3⟩ := split_at htr
    have := h _ (List.mem_range.2 h3)
    simp only [h1, Bool.and_eq_true] at this
    rw [h2]
    rcases ha with rfl | rfl
    · exact said this.1
    · exact said this.2
  · intro symbol l r reply hmem v hv
    obtain ⟨pre, post, htr⟩ := List.append_of_mem hmem
    obtain ⟨h1, h2, h3⟩ := split_at htr
    have := h _ (List.mem_range.2 h3)
    simp only [h1, Bool.and_eq_true] at this
    rcases hv with rfl | rfl
    · exact of_decide_eq_true this.1
    · exact of_decide_eq_true this.2

theorem noRename_of_none {tr : List Reader.Event}
    (h : tr.all (fun e => match e.op with | .setName _ _ _ => false | _ => true) = true) : NoRenameAfterUse tr := by
  rw [List.all_eq_true] at h
  have : ∀ pre post k id, tr = pre ++ post → Keeps tr pre k id := by
    intro pre post k id htr
    refine ⟨post, htr, fun e he n hn => ?_⟩
    have := h e (by rw [htr]; simp [he])
    rw [hn] at this
    cases this
  exact ⟨fun pre k id a reply post htr => this _ _ _ _ htr, fun pre symbol l r reply post htr k id _ => this _ _ _ _ htr⟩

/-- A call that asks for a property, and one that makes a constraint. -/
def property (op : Op) (next : Accessor → Script) : Script := .call op (fun
  | some (.accessor a) => next a
  | _ => .fail)
def made (op : Op) (next : CExpr → Script) : Script := .call op (fun
  | some (.expr e) => next e
  | _ => .fail)

/-- `let a = +slot("Monday"); let b = +slot("Tuesday"); let c = +choice("Chess", parts(2)); let p = +chooser("Ann", [1]);`
`+(c.slot(1) == b); +(a.size <= 3); +p.choices.contains(c)` -/
def script : Script :=
  given (.slot "Monday".toList) fun a => then' (.add .slot a) <|
  given (.slot "Tuesday".toList) fun b => then' (.add .slot b) <|
  given (.choice "Chess".toList [tagInt .parts 2]) fun c => then' (.add .choice c) <|
  given (.chooser "Ann".toList [.int 1]) fun p => then' (.add .chooser p) <|
  property (.attr .choice c (.slotPart 1)) fun x => made (.relate "==" (.acc x) (.obj .slot b)) fun e => then' (.addExpr e) <|
  property (.attr .slot a .size) fun x => made (.relate "<=" (.acc x) (.int 3)) fun e => then' (.addExpr e) <|
  property (.attr .chooser p .choices) fun x => made (.relate "contains" (.acc x) (.obj .choice c)) fun e => then' (.addExpr e) .done

/-- The script is accepted, makes its constraints with the interface and renames nothing. -/
example : (∃ d, (readInput env (new opts) script).1 = .ok d) ∧ FromInterface (outcome env opts script).1 ∧
    NoRenameAfterUse (outcome env opts script).1 ∧ (constraintsOf (outcome env opts script).1).length = 3 := by
  refine ⟨?_, fromInterface_of_check (by decide +kernel), noRename_of_none (by decide +kernel), by decide +kernel⟩
  have h : ((readInput env (new opts) script).1.isOk) = true := by decide +kernel
  cases e : (readInput env (new opts) script).1 with
  | ok d => exact ⟨d, rfl⟩
  | error f => rw [e] at h; cases h

/-- `let a = +slot("Monday"); let b = +slot("Tuesday"); let c = +choice("Chess", optional); +choice("Go"); +chooser("Ann", [1, 1]);`
`let e = c.slot == a; a.name = "Sunday"; b.name = "Monday"; +e` -/
def renamed : Script :=
  given (.slot "Monday".toList) fun a => then' (.add .slot a) <|
  given (.slot "Tuesday".toList) fun b => then' (.add .slot b) <|
  given (.choice "Chess".toList []) fun c => then' (.add .choice c) <|
  given (.choice "Go".toList []) fun c' => then' (.add .choice c') <|
  given (.chooser "Ann".toList [.int 1, .int 1]) fun p => then' (.add .chooser p) <|
  property (.attr .choice c .slot) fun x => made (.relate "==" (.acc x) (.obj .slot a)) fun e =>
  then' (.setName .slot a "Sunday".toList) <| then' (.setName .slot b "Monday".toList) <| then' (.addExpr e) .done

/-- The constraint of `renamed`. -/
def bound : CExpr := ⟨⟨.choice, .slot, "Chess".toList, 0⟩, .eq, ⟨.slot, .notSet, "Monday".toList, 0⟩⟩

/-- C68 is false for objects that are renamed after they were used: the constraint `c.slot == a`, made with the first slot,
is about the second slot in the end, which has taken over its name. -/
theorem C68_rename_changes_meaning : ∃ d, (readInput env (new opts) renamed).1 = .ok d ∧
    FromInterface (outcome env opts renamed).1 ∧ constraintsOf (outcome env opts renamed).1 = [bound] ∧
    (∃ x pre post, (outcome env opts renamed).1 = pre ++ ⟨.relate "==" (.acc x) (.obj .slot 0), some (.expr bound)⟩ :: post) ∧
    Numbered (outcome env opts renamed).1 .slot 0 0 ∧
    Says d bound (.slotOf 0) (.theSlot 1) ∧ ¬ Says d bound (.slotOf 0) (.theSlot 0) := by
  have h : ((readInput env (new opts) renamed).1.toOption.map (fun d => (d.slots, d.choices.map (·.name)))) =
      some (["Sunday".toList, "Monday".toList], ["Chess".toList, "Go".toList]) := by decide +kernel
  cases e : (readInput env (new opts) renamed).1 with
  | error f => rw [e] at h; cases h
  | ok d =>
    rw [e] at h
    have h := Option.some.inj h
    have h1 : d.slots = ["Sunday".toList, "Monday".toList] := congrArg Prod.fst h
    have h2 : d.choices.map (·.name) = ["Chess".toList, "Go".toList] := congrArg Prod.snd h
    refine ⟨d, rfl, fromInterface_of_check (by decide +kernel), by decide +kernel, ?_, by unfold Numbered; decide +kernel, ?_, ?_⟩
    · refine ⟨⟨.choice, .slot, "Chess".toList, 0⟩, (outcome env opts renamed).1.take 11, (outcome env opts renamed).1.drop 12, ?_⟩
      decide +kernel
    · exact ⟨.slotOf (c := 0) (by rw [h2]; rfl) (.zero 0), .theSlot (by rw [h1]; rfl), .inl rfl⟩
    · rintro ⟨_, hr, _⟩
      unfold bound at hr
      cases hr with
      | theSlot hr => rw [h1] at hr; exact absurd hr (by decide +kernel)

/-- `let a = +slot("Monday"); +slot("Tuesday"); let c = +choice("Chess"); +choice("Go"); +chooser("Ann", [1, 1]);`
`let e = c.slot == a; a.name = "Sunday"; +e` -/
def dropped : Script :=
  given (.slot "Monday".toList) fun a => then' (.add .slot a) <|
  given (.slot "Tuesday".toList) fun b => then' (.add .slot b) <|
  given (.choice "Chess".toList []) fun c => then' (.add .choice c) <|
  given (.choice "Go".toList []) fun c' => then' (.add .choice c') <|
  given (.chooser "Ann".toList [.int 1, .int 1]) fun p => then' (.add .chooser p) <|
  property (.attr .choice c .slot) fun x => made (.relate "==" (.acc x) (.obj .slot a)) fun e =>
  then' (.setName .slot a "Sunday".toList) <| then' (.addExpr e) .done

/-- And if no object takes over the old name, the constraint demands nothing at all, without an error. -/
theorem C68_rename_drops_constraint : ∃ d, (readInput env (new opts) dropped).1 = .ok d ∧
    constraintsOf (outcome env opts dropped).1 = [bound] ∧ buildExpr d bound = .ok [] ∧ d.schedCons = [] ∧ d.asgCons = [] := by
  have h : ((readInput env (new opts) dropped).1.toOption.map (fun d => (buildExpr d bound, d.schedCons, d.asgCons))) =
      some (.ok [], [], []) := by decide +kernel
  cases e : (readInput env (new opts) dropped).1 with
  | error f => rw [e] at h; cases h
  | ok d =>
    rw [e] at h
    have h := Option.some.inj h
    exact ⟨d, rfl, by decide +kernel, congrArg Prod.fst h, congrArg (fun x => x.2.1) h, congrArg (fun x => x.2.2) h⟩

end Wassign.StatedEx
