import Mathlib.Data.List.Permutation
import Verif.Props.Attain
import Verif.Props.Stated
/-
A timetable that nobody could complain about and that the solver cannot get to, whatever its random numbers and options.
-/
namespace Wassign.AttainEx
open Threaded Main Reader ReadEx Spec Build StatedEx

/-- Two lectures with a tutorial each, in the lecture's slot (the tutorials have one seat), and free play. -/
def script : Script :=
  given (.slot "Monday".toList) fun s => then' (.add .slot s) <|
  given (.slot "Tuesday".toList) fun t => then' (.add .slot t) <|
  given (.choice "Y".toList [tagInt .max 4]) fun y => then' (.add .choice y) <|
  given (.choice "y".toList [tagInt .max 1]) fun y' => then' (.add .choice y') <|
  given (.choice "Z".toList [tagInt .max 4]) fun z => then' (.add .choice z) <|
  given (.choice "z".toList [tagInt .max 1]) fun z' => then' (.add .choice z') <|
  given (.choice "U".toList [tagInt .max 4]) fun u => then' (.add .choice u) <|
  property (.attr .choice y .slot) fun l => property (.attr .choice y' .slot) fun r =>
  made (.relate "==" (.acc l) (.acc r)) fun e => then' (.addExpr e) <|
  property (.attr .choice z .slot) fun l => property (.attr .choice z' .slot) fun r =>
  made (.relate "==" (.acc l) (.acc r)) fun e => then' (.addExpr e) <|
  given (.chooser "Ann".toList [.int 1, .int 1, .int 0, .int 1, .int 1]) fun p => then' (.add .chooser p) <|
  given (.chooser "Bob".toList [.int 1, .int 1, .int 0, .int 1, .int 1]) fun p => then' (.add .chooser p) <|
  given (.chooser "Cid".toList [.int 0, .int 1, .int 1, .int 1, .int 1]) fun p => then' (.add .chooser p) <|
  given (.chooser "Dan".toList [.int 0, .int 1, .int 1, .int 1, .int 1]) fun p => then' (.add .chooser p) .done

def opt := MainEx.outside.opt
def opts : Opts Unit := ReadEx.opts
def read := readInput opt (new opts) script
def data : InputData := match read.1 with
  | .ok d => d
  | .error _ => default

theorem read_ok : read.1 = .ok data := by
  have h : read.1.isOk = true := by decide +kernel
  unfold data
  cases e : read.1 with
  | ok d => rfl
  | error f => rw [e] at h; cases h

def raw : Raw := match sync (outcome opt opts script).2.1.st with
  | .ok s => ⟨s.sets, s.choices, s.choosers, s.exprs⟩
  | .error _ => ⟨[], [], [], []⟩

theorem describes_raw : Describes (outcome opt opts script).1 raw := by
  have h : (sync (outcome opt opts script).2.1.st).isOk = true := by decide +kernel
  unfold raw
  cases e : sync (outcome opt opts script).2.1.st with
  | ok s => exact describes (outcome_made _ _) e
  | error f => rw [e] at h; cases h

theorem build_raw : build raw = .ok data := by
  obtain ⟨r, h1, h2⟩ := C55_input_as_described _ _ _ read_ok
  rw [C55_at_most_one _ _ _ h1 describes_raw] at h2
  exact h2

theorem manageable : ManageableRaw raw ∧ Manageable data := by
  refine ⟨⟨by decide +kernel, ?_⟩, ⟨by decide +kernel, by decide +kernel, by decide +kernel, by decide +kernel, by decide +kernel, by decide +kernel⟩⟩
  intro e he a ha hk n hn
  have : raw.exprs = [⟨⟨.choice, .slot, "Y".toList, 0⟩, .eq, ⟨.choice, .slot, "y".toList, 0⟩⟩,
    ⟨⟨.choice, .slot, "Z".toList, 0⟩, .eq, ⟨.choice, .slot, "z".toList, 0⟩⟩] := by decide +kernel
  rw [this] at he
  simp only [List.mem_cons, List.not_mem_nil, or_false] at he
  rcases he with rfl | rfl <;> rcases ha with rfl | rfl <;> cases hk

theorem sizes : Sizes data := (sizes_of_manageable (build_spec (by decide +kernel) build_raw).choose_spec.choose_spec manageable.1 manageable.2).1
theorem wf : WF data := (build_spec (by decide +kernel) build_raw).choose_spec.choose_spec.wf

/-- The pairs in different slots; the pairs in the same slot. -/
def apart : List Scheduling := [[some 0, some 0, some 1, some 1, some 0], [some 0, some 0, some 1, some 1, some 1],
  [some 1, some 1, some 0, some 0, some 0], [some 1, some 1, some 0, some 0, some 1]]
def together : List Scheduling := [[some 0, some 0, some 0, some 0, some 1], [some 1, some 1, some 1, some 1, some 0]]

theorem range {s : Scheduling} (hs : SchedShape data s) : ∀ x ∈ s, x ∈ [none, some 0, some 1] := by
  intro x hx
  obtain ⟨c, hc⟩ := List.mem_iff_getElem?.1 hx
  cases x with
  | none => simp
  | some t =>
    have : t < data.ns := hs.range c t (by unfold slotAt; rw [hc]; rfl)
    have hns : data.ns = 2 := by decide +kernel
    rw [hns] at this
    match t with
    | 0 => simp
    | 1 => simp
    | t + 2 => omega

theorem feasible_valid {s : Scheduling} (h : schedFeasible data s = .ok true) (hl : s.length = 5) : SchedShape data s ∧ SchedValid data s := by
  have hl : s.length = data.nc := by rw [hl]; decide +kernel
  exact ⟨⟨hl, schedFeasible_range hl h⟩, (schedFeasible_spec hl (by decide +kernel) (by decide +kernel) wf.sched h).1 rfl⟩

theorem six {s : Scheduling} (hs : SchedShape data s) (hv : SchedValid data s) : s ∈ apart ∨ s ∈ together := by
  obtain ⟨b, hb⟩ := schedFeasible_total hs.len hs.range sizes wf.sched
  have hb1 := (schedFeasible_spec hs.len (by decide +kernel) (by decide +kernel) wf.sched hb).2 hv
  subst hb1
  have hall : ∀ a ∈ [none, some 0, some 1], ∀ b ∈ [none, some 0, some 1], ∀ c ∈ [none, some 0, some 1], ∀ e ∈ [none, some 0, some 1],
      ∀ f ∈ [none, some 0, some 1], schedFeasible data [a, b, c, e, f] = .ok true → [a, b, c, e, f] ∈ apart ∨ [a, b, c, e, f] ∈ together := by
    decide +kernel
  have hlen : s.length = 5 := by rw [hs.len]; decide +kernel
  have hr := range hs
  match s, hlen with
  | [a, b, c, e, f], _ =>
    exact hall a (hr a (by simp)) b (hr b (by simp)) c (hr c (by simp)) e (hr e (by simp)) f (hr f (by simp)) hb

theorem apart_valid {s : Scheduling} (h : s ∈ apart) : SchedShape data s ∧ SchedValid data s := by
  have hall : ∀ s ∈ apart, schedFeasible data s = .ok true ∧ s.length = 5 := by decide +kernel
  exact feasible_valid (hall s h).1 (hall s h).2

/-- Whether critical sets are computed and simplified or not: all of them are covered as long as the pairs are apart. -/
theorem apart_covers (an simp' : Bool) {A : Analysis} (hA : Analysis.new data an simp' = .ok A) {s : Scheduling} (h : s ∈ apart) (l : Nat) :
    ∀ set ∈ A.forPreference l, CoversSlots data s set.data := by
  have hall : ∀ an ∈ [true, false], ∀ simp' ∈ [true, false],
      ((Analysis.new data an simp').toOption.map (fun A => decide (∀ e ∈ A.cached, ∀ set ∈ e.2, ∀ s ∈ apart, ∀ t ∈ List.range 2, ∃ c ∈ set.data,
        slotAt s c = some t))) = some true := by decide +kernel
  have := hall an (by cases an <;> simp) simp' (by cases simp' <;> simp)
  rw [hA] at this
  have := of_decide_eq_true (Option.some.inj this)
  intro set hset t ht
  unfold Analysis.forPreference at hset
  cases hc : A.cached.lookup l with
  | none => rw [hc] at hset; cases hset
  | some sets =>
    rw [hc] at hset
    have hmem : (l, sets) ∈ A.cached := by
      obtain ⟨l1, l2, e, _⟩ := List.lookup_eq_some_iff.1 hc
      rw [e]; simp
    have hns : data.ns = 2 := by decide +kernel
    exact this (l, sets) hmem set hset s h t (by rw [List.mem_range]; omega)

/-- A check of `SearchedFirst` by running through everything. -/
def Comes (order : List Nat) (s t : Scheduling) : Prop :=
  ∃ k ∈ List.range order.length, ∃ c ∈ order, order[k]? = some c ∧
    (∀ j ∈ List.range k, ∀ c' ∈ order, order[j]? = some c' → slotAt s c' = slotAt t c') ∧ slotAt s c ≠ slotAt t c ∧
    ∀ a ∈ [0, 1], ∀ b ∈ [0, 1], slotAt s c = some a → slotAt t c = some b → Emptier data (decidedFirst order k s) a b

instance (i : InputData) (p : Scheduling) (a b : Nat) : Decidable (Emptier i p a b) := by unfold Emptier; infer_instance
instance (order : List Nat) (s t : Scheduling) : Decidable (Comes order s t) := by unfold Comes; infer_instance

theorem comes {order : List Nat} {s t : Scheduling} (h : SearchedFirst data order s t) : Comes order s t := by
  obtain ⟨k, c, h1, h2, h3, h4⟩ := h
  refine ⟨k, ?_, c, List.mem_of_getElem? h1, h1, ?_, h3, fun a _ b _ => h4 a b⟩
  · exact List.mem_range.2 (List.getElem?_eq_some_iff.1 h1).1
  · intro j hj c' _ hc'
    exact h2 j c' (List.mem_range.1 hj) hc'

/-- No search begins with the pairs together. -/
theorem never_first : ∀ order ∈ (List.range 5).permutations',
    order.Pairwise (fun a b => (data.schedConsFor b).length ≤ (data.schedConsFor a).length) →
    ∀ s ∈ together, ∃ t ∈ apart, ¬ Comes order s t := by decide +kernel

/-- No step brings the pairs together. -/
theorem never_moved {s n : Scheduling} (hs : s ∈ apart) (hn : n ∈ together) : ¬ (SingleMove data s n ∨ n.Perm s) := by
  have h1 : ∀ s ∈ apart, ∀ n ∈ together, n.count (some 0) ≠ s.count (some 0) ∧
      ∀ c ∈ List.range 5, ∃ c' ∈ List.range 5, c' ≠ c ∧ slotAt n c' ≠ slotAt s c' := by decide +kernel
  obtain ⟨h2, h3⟩ := h1 s hs n hn
  rintro (⟨_, c, hc, _, hm⟩ | hp)
  · have hnc : data.nc = 5 := by decide +kernel
    obtain ⟨c', _, e1, e2⟩ := h3 c (by rw [List.mem_range]; omega)
    exact e2 (hm c' e1)
  · exact h2 (hp.count_eq _)

theorem attainable_apart (an simp' : Bool) {A : Analysis} (hA : Analysis.new data an simp' = .ok A) {s : Scheduling}
    (h : Attainable data A.forPreference s) : s ∈ apart := by
  induction h with
  | start order l ho hf =>
    rename_i s
    rcases six hf.shape hf.valid with e | e
    · exact e
    · exfalso
      have hp : order ∈ (List.range 5).permutations' := by
        rw [List.mem_permutations']
        have : data.nc = 5 := by decide +kernel
        rw [← this]
        exact ho.1
      obtain ⟨t, ht, hno⟩ := never_first order hp ho.2 s e
      rcases hf.first t (apart_valid ht).1 (apart_valid ht).2 (apart_covers an simp' hA ht l) with e' | e'
      · subst e'
        have : ∀ t ∈ apart, t ∉ together := by decide +kernel
        exact this t ht e
      · exact hno (comes e')
  | step _ h2 h3 h4 ih =>
    rcases six h2 h3 with e | e
    · exact e
    · exact absurd h4 (never_moved ih e)

/-- With the pairs apart, somebody has to take what they do not like. -/
theorem somebody_suffers {s : Scheduling} (hs : s ∈ apart) {a : Assignment} (hv : Valid data s a) : ¬ WithinLimit data a 0 := by
  intro hw
  have hns : data.ns = 2 := by decide +kernel
  have hnp : data.np = 4 := by decide +kernel
  have hnc : data.nc = 5 := by decide +kernel
  -- two choosers who like only one choice of a slot, which has room for one
  have hall : ∀ s ∈ apart, ∃ t ∈ [0, 1], ∃ p ∈ [0, 2], ∃ c ∈ [1, 3], slotAt s c ≠ none ∧ ∀ q ∈ [p, p + 1], ∀ c' ∈ List.range 5, slotAt s c' = some t →
      pref data q c' = some 0 → c' = c := by decide +kernel
  have hpref : ∀ q ∈ [0, 1, 2, 3], ∀ c ∈ List.range 5, pref data q c = some 0 ∨ pref data q c = some 1 := by decide +kernel
  have hroom : ∀ c ∈ [1, 3], data.choices[c]?.map (·.max) = some 1 := by decide +kernel
  obtain ⟨t, ht, p, hp, c, hc, hsc, huniq⟩ := hall s hs
  have ht' : t < data.ns := by simp at ht; omega
  have hp' : p + 1 < 4 := by simp at hp; omega
  have hc' : c < data.nc := by simp at hc; omega
  have hatt : ∀ q ∈ [p, p + 1], Attends a q c := by
    intro q hq
    have hq4 : q < 4 := by simp at hq; omega
    obtain ⟨x, ⟨h1, h2⟩, _⟩ := hv.onePerSlot q (by omega) t ht'
    have hx : x < 5 := by
      by_contra hcon
      have hlen : s.length = 5 := by
        have : ∀ s ∈ apart, s.length = 5 := by decide
        exact this s hs
      have : slotAt s x = none := by unfold slotAt; rw [List.getElem?_eq_none (by omega)]; rfl
      rw [this] at h2; cases h2
    rcases hpref q (by simp; omega) x (by simpa using hx) with e | e
    · rw [← huniq q hq x (by simpa using hx) h2 e]; exact h1
    · have := hw q x 1 h1 e; omega
  have hb := (hv.bounds c hc' hsc).2
  have hm : (data.choices[c]).max = 1 := by
    have := hroom c hc
    rw [List.getElem?_eq_getElem hc'] at this
    exact Option.some.inj this
  rw [hm] at hb
  have hsub : [p, p + 1].countP (fun q => attendsB a q c) ≤ participants data a c := by
    unfold participants
    have : List.Sublist [p, p + 1] (List.range data.np) := by
      rw [hnp]
      simp at hp
      rcases hp with rfl | rfl <;> decide
    exact this.countP_le
  have htwo : [p, p + 1].countP (fun q => attendsB a q c) = 2 := by
    simp [(attendsB_iff a p c).2 (hatt p (by simp)), (attendsB_iff a (p + 1) c).2 (hatt (p + 1) (by simp))]
  omega

/-- **C78** is false for some inputs: the program can be unable to find the best timetable, for every random generator, seed, number of
threads, time limit and setting of the options. Here there is a timetable in which everybody gets only what they like best, but whatever
the program prints has a scheduling that lets no assignment spare everybody their second choice. -/
theorem C78_best_can_be_out_of_reach :
    (∃ s a, SchedShape data s ∧ Spec.Shape data s a ∧ Valid data s a ∧ Placed data s ∧ WithinLimit data a 0) ∧
    ∀ {F σ : Type} (o : Outside F σ), Trusted o data.nc → ∀ (opts : Opts F), 0 ≤ opts.csTimeout → ∀ p, Main.prepare o data opts = .ok p →
      ∀ g, Run (setup o p opts) (Threaded.start (setup o p opts)) g →
        report p g = .ok .noSolution ∨
        ∃ s a sched asg table, SchedShape data s ∧ Valid data s a ∧ report p g = .ok (.tables sched asg) ∧ asg = csv table ∧
          AssignmentTable data s a table ∧ ∀ a', Valid data s a' → ¬ WithinLimit data a' 0 := by
  constructor
  · refine ⟨[some 0, some 0, some 0, some 0, some 1], [[0, 4], [3, 4], [1, 4], [2, 4]], ?_, ⟨by decide +kernel, by decide +kernel, by decide +kernel⟩, ?_, ?_, ?_⟩
    · exact (feasible_valid (by decide +kernel) (by decide)).1
    · refine (C01_feasibility_exact _ ?_ ?_ _ _ ⟨?_, ?_, ?_⟩ true ?_).1 rfl
      all_goals decide +kernel
    · exact (feasible_valid (s := [some 0, some 0, some 0, some 0, some 1]) (by decide +kernel) (by decide)).2.mandatory
    · have hall : ∀ p ∈ List.range 4, ∀ c ∈ List.range 5, attendsB [[0, 4], [3, 4], [1, 4], [2, 4]] p c = true → pref data p c = some 0 := by
        decide +kernel
      intro p c x hat hx
      have hp : p < 4 := by
        obtain ⟨k, hk⟩ := hat
        by_contra hcon
        unfold entry at hk
        rw [List.getElem?_eq_none (by simp; omega)] at hk
        cases hk
      have hc : c < 5 := by
        unfold pref at hx
        by_contra hcon
        have hl : ∀ q ∈ data.choosers, q.prefs.length = 5 := by decide +kernel
        cases hq : data.choosers[p]? with
        | none => rw [hq] at hx; cases hx
        | some q =>
          rw [hq] at hx
          simp only [Option.bind_some] at hx
          rw [List.getElem?_eq_none (by rw [hl q (List.mem_of_getElem? hq)]; omega)] at hx
          cases hx
      have := hall p (by simpa using hp) c (by simpa using hc) ((attendsB_iff _ _ _).2 hat)
      rw [hx] at this
      cases this
      exact Nat.le_refl _
  · intro F σ o ho opts hcs p hp g hg
    have hA : ∃ an simp', Analysis.new data an simp' = .ok p.analysis := by
      unfold Main.prepare at hp
      simp only [R.bind_eq_ok] at hp
      obtain ⟨an, han, S, hS, hpp⟩ := hp
      cases hpp
      exact ⟨_, _, han⟩
    obtain ⟨an, simp', hA⟩ := hA
    rcases C78_printed_is_attainable raw _ describes_raw data build_raw manageable.1 manageable.2 o ho opts hcs p hp g hg with
      e | ⟨s, a, sched, asg, h1, h2, _, h4, ⟨table, h5, h6⟩, h7⟩
    · exact .inl e
    · have hap := attainable_apart an simp' hA h7
      exact .inr ⟨s, a, sched, asg, table, h1, h2, h4, h5, h6, fun a' ha' => somebody_suffers hap ha'⟩

/-! ### The program does print something here -/

/-- Numbers in turn; shuffles do nothing. -/
def five : RngOps Nat where
  sample s := (((s % 5 : Nat) : Int), s + 1)
  shuffle s n := (List.range n, s + 1)

theorem five_lawful : five.Lawful where
  sample_range s := by
    show -2147483648 ≤ ((s % 5 : Nat) : Int) ∧ ((s % 5 : Nat) : Int) ≤ 2147483647
    omega
  shuffle_perm s n := List.Perm.refl _

theorem five_after (k s : Nat) : five.after k s = s + k := by
  induction k generalizing s with
  | zero => rfl
  | succ k ih =>
    show five.after k (s + 1) = s + (k + 1)
    rw [ih]; omega

theorem five_varied : five.Varied 5 5 := by
  intro used hu s
  have : ∃ v, v < 5 ∧ v ∉ used := by
    apply Classical.byContradiction
    intro hno
    have hall : ∀ v ∈ List.range 5, v ∈ used := by
      intro v hv
      apply Classical.byContradiction
      intro hn
      exact hno ⟨v, List.mem_range.1 hv, hn⟩
    have := (List.nodup_range (n := 5)).subperm hall |>.length_le
    simp at this
    omega
  obtain ⟨v, hv, hn⟩ := this
  refine ⟨(v + 5 - s % 5) % 5, by omega, ?_⟩
  rw [five_after]
  show ((((s + (v + 5 - s % 5) % 5) % 5 : Nat) : Int) % ((5 : Nat) : Int)).toNat ∉ used
  have : ((((s + (v + 5 - s % 5) % 5) % 5 : Nat) : Int) % ((5 : Nat) : Int)).toNat = v := by omega
  rw [this]
  exact hn

def outside : Outside Unit Nat := { MainEx.outside with
  rng := five
  lateIter := fun _ _ => false
  draws := 5 }
noncomputable def ideal : Outside Unit Nat := { outside with backend := fun _ => idealBackend }
def eff : Opts Unit := effectiveOptions read.2
def prepared : Prepared := match Main.prepare outside data eff with
  | .ok p => p
  | .error _ => ⟨default, ⟨[], [], 0⟩, ⟨.empty, [], [], [], [], []⟩, ⟨true, fun _ => 0⟩⟩

theorem prepare_ok : Main.prepare ideal data eff = .ok prepared := by
  have h : (Main.prepare outside data eff).isOk = true := by decide +kernel
  show Main.prepare outside data eff = .ok prepared
  unfold prepared
  cases e : Main.prepare outside data eff with
  | ok d => rfl
  | error f => rw [e] at h; cases h

theorem trusted : Trusted ideal data.nc := by
  have : data.nc = 5 := by decide +kernel
  rw [this]
  exact ⟨five_lawful, five_varied, fun _ => ideal_sound⟩

theorem scorable : Scorable prepared.scoring data :=
  C60_every_solution_scored_partial raw _ describes_raw data build_raw manageable.1 manageable.2 ideal eff prepared prepare_ok
    (FloatEx.identity_moderate _ _ (by decide +kernel))

theorem unlinked (s : Scheduling) : LinksScheduled data s := by
  have hno : data.asgCons = [] := by decide +kernel
  intro a b ha hb hc
  rw [hno] at hc ⊢
  have : ∀ x y, Connected (SameLink []) x y → x = y := by
    intro x y hxy
    induction hxy with
    | refl => rfl
    | link h => obtain ⟨c, hc, _⟩ := h; cases hc
    | symm _ ih => exact ih.symm
    | trans _ _ ih1 ih2 => exact ih1.trans ih2
  rw [this a b hc]
  exact .refl _

theorem assignable (s : Scheduling) (hs : SchedShape data s) (hv : SchedValid data s) : LinksScheduled data s ∧ ∃ a, Valid data s a := by
  refine ⟨unlinked s, ?_⟩
  have hfill : ∀ x ∈ [([some 0, some 0, some 1, some 1, some 0], [[0, 2], [1, 2], [4, 2], [0, 3]]),
      ([some 0, some 0, some 1, some 1, some 1], [[0, 2], [1, 3], [0, 4], [0, 2]]),
      ([some 1, some 1, some 0, some 0, some 0], [[2, 0], [3, 1], [4, 0], [2, 0]]),
      ([some 1, some 1, some 0, some 0, some 1], [[2, 0], [2, 1], [2, 4], [3, 0]]),
      ([some 0, some 0, some 0, some 0, some 1], [[0, 4], [3, 4], [1, 4], [2, 4]]),
      ([some 1, some 1, some 1, some 1, some 0], [[4, 0], [4, 3], [4, 1], [4, 2]])],
      Scoring.isFeasible data (.complete x.1 x.2) = .ok true ∧ x.2.length = data.np ∧ ∀ r ∈ x.2, r.length = data.ns := by decide +kernel
  have key : ∀ s a, SchedShape data s → Scoring.isFeasible data (.complete s a) = .ok true ∧ a.length = data.np ∧ (∀ r ∈ a, r.length = data.ns) →
      ∃ a, Valid data s a := fun s a hs h =>
    ⟨a, (C01_feasibility_exact data wf (by decide +kernel) _ _ ⟨hs.len, h.2.1, h.2.2⟩ true h.1).1 rfl⟩
  rcases six hs hv with e | e
  · simp only [apart, List.mem_cons, List.not_mem_nil, or_false] at e
    rcases e with rfl | rfl | rfl | rfl
    · exact key _ [[0, 2], [1, 2], [4, 2], [0, 3]] hs (hfill (_, [[0, 2], [1, 2], [4, 2], [0, 3]]) (by simp))
    · exact key _ [[0, 2], [1, 3], [0, 4], [0, 2]] hs (hfill (_, [[0, 2], [1, 3], [0, 4], [0, 2]]) (by simp))
    · exact key _ [[2, 0], [3, 1], [4, 0], [2, 0]] hs (hfill (_, [[2, 0], [3, 1], [4, 0], [2, 0]]) (by simp))
    · exact key _ [[2, 0], [2, 1], [2, 4], [3, 0]] hs (hfill (_, [[2, 0], [2, 1], [2, 4], [3, 0]]) (by simp))
  · simp only [together, List.mem_cons, List.not_mem_nil, or_false] at e
    rcases e with rfl | rfl
    · exact key _ [[0, 4], [3, 4], [1, 4], [2, 4]] hs (hfill (_, [[0, 4], [3, 4], [1, 4], [2, 4]]) (by simp))
    · exact key _ [[4, 0], [4, 3], [4, 1], [4, 2]] hs (hfill (_, [[4, 0], [4, 3], [4, 1], [4, 2]]) (by simp))

/-- A session in which one worker has completed an iteration. -/
theorem session : ∃ g, Run (setup ideal prepared eff) (Threaded.start (setup ideal prepared eff)) g ∧
    ∃ w ∈ g.workers, 1 ≤ w.st.progress.iterations := by
  have hmax : ∀ q ∈ raw.choices, q.max ≤ 4294967295 := by decide +kernel
  have hW := worker_total hmax build_raw manageable.1 manageable.2 trusted (by decide +kernel) prepare_ok 0
  obtain ⟨k, st, hit, _⟩ := iterate_total hW true 1 ((setup ideal prepared eff).init 0) ⟨true, .new⟩ trivial
  have hn : ∃ s r, ((setup ideal prepared eff).env 0).next ((setup ideal prepared eff).init 0).sched = .ok (some s, r) := by
    show ∃ s r, ((setup outside prepared eff).env 0).next ((setup outside prepared eff).init 0).sched = .ok (some s, r)
    have hx : ((((setup outside prepared eff).env 0).next ((setup outside prepared eff).init 0).sched).toOption.bind (·.1)).isSome = true := by
      decide +kernel
    cases e : ((setup outside prepared eff).env 0).next ((setup outside prepared eff).init 0).sched with
    | error f => rw [e] at hx; cases hx
    | ok y =>
      obtain ⟨x, r⟩ := y
      cases x with
      | none => rw [e] at hx; cases hx
      | some s => exact ⟨s, r, rfl⟩
  have h1 : 1 ≤ st.progress.iterations := by
    obtain ⟨s, r, hn⟩ := hn
    have hc : Shotgun.clock ((setup ideal prepared eff).env 0) true ((setup ideal prepared eff).init 0) =
        (false, { (setup ideal prepared eff).init 0 with ticks := 1 }) := rfl
    unfold Shotgun.iterate at hit
    simp only [hc, Bool.false_eq_true, if_false] at hit
    rw [show ((setup ideal prepared eff).env 0).next ({ (setup ideal prepared eff).init 0 with ticks := 1 } : SState _ _ _).sched =
      .ok (some s, r) from hn, R.bind_ok] at hit
    simp only [Shotgun.iterate, R.bind_eq_ok] at hit
    obtain ⟨_, _, _, _, _, hr, hit⟩ := hit
    cases hr
    cases hit
    show 1 ≤ (Shotgun.record _ _ _ _).progress.iterations + 1
    omega
  have hs : (Threaded.start (setup ideal prepared eff)).workers[0]? = some ⟨.check, (setup ideal prepared eff).init 0, 0⟩ := by
    show (Threaded.start (setup ideal prepared eff)).workers[0]? = _
    unfold Threaded.start
    rfl
  have m1 := Move.check (cfg := setup ideal prepared eff) _ 0 _ false hs rfl
  have m2 := Move.run (cfg := setup ideal prepared eff) { Threaded.start (setup ideal prepared eff) with
      workers := (Threaded.start (setup ideal prepared eff)).workers.set 0 (checkStep (Threaded.start (setup ideal prepared eff)).cancelled false
        ⟨.check, (setup ideal prepared eff).init 0, 0⟩) } 0 (checkStep false false ⟨.check, (setup ideal prepared eff).init 0, 0⟩)
    (by
      have hlt := (List.getElem?_eq_some_iff.1 hs).1
      exact List.getElem?_set_self hlt) rfl
  have hrun : runStep (setup ideal prepared eff) 0 (checkStep false false ⟨.check, (setup ideal prepared eff).init 0, 0⟩) =
      ⟨.test k, st, 1⟩ := by
    unfold runStep
    rw [show Shotgun.iterate (setup ideal prepared eff).problem ((setup ideal prepared eff).env 0) true 1
      (checkStep false false ⟨.check, (setup ideal prepared eff).init 0, 0⟩ : Worker _ _ _).st = .ok (k, st) from hit]
    rfl
  rw [hrun] at m2
  refine ⟨_, ((Run.refl _).step (.move m1)).step (.move m2), ⟨.test k, st, 1⟩, ?_, h1⟩
  have hlt := (List.getElem?_eq_some_iff.1 hs).1
  simp only [List.set_set]
  exact List.mem_of_getElem? (List.getElem?_set_self hlt)

/-- So there are runs in which the program prints a timetable, and it is not the best one. -/
example : ∃ g, Run (setup ideal prepared eff) (Threaded.start (setup ideal prepared eff)) g ∧
    ∃ s a sched asg table, SchedShape data s ∧ Valid data s a ∧ report prepared g = .ok (.tables sched asg) ∧ asg = csv table ∧
      AssignmentTable data s a table ∧ ∀ a', Valid data s a' → ¬ WithinLimit data a' 0 := by
  obtain ⟨g, hg, hone⟩ := session
  refine ⟨g, hg, ?_⟩
  obtain ⟨_, _, sd, x, _, _, _, hre, _⟩ := C70_one_iteration_suffices raw _ describes_raw data build_raw manageable.1 manageable.2 ideal trusted
    (fun _ => ideal_exact) eff (by decide +kernel) prepared prepare_ok (fun _ _ => rfl) (fun _ _ => rfl) scorable g hg assignable hone
  rcases C78_best_can_be_out_of_reach.2 ideal trusted eff (by decide +kernel) prepared prepare_ok g hg with e | e
  · rw [hre] at e; cases e
  · exact e

/-! ### What is found -/

/-- Three choices with room for two in two slots, without constraints. -/
def inp : InputData where
  choices := [⟨['X'], 0, 2, none, false⟩, ⟨['Y'], 0, 2, none, false⟩, ⟨['Z'], 1, 2, none, false⟩]
  choosers := [⟨['p'], [0, 0, 0]⟩, ⟨['q'], [0, 0, 0]⟩]
  slots := [['s'], ['t']]
  schedCons := []
  asgCons := []
  depGroups := [[0], [1], [2]]
  prefLevels := [0]
  maxPref := 0
  choiceConMap := []
  chooserConMap := []

theorem inp_wf : WF inp := by decide
theorem inp_sizes : Sizes inp := by constructor <;> decide
theorem inp_ready : SearchReady inp where
  limits := by intro k hk; simp [inp] at hk
  offsets := by intro k hk; simp [inp] at hk
  slots := by decide
  conMap := by intro c hc k; simp [inp, InputData.schedConsFor]

theorem inp_order : HandlingOrder inp [0, 1, 2] := ⟨List.Perm.refl _, by decide⟩

theorem inp_shape : SchedShape inp [some 0, some 1, some 0] := by
  refine ⟨rfl, ?_⟩
  intro c t h
  show t < 2
  match c with
  | 0 => simp [slotAt] at h; omega
  | 1 => simp [slotAt] at h; omega
  | 2 => simp [slotAt] at h; omega
  | n + 3 => simp [slotAt] at h

theorem inp_valid : SchedValid inp [some 0, some 1, some 0] := by
  refine ⟨by decide, by decide, by decide, by intro c hc; simp [inp] at hc⟩

theorem inp_least : LeastFull inp [0, 1, 2] [some 0, some 1, some 0] := by
  intro k c hk
  match k with
  | 0 =>
    cases hk
    refine ⟨0, rfl, fun b hb hne => ?_⟩
    have : b < 2 := hb
    have : b = 1 := by omega
    subst this; decide
  | 1 =>
    cases hk
    refine ⟨1, rfl, fun b hb hne => ?_⟩
    have : b < 2 := hb
    have : b = 0 := by omega
    subst this; decide
  | 2 =>
    cases hk
    refine ⟨0, rfl, fun b hb hne => ?_⟩
    have : b < 2 := hb
    have : b = 1 := by omega
    subst this; decide
  | n + 3 => simp at hk

/-- The least full slots in turn: found if the choices are left in their order. -/
example : ∃ slots r, Search.solve five inp [] (fun _ => false) 0 = .ok (.found slots, r) ∧ Search.toScheduling inp slots = .ok [some 0, some 1, some 0] :=
  C78_first_is_found five five_lawful inp inp_wf inp_sizes inp_ready [] (by simp) (fun _ => false) 0 (by decide) (by intro k hk; simp [inp] at hk)
    (.inl (by decide)) (by decide) [0, 1, 2] rfl inp_order (fun _ => rfl) _
    (C78_least_full_is_first inp (by decide) _ inp_order _ inp_shape inp_valid inp_least) (by simp)

end Wassign.AttainEx
