import Verif.Spec.Shift
import Verif.Props.AssignmentSearch
/-
C86: only differences between preferences matter.
-/
namespace Wassign
open Spec Asg Build

theorem foldl_max_raised (k : Nat) : ∀ (l : List Nat) (m : Nat), (l.map (· + k)).foldl max (m + k) = l.foldl max m + k
  | [], _ => rfl
  | x :: l, m => by
    rw [List.map_cons, List.foldl_cons, List.foldl_cons]
    have : max (m + k) (x + k) = max m x + k := by omega
    rw [this]
    exact foldl_max_raised k l _

theorem prefCheck_raised (k n : Nat) (c : Chooser) (m : Nat) :
    prefCheck n (m + k) ⟨c.name, c.prefs.map (· + k)⟩ = (prefCheck n m c).map (· + k) := by
  unfold prefCheck
  simp only [List.length_map]
  split
  · rfl
  · rw [foldl_max_raised]; rfl

theorem prefCheck_first (k n : Nat) (hn : 0 < n) (c : Chooser) :
    prefCheck n 0 ⟨c.name, c.prefs.map (· + k)⟩ = (prefCheck n 0 c).map (· + k) := by
  unfold prefCheck
  simp only [List.length_map]
  split
  · rfl
  · rename_i h
    cases hp : c.prefs with
    | nil => rw [hp] at h; simp at h; omega
    | cons x l =>
      have e1 : max 0 (x + k) = x + k := by omega
      have e2 : max 0 x = x := by omega
      rw [List.map_cons, List.foldl_cons, List.foldl_cons, e1, e2, foldl_max_raised]; rfl

theorem check_rest (k n : Nat) : ∀ (cs : List Chooser) (m : Nat),
    (cs.map (fun c => (⟨c.name, c.prefs.map (· + k)⟩ : Chooser))).foldlM (prefCheck n) (m + k) = (cs.foldlM (prefCheck n) m).map (· + k)
  | [], _ => rfl
  | c :: cs, m => by
    rw [List.map_cons, List.foldlM_cons, List.foldlM_cons, prefCheck_raised]
    cases h : prefCheck n m c with
    | error e => rfl
    | ok m' => exact check_rest k n cs m'

theorem check_raised (k n : Nat) (hn : 0 < n) (cs : List Chooser) (hcs : cs ≠ []) :
    (cs.map (fun c => (⟨c.name, c.prefs.map (· + k)⟩ : Chooser))).foldlM (prefCheck n) 0 = (cs.foldlM (prefCheck n) 0).map (· + k) := by
  cases cs with
  | nil => exact absurd rfl hcs
  | cons c cs =>
    rw [List.map_cons, List.foldlM_cons, List.foldlM_cons, prefCheck_first k n hn]
    cases h : prefCheck n 0 c with
    | error e => rfl
    | ok m' => exact check_rest k n cs m'

theorem mirror_raised (k m : Nat) (c : Chooser) : mirror (m + k) ⟨c.name, c.prefs.map (· + k)⟩ = mirror m c := by
  have h : ∀ l : List Nat, (l.map (· + k)).mapM (fun p => subU (m + k) p "max_preference - preference") =
      l.mapM (fun p => subU m p "max_preference - preference") := by
    intro l
    induction l with
    | nil => rfl
    | cons x l ih =>
      have e : subU (m + k) (x + k) "max_preference - preference" = subU m x "max_preference - preference" := by
        unfold subU
        by_cases hx : x ≤ m
        · rw [if_pos hx, if_pos (by omega)]
          congr 1
          omega
        · rw [if_neg hx, if_neg (by omega)]
      rw [List.map_cons, List.mapM_cons, List.mapM_cons, e, ih]
  unfold mirror
  rw [h]

theorem mirrors_raised (k m : Nat) (cs : List Chooser) :
    (cs.map (fun c => (⟨c.name, c.prefs.map (· + k)⟩ : Chooser))).mapM (mirror (m + k)) = cs.mapM (mirror m) := by
  induction cs with
  | nil => rfl
  | cons c cs ih => rw [List.map_cons, List.mapM_cons, List.mapM_cons, ih, mirror_raised]

theorem buildPreferences_raised (k : Nat) (raw : Raw) (hc : raw.choices ≠ []) (hp : raw.choosers ≠ []) :
    buildPreferences (raised k raw) = (buildPreferences raw).map (fun r => (r.1 + k, r.2)) := by
  unfold buildPreferences
  show (do
    let m ← (raw.choosers.map _).foldlM (prefCheck raw.choices.length) 0
    let cs ← (raw.choosers.map _).mapM (mirror m)
    pure (m, cs)) = _
  rw [check_raised k _ (List.length_pos_iff.2 hc) _ hp]
  cases h : raw.choosers.foldlM (prefCheck raw.choices.length) 0 with
  | error e => rfl
  | ok m =>
    show (do
      let cs ← (raw.choosers.map _).mapM (mirror (m + k))
      pure (m + k, cs)) = _
    rw [mirrors_raised]
    cases h2 : raw.choosers.mapM (mirror m) with
    | error e => show _ = Except.map _ (do let cs ← raw.choosers.mapM (mirror m); pure (m, cs)); rw [h2]; rfl
    | ok cs => show _ = Except.map _ (do let cs ← raw.choosers.mapM (mirror m); pure (m, cs)); rw [h2]; rfl

/-- The same data with another greatest preference and other levels. -/
abbrev rescaled (m : Nat) (ls : List Nat) (d : InputData) : InputData := { d with
  prefLevels := ls
  maxPref := m }

section
variable (m : Nat) (ls : List Nat) (d : InputData)

theorem walkParts_blind (asked : Nat) : ∀ part c, walkParts (rescaled m ls d) asked part c = walkParts d asked part c
  | 0, _ => rfl
  | part + 1, c => by
    unfold walkParts
    show (idx d.choices c "data.choices[choice]" >>= _) = _
    congr 1
    funext x
    cases x.continuation with
    | none => rfl
    | some n => exact walkParts_blind asked part n

theorem resolveAccessor_blind (a : Accessor) : resolveAccessor (rescaled m ls d) a = resolveAccessor d a := by
  unfold resolveAccessor
  split <;> try rfl
  show (findName a.name (d.choices.map (·.name)) >>= _) = _
  congr 1
  funext x
  cases x with
  | none => rfl
  | some c => show (walkParts (rescaled m ls d) a.part a.part c >>= _) = _; rw [walkParts_blind]

theorem addConstraint_blind (e : CExpr) (k : Kind) (x : Extra) : addConstraint (rescaled m ls d) e k x = addConstraint d e k x := by
  have hr : resolveRight (rescaled m ls d) e.right = resolveRight d e.right := by
    unfold resolveRight
    simp only [resolveAccessor_blind]
  unfold addConstraint
  rw [hr, resolveAccessor_blind]

theorem buildExpr_blind (e : CExpr) : buildExpr (rescaled m ls d) e = buildExpr d e := by
  unfold buildExpr
  simp only [addConstraint_blind]

/-- The rest of the builder does not look at the greatest preference and the levels. -/
theorem written_blind (raw : Raw) (k : Nat) :
    writtenConstraints (raised k raw) (rescaled m ls d) = writtenConstraints raw d := by
  have h : buildExpr (rescaled m ls d) = buildExpr d := funext (buildExpr_blind m ls d)
  unfold writtenConstraints
  show (raw.exprs.mapM (buildExpr (rescaled m ls d)) >>= _) = _
  rw [h]

theorem map_bind {α β γ : Type} (x : R α) (f : α → R β) (g : β → γ) : (x >>= f).map g = x >>= fun a => (f a).map g := by
  cases x <;> rfl

theorem buildConstraints_blind (raw : Raw) (k : Nat) :
    buildConstraints (raised k raw) (rescaled m ls d) = (buildConstraints raw d).map (rescaled m ls) := by
  unfold buildConstraints
  rw [written_blind, map_bind]
  congr 1
  funext w
  rw [map_bind]
  congr 1
  funext r
  split
  · rfl
  · simp only [map_bind]
    rfl

end

/-- **C86**: if everybody raises all preferences by the same amount, the program reads the same input - the same choices with the same limits, the
same constraints, and the same (mirrored) preferences - or refuses it for the same reason. Only the greatest preference and the list of
levels differ. -/
theorem C86_same_input (k : Nat) (raw : Raw) (hc : raw.choices ≠ []) (hp : raw.choosers ≠ []) :
    build (raised k raw) = (build raw).map (fun d => { d with
      maxPref := d.maxPref + k
      prefLevels := buildLevels (raised k raw) (d.maxPref + k) }) := by
  unfold build
  rw [buildPreferences_raised k raw hc hp]
  cases h : buildPreferences raw with
  | error e => rfl
  | ok r =>
    obtain ⟨m, cs⟩ := r
    show (buildConstraints (raised k raw) (rescaled (m + k) (buildLevels (raised k raw) (m + k)) (stage1 raw m cs)) >>= _) =
      Except.map _ (buildConstraints raw (stage1 raw m cs) >>= _)
    rw [buildConstraints_blind]
    cases h2 : buildConstraints raw (stage1 raw m cs) with
    | error e => rfl
    | ok d =>
      have hm : d.maxPref = m := by
        unfold buildConstraints at h2
        simp only [R.bind_eq_ok] at h2
        obtain ⟨_, _, _, _, h2⟩ := h2
        split at h2
        · cases h2
        · simp only [R.bind_eq_ok] at h2
          obtain ⟨_, _, _, _, _, _, _, _, _, _, h2⟩ := h2
          cases h2; rfl
      show (constraintMaps d.choices.length d.choosers.length d.schedCons >>= _) =
        Except.map _ (constraintMaps d.choices.length d.choosers.length d.schedCons >>= _)
      cases h3 : constraintMaps d.choices.length d.choosers.length d.schedCons with
      | error e => rfl
      | ok maps => subst hm; rfl

/-- **C86**: so the same schedulings are within the rules, the same timetables are valid, and in each of them everybody fares the same. -/
theorem C86_same_timetables (k : Nat) (raw : Raw) (hc : raw.choices ≠ []) (hp : raw.choosers ≠ []) (d : InputData) (h : build raw = .ok d) :
    ∃ d', build (raised k raw) = .ok d' ∧ (∀ s, SchedValid d' s ↔ SchedValid d s) ∧ (∀ s a, Valid d' s a ↔ Valid d s a) ∧
      (∀ p c, pref d' p c = pref d p c) ∧ (∀ a w, IsWorst d' a w ↔ IsWorst d a w) ∧ ∀ cost a, totalCost d' cost a = totalCost d cost a := by
  have e := C86_same_input k raw hc hp
  rw [h] at e
  refine ⟨_, e, ?_, ?_, fun _ _ => rfl, ?_, fun _ _ => rfl⟩
  · exact fun s => ⟨fun v => ⟨v.mandatory, v.minimum, v.maximum, v.cons⟩, fun v => ⟨v.mandatory, v.minimum, v.maximum, v.cons⟩⟩
  · exact fun s a => ⟨fun v => ⟨v.sched, v.asg, v.onePerSlot, v.onlyScheduled, v.bounds⟩, fun v => ⟨v.sched, v.asg, v.onePerSlot, v.onlyScheduled, v.bounds⟩⟩
  · exact fun a w => ⟨fun v => ⟨v.upper, v.attained⟩, fun v => ⟨v.upper, v.attained⟩⟩

/-- **C86**, partial: for a scheduling, the assignments found for the input and for the raised one are equally good for whoever is worst off,
if both times every preference is a level. Missing: the levels are taken from the preferences as given, the preferences the solver works with
are the mirrored ones, so this need not be (`C86_raising_changes_the_result`). -/
theorem C86_same_worst_partial (k : Nat) (raw : Raw) (hc : raw.choices ≠ []) (hp : raw.choosers ≠ []) (d d' : InputData)
    (hd : build raw = .ok d) (hd' : build (raised k raw) = .ok d')
    (pr pr' : AProblem) (env env' : AEnv) (hi : pr.input = d) (hi' : pr'.input = d') (ho : ProblemOk pr) (ho' : ProblemOk pr')
    (hlev : d.prefLevels.Pairwise (· < ·)) (hlev' : d'.prefLevels.Pairwise (· < ·)) (hz : 0 ∈ d.prefLevels) (hz' : 0 ∈ d'.prefLevels)
    (hb : Backend.Sound env.backend) (hb' : Backend.Sound env'.backend) (hcomp : Backend.Complete env.backend) (hcomp' : Backend.Complete env'.backend)
    (hgr : pr.greedy = false) (hgr' : pr'.greedy = false) (h0 : pr.bound = 0) (h0' : pr'.bound = 0)
    (hvals : ∀ p c x, pref d p c = some x → x ∈ d.prefLevels ∧ x ∈ d'.prefLevels)
    (s : Scheduling) (hs : SchedShape d s) (hlinks : LinksScheduled d s)
    (sv sv1 sv' sv1' : ASolver) (hsv : Reach pr env true sv) (hsv' : Reach pr' env' true sv') (a a' : Assignment)
    (h : solveUntil pr env false sv s = .ok (some a, sv1)) (h' : solveUntil pr' env' false sv' s = .ok (some a', sv1'))
    (w w' : Nat) (hw : IsWorst d a w) (hw' : IsWorst d a' w') : w = w' := by
  have e := C86_same_input k raw hc hp
  rw [hd, hd'] at e
  cases e
  have hv : ∀ i : InputData, ∀ m ls, AsgValid (rescaled m ls i) s a' → AsgValid i s a' := fun i m ls v => ⟨v.1, v.2, v.3, v.4⟩
  have hv2 : ∀ i : InputData, ∀ m ls, AsgValid i s a → AsgValid (rescaled m ls i) s a := fun i m ls v => ⟨v.1, v.2, v.3, v.4⟩
  have hw2 : ∀ m ls b x, IsWorst d b x → IsWorst (rescaled m ls d) b x := fun m ls b x v => ⟨v.1, v.2⟩
  subst hi
  have va : AsgValid pr.input s a := by
    obtain ⟨l, hg, _⟩ := ((reach_solve ho hlev hb hsv hs h).found a rfl).good
    exact hg.valid
  have hs' : SchedShape pr'.input s := by rw [hi']; exact ⟨hs.1, hs.2⟩
  have va' : AsgValid pr'.input s a' := by
    obtain ⟨l, hg, _⟩ := ((reach_solve ho' (by rw [hi']; exact hlev') hb' hsv' hs' h').found a' rfl).good
    exact hg.valid
  have k1 := C10_least_worst_partial pr env ho hlev hb hgr hcomp sv hsv s hs hlinks hz (fun p c x hx => (hvals p c x hx).1)
    (fun _ _ _ _ => by rw [h0]; exact Nat.zero_le _) a sv1 h a' w w' (hv _ _ _ (by rw [hi'] at va'; exact va')) hw hw'
  have k2 := C10_least_worst_partial pr' env' ho' (by rw [hi']; exact hlev') hb' hgr' hcomp' sv' hsv' s hs'
    (by rw [hi']; exact hlinks) (by rw [hi']; exact hz')
    (fun p c x hx => by rw [hi'] at hx ⊢; exact (hvals p c x hx).2) (fun _ _ _ _ => by rw [h0']; exact Nat.zero_le _) a' sv1' h' a w' w
    (by rw [hi']; exact hv2 _ _ _ va) (by rw [hi']; exact hw2 _ _ _ _ hw') (by rw [hi']; exact hw2 _ _ _ _ hw)
  omega

namespace ShiftEx

/-- The input of `WorstEx`, with all preferences raised by 80. -/
def d : InputData := dataOf (raised 80 WorstEx.raw)

theorem built : build (raised 80 WorstEx.raw) = .ok d := by decide +kernel

theorem shape : SchedShape d WorstEx.s := ⟨WorstEx.shape.1, fun c t h => by
  have := WorstEx.shape.2 c t h
  rwa [show d.ns = WorstEx.d.ns by decide +kernel]⟩

theorem ok : ProblemOk (probOf d) ∧ (probOf d).input.prefLevels.Pairwise (· < ·) ∧
    (probOf d).input.prefLevels.getLast? = some (probOf d).input.maxPref :=
  problemOk_of_built _ d (by decide) built (by decide +kernel) (probOf d) rfl (by decide +kernel)

theorem fair_valid : AsgValid d WorstEx.s WorstEx.fair :=
  valid_of_check ⟨by decide +kernel, by decide +kernel, by decide +kernel⟩ (by decide +kernel) ok.1.wf (by decide +kernel)

theorem prefs : pref d 0 0 = some 80 ∧ pref d 0 1 = some 0 ∧ pref d 1 0 = some 100 ∧ pref d 1 1 = some 80 := by decide +kernel

theorem fits : FlowFits d WorstEx.s := by
  constructor
  · decide +kernel
  · decide +kernel
  · decide +kernel
  · decide +kernel

end ShiftEx

/-- **C86 is false of the code**: everybody raises all preferences by 80, which changes neither the valid assignments nor how anybody fares
in them; but for the input as given the program assigns somebody a choice with 100 (mirrored, the worst there is), for the raised one nobody gets
worse than 80 - with every exact backend. -/
theorem C86_raising_changes_the_result : build WorstEx.raw = .ok WorstEx.d ∧ build (raised 80 WorstEx.raw) = .ok ShiftEx.d ∧
    (∀ p c, pref ShiftEx.d p c = pref WorstEx.d p c) ∧
    ∀ env : AEnv, Backend.Sound env.backend → Backend.Optimal env.backend → Backend.Complete env.backend →
      (∃ a sv', solveUntil (probOf WorstEx.d) env false ASolver.new WorstEx.s = .ok (some a, sv') ∧ IsWorst WorstEx.d a 100) ∧
      ∃ a sv', solveUntil (probOf ShiftEx.d) env false ASolver.new WorstEx.s = .ok (some a, sv') ∧ WithinLimit ShiftEx.d a 80 := by
  have e := C86_same_input 80 WorstEx.raw (by decide) (by decide)
  rw [WorstEx.built, ShiftEx.built] at e
  refine ⟨WorstEx.built, ShiftEx.built, fun p c => by cases e; rfl, fun env hb ho hcm => ⟨(C10_worst_not_least.2.2.2.2 env hb ho hcm), ?_⟩⟩
  obtain ⟨hp, hlev, hlast⟩ := ShiftEx.ok
  obtain ⟨r, sv', h⟩ := solveUntil_total hp hb (env := env) (sv := ASolver.new) (fun st h => (by cases h)) ShiftEx.shape
    (by decide +kernel) ShiftEx.fits false
  have hlinks : LinksScheduled ShiftEx.d WorstEx.s := links_of_all hp.wf (by
    intro c hc'
    have : c < 2 := by rw [show 2 = ShiftEx.d.nc by decide +kernel]; exact hc'
    rcases (by omega : c = 0 ∨ c = 1) with rfl | rfl <;> simp [slotAt, WorstEx.s])
  have hres := reach_solve hp hlev hb (.new) ShiftEx.shape h
  cases r with
  | none =>
    exact absurd ⟨WorstEx.fair, ShiftEx.fair_valid, withinMax hp _, alike_of_links hp.groups hlinks ShiftEx.fair_valid⟩
      (hres.none rfl rfl hcm hlast)
  | some a =>
    refine ⟨a, sv', h, ?_⟩
    have hfair : IsWorst WorstEx.d WorstEx.fair 80 := C10_worst_not_least.2.2.2.1
    have hlim : WithinLimit ShiftEx.d WorstEx.fair 80 := by
      generalize ShiftEx.d = d' at e
      cases e
      exact hfair.upper
    obtain ⟨l, _, hl, hmin⟩ := C10_least_level_partial (probOf ShiftEx.d) env hp hlev hb rfl hcm ASolver.new .new WorstEx.s ShiftEx.shape hlinks a sv' h
    have h80 : l ≤ 80 := hmin 80 (by decide +kernel) (Nat.zero_le _) WorstEx.fair ShiftEx.fair_valid hlim
    exact fun p c x h1 h2 => Nat.le_trans (hl p c x h1 h2) h80

/-- The ideal backend is one of these. -/
example := C86_raising_changes_the_result.2.2.2 AsgEx.env ideal_sound ideal_optimal ideal_complete

namespace ShiftEx

/-- Two choosers with the preferences 2, 0 and 1, 2; raised by one, all mirrored preferences are still levels. -/
def mild : Raw where
  slots := ["Mo".toList]
  choices := [⟨"X".toList, 1, 1, 1, false⟩, ⟨"Y".toList, 1, 1, 1, false⟩]
  choosers := [⟨"p".toList, [2, 0]⟩, ⟨"q".toList, [1, 2]⟩]
  exprs := []

theorem mild_ok (k : Nat) (hk : k = 0 ∨ k = 1) : build (raised k mild) = .ok (dataOf (raised k mild)) ∧ ProblemOk (probOf (dataOf (raised k mild))) ∧
    (dataOf (raised k mild)).prefLevels.Pairwise (· < ·) ∧ SchedShape (dataOf (raised k mild)) WorstEx.s ∧
    LinksScheduled (dataOf (raised k mild)) WorstEx.s ∧
    ∃ a sv', solveUntil (probOf (dataOf (raised k mild))) AsgEx.env false ASolver.new WorstEx.s = .ok (some a, sv') := by
  have hb : build (raised k mild) = .ok (dataOf (raised k mild)) := by rcases hk with rfl | rfl <;> decide +kernel
  obtain ⟨hp, hlev, hlast⟩ := problemOk_of_built _ (dataOf (raised k mild)) (by rcases hk with rfl | rfl <;> decide) hb
    (by rcases hk with rfl | rfl <;> decide +kernel) (probOf (dataOf (raised k mild))) rfl (by rcases hk with rfl | rfl <;> decide +kernel)
  have hsh : SchedShape (dataOf (raised k mild)) WorstEx.s := ⟨by rcases hk with rfl | rfl <;> decide +kernel, fun c t h => by
    have := WorstEx.shape.2 c t h
    rwa [show (dataOf (raised k mild)).ns = WorstEx.d.ns by rcases hk with rfl | rfl <;> decide +kernel]⟩
  have hlinks : LinksScheduled (dataOf (raised k mild)) WorstEx.s := links_of_all hp.wf (by
    intro c hc'
    have : c < 2 := by rw [show 2 = (dataOf (raised k mild)).nc by rcases hk with rfl | rfl <;> decide +kernel]; exact hc'
    rcases (by omega : c = 0 ∨ c = 1) with rfl | rfl <;> simp [slotAt, WorstEx.s])
  have hv : AsgValid (dataOf (raised k mild)) WorstEx.s WorstEx.fair :=
    valid_of_check (by rcases hk with rfl | rfl <;> exact ⟨by decide +kernel, by decide +kernel, by decide +kernel⟩)
      (by rcases hk with rfl | rfl <;> decide +kernel) hp.wf (by rcases hk with rfl | rfl <;> decide +kernel)
  refine ⟨hb, hp, hlev, hsh, hlinks, ?_⟩
  obtain ⟨r, sv', h⟩ := solveUntil_total hp ideal_sound (env := AsgEx.env) (sv := ASolver.new) (fun st h => (by cases h)) hsh
    (by rcases hk with rfl | rfl <;> decide +kernel)
    (by constructor <;> (rcases hk with rfl | rfl <;> decide +kernel)) false
  cases r with
  | none =>
    exact absurd ⟨WorstEx.fair, hv, withinMax hp _, alike_of_links hp.groups hlinks hv⟩
      ((reach_solve hp hlev ideal_sound (.new) hsh h).none rfl rfl ideal_complete hlast)
  | some a => exact ⟨a, sv', h⟩

/-- The hypotheses of `C86_same_worst_partial` are met. -/
example : ∃ a a' sv1 sv1', solveUntil (probOf (dataOf mild)) AsgEx.env false ASolver.new WorstEx.s = .ok (some a, sv1) ∧
    solveUntil (probOf (dataOf (raised 1 mild))) AsgEx.env false ASolver.new WorstEx.s = .ok (some a', sv1') ∧
    ∀ w w', IsWorst (dataOf mild) a w → IsWorst (dataOf mild) a' w' → w = w' := by
  obtain ⟨b0, p0, l0, s0, k0, a, sv1, h⟩ := mild_ok 0 (.inl rfl)
  obtain ⟨b1, p1, l1, s1, k1, a', sv1', h'⟩ := mild_ok 1 (.inr rfl)
  have e0 : raised 0 mild = mild := by decide +kernel
  rw [e0] at b0 p0 l0 s0 k0 h
  exact ⟨a, a', sv1, sv1', h, h', fun w w' hw hw' => C86_same_worst_partial 1 mild (by decide) (by decide) _ _ b0 b1 _ _ AsgEx.env AsgEx.env rfl rfl p0 p1
    l0 l1 (by decide +kernel) (by decide +kernel) ideal_sound ideal_sound ideal_complete ideal_complete rfl rfl rfl rfl (by
      intro p c x hx
      have hall : ∀ ch ∈ (dataOf mild).choosers, ∀ x ∈ ch.prefs, x ∈ (dataOf mild).prefLevels ∧ x ∈ (dataOf (raised 1 mild)).prefLevels := by
        decide +kernel
      unfold pref at hx
      cases hc : (dataOf mild).choosers[p]? with
      | none => rw [hc] at hx; cases hx
      | some ch =>
        rw [hc] at hx
        exact hall ch (List.mem_of_getElem? hc) x (List.mem_of_getElem? hx))
    WorstEx.s s0 k0 _ _ _ _ .new .new a a' h h' w w' hw hw'⟩

end ShiftEx

end Wassign
