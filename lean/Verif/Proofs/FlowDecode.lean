import Verif.Proofs.FlowMeaning
import Verif.Spec.Assign
import Mathlib.Tactic.Choose
/-
Solutions of the flow problem and assignments.
-/
namespace Wassign
open Spec Asg

section
variable {pr : AProblem} {s : Scheduling} {st : ScheduleState} {limit : Nat} {f : MipFlow} {x : List Int} {a : Assignment}

/-- Choices of one dependency group that are scheduled are attended by the same choosers. -/
def GroupsAlike (i : InputData) (s : Scheduling) (a : Assignment) : Prop :=
  ∀ g ∈ i.depGroups, ∀ c ∈ g, ∀ c' ∈ g, slotAt s c ≠ none → slotAt s c' ≠ none → ∀ p, p < i.np →
    (Attends a p c ↔ Attends a p c')

/-- The flow describes assignment `a`. -/
def Agrees (pr : AProblem) (s : Scheduling) (f : MipFlow) (x : List Int) (a : Assignment) : Prop :=
  ∀ p t c, p < pr.input.np → t < pr.input.ns → c < pr.input.nc →
    X pr f x p t c = if slotAt s c = some t ∧ attendsB a p c = true then 1 else 0

theorem Agrees.one (h : Agrees pr s f x a) {p t c : Nat} (hp : p < pr.input.np) (ht : t < pr.input.ns) (hc : c < pr.input.nc) :
    X pr f x p t c = 1 ↔ slotAt s c = some t ∧ Attends a p c := by
  rw [h p t c hp ht hc, ← attendsB_iff]
  split
  · rename_i h1; simp [h1]
  · rename_i h1; simp [h1]

theorem Agrees.eq_iff (h : Agrees pr s f x a) {p t c p' t' c' : Nat} (hp : p < pr.input.np) (ht : t < pr.input.ns) (hc : c < pr.input.nc)
    (hp' : p' < pr.input.np) (ht' : t' < pr.input.ns) (hc' : c' < pr.input.nc) (hs : slotAt s c = some t) (hs' : slotAt s c' = some t') :
    X pr f x p t c = X pr f x p' t' c' ↔ (Attends a p c ↔ Attends a p' c') := by
  rw [h p t c hp ht hc, h p' t' c' hp' ht' hc', ← attendsB_iff, ← attendsB_iff]
  by_cases h1 : attendsB a p c = true <;> by_cases h2 : attendsB a p' c' = true <;> simp [hs, hs', h1, h2]

theorem Agrees.count (h : Agrees pr s f x a) {t c : Nat} (hc : c < pr.input.nc) (hs : slotAt s c = some t) (ht : t < pr.input.ns) :
    isum (List.range pr.input.np) (fun p => X pr f x p t c) = participants pr.input a c := by
  unfold participants
  rw [countP_range_eq_rsum, ← isum_range_natCast]
  refine isum_congr fun p hp => ?_
  rw [h p t c (by simpa using hp) ht hc]
  by_cases h1 : attendsB a p c = true <;> simp [hs, h1]

/-- Attendance is confined to existing choosers and choices. -/
structure AsgInRange (i : InputData) (a : Assignment) : Prop where
  p : ∀ p c, Attends a p c → p < i.np
  c : ∀ p c, Attends a p c → c < i.nc

theorem slotAt_lt (h : Setting pr s st) {c t : Nat} (hs : slotAt s c = some t) : c < pr.input.nc := by
  rw [← h.shape.len]
  unfold slotAt at hs
  by_contra hc
  rw [List.getElem?_eq_none (by omega)] at hs
  cases hs

theorem minN_eq {i : InputData} {c : Nat} (hc : c < i.nc) : minN i c = i.choices[c].min := by simp [minN, hc]
theorem maxN_eq {i : InputData} {c : Nat} (hc : c < i.nc) : maxN i c = i.choices[c].max := by simp [maxN, hc]

theorem sameLink_group (hg : GroupsMean pr.input) {x y : Nat} (hx : x < pr.input.nc) (hy : y < pr.input.nc)
    (h : SameLink pr.input.asgCons x y) : ∃ g ∈ pr.input.depGroups, x ∈ g ∧ y ∈ g :=
  (hg.connected x y hx hy).2 (.link h)

/-- What the flow solution says about the assignment. -/
theorem valid_of_vals (h : Setting pr s st) (hg : GroupsMean pr.input) (hx : FlowVals pr s limit f x)
    (ha : Agrees pr s f x a) (hr : AsgInRange pr.input a)
    (hcover : ∀ p c, Attends a p c → ∃ t, t < pr.input.ns ∧ slotAt s c = some t) :
    AsgValid pr.input s a ∧ WithinLimit pr.input a limit ∧ GroupsAlike pr.input s a := by
  have hgroups : GroupsAlike pr.input s a := by
    intro g hgm c hc c' hc' hsc hsc' p hp
    obtain ⟨t, ht⟩ := Option.ne_none_iff_exists'.1 hsc
    obtain ⟨t', ht'⟩ := Option.ne_none_iff_exists'.1 hsc'
    by_cases hlen : g.length = 1
    · obtain ⟨y, rfl⟩ := List.length_eq_one_iff.1 hlen
      simp only [List.mem_singleton] at hc hc'
      subst hc; subst hc'; rfl
    · exact (ha.eq_iff hp (h.shape.range c t ht) (hg.range g hgm c hc) hp (h.shape.range c' t' ht') (hg.range g hgm c' hc') ht ht').1
        (hx.deps g hgm hlen p hp c hc c' hc' t t' ht ht')
  have hone : OnePerSlot pr.input s a := by
    intro p hp t ht
    obtain ⟨c, hc, h1, hu⟩ := isum_one_unique List.nodup_range
      (fun c hc => hx.zero1 p t c hp ht (by simpa using hc)) (hx.one p t hp ht)
    have hc' : c < pr.input.nc := by simpa using hc
    have := (ha.one hp ht hc').1 h1
    refine ⟨c, ⟨this.2, this.1⟩, ?_⟩
    intro c' hat hs'
    have hc2 := slotAt_lt h hs'
    exact hu c' (by simpa using hc2) ((ha.one hp ht hc2).2 ⟨hs', hat⟩)
  have hallow : ∀ p c, Attends a p c → ∃ t, t < pr.input.ns ∧ slotAt s c = some t ∧ Allow pr s limit p t c := by
    intro p c hat
    obtain ⟨t, ht, hs⟩ := hcover p c hat
    exact ⟨t, ht, hs, hx.allow p t c (hr.p p c hat) ht (hr.c p c hat) ((ha.one (hr.p p c hat) ht (hr.c p c hat)).2 ⟨hs, hat⟩)⟩
  refine ⟨⟨hone, fun p _ c hat => hcover p c hat, ?_, ?_⟩, ?_, hgroups⟩
  · intro c hc hsc
    obtain ⟨t, ht⟩ := Option.ne_none_iff_exists'.1 hsc
    have hb := hx.bounds c t hc ht
    rw [ha.count hc ht (h.shape.range c t ht), minN_eq hc, maxN_eq hc] at hb
    omega
  · intro k hk
    have hwf := h.wf.asg k hk
    obtain ⟨kd, lf, rt, ex⟩ := k
    unfold AsgConWF at hwf
    unfold AsgHolds
    cases kd <;> cases rt <;> simp only at hwf ⊢ <;> try exact hwf.elim
    · rename_i y
      intro h1 h2 p
      obtain ⟨g, hgm, m1, m2⟩ := sameLink_group hg hwf.1 hwf.2 ⟨_, hk, rfl, rfl, rfl⟩
      by_cases hp : p < pr.input.np
      · exact hgroups g hgm lf m1 y m2 h1 h2 p hp
      · exact ⟨fun hh => absurd (hr.p _ _ hh) hp, fun hh => absurd (hr.p _ _ hh) hp⟩
    · rename_i y
      intro h1
      obtain ⟨t, ht⟩ := Option.ne_none_iff_exists'.1 h1
      have htn := h.shape.range y t ht
      obtain ⟨c, ⟨hc1, hc2⟩, _⟩ := hone lf hwf.1 t htn
      by_cases e : c = y
      · rw [← e]; exact hc1
      · obtain ⟨t', _, hs', hal⟩ := hallow lf c hc1
        rw [hc2] at hs'; cases hs'
        exact absurd (.inl ⟨_, hk, rfl, rfl, y, rfl, ht, e, hc2⟩) hal.2.2
    · rename_i y
      intro hat
      obtain ⟨t', _, hs', hal⟩ := hallow lf y hat
      exact absurd (.inr ⟨_, hk, rfl, rfl, rfl⟩) hal.2.2
    · rename_i q
      intro y
      have key : ∀ p, (p = lf ∨ p = q) → Attends a p y → ∃ t, t < pr.input.ns ∧ slotAt s y = some t :=
        fun p _ hat => hcover p y hat
      have main : ∀ t, t < pr.input.ns → slotAt s y = some t → (Attends a lf y ↔ Attends a q y) := by
        intro t ht hs
        have := hx.pairs _ hk q rfl rfl t y ht hs
        exact (ha.eq_iff hwf.1 ht (slotAt_lt h hs) hwf.2 ht (slotAt_lt h hs) hs hs).1 this
      constructor
      · intro hat; obtain ⟨t, ht, hs⟩ := key lf (.inl rfl) hat; exact (main t ht hs).1 hat
      · intro hat; obtain ⟨t, ht, hs⟩ := key q (.inr rfl) hat; exact (main t ht hs).2 hat
  · intro p c v hat hv
    obtain ⟨t, _, _, hal⟩ := hallow p c hat
    have := hal.2.1
    unfold prefN at this
    rw [hv] at this
    exact this

/-- Every valid assignment is a solution of the flow. -/
theorem vals_of_valid (h : Setting pr s st) (hv : AsgValid pr.input s a) (hl : WithinLimit pr.input a limit)
    (hgr : GroupsAlike pr.input s a) (hgm : GroupsMean pr.input) (ha : Agrees pr s f x a) : FlowVals pr s limit f x := by
  have hallow : ∀ p t c, p < pr.input.np → slotAt s c = some t → Attends a p c → Allow pr s limit p t c := by
    intro p t c hp hs hat
    refine ⟨hs, ?_, ?_⟩
    · unfold prefN
      cases hv' : pref pr.input p c with
      | none => simp
      | some v => exact hl p c v hat hv'
    · rintro (⟨k, hk, e1, e2, y, e3, hy, hne, _⟩ | ⟨k, hk, e1, e2, e3⟩)
      · have hh := hv.asg k hk
        unfold AsgHolds at hh
        rw [e1, e3] at hh
        simp only at hh
        have hat' := hh (by rw [hy]; simp)
        rw [e2] at hat'
        obtain ⟨z, _, hu⟩ := hv.onePerSlot p hp t (h.shape.range c t hs)
        exact hne ((hu c hat hs).trans (hu y hat' hy).symm)
      · have hh := hv.asg k hk
        unfold AsgHolds at hh
        rw [e1, e3] at hh
        simp only at hh
        rw [e2] at hh
        exact hh hat
  refine ⟨?_, ?_, ?_, ?_, ?_, ?_⟩
  · intro p t c hp ht hc
    have := ha p t c hp ht hc
    unfold X at this
    rw [this]
    split
    · exact .inr rfl
    · exact .inl rfl
  · intro p t c hp ht hc h1
    obtain ⟨hs, hat⟩ := (ha.one hp ht hc).1 h1
    exact hallow p t c hp hs hat
  · intro p t hp ht
    obtain ⟨c, ⟨hat, hs⟩, hu⟩ := hv.onePerSlot p hp t ht
    have hc := slotAt_lt h hs
    rw [isum_range_single hc]
    · exact (ha.one hp ht hc).2 ⟨hs, hat⟩
    · intro b hb hne
      rw [ha p t b hp ht hb, if_neg]
      rintro ⟨h1, h2⟩
      exact hne (hu b ((attendsB_iff a p b).1 h2) h1)
  · intro c t hc hs
    have ht := h.shape.range c t hs
    rw [ha.count hc hs ht]
    have := hv.bounds c hc (by rw [hs]; simp)
    rw [minN_eq hc, maxN_eq hc]
    omega
  · intro k hk q e1 e2 t y ht hs
    have hh := hv.asg k hk
    have hwf := h.wf.asg k hk
    unfold AsgHolds at hh
    unfold AsgConWF at hwf
    rw [e1, e2] at hh hwf
    simp only at hh hwf
    have hy := slotAt_lt h hs
    exact (ha.eq_iff hwf.1 ht hy hwf.2 ht hy hs hs).2 (hh y)
  · intro g hg _ p hp c hc c' hc' t t' hs hs'
    exact (ha.eq_iff hp (h.shape.range c t hs) (hgm.range g hg c hc) hp (h.shape.range c' t' hs') (hgm.range g hg c' hc') hs hs').2
      (hgr g hg c hc c' hc' (by rw [hs]; simp) (by rw [hs']; simp) p hp)

/-- The cost of the flow is the cost of the assignment. -/
theorem cost_agrees (h : Setting pr s st) (hd : FlowDesc pr s st limit f) (ha : Agrees pr s f x a)
    (ho : OnlyScheduled pr.input s a) : flowCost f x = totalCost pr.input pr.cost a := by
  rw [flow_cost h hd]
  show _ = isum (List.range pr.input.np) (fun p => isum (List.range pr.input.nc) (fun c =>
    if attendsB a p c = true then pr.cost ((pref pr.input p c).getD 0) else 0))
  refine isum_congr fun p hp => ?_
  have hp' : p < pr.input.np := by simpa using hp
  rw [isum_comm]
  refine isum_congr fun c hc => ?_
  have hc' : c < pr.input.nc := by simpa using hc
  cases hs : slotAt s c with
  | none =>
    rw [isum_zero, if_neg]
    · intro hat
      obtain ⟨t, _, h1⟩ := ho p hp' c ((attendsB_iff a p c).1 hat)
      rw [hs] at h1; cases h1
    · intro t ht
      rw [ha p t c hp' (by simpa using ht) hc', if_neg (by rw [hs]; simp)]
      simp
  | some t =>
    have ht := h.shape.range c t hs
    rw [isum_range_single ht]
    · rw [ha p t c hp' ht hc']
      by_cases h1 : attendsB a p c = true <;> simp [hs, h1, prefN]
    · intro t' ht' hne
      rw [ha p t' c hp' ht' hc', if_neg]
      · simp
      · rintro ⟨h1, _⟩
        rw [hs] at h1; cases h1; exact hne rfl

/-! ### Encoding an assignment -/

/-- The value an assignment gives to an edge. -/
def encVal (i : InputData) (a : Assignment) (e : Edge) : Int :=
  if e.src < i.np * i.ns then (if attendsB a (e.src / i.ns) (e.dst - i.np * i.ns) = true then 1 else 0)
  else (participants i a (e.src - i.np * i.ns) : Int) - minN i (e.src - i.np * i.ns)

def encode (pr : AProblem) (s : Scheduling) (st : ScheduleState) (limit : Nat) (a : Assignment) : List Int :=
  (allEdges pr s st limit).map (encVal pr.input a)

theorem V_encode (h : Setting pr s st) (hd : FlowDesc pr s st limit f) {e : Edge} (he : e ∈ allEdges pr s st limit) :
    V f (encode pr s st limit a) e.src e.dst = encVal pr.input a e := by
  obtain ⟨k, hk, hg⟩ := List.getElem_of_mem he
  have hg' : (allEdges pr s st limit)[k]? = some e := by simp [hk, hg]
  have hu := edges_u32 h e he
  rw [V_edge hd.rep _ hg' hu.1 hu.2]
  unfold val encode
  simp [hk, hg]

theorem encode_flowOk (h : Setting pr s st) (hd : FlowDesc pr s st limit f) (hv : AsgValid pr.input s a)
    (hl : WithinLimit pr.input a limit) (hgr : GroupsAlike pr.input s a) (hgm : GroupsMean pr.input) :
    FlowOk f (encode pr s st limit a) ∧ flowCost f (encode pr s st limit a) = totalCost pr.input pr.cost a := by
  have hdiv : ∀ p t, t < pr.input.ns → nP pr.input p t / pr.input.ns = p := by
    intro p t ht
    unfold nP
    have hpos : 0 < pr.input.ns := by omega
    rw [Nat.add_comm, Nat.add_mul_div_right _ _ hpos, Nat.div_eq_of_lt ht]; omega
  have hallow : ∀ p t c, p < pr.input.np → slotAt s c = some t → Attends a p c → Allow pr s limit p t c := by
    intro p t c hp hs hat
    refine ⟨hs, ?_, ?_⟩
    · unfold prefN
      cases hv' : pref pr.input p c with
      | none => simp
      | some v => exact hl p c v hat hv'
    · rintro (⟨k, hk, e1, e2, y, e3, hy, hne, _⟩ | ⟨k, hk, e1, e2, e3⟩)
      · have hh := hv.asg k hk
        unfold AsgHolds at hh
        rw [e1, e3] at hh
        simp only at hh
        have hat' := hh (by rw [hy]; simp)
        rw [e2] at hat'
        obtain ⟨z, _, hu⟩ := hv.onePerSlot p hp t (h.shape.range c t hs)
        exact hne ((hu c hat hs).trans (hu y hat' hy).symm)
      · have hh := hv.asg k hk
        unfold AsgHolds at hh
        rw [e1, e3] at hh
        simp only at hh
        rw [e2] at hh
        exact hh hat
  have ha : Agrees pr s f (encode pr s st limit a) a := by
    intro p t c hp ht hc
    by_cases hal : Allow pr s limit p t c
    · have := V_encode (a := a) h hd ((mem_allEdges h).2 (.inl ⟨p, t, c, hp, ht, hc, hal, rfl⟩))
      have this' : X pr f (encode pr s st limit a) p t c = encVal pr.input a (mkEdge pr p t c) := this
      rw [this']
      have hsrc : (mkEdge pr p t c).src < pr.input.np * pr.input.ns := nP_lt hp ht
      unfold encVal
      rw [if_pos hsrc, show (mkEdge pr p t c).src = nP pr.input p t from rfl, show (mkEdge pr p t c).dst = nC pr.input c from rfl, hdiv p t ht, show nC pr.input c - pr.input.np * pr.input.ns = c by unfold nC; omega]
      simp [hal.1]
    · rw [X_zero _ h hd hp ht hc hal, if_neg]
      rintro ⟨h1, h2⟩
      exact hal (hallow p t c hp h1 ((attendsB_iff a p c).1 h2))
  have hcount : (encode pr s st limit a).length = f.edgeCount := by
    unfold MipFlow.edgeCount encode; rw [hd.rep.max]; simp
  refine ⟨vals_flowOk h hd hcount (vals_of_valid h hv hl hgr hgm ha) ?_, cost_agrees h hd ha hv.onlyScheduled⟩
  intro c t hc hs
  have ht := h.shape.range c t hs
  rw [ha.count hc hs ht]
  have := V_encode (a := a) h hd ((mem_allEdges h).2 (.inr ⟨c, t, hc, ht, hs, rfl⟩))
  have this' : Wv pr f (encode pr s st limit a) c t = encVal pr.input a (wE pr c t) := this
  rw [this']
  have hsrc : ¬ (wE pr c t).src < pr.input.np * pr.input.ns := by show ¬ nC pr.input c < _; unfold nC; omega
  unfold encVal
  rw [if_neg hsrc, show (wE pr c t).src = nC pr.input c from rfl, show nC pr.input c - pr.input.np * pr.input.ns = c by unfold nC; omega]

/-! ### Decoding -/

theorem solutionValueAt_eq (hlen : x ≠ []) (hx : x.length = f.edgeCount) {N : Nat} {E : List Edge} (hr : Rep f N E) {u v : Nat}
    (hu : u ≤ u32Max) (hv : v ≤ u32Max) : ({ f with solution := x } : MipFlow).solutionValueAt (makeLong u v) = .ok (V f x u v) := by
  unfold MipFlow.solutionValueAt V
  have : x.isEmpty = false := by cases x <;> simp_all
  simp only [this, Bool.false_eq_true, if_false]
  cases hl : f.edgeMap.lookup (makeLong u v) with
  | none => rfl
  | some k =>
    simp only
    obtain ⟨e, h1, _⟩ := (hr.map u v hu hv k).1 hl
    have hk : k < x.length := by
      rw [hx]; unfold MipFlow.edgeCount; rw [hr.max, List.length_map]
      exact (List.getElem?_eq_some_iff.1 h1).1
    rw [idx_ok hk]
    simp [val, hk]

theorem cellOf_spec (h : Setting pr s st) (hd : FlowDesc pr s st limit f) (hne : x ≠ []) (hxl : x.length = f.edgeCount)
    {p t : Nat} (hp : p < pr.input.np) (ht : t < pr.input.ns) :
    ∀ (l : List Nat), (∀ c ∈ l, c < pr.input.nc) → ∀ c0 ∈ l, X pr f x p t c0 = 1 → (∀ c ∈ l, X pr f x p t c = 1 → c = c0) →
      cellOf pr { f with solution := x } (nP pr.input p t) l = .ok (some c0) := by
  intro l
  induction l with
  | nil => intro _ c0 h0; cases h0
  | cons c l ih =>
    intro hl c0 h0 h1 hu
    have hc := hl c (by simp)
    have hsm := h.small
    unfold nodes at hsm
    have hlt := nP_lt hp ht
    unfold cellOf
    rw [h.sd.choice c hc, R.bind_ok, edgeId_ok h hp ht hc, R.bind_ok,
      solutionValueAt_eq hne hxl hd.rep (by omega) (by unfold nC; omega), R.bind_ok]
    by_cases e : V f x (nP pr.input p t) (nC pr.input c) = 1
    · rw [if_pos e]
      have := hu c (by simp) e
      rw [this]; rfl
    · rw [if_neg e]
      have h0' : c0 ∈ l := by
        rcases List.mem_cons.1 h0 with rfl | h0
        · exact absurd h1 e
        · exact h0
      exact ih (fun y hy => hl y (by simp [hy])) c0 h0' h1 (fun y hy => hu y (by simp [hy]))

theorem decode_spec (h : Setting pr s st) (hd : FlowDesc pr s st limit f) (hok : FlowOk f x) :
    ∃ a, decode pr st { f with solution := x } = .ok a ∧ InOrder pr.input s a ∧ AsgInRange pr.input a ∧ Agrees pr s f x a := by
  have hx := flowOk_vals h hd hok
  have hex : ∀ p t, ∃ c, p < pr.input.np → t < pr.input.ns →
      c < pr.input.nc ∧ X pr f x p t c = 1 ∧ ∀ c', c' < pr.input.nc → X pr f x p t c' = 1 → c' = c := by
    intro p t
    by_cases hp : p < pr.input.np
    · by_cases ht : t < pr.input.ns
      · obtain ⟨c, hc, h1, hu⟩ := isum_one_unique List.nodup_range
          (fun c hc => hx.zero1 p t c hp ht (by simpa using hc)) (hx.one p t hp ht)
        exact ⟨c, fun _ _ => ⟨by simpa using hc, h1, fun c' hc' => hu c' (by simpa using hc')⟩⟩
      · exact ⟨0, fun _ h' => absurd h' ht⟩
    · exact ⟨0, fun h' => absurd h' hp⟩
  choose sel hsel using hex
  let a : Assignment := (List.range pr.input.np).map (fun p => (List.range pr.input.ns).map (sel p))
  have hent : ∀ p t c, entry a p t = some c ↔ p < pr.input.np ∧ t < pr.input.ns ∧ c = sel p t := by
    intro p t c
    simp only [entry, a, List.getElem?_map]
    by_cases hp : p < pr.input.np
    · rw [List.getElem?_range hp]
      simp only [Option.map_some, Option.bind_some, List.getElem?_map]
      by_cases ht : t < pr.input.ns
      · rw [List.getElem?_range ht]; simp [hp, ht, eq_comm]
      · rw [List.getElem?_eq_none (by simpa using ht)]; simp [ht]
    · rw [List.getElem?_eq_none (by simpa using hp)]; simp [hp]
  have hsl : ∀ p t, p < pr.input.np → t < pr.input.ns → slotAt s (sel p t) = some t := by
    intro p t hp ht
    obtain ⟨h1, h2, _⟩ := hsel p t hp ht
    exact (hx.allow p t _ hp ht h1 h2).1
  have hatt : ∀ p c, Attends a p c ↔ p < pr.input.np ∧ ∃ t, t < pr.input.ns ∧ c = sel p t := by
    intro p c
    unfold Attends
    constructor
    · rintro ⟨t, ht⟩
      obtain ⟨h1, h2, h3⟩ := (hent p t c).1 ht
      exact ⟨h1, t, h2, h3⟩
    · rintro ⟨h1, t, h2, h3⟩
      exact ⟨t, (hent p t c).2 ⟨h1, h2, h3⟩⟩
  refine ⟨a, ?_, ⟨by simp [a], ?_, ?_⟩, ⟨?_, ?_⟩, ?_⟩
  · have hnew : Assignment.new pr.input a = .ok a := by
      unfold Assignment.new
      rw [if_pos]
      refine ⟨by simp [a], ?_⟩
      intro r hr
      simp only [a, List.mem_map] at hr
      obtain ⟨p, _, rfl⟩ := hr
      simp
    unfold decode
    rw [R.bind_eq_ok]
    refine ⟨a, ?_, hnew⟩
    refine mapM_eq_ok_of ?_
    intro p hp
    have hp' : p < pr.input.np := by simpa using hp
    refine mapM_eq_ok_of ?_
    intro t ht
    have ht' : t < pr.input.ns := by simpa using ht
    obtain ⟨h1, h2, h3⟩ := hsel p t hp' ht'
    obtain ⟨l, hl, _, hlt, hm⟩ := h.bySlot ht'
    have hne : x ≠ [] := by
      rintro rfl
      have : V f [] (nP pr.input p t) (nC pr.input (sel p t)) = 0 := by
        unfold V
        split
        · simp [val]
        · rfl
      have h2' : V f [] (nP pr.input p t) (nC pr.input (sel p t)) = 1 := h2
      rw [this] at h2'; cases h2'
    rw [h.sd.chooser p t hp' ht', R.bind_ok, idx_eq_ok.2 hl, R.bind_ok,
      cellOf_spec h hd hne hok.len hp' ht' l hlt (sel p t) ((hm _).2 (hsl p t hp' ht')) h2 (fun c hc => h3 c (hlt c hc)), R.bind_ok]
    rfl
  · intro r hr
    simp only [a, List.mem_map] at hr
    obtain ⟨p, _, rfl⟩ := hr
    simp
  · intro p t c hc
    obtain ⟨h1, h2, rfl⟩ := (hent p t c).1 hc
    exact hsl p t h1 h2
  · intro p c hat; exact ((hatt p c).1 hat).1
  · intro p c hat
    obtain ⟨hp, t, ht, rfl⟩ := (hatt p c).1 hat
    exact (hsel p t hp ht).1
  · intro p t c hp ht hc
    have key : X pr f x p t c = 1 ↔ slotAt s c = some t ∧ Attends a p c := by
      constructor
      · intro h1
        have := (hsel p t hp ht).2.2 c hc h1
        subst this
        exact ⟨hsl p t hp ht, (hatt p _).2 ⟨hp, t, ht, rfl⟩⟩
      · rintro ⟨hs, hat⟩
        obtain ⟨_, t', ht', rfl⟩ := (hatt p c).1 hat
        have := hsl p t' hp ht'
        rw [hs] at this; cases this
        exact (hsel p t hp ht).2.1
    rw [← attendsB_iff] at key
    by_cases h1 : slotAt s c = some t ∧ attendsB a p c = true
    · rw [if_pos h1]; exact key.2 h1
    · rw [if_neg h1]
      rcases hx.zero1 p t c hp ht hc with h0 | h0
      · exact h0
      · exact absurd (key.1 h0) h1

/-- A solution of the flow is read off as a valid assignment of the same cost. -/
theorem decode_valid (h : Setting pr s st) (hg : GroupsMean pr.input) (hd : FlowDesc pr s st limit f) (hok : FlowOk f x) :
    ∃ a, decode pr st { f with solution := x } = .ok a ∧ InOrder pr.input s a ∧ AsgValid pr.input s a ∧
      WithinLimit pr.input a limit ∧ GroupsAlike pr.input s a ∧ flowCost f x = totalCost pr.input pr.cost a := by
  obtain ⟨a, h1, h2, h3, h4⟩ := decode_spec h hd hok
  obtain ⟨v1, v2, v3⟩ := valid_of_vals h hg (flowOk_vals h hd hok) h4 h3 (by
    rintro p c ⟨t, ht⟩
    have := h2.slot p t c ht
    exact ⟨t, h.shape.range c t this, this⟩)
  exact ⟨a, h1, h2, v1, v2, v3, cost_agrees h hd h4 v1.onlyScheduled⟩

end
end Wassign
