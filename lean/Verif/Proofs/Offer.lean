import Verif.Spec.Offer
import Verif.Proofs.Rejected
import Verif.Proofs.Looser
/-
Further optional choices change nothing for timetables without them.
-/
namespace Wassign
open Spec Build

theorem blocks_append (ps qs : List Proto) : ∀ o, blocks o (ps ++ qs) = blocks o ps ++ blocks (o + (ps.map width).sum) qs := by
  induction ps with
  | nil => intro o; simp [blocks]
  | cons p ps ih =>
    intro o
    rw [List.cons_append, blocks, blocks, ih, List.append_assoc, List.map_cons, List.sum_cons, Nat.add_assoc]

theorem blocks_old {ps qs : List Proto} {c : Nat} (hc : c < (ps.map width).sum) : (blocks 0 (ps ++ qs))[c]? = (blocks 0 ps)[c]? := by
  rw [blocks_append, List.getElem?_append_left (by rw [length_blocks]; exact hc)]

theorem blocks_new {qs : List Proto} (h : ∀ x ∈ qs, x.optional = true) : ∀ o, ∀ c ∈ blocks o qs, c.isOptional = true := by
  induction qs with
  | nil => intro o c hc; cases hc
  | cons q qs ih =>
    intro o c hc
    rw [blocks, List.mem_append] at hc
    rcases hc with hc | hc
    · unfold blockAt at hc
      rw [List.mem_map] at hc
      obtain ⟨j, _, rfl⟩ := hc
      exact h q (by simp)
    · exact ih (fun x hx => h x (List.mem_cons_of_mem _ hx)) _ c hc

theorem offset_old {ps qs : List Proto} {k : Nat} (hk : k ≤ ps.length) : offset (ps ++ qs) k = offset ps k := by
  unfold offset
  rw [List.take_append_of_le_length hk]

theorem part_old {ps qs : List Proto} {k j c : Nat} (h : IsPart ps k j c) : IsPart (ps ++ qs) k j c := by
  obtain ⟨p, h1, h2, h3⟩ := h
  have hk := (List.getElem?_eq_some_iff.1 h1).1
  exact ⟨p, by rw [List.getElem?_append_left hk]; exact h1, h2, by rw [offset_old (by omega)]; exact h3⟩

theorem part_cases {ps qs : List Proto} {k j c : Nat} (h : IsPart (ps ++ qs) k j c) :
    IsPart ps k j c ∨ (ps.length ≤ k ∧ (ps.map width).sum ≤ c) := by
  obtain ⟨p, h1, h2, h3⟩ := h
  by_cases hk : k < ps.length
  · rw [List.getElem?_append_left hk] at h1
    exact .inl ⟨p, h1, h2, by rw [← offset_old (qs := qs) (by omega)]; exact h3⟩
  · refine .inr ⟨by omega, ?_⟩
    have : offset (ps ++ qs) k = (ps.map width).sum + ((qs.take (k - ps.length)).map width).sum := by
      unfold offset
      rw [List.take_append, List.take_of_length_le (by omega), List.map_append, List.sum_append]
    omega

/-- A constraint about choices from number `n` on that holds if these do not take place. -/
def Fresh (n : Nat) (c : Constraint) : Prop :=
  n ≤ c.left ∧ ∃ y, n ≤ y ∧ (c = sameCon c.left y ∨ (∃ o : Nat, c = offCon c.left y o) ∨ c = notSame (c.left, y))

theorem partCon_cases {ps qs : List Proto} {c : Constraint} (h : IsPartCon (ps ++ qs) c) :
    IsPartCon ps c ∨ Fresh (ps.map width).sum c := by
  obtain ⟨k, j1, j2, x, y, h1, h2, h3, h4⟩ := h
  rcases part_cases h1 with a | ⟨a1, a2⟩ <;> rcases part_cases h2 with b | ⟨b1, b2⟩
  · exact .inl ⟨k, j1, j2, x, y, a, b, h3, h4⟩
  · obtain ⟨_, q, _⟩ := a
    have := (List.getElem?_eq_some_iff.1 q).1
    omega
  · obtain ⟨_, q, _⟩ := b
    have := (List.getElem?_eq_some_iff.1 q).1
    omega
  · right
    rcases h4 with rfl | rfl
    · exact ⟨a2, y, b2, .inl rfl⟩
    · exact ⟨a2, y, b2, .inr (.inl ⟨j2 - j1, rfl⟩)⟩

theorem partCon_old {ps qs : List Proto} {c : Constraint} (h : IsPartCon ps c) : IsPartCon (ps ++ qs) c := by
  obtain ⟨k, j1, j2, x, y, h1, h2, h3⟩ := h
  exact ⟨k, j1, j2, x, y, part_old h1, part_old h2, h3⟩

theorem findName_best {key : Str} {n n' : List Str} (h : ∀ i, BestMatch key n' i ↔ BestMatch key n i) : findName key n' = findName key n := by
  rcases names_cases key n with hu | ⟨i, h1, h2⟩ | ⟨i, j, h1, h2, h3⟩
  · rw [findName_unknown hu, findName_unknown (fun i hi => hu i ((h i).1 hi))]
  · rw [findName_only ⟨h1, h2⟩, findName_only ⟨(h i).2 h1, fun j hj => h2 j ((h j).1 hj)⟩]
  · rw [findName_ambiguous ⟨i, j, h1, h2, h3⟩, findName_ambiguous ⟨i, j, h1, (h i).2 h2, (h j).2 h3⟩]

section
variable {raw raw' : Raw} {extra : List Proto} (ho : OffersMore raw raw' extra) {d d' : InputData} (hs : Stage raw d) (hs' : Stage raw' d')
include ho hs hs'

theorem walkParts_offer {asked m c : Nat} (hc : c < d.nc) : walkParts d' asked m c = walkParts d asked m c := by
  have hc : c < (raw.choices.map width).sum := by
    have e : d.nc = (blocks 0 raw.choices).length := by rw [← hs.choices]
    rw [e, length_blocks] at hc
    exact hc
  obtain ⟨k, j, hp⟩ := isPart_exists hc
  have hp' : IsPart raw'.choices k j c := by rw [ho.choices]; exact part_old hp
  obtain ⟨p, h1, _⟩ := id hp
  obtain ⟨p', h1', _⟩ := id hp'
  have : p' = p := by
    rw [ho.choices, List.getElem?_append_left (List.getElem?_eq_some_iff.1 h1).1, h1] at h1'
    exact (Option.some.inj h1').symm
  subst this
  rw [hs.walk h1 m j c hp, hs'.walk h1' m j c hp']

theorem resolveAccessor_offer {a : Accessor} (ha : a.kind = .choice → ∀ i, BestMatch a.name (namesFor raw' .choice) i ↔ BestMatch a.name (namesFor raw .choice) i) :
    resolveAccessor d' a = resolveAccessor d a := by
  by_cases hk : a.kind = .choice
  · rw [hs.resolve_choice hk, hs'.resolve_choice hk, findName_best (ha hk)]
    cases hf : findName a.name (namesFor raw .choice) with
    | error e => rfl
    | ok o =>
      cases o with
      | none => rfl
      | some c =>
        have hlt := findName_lt hf
        rw [← hs.choiceNames, List.length_map] at hlt
        simp only [R.bind_ok]
        rw [walkParts_offer ho hs hs' hlt]
  · unfold resolveAccessor
    have e1 : d'.slots = d.slots := by rw [hs.slots, hs'.slots, ho.slots]
    have e2 : d'.choosers.map (·.name) = d.choosers.map (·.name) := by rw [hs.choosers, hs'.choosers, ho.names]
    rw [e1, e2]
    cases hc : a.kind <;> first | rfl | exact absurd hc hk

theorem resolveRight_offer {a : Accessor} (ha : a.kind = .choice → ∀ i, BestMatch a.name (namesFor raw' .choice) i ↔ BestMatch a.name (namesFor raw .choice) i) :
    resolveRight d' a = resolveRight d a := by
  unfold resolveRight
  rw [resolveAccessor_offer ho hs hs' ha]

theorem buildExpr_offer {e : CExpr} (he : e ∈ raw.exprs) : buildExpr d' e = buildExpr d e := by
  have hl := ho.meant e he e.left (.inl rfl)
  have hr := ho.meant e he e.right (.inr rfl)
  unfold buildExpr addConstraint
  rw [resolveRight_offer ho hs hs' hr, resolveAccessor_offer ho hs hs' hl]
  have e1 : resolveRight d' e.swap.right = resolveRight d e.swap.right := resolveRight_offer ho hs hs' hl
  have e2 : resolveAccessor d' e.swap.left = resolveAccessor d e.swap.left := resolveAccessor_offer ho hs hs' hr
  rw [e1, e2]

theorem mapM_offer : raw'.exprs.mapM (buildExpr d') = raw.exprs.mapM (buildExpr d) := by
  rw [ho.exprs]
  have : ∀ l : List CExpr, (∀ e ∈ l, e ∈ raw.exprs) → l.mapM (buildExpr d') = l.mapM (buildExpr d) := by
    intro l
    induction l with
    | nil => intro _; rfl
    | cons e l ih =>
      intro h
      rw [List.mapM_cons, List.mapM_cons, buildExpr_offer ho hs hs' (h e (by simp)), ih (fun x hx => h x (List.mem_cons_of_mem _ hx))]
  exact this _ (fun _ h => h)
end

theorem Built.stage' {raw : Raw} {d : InputData} {m : Nat} {written : List Constraint} (hb : Built raw d m written) :
    ∃ d1, Stage raw d1 ∧ buildExpr d1 = buildExpr d := by
  obtain ⟨d1, _, hsl, hch, hcs, _⟩ := hb.stage
  exact ⟨d1, ⟨hch, hsl.trans hb.slots, hcs⟩, funext (hb.exprSame hsl hch hcs)⟩

/-- An input with more optional choices is accepted too. -/
theorem offer_accepted {raw raw' : Raw} {extra : List Proto} {d : InputData} (hmax : ∀ p ∈ raw'.choices, p.max ≤ u32Max)
    (hsum : (raw'.choices.map width).sum ≤ i32Max) (ho : OffersMore raw raw' extra) (h : build raw = .ok d) : ∃ d', build raw' = .ok d' := by
  have hmax0 : ∀ p ∈ raw.choices, p.max ≤ u32Max := fun p hp => hmax p (by rw [ho.choices]; exact List.mem_append_left _ hp)
  obtain ⟨m, written, hb⟩ := build_spec hmax0 h
  obtain ⟨d1, hch, hsl, hcs, _, hok⟩ := build_outcome hmax hsum ho.wishes
  obtain ⟨d0, hs0, he0⟩ := hb.stage'
  obtain ⟨ex, pc, h1, h2, h3⟩ := hb.lists
  have hm := mapM_offer ho hs0 ⟨hch, hsl, hcs⟩
  rw [he0, h1] at hm
  refine (hok ex hm).2 ?_
  rintro ⟨c, hc, hk, hne⟩
  exact hne (hb.notInf c (by rw [h2]; exact List.mem_append_left _ hc) hk)

theorem connected_lt {n : Nat} {E : Nat → Nat → Prop} (hE : ∀ x y, E x y → x < n ∧ y < n) {x y : Nat} (h : Connected E x y) : x < n ↔ y < n := by
  induction h with
  | refl => exact Iff.rfl
  | link h => have := hE _ _ h; omega
  | symm _ ih => exact ih.symm
  | trans _ _ ih1 ih2 => exact ih1.trans ih2

theorem connected_fresh {n : Nat} {E F : Nat → Nat → Prop} (hE : ∀ x y, E x y → x < n ∧ y < n) (hF : ∀ x y, F x y → E x y ∨ (n ≤ x ∧ n ≤ y))
    {x y : Nat} (h : Connected F x y) : Connected E x y ∨ (n ≤ x ∧ n ≤ y) := by
  induction h with
  | refl => exact .inl (.refl _)
  | link h => exact (hF _ _ h).imp .link id
  | symm _ ih => exact ih.imp .symm And.symm
  | @trans a b c _ _ ih1 ih2 =>
    rcases ih1 with a1 | ⟨a1, a2⟩ <;> rcases ih2 with b1 | ⟨b1, b2⟩
    · exact .inl (.trans a1 b1)
    · have := connected_lt hE a1
      exact .inr ⟨by omega, b2⟩
    · have := connected_lt hE b1
      exact .inr ⟨a1, by omega⟩
    · exact .inr ⟨a1, b2⟩

/-- What the data of two inputs have in common if the second one offers more. -/
structure Offered (d d' : InputData) : Prop where
  nc : d.nc ≤ d'.nc
  np : d'.np = d.np
  slots : d'.slots = d.slots
  chooserNames : d'.choosers.map (·.name) = d.choosers.map (·.name)
  sched : ∀ c ∈ d'.schedCons, c ∈ d.schedCons ∨ Fresh d.nc c
  asg : ∀ c ∈ d'.asgCons, c ∈ d.asgCons ∨ Fresh d.nc c
  sched' : ∀ c ∈ d.schedCons, c ∈ d'.schedCons
  asg' : ∀ c ∈ d.asgCons, c ∈ d'.asgCons
  old : ∀ c : Nat, c < d.nc → d'.choices[c]? = d.choices[c]?
  new : ∀ (c : Nat) (x : Choice), d.nc ≤ c → d'.choices[c]? = some x → x.isOptional = true
  schedWF : ∀ c ∈ d.schedCons, SchedConWF d c
  asgWF : ∀ c ∈ d.asgCons, AsgConWF d c

theorem reduce_fresh {n : Nat} {k c : Constraint} (h : Fresh n k) (hr : reduceOne k = .ok (some c, false)) : k = c := by
  obtain ⟨_, y, _, h⟩ := h
  rcases h with h | ⟨o, h⟩ | h <;> rw [h] at hr ⊢ <;> cases hr <;> rfl

theorem offer_offered {raw raw' : Raw} {extra : List Proto} {d d' : InputData} (hmax : ∀ p ∈ raw'.choices, p.max ≤ u32Max)
    (ho : OffersMore raw raw' extra) (h : build raw = .ok d) (h' : build raw' = .ok d') :
    Offered d d' ∧ (SameWishes raw raw' → d'.maxPref = d.maxPref ∧ ∀ p c, c < d.nc → pref d' p c = pref d p c) := by
  have hmax0 : ∀ p ∈ raw.choices, p.max ≤ u32Max := fun p hp => hmax p (by rw [ho.choices]; exact List.mem_append_left _ hp)
  obtain ⟨m, written, hb⟩ := build_spec hmax0 h
  obtain ⟨m', written', hb'⟩ := build_spec hmax h'
  have hnum : raw'.choosers.length = raw.choosers.length := by
    have := congrArg List.length ho.names
    simpa using this
  have hnc : d.nc ≤ d'.nc := by
    rw [hb.nc, hb'.nc, ho.choices, List.map_append, List.sum_append]
    omega
  have hnp : d'.np = d.np := by rw [hb.np, hb'.np, hnum]
  have hslots : d'.slots = d.slots := by rw [hb.slots, hb'.slots, ho.slots]
  have hns : d'.ns = d.ns := by show d'.slots.length = d.slots.length; rw [hslots]
  have hchn : d'.choosers.map (·.name) = d.choosers.map (·.name) := by
    apply List.ext_getElem?
    intro p
    rw [List.getElem?_map, List.getElem?_map]
    by_cases hp : p < raw.choosers.length
    · have hp' : p < raw'.choosers.length := by omega
      obtain ⟨ch, e1, e2, _⟩ := hb.names p hp
      obtain ⟨ch', e1', e2', _⟩ := hb'.names p hp'
      have := congrArg (·[p]?) ho.names
      simp only [List.getElem?_map, List.getElem?_eq_getElem hp, List.getElem?_eq_getElem hp', Option.map_some, Option.some.injEq] at this
      rw [e1, e1']
      simp [e2, e2', this]
    · rw [List.getElem?_eq_none (show d'.np ≤ p by rw [hb'.np]; omega), List.getElem?_eq_none (show d.np ≤ p by rw [hb.np]; omega)]
  obtain ⟨d0, hs0, he0⟩ := hb.stage'
  obtain ⟨d1, hs1, he1⟩ := hb'.stage'
  obtain ⟨ex, pc, h1, h2, h3⟩ := hb.lists
  obtain ⟨ex', pc', h1', h2', h3'⟩ := hb'.lists
  have hex := mapM_offer ho hs0 hs1
  rw [he0, he1, h1, h1'] at hex
  have hex : ex' = ex := Except.ok.inj hex
  subst hex
  have hwr : ∀ c, c ∈ written' → c ∈ written ∨ Fresh d.nc c := by
    intro c hc
    rw [h2', List.mem_append] at hc
    rw [h2, List.mem_append]
    rcases hc with hc | hc
    · exact .inl (.inl hc)
    · have := (h3' c).1 hc
      rw [ho.choices] at this
      rcases partCon_cases this with q | q
      · exact .inl (.inr ((h3 c).2 q))
      · right; rw [hb.nc]; exact q
  have hwr' : ∀ c, c ∈ written → c ∈ written' := by
    intro c hc
    rw [h2, List.mem_append] at hc
    rw [h2', List.mem_append]
    rcases hc with hc | hc
    · exact .inl hc
    · refine .inr ((h3' c).2 ?_)
      rw [ho.choices]
      exact partCon_old ((h3 c).1 hc)
  have hdem : written'.filterMap demand? = written.filterMap demand? := by
    rw [h2, h2', demands_append h3, demands_append h3']
  have hlt : ∀ x y, SameLink written x y → x < d.nc ∧ y < d.nc := by
    rintro x y ⟨⟨k, l, r, e⟩, hc, a1, a2, a3⟩
    have := hb.writtenWF _ hc
    cases a1; cases a2; cases a3
    exact this
  have hlink : ∀ x y, SameLink written' x y → SameLink written x y ∨ (d.nc ≤ x ∧ d.nc ≤ y) := by
    rintro x y ⟨c, hc, a1, a2, a3⟩
    rcases hwr c hc with q | ⟨q1, z, q2, q3⟩
    · exact .inl ⟨c, q, a1, a2, a3⟩
    · right
      have : c.right = .choice z := by rcases q3 with e | ⟨o, e⟩ | e <;> rw [e] <;> rfl
      rw [this] at a3
      cases a3
      exact ⟨by omega, q2⟩
  have hlink' : ∀ x y, SameLink written x y → SameLink written' x y := by
    rintro x y ⟨c, hc, hh⟩; exact ⟨c, hwr' c hc, hh⟩
  have hcon : ∀ {x y}, Connected (SameLink written') x y → Connected (SameLink written) x y ∨ (d.nc ≤ x ∧ d.nc ≤ y) :=
    fun q => connected_fresh hlt hlink q
  have hconOld : ∀ {x y}, x < d.nc → (Connected (SameLink written') x y ↔ Connected (SameLink written) x y) := by
    intro x y hx
    refine ⟨fun q => ?_, fun q => q.mono hlink'⟩
    rcases hcon q with q | q
    · exact q
    · omega
  obtain ⟨red, hr, hs, ha⟩ := hb.reduced
  obtain ⟨red', hr', hs', ha'⟩ := hb'.reduced
  have hred : ∀ c, c ∈ red' → c ∈ red ∨ Fresh d.nc c := by
    intro c hc
    obtain ⟨c0, hd, hrd, _⟩ := hr'.source c hc
    rcases hwr c0 hd with q | q
    · exact .inl (hr.image c0 q c hrd)
    · right; rw [← reduce_fresh q hrd]; exact q
  have hred' : ∀ c, c ∈ red → c ∈ red' := by
    intro c hc
    obtain ⟨c0, hd, hrd, _⟩ := hr.source c hc
    exact hr'.image c0 (hwr' c0 hd) c hrd
  have hconr : ∀ {x y}, Connected (SameLink red') x y → Connected (SameLink red) x y ∨ (d.nc ≤ x ∧ d.nc ≤ y) := by
    intro x y q
    rcases hcon (q.mono (fun a b => (hr'.links a b).1)) with q | q
    · exact .inl (q.mono (fun a b => (hr.links a b).2))
    · exact .inr q
  have hconr' : ∀ {x y}, Connected (SameLink red) x y → Connected (SameLink red') x y :=
    fun q => q.mono (fun a b e => (hr'.links a b).2 (hlink' a b ((hr.links a b).1 e)))
  have hltr : ∀ {x y}, Connected (SameLink red) x y → (x < d.nc ↔ y < d.nc) :=
    fun q => connected_lt hlt (q.mono (fun a b => (hr.links a b).1))
  have hder : ∀ c, Derived d'.nc red' c → Derived d.nc red c ∨ Fresh d.nc c := by
    intro c hc
    cases hc with
    | given h => exact (hred _ h).imp .given id
    | @sepDep x y a b e =>
      rcases hconr e with q | q
      · by_cases hy : y < d.nc
        · exact .inl (.sepDep a hy q)
        · have := hltr q
          exact .inr ⟨by show d.nc ≤ x; omega, y, by omega, .inr (.inr rfl)⟩
      · exact .inr ⟨q.1, y, q.2, .inr (.inr rfl)⟩
    | sepMand e =>
      rw [hr'.demands, hdem, ← hr.demands] at e
      exact .inl (.sepMand e)
    | @copy c x y a b e f g i =>
      left
      have hin : c ∈ red := by
        rcases hred _ a with q | ⟨_, z, _, q⟩
        · exact q
        · rcases q with q | ⟨o, q⟩ | q <;> rw [q] at b <;> rcases b with b | b <;> cases b
      have hy : y < d.nc := by
        have := hr.wf c hin
        obtain ⟨k, l, r, w⟩ := c
        simp only at e
        subst e
        rcases b with b | b <;> simp only at b <;> subst b <;> rcases this with this | this <;> first
          | exact this.elim
          | exact this.2
      rcases hconr i with q | q
      · exact .copy hin b e f ((hltr q).2 hy) q
      · omega
  have hder' : ∀ c, Derived d.nc red c → Derived d'.nc red' c := by
    intro c hc
    cases hc with
    | given h => exact .given (hred' _ h)
    | sepDep a b e => exact .sepDep a (by omega) (hconr' e)
    | sepMand e =>
      rw [hr.demands, ← hdem, ← hr'.demands] at e
      exact .sepMand e
    | copy a b e f g i => exact .copy (hred' _ a) b e f (by omega) (hconr' i)
  have hS : ∀ c, SchedConWF d c → SchedConWF d' c := by
    intro c hc
    obtain ⟨k, l, r, x⟩ := c
    cases k <;> cases r <;> cases x <;> simp only [SchedConWF] at hc ⊢ <;> first
      | exact hc
      | (rw [hns]; omega)
      | omega
  have hA : ∀ c, AsgConWF d c → AsgConWF d' c := by
    intro c hc
    obtain ⟨k, l, r, x⟩ := c
    cases k <;> cases r <;> simp only [AsgConWF] at hc ⊢ <;> first
      | exact hc
      | (rw [hnp]; omega)
      | omega
  have hexcl : ∀ c, SchedConWF d' c → ¬ AsgConWF d c := by
    intro c hc hc'
    obtain ⟨k, l, r, x⟩ := c
    cases k <;> cases r <;> first
      | exact hc
      | exact hc'
  have hexcl' : ∀ c, AsgConWF d' c → ¬ SchedConWF d c := by
    intro c hc hc'
    obtain ⟨k, l, r, x⟩ := c
    cases k <;> cases r <;> first
      | exact hc
      | exact hc'
  refine ⟨⟨hnc, hnp, hslots, hchn, ?_, ?_, ?_, ?_, ?_, ?_, fun c hc => ((hs c).1 hc).2, fun c hc => ((ha c).1 hc).2⟩, ?_⟩
  · intro c hc
    obtain ⟨q1, q2⟩ := (hs' c).1 hc
    rcases hder c q1 with q | q
    · refine .inl ((hs c).2 ⟨q, ?_⟩)
      rcases derived_wf hr.wf q with w | w
      · exact w
      · exact absurd w (hexcl c q2)
    · exact .inr q
  · intro c hc
    obtain ⟨q1, q2⟩ := (ha' c).1 hc
    rcases hder c q1 with q | q
    · refine .inl ((ha c).2 ⟨q, ?_⟩)
      rcases derived_wf hr.wf q with w | w
      · exact absurd w (hexcl' c q2)
      · exact w
    · exact .inr q
  · intro c hc
    obtain ⟨q1, q2⟩ := (hs c).1 hc
    exact (hs' c).2 ⟨hder' c q1, hS c q2⟩
  · intro c hc
    obtain ⟨q1, q2⟩ := (ha c).1 hc
    exact (ha' c).2 ⟨hder' c q1, hA c q2⟩
  · intro c hc
    obtain ⟨x0, x1, a1, a2, a3, a4, a5, a6, a7⟩ := hb.choice c hc
    obtain ⟨y0, y1, b1, b2, b3, b4, b5, b6, b7⟩ := hb'.choice c (by omega)
    have hold : ∀ y, y < d.nc → (blocks 0 raw'.choices)[y]? = (blocks 0 raw.choices)[y]? := by
      intro y hy
      rw [ho.choices]
      exact blocks_old (by rw [← hb.nc]; exact hy)
    rw [hold c hc, a2] at b2
    cases b2
    have hC : ∀ {y}, Connected (SameLink written') c y → y < d.nc ∧ Connected (SameLink written) c y := by
      intro y q
      have q := (hconOld hc).1 q
      exact ⟨(connected_lt hlt q).1 hc, q⟩
    rw [a1, b1]
    congr 1
    have m1 : y0.min = x0.min := by
      obtain ⟨y, u1, u2, u3⟩ := a6.attained
      obtain ⟨y', v1, v2, v3⟩ := b6.attained
      have r1 := a6.upper y' (hC v2).1 (hC v2).2
      have r2 := b6.upper y (by omega) ((hconOld hc).2 u2)
      rw [hold _ (hC v2).1] at v3
      rw [hold _ u1] at r2
      omega
    have m2 : y0.max = x0.max := by
      obtain ⟨y, u1, u2, u3⟩ := a7.attained
      obtain ⟨y', v1, v2, v3⟩ := b7.attained
      have r1 := a7.lower y' (hC v2).1 (hC v2).2
      have r2 := b7.lower y (by omega) ((hconOld hc).2 u2)
      rw [hold _ (hC v2).1] at v3
      rw [hold _ u1] at r2
      omega
    obtain ⟨n1, n2, n3, n4, n5⟩ := x0
    obtain ⟨o1, o2, o3, o4, o5⟩ := y0
    simp only at a3 a4 a5 b3 b4 b5 m1 m2
    rw [m1, m2, a3, a4, a5, b3, b4, b5]
  · intro c x hc hx
    have hlt' : c < d'.nc := (List.getElem?_eq_some_iff.1 hx).1
    obtain ⟨y0, y1, b1, b2, _, _, b5, _⟩ := hb'.choice c hlt'
    rw [hx] at b1; cases b1
    rw [b5]
    rw [ho.choices, blocks_append, List.getElem?_append_right (by rw [length_blocks, ← hb.nc]; exact hc)] at b2
    exact blocks_new ho.optional _ _ (List.mem_of_getElem? b2)
  · intro hw
    have hm : m' = m := by
      have a1 : m ≤ m' := by
        rcases hb.maxAttained with e | ⟨c, hc, e⟩
        · omega
        · obtain ⟨i, hi, rfl⟩ := List.mem_iff_getElem.1 hc
          have := (List.forall₂_iff_get.1 hw.kept).2 i hi (by omega)
          simp only [List.get_eq_getElem] at this
          rw [← this] at e
          exact hb'.maxUpper _ (List.getElem_mem _) m (List.mem_of_mem_take e)
      have a2 : m' ≤ m := by
        rcases hb'.maxAttained with e | ⟨c, hc, e⟩
        · omega
        · obtain ⟨c0, q1, y, q2, q3⟩ := hw.largest c hc m' e
          have := hb.maxUpper c0 q1 y q2
          omega
      omega
    subst hm
    refine ⟨by rw [hb.maxPref, hb'.maxPref], ?_⟩
    intro p c hc
    by_cases hp : p < raw.choosers.length
    · have hp' : p < raw'.choosers.length := by omega
      obtain ⟨q1, q2⟩ := hb.prefs p c hp hc
      obtain ⟨q1', q2'⟩ := hb'.prefs p c hp' (by omega)
      have hD : Demanded written' p c ↔ Demanded written p c := by
        have hmem : ∀ y, (∃ k ∈ written', demand? k = some (p, y)) ↔ ∃ k ∈ written, demand? k = some (p, y) := by
          intro y
          rw [← List.mem_filterMap, ← List.mem_filterMap, hdem]
        unfold Demanded
        simp only [hmem, hconOld hc]
      by_cases hd : Demanded written p c
      · rw [q1 hd, q1' (hD.2 hd)]
      · obtain ⟨v, e1, e2⟩ := q2 hd
        obtain ⟨v', e1', e2'⟩ := q2' (fun hh => hd (hD.1 hh))
        rw [e1, e1']
        congr 1
        have hlen := hb.prefCount _ (List.getElem_mem hp)
        have hlen' := hb'.prefCount _ (List.getElem_mem hp')
        have hpre : (raw'.choosers[p]).prefs.take raw.choices.length = (raw.choosers[p]).prefs := by
          have := (List.forall₂_iff_get.1 hw.kept).2 p hp hp'
          simpa only [List.get_eq_getElem] using this
        have hold : ∀ y, y < d.nc → ((expandAll raw'.choices (mirrored m' raw'.choosers[p]).prefs)[y]?).getD 0 =
            ((expandAll raw.choices (mirrored m' raw.choosers[p]).prefs)[y]?).getD 0 := by
          intro y hy
          rw [hb.nc] at hy
          obtain ⟨k, j, pr, h1, h2, h3⟩ := isPart_exists hy
          obtain ⟨pr', h1', h2', h3'⟩ : IsPart raw'.choices k j y := by rw [ho.choices]; exact part_old ⟨pr, h1, h2, h3⟩
          rw [h3', expandAll_get (by unfold mirrored; rw [List.length_map]; exact hlen') h1' h2']
          rw [← h3', h3, expandAll_get (by unfold mirrored; rw [List.length_map]; exact hlen) h1 h2]
          unfold mirrored
          have hk := (List.getElem?_eq_some_iff.1 h1).1
          rw [List.getElem?_map, List.getElem?_map, ← hpre, List.getElem?_take_of_lt hk]
        obtain ⟨y, u1, u2, u3⟩ := e2.attained
        obtain ⟨y', v1, v2, v3⟩ := e2'.attained
        have v2 := (hconOld hc).1 v2
        have v1 : y' < d.nc := (connected_lt hlt v2).1 hc
        have r1 := e2.lower y' v1 v2
        have r2 := e2'.lower y (by omega) ((hconOld hc).2 u2)
        rw [hold _ v1] at v3
        rw [hold _ u1] at r2
        omega
    · unfold pref
      rw [List.getElem?_eq_none (by show d'.np ≤ p; rw [hnp, hb.np]; omega),
        List.getElem?_eq_none (by show d.np ≤ p; rw [hb.np]; omega)]

/-! ### Timetables -/

theorem sum_zero : ∀ {l : List Int}, (∀ x ∈ l, x = 0) → l.sum = 0 := by
  intro l
  induction l with
  | nil => intro _; rfl
  | cons a l ih =>
    intro h
    rw [List.sum_cons, h a (by simp), ih (fun x hx => h x (List.mem_cons_of_mem _ hx))]
    rfl

theorem slotAt_withoutNew (s : Scheduling) (n c : Nat) : slotAt (withoutNew s n) c = slotAt s c := by
  unfold slotAt withoutNew
  by_cases hc : c < s.length
  · rw [List.getElem?_append_left hc]
  · rw [List.getElem?_append_right (by omega), List.getElem?_eq_none (show s.length ≤ c by omega), List.getElem?_replicate]
    split <;> rfl

section
variable {d d' : InputData} (h : Offered d d') {s s' : Scheduling} (hs : ∀ c, slotAt s' c = slotAt s c) (hn : ∀ c, d.nc ≤ c → slotAt s c = none)
include h hs hn

theorem Offered.slotSize (t : Nat) : Spec.slotSize d' s' t = Spec.slotSize d s t := by
  unfold Spec.slotSize
  have hnc := h.nc
  rw [show d'.nc = d.nc + (d'.nc - d.nc) by omega, List.range_add, List.countP_append]
  have : ((List.range (d'.nc - d.nc)).map (d.nc + ·)).countP (fun c => slotAt s' c == some t) = 0 := by
    rw [List.countP_eq_zero]
    intro c hc
    obtain ⟨x, _, rfl⟩ := List.mem_map.1 hc
    rw [hs, hn _ (by omega)]
    simp
  rw [this, Nat.add_zero]
  simp only [hs]

theorem Offered.schedHolds (c : Constraint) : SchedHolds d' s' c ↔ SchedHolds d s c := by
  obtain ⟨k, l, r, x⟩ := c
  cases k <;> cases r <;> cases x <;> simp only [SchedHolds, hs, h.slotSize hs hn]

omit h in
theorem fresh_sched {c : Constraint} (hf : Fresh d.nc c) (hw : c.kind ≠ .choicesHaveSameChoosers) : SchedHolds d' s' c := by
  obtain ⟨h1, y, h2, h3⟩ := hf
  have e1 := hn _ h1
  have e2 := hn _ h2
  rcases h3 with e | ⟨o, e⟩ | e
  · rw [e] at hw; exact absurd rfl hw
  · rw [e]; exact .inl ⟨by rw [hs]; exact e1, by rw [hs]; exact e2⟩
  · rw [e]
    intro t ht
    have : slotAt s' c.left = some t := ht.1
    rw [hs, e1] at this
    cases this

omit h in
theorem fresh_asg {c : Constraint} {a : Assignment} (hf : Fresh d.nc c) (hw : c.kind = .choicesHaveSameChoosers) : AsgHolds s' a c := by
  obtain ⟨h1, y, h2, h3⟩ := hf
  rcases h3 with e | ⟨o, e⟩ | e
  · rw [e]
    intro q
    have q : slotAt s' c.left ≠ none := q
    rw [hs, hn _ h1] at q
    exact absurd rfl q
  · rw [e] at hw; cases hw
  · rw [e] at hw; cases hw

omit hs hn in
theorem Offered.participants (a : Assignment) (c : Nat) : Spec.participants d' a c = Spec.participants d a c := by
  unfold Spec.participants; rw [h.np]

theorem Offered.valid (hwf : ∀ c ∈ d'.schedCons, SchedConWF d' c) (hwf' : ∀ c ∈ d'.asgCons, AsgConWF d' c) {a : Assignment} :
    Valid d' s' a ↔ Valid d s a := by
  have hns : d'.ns = d.ns := by show d'.slots.length = d.slots.length; rw [h.slots]
  have hasg : ∀ c, AsgHolds s' a c ↔ AsgHolds s a c := by
    intro c
    obtain ⟨k, l, r, x⟩ := c
    cases k <;> cases r <;> simp only [AsgHolds, hs]
  have hone : OnePerSlot d' s' a ↔ OnePerSlot d s a := by
    unfold OnePerSlot; simp only [h.np, hns, hs]
  have honly : OnlyScheduled d' s' a ↔ OnlyScheduled d s a := by
    unfold OnlyScheduled; simp only [h.np, hns, hs]
  have hbnd : WithinBounds d' s' a ↔ WithinBounds d s a := by
    have hnc := h.nc
    have hget : ∀ c (q : c < d.nc) (q' : c < d'.nc), d'.choices[c] = d.choices[c] := by
      intro c q q'
      have := h.old c q
      rw [List.getElem?_eq_getElem (show c < d.choices.length from q), List.getElem?_eq_getElem (show c < d'.choices.length from q')] at this
      exact Option.some.inj this
    constructor
    · intro hb c hc hsc
      have := hb c (by omega) (by rw [hs]; exact hsc)
      rw [hget c hc (by omega), h.participants] at this
      exact this
    · intro hb c hc hsc
      rw [hs] at hsc
      have hc0 : c < d.nc := by
        by_contra hh
        exact hsc (hn c (by omega))
      have := hb c hc0 hsc
      rw [hget c hc0 hc, h.participants]
      exact this
  constructor
  · intro hv
    exact ⟨fun c hc => (h.schedHolds hs hn c).1 (hv.sched c (h.sched' c hc)), fun c hc => (hasg c).1 (hv.asg c (h.asg' c hc)),
      hone.1 hv.onePerSlot, honly.1 hv.onlyScheduled, hbnd.1 hv.bounds⟩
  · intro hv
    refine ⟨fun c hc => ?_, fun c hc => ?_, hone.2 hv.onePerSlot, honly.2 hv.onlyScheduled, hbnd.2 hv.bounds⟩
    · rcases h.sched c hc with q | q
      · exact (h.schedHolds hs hn c).2 (hv.sched c q)
      · refine fresh_sched hs hn q (fun e => ?_)
        have := hwf c hc
        obtain ⟨k, l, r, x⟩ := c
        cases e
        exact this
    · rcases h.asg c hc with q | q
      · exact (hasg c).2 (hv.asg c q)
      · have := hwf' c hc
        refine fresh_asg hs hn q ?_
        obtain ⟨_, y, _, e | ⟨o, e⟩ | e⟩ := q
        · rw [e]; rfl
        · rw [e] at this; exact this.elim
        · rw [e] at this; exact this.elim

theorem Offered.placed : Placed d' s' ↔ Placed d s := by
  have hnc := h.nc
  constructor
  · intro hp c hc hq
    rw [← hs]
    refine hp c (by omega) ?_
    have := h.old c hc
    rw [List.getElem?_eq_getElem (show c < d.choices.length from hc), List.getElem?_eq_getElem (show c < d'.choices.length from by
      show c < d'.nc; omega)] at this
    rw [Option.some.inj this]
    exact hq
  · intro hp c hc hq
    rw [hs]
    by_cases hc0 : c < d.nc
    · refine hp c hc0 ?_
      have := h.old c hc0
      rw [List.getElem?_eq_getElem (show c < d.choices.length from hc0), List.getElem?_eq_getElem (show c < d'.choices.length from hc)] at this
      rw [← Option.some.inj this]
      exact hq
    · have := h.new c _ (by omega) (List.getElem?_eq_getElem (show c < d'.choices.length from hc))
      rw [this] at hq
      cases hq

omit hs in
theorem Offered.worst (hpref : ∀ p c, c < d.nc → pref d' p c = pref d p c) {a : Assignment} (hrows : a.length = d.np) (ho : OnlyScheduled d s a) (w : Nat) :
    IsWorst d' a w ↔ IsWorst d a w := by
  have key : ∀ p c, Attends a p c → c < d.nc := by
    rintro p c ⟨k, hk⟩
    have hp : p < d.np := by
      by_contra hh
      unfold entry at hk
      rw [List.getElem?_eq_none (by omega)] at hk
      cases hk
    obtain ⟨t, _, e⟩ := ho p hp c ⟨k, hk⟩
    by_contra hh
    rw [hn c (by omega)] at e
    cases e
  constructor
  · rintro ⟨h1, h2⟩
    refine ⟨fun p c x a1 a2 => h1 p c x a1 (by rw [hpref _ _ (key _ _ a1)]; exact a2), h2.imp id ?_⟩
    rintro ⟨p, c, a1, a2⟩
    exact ⟨p, c, a1, by rw [← hpref _ _ (key _ _ a1)]; exact a2⟩
  · rintro ⟨h1, h2⟩
    refine ⟨fun p c x a1 a2 => h1 p c x a1 (by rw [← hpref _ _ (key _ _ a1)]; exact a2), h2.imp id ?_⟩
    rintro ⟨p, c, a1, a2⟩
    exact ⟨p, c, a1, by rw [hpref _ _ (key _ _ a1)]; exact a2⟩

omit hs in
theorem Offered.cost (hpref : ∀ p c, c < d.nc → pref d' p c = pref d p c) {a : Assignment} (ho : OnlyScheduled d s a) (cost : Nat → Int) :
    totalCost d' cost a = totalCost d cost a := by
  unfold totalCost
  have hnc := h.nc
  rw [h.np]
  congr 1
  apply List.map_congr_left
  intro p hp
  rw [show d'.nc = d.nc + (d'.nc - d.nc) by omega, List.range_add, List.map_append, List.sum_append]
  have e1 : (List.range d.nc).map (fun c => if attendsB a p c = true then cost ((pref d' p c).getD 0) else 0) =
      (List.range d.nc).map (fun c => if attendsB a p c = true then cost ((pref d p c).getD 0) else 0) := by
    apply List.map_congr_left
    intro c hc
    rw [hpref p c (List.mem_range.1 hc)]
  have e2 : (((List.range (d'.nc - d.nc)).map (d.nc + ·)).map (fun c => if attendsB a p c = true then cost ((pref d' p c).getD 0) else 0)).sum = 0 := by
    apply sum_zero
    intro x hx
    obtain ⟨c, hc, rfl⟩ := List.mem_map.1 hx
    obtain ⟨y, _, rfl⟩ := List.mem_map.1 hc
    rw [if_neg]
    rw [attendsB_iff]
    intro hat
    obtain ⟨t, _, e⟩ := ho p (List.mem_range.1 hp) _ hat
    rw [hn _ (by omega)] at e
    cases e
  rw [e1, e2, Int.add_zero]
end

end Wassign
