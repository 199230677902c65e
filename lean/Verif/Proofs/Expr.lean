import Verif.Proofs.Fuzzy
import Verif.Spec.Expr
import Verif.Spec.Written
/-
constraint_builder.rs.
-/
namespace Wassign
open Spec

/-! ### integers -/

theorem digitChar_toNat {n : Nat} (h : n < 10) : (digitChar n).toNat = 48 + n := by
  unfold digitChar
  rcases n with _ | _ | _ | _ | _ | _ | _ | _ | _ | _ | n
  all_goals first | rfl | omega

theorem isDigit_digitChar {n : Nat} (h : n < 10) : isDigit (digitChar n) = true := by
  unfold isDigit
  rw [digitChar_toNat h]
  simp; omega

theorem digitsVal_append (b : Nat) : ∀ (l : Str) (acc : Nat) (c : Char),
    digitsVal b acc (l ++ [c]) = (digitsVal b acc l).bind (fun v => digitsVal b v [c]) := by
  intro l
  induction l with
  | nil => intro acc c; rfl
  | cons x xs ih =>
    intro acc c
    simp only [List.cons_append, digitsVal]
    split
    · split
      · exact ih _ _
      · rfl
    · rfl

theorem digitsVal_natDigits (b : Nat) : ∀ (fuel n : Nat), n < fuel → n ≤ b →
    digitsVal b 0 (natDigitsGo fuel n) = some n := by
  intro fuel
  induction fuel with
  | zero => intro n h; omega
  | succ fuel ih =>
    intro n hn hb
    unfold natDigitsGo
    split
    · rename_i h10
      simp only [digitsVal, isDigit_digitChar h10, if_true, digitChar_toNat h10]
      rw [if_pos (by omega)]
      simp
    · rename_i h10
      rw [digitsVal_append, ih (n / 10) (by omega) (by omega)]
      have hm : n % 10 < 10 := Nat.mod_lt _ (by omega)
      simp only [Option.bind_some, digitsVal, isDigit_digitChar hm, if_true, digitChar_toNat hm]
      rw [if_pos (by omega)]
      congr 1; omega

theorem natDigits_head (fuel n : Nat) (h : n < fuel) : ∃ c t, natDigitsGo fuel n = c :: t ∧ isDigit c = true := by
  induction fuel generalizing n with
  | zero => omega
  | succ fuel ih =>
    unfold natDigitsGo
    split
    · rename_i h10; exact ⟨_, [], rfl, isDigit_digitChar h10⟩
    · rename_i h10
      obtain ⟨c, t, h1, h2⟩ := ih (n / 10) (by omega)
      exact ⟨c, t ++ [digitChar (n % 10)], by rw [h1]; rfl, h2⟩

theorem parseUnsigned_natStr {b n : Nat} (h : n ≤ b) : parseUnsigned b (natStr n) = some n := by
  obtain ⟨c, t, h1, h2⟩ := natDigits_head (n + 1) n (by omega)
  have hv := digitsVal_natDigits b (n + 1) n (by omega) h
  unfold natStr
  rw [h1] at hv ⊢
  unfold parseUnsigned
  have : c ≠ '+' := by
    rintro rfl; simp [isDigit] at h2
  simp only [this, if_false]
  exact hv

theorem parseUsize_intStr {n : Nat} (h : n ≤ usizeMax) : parseUsize (intStr n) = some n := by
  unfold parseUsize intStr
  rw [if_neg (by omega)]
  simpa using parseUnsigned_natStr h

/-! ### resolving -/

theorem walkParts_part {d : InputData} {c k c' : Nat} (h : Part d c k c') {asked : Nat} : walkParts d asked k c = .ok c' := by
  induction h with
  | zero c => rfl
  | succ h1 h2 _ ih =>
    unfold walkParts
    have : idx d.choices _ "data.choices[choice]" = .ok _ := idx_eq_ok.2 h1
    rw [this, R.bind_ok, h2]
    exact ih

/-- The index of an operand's object. -/
def Operand.index : Operand → Nat
  | .theSlot t | .choicesIn t | .sizeOf t => t
  | .theChoice c | .slotOf c | .attendeesOf c => c
  | .theChooser p | .attendedBy p => p
  | .number n => n

/-- The type and subtype of its accessor. -/
def Operand.kinds : Operand → Acc × Acc
  | .theSlot _ => (.slot, .notSet)
  | .choicesIn _ => (.slot, .choice)
  | .sizeOf _ => (.slot, .size)
  | .theChoice _ => (.choice, .notSet)
  | .slotOf _ => (.choice, .slot)
  | .attendeesOf _ => (.choice, .chooser)
  | .theChooser _ => (.chooser, .notSet)
  | .attendedBy _ => (.chooser, .choice)
  | .number _ => (.integer, .notSet)

/-- The target an operand becomes on the right-hand side. -/
def Operand.target : Operand → Target
  | .theSlot t | .choicesIn t | .sizeOf t => .slot t
  | .theChoice c | .slotOf c | .attendeesOf c => .choice c
  | .theChooser p | .attendedBy p => .chooser p
  | .number n => .limit n

/-- In range. -/
def Operand.InRange (d : InputData) : Operand → Prop
  | .theSlot t | .choicesIn t | .sizeOf t => t < d.ns
  | .theChoice c | .slotOf c | .attendeesOf c => c < d.nc
  | .theChooser p | .attendedBy p => p < d.np
  | .number _ => True

theorem part_lt {d : InputData} (hd : Continues d) {c k c' : Nat} (h : Part d c k c') (hc : c < d.nc) : c' < d.nc := by
  induction h with
  | zero c => exact hc
  | succ h1 h2 _ ih =>
    exact ih (hd _ (List.mem_of_getElem? h1) _ h2)

theorem denotes_kinds {d : InputData} {acc : Accessor} {o : Operand} (h : Denotes d acc o) :
    acc.kind = (Operand.kinds o).1 ∧ acc.sub = (Operand.kinds o).2 := by
  cases h <;> exact ⟨rfl, rfl⟩

theorem denotes_resolves {d : InputData} (hd : NamesOk d) {acc : Accessor} {o : Operand} (h : Denotes d acc o) :
    resolveAccessor d acc = .ok (some (Operand.index o)) ∧
      resolveRight d acc = .ok (some (Operand.target o)) ∧ Operand.InRange d o := by
  have hslot : ∀ {n : Str} {t : Nat}, d.slots[t]? = some n → findName n d.slots = .ok (some t) :=
    fun h => findName_exact hd.slots h
  have hchoice : ∀ {n : Str} {t : Nat}, (d.choices.map (·.name))[t]? = some n →
      findName n (d.choices.map (·.name)) = .ok (some t) := fun h => findName_exact hd.choices h
  have hchooser : ∀ {n : Str} {t : Nat}, (d.choosers.map (·.name))[t]? = some n →
      findName n (d.choosers.map (·.name)) = .ok (some t) := fun h => findName_exact hd.choosers h
  have lt_of : ∀ {l : List Str} {t : Nat} {n : Str}, l[t]? = some n → t < l.length :=
    fun h => (List.getElem?_eq_some_iff.1 h).1
  cases h with
  | theSlot h => simp [resolveAccessor, resolveRight, hslot h, Operand.index, Operand.target, Operand.InRange, lt_of h]
  | choicesIn h => simp [resolveAccessor, resolveRight, hslot h, Operand.index, Operand.target, Operand.InRange, lt_of h]
  | sizeOf h => simp [resolveAccessor, resolveRight, hslot h, Operand.index, Operand.target, Operand.InRange, lt_of h]
  | theChoice h =>
    have := lt_of h
    simp at this
    simp [resolveAccessor, resolveRight, hchoice h, Operand.index, Operand.target, Operand.InRange, walkParts, this]
  | slotOf h hp =>
    have := lt_of h
    simp at this
    simp [resolveAccessor, resolveRight, hchoice h, Operand.index, Operand.target, Operand.InRange,
      walkParts_part hp, part_lt hd.continuations hp this]
  | attendeesOf h hp =>
    have := lt_of h
    simp at this
    simp [resolveAccessor, resolveRight, hchoice h, Operand.index, Operand.target, Operand.InRange,
      walkParts_part hp, part_lt hd.continuations hp this]
  | theChooser h =>
    have := lt_of h
    simp at this
    simp [resolveAccessor, resolveRight, hchooser h, Operand.index, Operand.target, Operand.InRange, this]
  | attendedBy h =>
    have := lt_of h
    simp at this
    simp [resolveAccessor, resolveRight, hchooser h, Operand.index, Operand.target, Operand.InRange, this]
  | number n hn =>
    have hp : parseUsize (intStr n) = some n := parseUsize_intStr (by unfold u32Max at hn; unfold usizeMax; omega)
    have ht : toU32 n "constraint integer must fit in u32" = .ok n := toU32_eq_ok.2 ⟨hn, rfl⟩
    simp [resolveAccessor, resolveRight, hp, ht, Operand.index, Operand.target, Operand.InRange]

/-- The table, by operands. -/
def opTable (l : Operand) (rel : RelT) (r : Operand) : Option (Kind × Extra) :=
  tableKind ⟨⟨(Operand.kinds l).1, (Operand.kinds l).2, [], 0⟩, rel, ⟨(Operand.kinds r).1, (Operand.kinds r).2, [], 0⟩⟩

theorem tableKind_eq {d : InputData} {e : CExpr} {l r : Operand} (hl : Denotes d e.left l) (hr : Denotes d e.right r) :
    tableKind e = opTable l e.rel r := by
  obtain ⟨h1, h2⟩ := denotes_kinds hl
  obtain ⟨h3, h4⟩ := denotes_kinds hr
  unfold opTable tableKind
  simp only [h1, h2, h3, h4]

/-- The constraint an accepted combination becomes. -/
def opConstraint (l : Operand) (ke : Kind × Extra) (r : Operand) : Constraint :=
  ⟨ke.1, Operand.index l, Operand.target r, ke.2⟩

theorem addConstraint_eq {d : InputData} (hd : NamesOk d) {e : CExpr} {l r : Operand}
    (hl : Denotes d e.left l) (hr : Denotes d e.right r) (k : Kind) (x : Extra) :
    addConstraint d e k x = .ok [opConstraint l (k, x) r] := by
  obtain ⟨h1, _, _⟩ := denotes_resolves hd hl
  obtain ⟨_, h2, _⟩ := denotes_resolves hd hr
  unfold addConstraint
  rw [h2, R.bind_ok]
  simp only [h1, R.bind_ok]
  rfl

theorem buildExpr_eq {d : InputData} (hd : NamesOk d) {e : CExpr} {l r : Operand}
    (hl : Denotes d e.left l) (hr : Denotes d e.right r) :
    buildExpr d e = match opTable l e.rel r with
      | some ke => .ok [opConstraint l ke r]
      | none => match opTable r e.rel l with
        | some ke => .ok [opConstraint r ke l]
        | none => .error (.error "Unsupported constraint.") := by
  unfold buildExpr
  rw [tableKind_eq hl hr]
  have hsw : tableKind e.swap = opTable r e.rel l := tableKind_eq (e := e.swap) hr hl
  cases h1 : opTable l e.rel r with
  | some ke => exact addConstraint_eq hd hl hr _ _
  | none =>
    simp only
    rw [hsw]
    cases h2 : opTable r e.rel l with
    | some ke => exact addConstraint_eq (e := e.swap) hd hr hl _ _
    | none => rfl

/-- Whatever the other names are: if the name of an existing object resolves, it does to that object. -/
theorem denotes_found {d : InputData} (hd : Continues d) {acc : Accessor} {o : Operand} (h : Denotes d acc o) :
    (∀ x, resolveAccessor d acc = .ok x → x = some (Operand.index o)) ∧
      (∀ x, resolveRight d acc = .ok x → x = some (Operand.target o)) ∧ Operand.InRange d o := by
  have lt_of : ∀ {l : List Str} {t : Nat} {n : Str}, l[t]? = some n → t < l.length :=
    fun h => (List.getElem?_eq_some_iff.1 h).1
  have right : ∀ {a : Accessor} {f : Nat → Target} {i : Nat}, (∀ x, resolveAccessor d a = .ok x → x = some i) →
      resolveRight d a = (do let r ← resolveAccessor d a; pure (r.map f)) → ∀ x, resolveRight d a = .ok x → x = some (f i) := by
    intro a f i h1 h2 x hx
    rw [h2, R.bind_eq_ok] at hx
    obtain ⟨y, hy, hx⟩ := hx
    cases hx
    rw [h1 y hy]
    rfl
  have slot : ∀ {n : Str} {t : Nat} {sub : Acc}, d.slots[t]? = some n →
      (∀ x, resolveAccessor d ⟨.slot, sub, n, 0⟩ = .ok x → x = some t) := fun h x hx => findName_present h hx
  have chooser : ∀ {n : Str} {t : Nat} {sub : Acc}, (d.choosers.map (·.name))[t]? = some n →
      (∀ x, resolveAccessor d ⟨.chooser, sub, n, 0⟩ = .ok x → x = some t) := fun h x hx => findName_present h hx
  have choice : ∀ {n : Str} {c k c' : Nat} {sub : Acc}, (d.choices.map (·.name))[c]? = some n → Part d c k c' →
      (∀ x, resolveAccessor d ⟨.choice, sub, n, k⟩ = .ok x → x = some c') := by
    intro n c k c' sub h hp x hx
    simp only [resolveAccessor, R.bind_eq_ok] at hx
    obtain ⟨y, hy, hx⟩ := hx
    rw [findName_present h hy] at hx
    simp only [R.bind_eq_ok] at hx
    obtain ⟨z, hz, hx⟩ := hx
    rw [walkParts_part hp] at hz
    cases hz
    cases hx
    rfl
  cases h with
  | theSlot h => exact ⟨slot h, right (slot h) rfl, lt_of h⟩
  | choicesIn h => exact ⟨slot h, right (slot h) rfl, lt_of h⟩
  | sizeOf h => exact ⟨slot h, right (slot h) rfl, lt_of h⟩
  | theChoice h => exact ⟨choice h (.zero _), right (choice h (.zero _)) rfl, by simpa [Operand.InRange] using lt_of h⟩
  | slotOf h hp => exact ⟨choice h hp, right (choice h hp) rfl, part_lt hd hp (by simpa using lt_of h)⟩
  | attendeesOf h hp => exact ⟨choice h hp, right (choice h hp) rfl, part_lt hd hp (by simpa using lt_of h)⟩
  | theChooser h => exact ⟨chooser h, right (chooser h) rfl, by simpa [Operand.InRange] using lt_of h⟩
  | attendedBy h => exact ⟨chooser h, right (chooser h) rfl, by simpa [Operand.InRange] using lt_of h⟩
  | number n hn =>
    have hp : parseUsize (intStr n) = some n := parseUsize_intStr (by unfold u32Max at hn; unfold usizeMax; omega)
    have ht : toU32 n "constraint integer must fit in u32" = .ok n := toU32_eq_ok.2 ⟨hn, rfl⟩
    refine ⟨?_, ?_, trivial⟩
    · intro x hx; simp [resolveAccessor, hp] at hx; exact hx.symm
    · intro x hx; simp [resolveAccessor, resolveRight, hp, ht] at hx; exact hx.symm

theorem addConstraint_ok {d : InputData} (hd : Continues d) {e : CExpr} {l r : Operand}
    (hl : Denotes d e.left l) (hr : Denotes d e.right r) {k : Kind} {x : Extra} {L : List Constraint}
    (h : addConstraint d e k x = .ok L) : L = [opConstraint l (k, x) r] := by
  obtain ⟨h1, _, _⟩ := denotes_found hd hl
  obtain ⟨_, h2, _⟩ := denotes_found hd hr
  unfold addConstraint at h
  rw [R.bind_eq_ok] at h
  obtain ⟨y, hy, h⟩ := h
  rw [h2 y hy] at h
  simp only [R.bind_eq_ok] at h
  obtain ⟨z, hz, h⟩ := h
  rw [h1 z hz] at h
  cases h
  rfl

theorem buildExpr_ok {d : InputData} (hd : Continues d) {e : CExpr} {l r : Operand}
    (hl : Denotes d e.left l) (hr : Denotes d e.right r) {L : List Constraint} (h : buildExpr d e = .ok L) :
    (∃ ke, opTable l e.rel r = some ke ∧ L = [opConstraint l ke r]) ∨
    (opTable l e.rel r = none ∧ ∃ ke, opTable r e.rel l = some ke ∧ L = [opConstraint r ke l]) := by
  unfold buildExpr at h
  rw [tableKind_eq hl hr] at h
  have hsw : tableKind e.swap = opTable r e.rel l := tableKind_eq (e := e.swap) hr hl
  cases h1 : opTable l e.rel r with
  | some ke =>
    rw [h1] at h
    exact .inl ⟨ke, rfl, addConstraint_ok hd hl hr h⟩
  | none =>
    rw [h1] at h
    simp only at h
    rw [hsw] at h
    cases h2 : opTable r e.rel l with
    | some ke =>
      rw [h2] at h
      exact .inr ⟨rfl, ke, rfl, addConstraint_ok (e := e.swap) hd hr hl h⟩
    | none => rw [h2] at h; cases h

/-- A number on the left of an order comparison. -/
def MirroredOrder (l : Operand) (rel : RelT) : Prop :=
  (∃ n, l = .number n) ∧ (rel = .gt ∨ rel = .lt ∨ rel = .geq ∨ rel = .leq)

set_option maxHeartbeats 4000000 in
theorem table_sensible (l r : Operand) (rel : RelT) (hc : Constructible l rel r) :
    ((opTable l rel r).isSome ∨ (opTable r rel l).isSome) ↔ Sensible l rel r := by
  cases l <;> cases r <;> cases rel <;>
    first
    | (simp [opTable, tableKind, Operand.kinds, Sensible]; done)
    | (simp [Constructible, Operand.simple] at hc; done)

set_option maxHeartbeats 4000000 in
theorem table_left (i : InputData) (l r : Operand) (rel : RelT) (ke : Kind × Extra)
    (hl : Operand.InRange i l) (hr : Operand.InRange i r) (h : opTable l rel r = some ke) :
    WrittenWF i (opConstraint l ke r) ∧
      ∀ s a, Holds i s a (opConstraint l ke r) ↔ Means i s a l rel r := by
  cases l <;> cases r <;> cases rel <;>
    first
    | (simp [opTable, tableKind, Operand.kinds] at h; done)
    | (simp only [opTable, tableKind, Operand.kinds, Option.some.injEq] at h
       subst h
       refine ⟨?_, ?_⟩
       · simp only [opConstraint, Operand.index, Operand.target, WrittenWF]
         first | exact ⟨hl, hr⟩ | exact hl
       · intro s a
         simp [opConstraint, Operand.index, Operand.target, Holds, SchedHolds, AsgHolds, Means, RelT.onNat, Rel])

set_option maxHeartbeats 4000000 in
theorem table_right (i : InputData) (l r : Operand) (rel : RelT) (ke : Kind × Extra)
    (hl : Operand.InRange i l) (hr : Operand.InRange i r) (hc : Constructible l rel r)
    (h0 : opTable l rel r = none) (h : opTable r rel l = some ke) :
    WrittenWF i (opConstraint r ke l) ∧
      (¬ MirroredOrder l rel → ∀ s a, Holds i s a (opConstraint r ke l) ↔ Means i s a l rel r) := by
  cases l <;> cases r <;> cases rel <;>
    first
    | (simp [opTable, tableKind, Operand.kinds] at h; done)
    | (simp [opTable, tableKind, Operand.kinds] at h0; done)
    | (simp [Constructible, Operand.simple] at hc; done)
    | (simp only [opTable, tableKind, Operand.kinds, Option.some.injEq] at h
       subst h
       refine ⟨?_, ?_⟩
       · simp only [opConstraint, Operand.index, Operand.target, WrittenWF]
         first | exact ⟨hr, hl⟩ | exact hr
       · intro hm s a
         first
         | (simp [MirroredOrder] at hm; done)
         | (simp [opConstraint, Operand.index, Operand.target, Holds, SchedHolds, AsgHolds, Means, RelT.onNat, Rel, eq_comm]; done)
         | (simp [opConstraint, Operand.index, Operand.target, Holds, SchedHolds, AsgHolds, Means, RelT.onNat, Rel]; done))

end Wassign
