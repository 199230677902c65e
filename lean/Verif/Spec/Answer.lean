import Verif.Spec.Parts
import Verif.Spec.Expr
import Verif.Spec.Names
/-
What a user may rely on when the program prints a timetable: everything in terms of the registered choices, choosers,
slots and constraint expressions of the input `raw`. The internal choices of registered choice `k` are its parts
(`IsPart`); `d` is the input data made from `raw` (its names, slots and part numbering).
-/
namespace Wassign.Spec

/-- `e` says that `rel` holds between the things denoted by `l` and `r`. -/
structure Says (d : InputData) (e : CExpr) (l : Operand) (r : Operand) : Prop where
  left : Denotes d e.left l
  right : Denotes d e.right r
  written : Constructible l e.rel r

/-- The timetable given by the scheduling `s` and the assignment `a` is an answer to the input `raw`. -/
structure Answer (raw : Raw) (d : InputData) (s : Scheduling) (a : Assignment) : Prop where
  /-- every chooser attends exactly one choice in every slot, -/
  onePerSlot : OnePerSlot d s a
  /-- and nothing that does not take place; -/
  onlyScheduled : OnlyScheduled d s a
  /-- every choice that is not optional takes place, with all its parts; -/
  mandatory : ∀ k j c p, raw.choices[k]? = some p → IsPart raw.choices k j c → p.optional = false → ∃ t, t < d.ns ∧ slotAt s c = some t
  /-- what takes place has a permitted number of participants; -/
  bounds : ∀ k j c p, raw.choices[k]? = some p → IsPart raw.choices k j c → slotAt s c ≠ none →
    p.min ≤ participants d a c ∧ participants d a c ≤ p.max
  /-- the parts of a choice take place in consecutive slots, or none of them does; -/
  parts : ∀ k p, raw.choices[k]? = some p →
    (∀ j c, IsPart raw.choices k j c → slotAt s c = none) ∨
    ∃ t, ∀ j c, IsPart raw.choices k j c → slotAt s c = some (t + j)
  /-- they have the same participants; -/
  sameChoosers : ∀ k j j' c c', IsPart raw.choices k j c → IsPart raw.choices k j' c' → ∀ q, q < d.np → (Attends a q c ↔ Attends a q c')
  /-- and every constraint expression is fulfilled: the constraints it is compiled to hold, -/
  compiled : ∀ e ∈ raw.exprs, ∃ L, buildExpr d e = .ok L ∧ ∀ c ∈ L, WrittenWF d c ∧ Holds d s a c

/-- In addition, every constraint expression holds as documented (except for comparisons of a
number with a slot size in which the number comes first and an order relation is used, see C30). -/
def Fulfils (raw : Raw) (d : InputData) (s : Scheduling) (a : Assignment) : Prop :=
  ∀ e ∈ raw.exprs, ∀ l r, Says d e l r →
    (∀ n, l = .number n → e.rel = .eq ∨ e.rel = .neq) → Means d s a l e.rel r

end Wassign.Spec
