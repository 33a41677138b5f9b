import Verif.Model.UnitClass

/- Amounts of quantities. -/
namespace Unyts.Spec

/-- the amount of a quantity, where one of the unit `u` is the amount `size u` -/
def amountOf (size : Str → Rat) (q : Quantity) : Rat := q.value * size q.unit

/-- the quantities of a list are of the class `n`, in units of the table `l`, whose sizes are given by `size` -/
def InTable (n : Str) (l : List (Str × Rat)) (size : Str → Rat) (qs : List Quantity) : Prop :=
  ∀ q ∈ qs, q.kind = .std n ∧ (q.unit, size q.unit) ∈ l

end Unyts.Spec
