import Verif.Model.Lists
import Verif.Spec.Totals
import Verif.Spec.Programs

/- Looking for a quantity in a list by what it is worth. -/
namespace Unyts.Spec

/-- In the state `L`, `in`, `count`, `index` and `remove` find the quantity `q` in the list `l` where an entry has the same
`val`, and leave a state from which the library goes on. -/
structure FoundBy (w0 : World) (val : Quantity → Rat) (q : Quantity) (l : List Quantity) (L : Lib) : Prop where
  /-- `q in l` -/
  isIn : ∃ b L', pyIn q l L = (.ok b, L') ∧ (b = true ↔ ∃ x ∈ l, val x = val q) ∧ Running w0 L'
  /-- `l.count(q)` -/
  count : ∃ L', pyCount q l L = (.ok (l.filter fun x => val x = val q).length, L') ∧ Running w0 L'
  /-- `l.index(q)` and `l.remove(q)`, the first such entry being `x` -/
  first : ∀ a x b, l = a ++ x :: b → val x = val q → (∀ y ∈ a, val y ≠ val q) →
    (∃ L', pyIndex q l L = (.ok a.length, L') ∧ Running w0 L') ∧ ∃ L', pyRemove q l L = (.ok (a ++ b), L') ∧ Running w0 L'
  /-- no such entry -/
  none : (∀ y ∈ l, val y ≠ val q) → (pyIndex q l L).1 = .error .valueError ∧ (pyRemove q l L).1 = .error .valueError

end Unyts.Spec
