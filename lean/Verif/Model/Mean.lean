import Verif.Model.Tuples

/- The mean of quantities, and quantities as conditions. -/
namespace Unyts
open Quantity

/-- `sum(l) / len(l)` where the sum is a quantity (unit_class.py:161-200, 361-362); the number 0, the
sum of an empty list, is divided by zero; a tuple cannot be divided, a TypeError. A sum of quantities that is a plain number does not
occur for the quantities in question; its mean is given as a fraction, a simplification. -/
def pyMean (l : List Quantity) : PyM Lib Quantity := do
  match ← pySum l with
  | .qty s => s.divNum l.length
  | .num x => if l = [] then PyM.raise .zeroDivision else units (x / l.length) s!!"dimensionless"
  | .tuple _ => PyM.raise .typeError

/-- `bool(q)` (unit_class.py:151-156): by the class alone -/
def Quantity.truth (q : Quantity) : Bool := !(q.kind = .dimensionless || q.kind = .percentage || q.kind = .user)

/-- `any(l)` -/
def pyAny : List Quantity → Bool
  | [] => false
  | q :: r => if q.truth then true else pyAny r

/-- `all(l)` -/
def pyAll : List Quantity → Bool
  | [] => true
  | q :: r => if q.truth then pyAll r else false

/-- `[q for q in l if q]` -/
def pyTrue : List Quantity → List Quantity
  | [] => []
  | q :: r => if q.truth then q :: pyTrue r else pyTrue r

end Unyts
