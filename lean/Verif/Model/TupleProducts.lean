import Verif.Model.Tuples

/- Products and quotients of a quantity and a tuple. -/
namespace Unyts
namespace Quantity

/-- `p * x` with an entry of a tuple (unit_class.py:205-233): a number or a quantity -/
def mulItem (p : Quantity) : Item → PyM Lib Obj
  | .num x => do return .qty (← p.mulNum x)
  | .qty q => p.mul q

/-- `p / x` with an entry of a tuple (unit_class.py:334-363) -/
def divItem (p : Quantity) : Item → PyM Lib Obj
  | .num x => do return .qty (← p.divNum x)
  | .qty q => p.div q

/-- An entry of the resulting tuple. A pair never comes out of a product or quotient; it is an error here, a
simplification. -/
def entry : Obj → PyM Lib Item
  | .qty q => pure (.qty q)
  | .num x => pure (.num x)
  | .pair _ _ => PyM.raise .attributeError

/-- `result = []; for each in other: result += [self * each]; return tuple(result)`
(unit_class.py:225-229, 354-358) -/
def eachLoop (op : Item → PyM Lib Obj) : List Item → List Item → PyM Lib (List Item)
  | [], result => pure result
  | x :: r, result => do eachLoop op r (result ++ [← entry (← op x)])

/-- `p * l` with a tuple (unit_class.py:225-229) -/
def mulTuple (p : Quantity) (l : List Item) : PyM Lib (List Item) := eachLoop p.mulItem l []

/-- `l * p` with a tuple: `__rmul__` is `__mul__` (unit_class.py:239-240) -/
def rmulTuple (p : Quantity) (l : List Item) : PyM Lib (List Item) := p.mulTuple l

/-- `p / l` with a tuple (unit_class.py:354-358) -/
def divTuple (p : Quantity) (l : List Item) : PyM Lib (List Item) := eachLoop p.divItem l []

/-- `l / p` with a tuple (unit_class.py:368-378): for fractions and percentages Python's own error of dividing a tuple by
a number, for the others NotImplementedError -/
def rdivTuple (p : Quantity) (_ : List Item) : PyM Lib (List Item) :=
  if p.unitless then PyM.raise .typeError else PyM.raise .notImplemented

end Quantity
end Unyts
