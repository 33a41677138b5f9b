import Verif.Model.QuantityOps

/- Sums with tuples, and the functions of Python that add and compare the quantities of a list. -/
namespace Unyts

/-- An entry of a tuple of quantities: a quantity, or a number, which is what iterating over a quantity gives
(unit_class.py:560-564). -/
inductive Item where
  | qty (q : Quantity)
  | num (x : Rat)
deriving DecidableEq, Repr

/-- What a chain of sums holds: a number, a quantity, or a tuple. -/
inductive Total where
  | num (x : Rat)
  | qty (q : Quantity)
  | tuple (l : List Item)
deriving DecidableEq, Repr

namespace Quantity

/-- The loop of `+` and `-` between a quantity and a tuple (unit_class.py:181-188, 313-320): entries of the class of the
quantity get it added (`op`); `result += each` extends the list by what iterating over the entry gives: the bare value of
a quantity (its unit is lost), and a TypeError for a number. -/
def tupleLoop (op : Quantity → PyM Lib Obj) (k : Kind) : List Item → List Item → Bool → PyM Lib (List Item × Bool)
  | [], result, flag => pure (result, flag)
  | .qty q :: r, result, flag =>
    if q.kind = k then do
      match ← op q with
      | .qty s => tupleLoop op k r (result ++ [.qty s]) true
      | _ => PyM.raise .attributeError
    else tupleLoop op k r (result ++ [.num q.value]) flag
  | .num _ :: _, _, _ => PyM.raise .typeError

/-- `return tuple(result) if flag else other + (self,)` (unit_class.py:189, 321) -/
def withTuple (op : Quantity → PyM Lib Obj) (p : Quantity) (l : List Item) : PyM Lib (List Item) := do
  let (result, flag) ← tupleLoop op p.kind l [] false
  pure (if flag then result else l ++ [.qty p])

/-- `p + l`, `l + p` with a tuple (unit_class.py:181-189, 199-200) -/
def addTuple (p : Quantity) (l : List Item) : PyM Lib (List Item) := withTuple p.add p l

/-- `p - l` with a tuple (unit_class.py:313-321) -/
def subTuple (p : Quantity) (l : List Item) : PyM Lib (List Item) := withTuple p.sub p l

/-- `l - p` with a tuple (unit_class.py:331-332) -/
def rsubTuple (p : Quantity) (l : List Item) : PyM Lib (List Item) := do (← p.neg).addTuple l

end Quantity

/-- `t + q`: a number or a tuple on the left leaves the sum to `q` (unit_class.py:161-200) -/
def Total.plus : Total → Quantity → PyM Lib Total
  | .num x, q => do return .qty (← q.addNum x)
  | .qty p, q => do
    match ← p.add q with
    | .qty s => pure (.qty s)
    | .num x => pure (.num x)
    | .pair a b => pure (.tuple [.qty a, .qty b])
  | .tuple l, q => do return .tuple (← q.addTuple l)

/-- `t + q1 + q2 + ...` -/
def Total.plusAll : Total → List Quantity → PyM Lib Total
  | t, [] => pure t
  | t, q :: r => do (← t.plus q).plusAll r

/-- Python's `sum(l)`: begins with 0 -/
def pySum (l : List Quantity) : PyM Lib Total := (Total.num 0).plusAll l

/-- Python's `max` and `min` of a first quantity and others: an entry replaces the best so far when `entry > best`
(`entry < best`) -/
def pyBest (c : Quantity.Cmp) : Quantity → List Quantity → PyM Lib Quantity
  | best, [] => pure best
  | best, q :: r => do pyBest c (if ← q.compare c best then q else best) r

/-- `max(l)`; of an empty list a ValueError -/
def pyMax : List Quantity → PyM Lib Quantity
  | [] => PyM.raise .valueError
  | q :: r => pyBest .gt q r

/-- `min(l)`; of an empty list a ValueError -/
def pyMin : List Quantity → PyM Lib Quantity
  | [] => PyM.raise .valueError
  | q :: r => pyBest .lt q r

/-- one entry is put into a sorted list: before the first entry that is not less; only `<` is asked -/
def pyInsert (q : Quantity) : List Quantity → PyM Lib (List Quantity)
  | [] => pure [q]
  | x :: r => do
    if ← x.compare .lt q then return x :: (← pyInsert q r)
    else return q :: x :: r

/-- `sorted(l)`, as insertion of the entries from the last to the first: a simplification, Python merges runs, but asks
only `<` and keeps the order of equals as well -/
def pySorted : List Quantity → PyM Lib (List Quantity)
  | [] => pure []
  | q :: r => do pyInsert q (← pySorted r)

end Unyts
