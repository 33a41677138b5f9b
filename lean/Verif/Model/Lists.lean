import Verif.Model.UnitClass

/- What Python does when a quantity is looked for in a list of quantities. An entry that is the very object looked for is
taken without a question; that short cut is not modelled. -/
namespace Unyts

/-- `q in l`: the first entry for which `entry == q` (unit_class.py:503-510) -/
def pyIn (q : Quantity) : List Quantity → PyM Lib Bool
  | [] => pure false
  | x :: r => do if ← x.compare Quantity.Cmp.eq q then return true else pyIn q r

/-- `l.index(q)`: the position of the first entry for which `entry == q` (unit_class.py:503-510), or ValueError -/
def pyIndex (q : Quantity) : List Quantity → PyM Lib Nat
  | [] => PyM.raise .valueError
  | x :: r => do if ← x.compare Quantity.Cmp.eq q then return 0 else return (← pyIndex q r) + 1

/-- `l.count(q)`: how many entries are `entry == q` (unit_class.py:503-510) -/
def pyCount (q : Quantity) : List Quantity → PyM Lib Nat
  | [] => pure 0
  | x :: r => do
    if ← x.compare Quantity.Cmp.eq q then return (← pyCount q r) + 1
    else pyCount q r

/-- `l.remove(q)`: what is left of the list without the first entry for which `entry == q` (unit_class.py:503-510), or
ValueError -/
def pyRemove (q : Quantity) : List Quantity → PyM Lib (List Quantity)
  | [] => PyM.raise .valueError
  | x :: r => do if ← x.compare Quantity.Cmp.eq q then return r else return x :: (← pyRemove q r)

/-- `x in l` with a number: `entry == x` compares the bare number (unit_class.py:504-505) -/
def pyInNum (x : Rat) : List Quantity → Bool
  | [] => false
  | q :: r => q.compareNum Quantity.Cmp.eq x || pyInNum x r

end Unyts
