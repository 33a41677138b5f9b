import Verif.Model.UnitClass

/-
Model of the text of a quantity (unit_class.py:101-112, units/unitless.py:64-68) and of the assignments to its fields
(unit_class.py:579-603).

Simplification: numbers are exact and `str` of a number is a parameter; Python shows an integer and the equal float
differently, and a percentage, stored divided by 100, may come back with a rounding error.
-/
namespace Unyts.Quantity

/-- `q()`, `q.value`, `q.values`, `q.get_value()` (unit_class.py:101-102, 593-599) -/
def get (q : Quantity) : Rat := q.value

/-- `q.unit`, `q.units`, `q.get_unit()`, `q.get_units()` (unit_class.py:580-588) -/
def getUnit (q : Quantity) : Str := q.unit

/-- `repr(q)` (unit_class.py:104-105, units/unitless.py:64-65) -/
def repr (T : Rat → Str) (q : Quantity) : Str :=
  if q.kind = .percentage then T (q.value * 100) ++ '_' :: q.unit else T q.value ++ '_' :: q.unit

/-- `str(q)` (unit_class.py:107-111, units/unitless.py:67-68) -/
def str (T : Rat → Str) (q : Quantity) : Str :=
  if q.kind = .percentage then T (q.value * 100) ++ '_' :: q.unit
  else if Py.stripWs q.unit = [] then T q.value
  else T q.value ++ '_' :: q.unit

/-- `q.units = u` (unit_class.py:590-592) -/
def setUnits (q : Quantity) (u : Str) : Quantity := { q with unit := u }

/-- `q.values = x` (unit_class.py:601-603) -/
def setValues (q : Quantity) (x : Rat) : Quantity := { q with value := x }

end Unyts.Quantity
