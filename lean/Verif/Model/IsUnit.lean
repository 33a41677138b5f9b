import Verif.Py

/-
Model of `/repo/src/unyts/helpers/is_unit.py`. The argument is a string (anything else raises TypeError, line 18-19).
-/
namespace Unyts

/-- `dictionary`: kind of unit → names -/
abbrev UnitDict := List (Str × List Str)

/-- `unit in dictionary[each]` for some key without underscore (is_unit.py:21-25, 31-35) -/
def inDict (d : UnitDict) (u : Str) : Bool := d.any fun e => !e.1.contains '_' && e.2.contains u

/-- `unit.split('/')` and then every part `.split('*')` (is_unit.py:28-30) -/
def unitParts (u : Str) : List Str := (Py.splitOn '/' u).flatMap (Py.splitOn '*')

/-- `is_unit` (is_unit.py:15-40). The marks of lines 31-35 are one test per part. -/
def isUnit (d : UnitDict) (s : Str) : Bool :=
  let u := Py.stripWs s
  if inDict d u then true
  else if u.contains '/' || u.contains '*' then (unitParts u).all (inDict d)
  else false

end Unyts
