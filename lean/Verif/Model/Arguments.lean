import Verif.Model.UnitClass

/-
Model of the ways a `Unit` object can stand for a value or for the name of a unit in the calls of the user:
`convert`, `convertible` (/repo/src/unyts/converter.py), `units` (units/define.py), the constructors of the classes
(unit_class.py), `Unit.convert` and `set_conversion` (units/custom.py).

Simplifications: values are numbers, None or quantities holding one number; NaN given as a unit is not modelled; `other`
stands for any object that is neither a string, None, `Empty` nor a quantity.
-/
namespace Unyts

/-- a value argument -/
inductive VArg where
  | none
  | num (x : Rat)
  | qty (q : Quantity)

/-- a unit argument: None, the class `Empty` (also what a missing third argument of `convert` is), a string, a quantity
or something else -/
inductive UArg where
  | none
  | empty
  | str (s : Str)
  | qty (q : Quantity)
  | other

/-- what is left of a unit argument after converter.py:613-616 and the type tests of 618-639 -/
def UArg.name : UArg → Res (Option Str)
  | .none => .ok Option.none
  | .str s => .ok (some s)
  | .qty q => .ok (some q.unit)
  | .empty | .other => .error .typeError

/-- `to_unit is Empty or to_unit == 'Empty'` (converter.py:604, 627); a quantity compares its number with the text
(unit_class.py:503-505), which is False -/
def UArg.isEmpty : UArg → Bool
  | .empty => true
  | .str s => s = s!!"Empty"
  | _ => false

/-- the number of a value argument, `value.get_value()` (converter.py:606, unit_class.py:594-595) -/
def VArg.value : VArg → Option Rat
  | .none => Option.none
  | .num x => some x
  | .qty q => some q.value

/-- the units after converter.py:603-605: a quantity given with one unit brings its own unit -/
def sourceAndTarget (v : VArg) (a b : UArg) : UArg × UArg :=
  match v with
  | .qty q => if b.isEmpty then (.str q.unit, a) else (a, b)
  | _ => (a, b)

/-- `convert(value, from_unit, to_unit)` of the user, with quantities as arguments (converter.py:775-825 with
`_clean_input` 603-639); the third argument is `.empty` when it is not given. -/
def convertArgs (v : VArg) (a b : UArg) (uc : Option Bool := none) : PyM World (Option Conv) := do
  let (a, b) := sourceAndTarget v a b
  let x ← PyM.lift a.name
  let y ← PyM.lift b.name
  convert v.value x y uc

/-- a unit given as a string or as a quantity -/
inductive Named where
  | str (s : Str)
  | qty (q : Quantity)

/-- `get_unit()` (converter.py:763-766), `new_unit.units` (unit_class.py:128-129), `new_unit.unit` (units/unitless.py:
33-35), `from_units.units` (units/custom.py:56-67), `units.units` (unit_class.py:646-647) -/
def Named.name : Named → Str
  | .str s => s
  | .qty q => q.unit

/-- `convertible(from_unit, to_unit)` (converter.py:747-772) -/
def convertibleArgs (a b : Named) (uc : Option Bool := none) : PyM World Bool := convertible a.name b.name uc

/-- `q.to(p)`, `q.convert(p)` (unit_class.py:127-146, units/unitless.py:32-49) -/
def Quantity.toArg (q : Quantity) (u : Named) : PyM Lib Obj := q.to u.name

/-- `set_conversion(from_units, to_units, ...)` (units/custom.py:50-79) -/
def setConversionArgs (a b : Named) (f : Fn) (rev : Option Fn := none) : PyM World Unit :=
  setConversionW a.name b.name f rev

/-- `kind(value, units)`, the constructor of a class (unit_class.py:82-99 with `check_value` 625-639 and `check_unit`
641-653): of a quantity only the number, or only the unit, is used. `Unit` and `UserUnits` take no quantity as unit
(unit_class.py:90-93, units/custom.py:32). -/
def constructArgs (k : Kind) (v : VArg) (u : Named) : PyM Lib Quantity :=
  match k, u, v.value with
  | .base, .qty _, _ => PyM.raise .wrongUnits
  | .user, .qty _, _ => PyM.raise .attributeError
  | _, _, some x => construct k x u.name
  | _, _, Option.none => PyM.raise .wrongValue

/-- `units(value, unit)` (units/define.py:52-62): a quantity without a unit brings its own, a number without a unit gets
the unit 'Dimensionless', and a quantity with a unit is not a number. -/
def unitsArgs (v : VArg) (u : Option Named) : PyM Lib Quantity :=
  match v, u with
  | .qty q, none => units q.value q.unit
  | .num x, none => units x s!!"Dimensionless"
  | .num x, some (.str s) => units x s
  | _, _ => PyM.raise .typeError

end Unyts
