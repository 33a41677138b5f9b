import Verif.Model.Session
import Verif.Model.Operations
import Verif.Model.IsUnit

/-
Model of `/repo/src/unyts/unit_class.py`, `/repo/src/unyts/units/define.py`, `units/unitless.py`, `units/custom.py` and
the classes of `units/*.py`.

Simplifications: the value of a quantity is one number (no arrays, no complex numbers), exact; the optional `name` of a
quantity is kept out (see `unitsNamed` for what it does to `units`); other operands than quantities and numbers (tuples,
SimPandas objects) are not modelled; `Date` objects hold a NumPy date and are not modelled.
-/
namespace Unyts

/-- The class of a quantity: `Unit` itself, `Dimensionless`, its subclass `Percentage`, `UserUnits`, or one of the
classes of units/*.py, which differ in nothing but their list of units (and the operators of `mulTo`, `divTo`). -/
inductive Kind where
  | base
  | dimensionless
  | percentage
  | user
  | std (name : Str)
deriving DecidableEq, Repr

/-- An instance of `Unit` or of a subclass (unit_class.py:72-99). -/
structure Quantity where
  kind : Kind
  unit : Str
  value : Rat
deriving DecidableEq, Repr

/-- What an operation on quantities returns: a quantity, a bare number, or the pair of its operands. -/
inductive Obj where
  | qty (q : Quantity)
  | num (x : Rat)
  | pair (p q : Quantity)
deriving DecidableEq, Repr

/-- The state of the library: the converter, `dictionary` in its order, `Unit._all_units_str` (computed once, at
import, unit_class.py:79), `unitless_names`, `str` of a float, and the depth left on Python's call stack. -/
structure Lib where
  w : World
  dict : UnitDict
  allUnits : List Str
  unitless : List Str
  sf : Rat → Str
  depth : Nat

/-- a call of the converter -/
def onWorld (m : PyM World α) : PyM Lib α := fun L => ((m L.w).1, { L with w := (m L.w).2 })

/-- `_convertible(a, b)` -/
def libConvertible (a b : Str) : PyM Lib Bool := onWorld (convertible a b none)

/-- `_convert(v, a, b)` used as a number: `e` is the exception that None causes where the result is used -/
def libConvert (e : PyErr) (v : Rat) (a b : Str) : PyM Lib Rat := do
  match ← onWorld (convert (some v) (some a) (some b) none) with
  | some (.num y) => pure y
  | _ => PyM.raise e

/-- `dictionary[k]` -/
def Lib.names (L : Lib) (k : Str) : List Str := (Py.dictGet L.dict k).getD []

/-- the key of the list of units of a class, `class_units` -/
def Kind.key : Kind → Str
  | .base => s!!"Unit"
  | .dimensionless => s!!"Dimensionless"
  | .percentage => s!!"Percentage"
  | .user => s!!"UserUnits"
  | .std n => n

/-- the name is remembered as a unit of the user (units/custom.py:35-38) -/
def Lib.addUser (L : Lib) (u : Str) : Lib :=
  if u ∈ L.names s!!"UserUnits" then L
  else { L with dict := Py.dictSet L.dict s!!"UserUnits" (L.names s!!"UserUnits" ++ [u]) }

/-- `kind(value, unit)`, the constructor of the class (unit_class.py:82-99 with `check_unit` 641-653, units/unitless.py:
24-30, 56-62, units/custom.py:29-41, units/geometry.py:22-26 and the like). `unyts_parameters_.raise_error` in
unit_class.py:92 is a bound method, always true. `UserUnits` takes the blanks away. -/
def construct (k : Kind) (v : Rat) (u : Str) : PyM Lib Quantity := fun L =>
  match k with
  | .base => if Py.stripWs u ∈ L.allUnits then (.ok ⟨.base, u, v⟩, L) else (.error .wrongUnits, L)
  | .user => (.ok ⟨.user, Py.stripWs u, v⟩, L.addUser (Py.stripWs u))
  | k =>
    if u ∈ L.names k.key then (.ok ⟨k, u, if k = .percentage then v / 100 else v⟩, L) else (.error .wrongUnits, L)

/-- the classes `units` can name, other than the special ones (units/define.py:13-25 and the `__all__` of the modules
imported there) -/
def stdClasses : List Str :=
  [s!!"Data", s!!"Energy", s!!"Power", s!!"Current", s!!"Voltage", s!!"Resistance", s!!"Conductance",
   s!!"Capacitance", s!!"Charge", s!!"Inductance", s!!"Impedance", s!!"Force", s!!"Pressure", s!!"Weight",
   s!!"Compressibility", s!!"Viscosity", s!!"Length", s!!"Area", s!!"Volume", s!!"Permeability", s!!"Mass", s!!"Rate",
   s!!"Velocity", s!!"Acceleration", s!!"Density", s!!"VolumeRatio", s!!"ProductivityIndex", s!!"PressureGradient",
   s!!"TemperatureGradient", s!!"Temperature", s!!"Time", s!!"Frequency"]

/-- the class a key of the dictionary names in `eval` (units/define.py:68-73): an unknown name is a NameError, and
`Date(0, ...)` is a ValueError of NumPy -/
def kindOf (key : Str) : Res Kind :=
  if key = s!!"Dimensionless" then .ok .dimensionless
  else if key = s!!"Percentage" then .ok .percentage
  else if key = s!!"UserUnits" then .ok .user
  else if key ∈ stdClasses then .ok (.std key)
  else if key = s!!"Date" then .error .valueError
  else .error .nameError

/-- the value of the literal, between quotes `q`, of which `s` is the text: the escapes of a Python string. Other
escapes than of backslash, quotes, newline, tab and return are not modelled (an error here); a quote or a line end in
the text is a SyntaxError, shown as ValueError. -/
def literal (q : Char) : Str → Res Str
  | [] => .ok []
  | '\\' :: c :: r =>
    if c = '\\' ∨ c = '\'' ∨ c = '"' then (literal q r).map (c :: ·)
    else if c = 'n' then (literal q r).map ('\n' :: ·)
    else if c = 't' then (literal q r).map ('\t' :: ·)
    else if c = 'r' then (literal q r).map ('\r' :: ·)
    else .error .valueError
  | c :: r => if c = q ∨ c = '\n' ∨ c = '\r' ∨ c = '\\' then .error .valueError else (literal q r).map (c :: ·)

/-- the text of the unit between quotes, evaluated (units/define.py:70-73) -/
def evalName (u : Str) : Res Str := literal (if '\'' ∈ u then '"' else '\'') u

/-- `units(value, unit, name)` with a number and a string (units/define.py:30-80). `eval(..., name)` takes `name` as
the dictionary of globals: a TypeError unless it is None. -/
def unitsNamed (v : Rat) (unit : Str) (name : Option Str) : PyM Lib Quantity := do
  let L ← PyM.get
  let u := Py.stripWs unit
  if u ∈ L.w.dic.uncertain then construct .base v u
  else
    match L.dict.find? fun e => u ∈ e.2 with
    | none => construct .user v u
    | some (key, _) =>
      if name.isSome then PyM.raise .typeError
      else do
        let s ← PyM.lift (evalName u)
        let k ← PyM.lift (kindOf key)
        let q ← construct k 0 s
        pure { q with value := if k = .percentage then v / 100 else v }

/-- `units(value, unit)` -/
def units (v : Rat) (unit : Str) : PyM Lib Quantity := unitsNamed v unit none

namespace Quantity

/-- `kind in (Dimensionless, Percentage)` -/
def unitless (q : Quantity) : Bool := q.kind = .dimensionless || q.kind = .percentage

/-- `Dimensionless.convert` (units/unitless.py:32-46); None is not modelled -/
def toUnitless (q : Quantity) (new : Str) : PyM Lib Obj := do
  let L ← PyM.get
  if new = [] then pure (.num q.value)
  else if new ∈ L.names s!!"Percentage" then return .qty (← construct .percentage (q.value * 100) new)
  else if new ∈ L.names s!!"Dimensionless" then return .qty (← construct .dimensionless q.value new)
  else return .qty (← units q.value new)

/-- `Unit.convert` (unit_class.py:127-143) and `to` (145-146) with a string. The unit of a quantity of the user that
cannot be converted is only reported. -/
def to (q : Quantity) (new : Str) : PyM Lib Obj :=
  if q.unitless then q.toUnitless new
  else do
    if (← libConvertible q.unit new) then
      match q.kind with
      | .base =>
        let y ← libConvert .typeError q.value q.unit new
        return .qty (← units y new)
      | k =>
        let y ← libConvert .wrongValue q.value q.unit new
        return .qty (← construct k y new)
    else if q.kind = .user then return .qty q
    else PyM.raise .wrongUnits

/-- `-q` (unit_class.py:148-149, units/unitless.py:70-71) -/
def neg (q : Quantity) : PyM Lib Quantity :=
  match q.kind with
  | .percentage => construct .percentage (q.value * -100) q.unit
  | k => construct k (-q.value) q.unit

/-- `abs(q)` (unit_class.py:158-159, units/unitless.py:73-74) -/
def abs (q : Quantity) : PyM Lib Quantity :=
  match q.kind with
  | .percentage => construct .percentage ((if q.value < 0 then -q.value else q.value) * 100) q.unit
  | k => construct k (if q.value < 0 then -q.value else q.value) q.unit

/-- `bool(q)` (unit_class.py:151-156) -/
def bool (q : Quantity) : Bool := !(q.unitless || q.kind = .user)

/-- The common part of `+` and `-` between quantities (unit_class.py:163-180, 295-312); `op` is the operation on
numbers. -/
def addLike (op : Rat → Rat → Rat) (p q : Quantity) : PyM Lib Obj := do
  if q.kind = p.kind then
    if p.unit = q.unit then return .qty (← construct p.kind (op p.value q.value) p.unit)
    else if (← libConvertible q.unit p.unit) then
      let y ← libConvert .typeError q.value q.unit p.unit
      return .qty (← construct p.kind (op p.value y) p.unit)
    else if (← libConvertible p.unit q.unit) then
      let x ← libConvert .typeError p.value p.unit q.unit
      return .qty (← construct p.kind (op q.value x) q.unit)
    else PyM.raise .noConversionFound
  else if p.unitless && !q.unitless then return .qty (← construct p.kind (op p.value q.value) q.unit)
  else if p.kind = .percentage && q.unitless then
    return .qty (← construct p.kind (op p.value q.value * 100) p.unit)
  else if q.unitless then return .qty (← construct p.kind (op p.value q.value) p.unit)
  else return .pair p q

/-- `p + q` (unit_class.py:161-180) -/
def add (p q : Quantity) : PyM Lib Obj := addLike (· + ·) p q

/-- `p - q` (unit_class.py:292-312) -/
def sub (p q : Quantity) : PyM Lib Obj := addLike (· - ·) p q

/-- `q + x`, `x + q` with a number (unit_class.py:190-193, 199-200) -/
def addNum (q : Quantity) (x : Rat) : PyM Lib Quantity :=
  if q.kind = .percentage then construct q.kind ((q.value + x) * 100) q.unit
  else construct q.kind (q.value + x) q.unit

/-- `q - x` with a number (unit_class.py:322-325) -/
def subNum (q : Quantity) (x : Rat) : PyM Lib Quantity :=
  if q.kind = .percentage then construct q.kind ((q.value - x) * 100) q.unit
  else construct q.kind (q.value - x) q.unit

/-- `x - q` with a number (unit_class.py:331-332) -/
def rsubNum (q : Quantity) (x : Rat) : PyM Lib Quantity := do (← q.neg).addNum x

end Quantity

/-- `k ** p`: a negative power of zero is a ZeroDivisionError; powers that are not integers are not modelled (an error
here) -/
def ratPow (k : Rat) (p : Pow) : Res Rat :=
  match p with
  | .int n => if n < 0 ∧ k = 0 then .error .zeroDivision else .ok (k ^ n)
  | .flt q => if q.den ≠ 1 then .error .notImplemented
    else if q.num < 0 ∧ k = 0 then .error .zeroDivision else .ok (k ^ q.num)

/-- `_unit_product` (operations.py:67-139) with the converter of the library -/
def libProduct (a b : Str) : PyM Lib Str := fun L =>
  unitProduct L.unitless L.sf libConvertible L.depth (some a) (some b) L

/-- `_unit_division` (operations.py:142-216) with the converter of the library -/
def libDivision (a b : Str) : PyM Lib Str := fun L =>
  unitDivision L.unitless L.sf libConvertible L.depth (some a) (some b) L

/-- `_convertible(_unit_base_power(b)[0], _unit_base_power(a)[0])` and, when true, `_convert(1, ...) ** power` of the
same bases (unit_class.py:220-221, 349-350, 395-396, 466-467) -/
def baseFactor (a b : Str) : PyM Lib (Option Rat) := do
  let (b2, p2) ← PyM.lift (unitBasePower b)
  let (b1, _) ← PyM.lift (unitBasePower a)
  if (← libConvertible b2 b1) then
    let k ← libConvert .typeError 1 b2 b1
    return some (← PyM.lift (ratPow k p2))
  else return none

/-- the unit that `Power * Time` and the like are given in (units/energy.py:48-52, 73-77, 90-96, 117-121, 145-149,
units/time.py:28-33) -/
def mulTo (a b : Kind) : Option Str :=
  if a = .std s!!"Power" ∧ b = .std s!!"Time" then some s!!"Wh"
  else if a = .std s!!"Time" ∧ b = .std s!!"Power" then some s!!"Wh"
  else if a = .std s!!"Current" ∧ b = .std s!!"Resistance" then some s!!"Volt"
  else if a = .std s!!"Resistance" ∧ b = .std s!!"Current" then some s!!"Volt"
  else if a = .std s!!"Voltage" ∧ b = .std s!!"Current" then some s!!"Watt"
  else if a = .std s!!"Voltage" ∧ b = .std s!!"Capacitance" then some s!!"Coulomb"
  else if a = .std s!!"Capacitance" ∧ b = .std s!!"Voltage" then some s!!"Coulomb"
  else none

/-- the unit that `Energy / Time` and the like are given in (units/energy.py:29-35, 54-60, 98-104, 162-166) -/
def divTo (a b : Kind) : Option Str :=
  if a = .std s!!"Energy" ∧ b = .std s!!"Time" then some s!!"Watt"
  else if a = .std s!!"Energy" ∧ b = .std s!!"Power" then some s!!"hour"
  else if a = .std s!!"Power" ∧ b = .std s!!"Current" then some s!!"Volt"
  else if a = .std s!!"Power" ∧ b = .std s!!"Voltage" then some s!!"Ampere"
  else if a = .std s!!"Voltage" ∧ b = .std s!!"Current" then some s!!"Ohm"
  else if a = .std s!!"Voltage" ∧ b = .std s!!"Resistance" then some s!!"Ampere"
  else if a = .std s!!"Charge" ∧ b = .std s!!"Voltage" then some s!!"Farad"
  else none

/-- `x // y` -/
def floorDiv (x y : Rat) : Res Rat := if y = 0 then .error .zeroDivision else .ok (x / y).floor

/-- `x % y` -/
def pyMod (x y : Rat) : Res Rat := if y = 0 then .error .zeroDivision else .ok (x - y * (x / y).floor)

/-- `round(x, n)`: to the nearest multiple of `10 ** -n`, half to even -/
def pyRound (x : Rat) (n : Int) : Rat :=
  let y := x * (10 : Rat) ^ n
  let f := y.floor
  let r := if y - f < 1/2 then f else if y - f > 1/2 then f + 1 else if f % 2 = 0 then f else f + 1
  (r : Rat) * (10 : Rat) ^ (-n)

namespace Quantity

/-- `Unit.__mul__` between quantities (unit_class.py:205-224) -/
def mulBase (p q : Quantity) : PyM Lib Quantity := do
  if p.unitless && !q.unitless then construct q.kind (p.value * q.value) q.unit
  else if p.kind = .percentage && q.unitless then construct p.kind (p.value * q.value * 100) p.unit
  else if q.unitless then construct p.kind (p.value * q.value) p.unit
  else if p.unit = q.unit then units (p.value * q.value) (← libProduct p.unit q.unit)
  else if (← libConvertible q.unit p.unit) then
    let y ← libConvert .typeError q.value q.unit p.unit
    units (p.value * y) (← libProduct p.unit q.unit)
  else if (← libConvertible p.unit q.unit) then
    let x ← libConvert .typeError p.value p.unit q.unit
    units (q.value * x) (← libProduct q.unit p.unit)
  else
    match ← baseFactor p.unit q.unit with
    | some k => units (p.value * q.value * k) (← libProduct p.unit q.unit)
    | none => units (p.value * q.value) (← libProduct p.unit q.unit)

/-- `p * q` -/
def mul (p q : Quantity) : PyM Lib Obj := do
  let r ← p.mulBase q
  match mulTo p.kind q.kind with
  | some u => r.to u
  | none => return .qty r

/-- `q * x`, `x * q` with a number (unit_class.py:230-233, 239-240) -/
def mulNum (q : Quantity) (x : Rat) : PyM Lib Quantity :=
  if q.kind = .percentage then construct q.kind (q.value * x * 100) q.unit
  else construct q.kind (q.value * x) q.unit

/-- The common part of `/` and `//` between quantities (unit_class.py:337-353, 383-399); `op` is the division. -/
def divLike (op : Rat → Rat → Res Rat) (p q : Quantity) : PyM Lib Quantity := do
  if p.unitless && !q.unitless then construct q.kind (← PyM.lift (op p.value q.value)) ('1' :: '/' :: q.unit)
  else if p.kind = .percentage && q.unitless then
    construct p.kind ((← PyM.lift (op p.value q.value)) * 100) p.unit
  else if q.unitless then construct p.kind (← PyM.lift (op p.value q.value)) p.unit
  else if p.unit = q.unit then
    let x ← PyM.lift (op p.value q.value)
    units x (← libDivision p.unit q.unit)
  else if (← libConvertible q.unit p.unit) then
    let y ← libConvert .typeError q.value q.unit p.unit
    let x ← PyM.lift (op p.value y)
    units x (← libDivision p.unit q.unit)
  else
    match ← baseFactor p.unit q.unit with
    | some k =>
      let x ← PyM.lift (op p.value (q.value * k))
      units x (← libDivision p.unit q.unit)
    | none =>
      let x ← PyM.lift (op p.value q.value)
      units x (← libDivision p.unit q.unit)

/-- `p / q` -/
def div (p q : Quantity) : PyM Lib Obj := do
  let r ← divLike pdiv p q
  match divTo p.kind q.kind with
  | some u => r.to u
  | none => return .qty r

/-- `p // q` (unit_class.py:380-399) -/
def floordiv (p q : Quantity) : PyM Lib Quantity := divLike floorDiv p q

/-- `q / x` with a number (unit_class.py:359-362) -/
def divNum (q : Quantity) (x : Rat) : PyM Lib Quantity := do
  let y ← PyM.lift (pdiv q.value x)
  if q.kind = .percentage then construct q.kind (y * 100) q.unit else units y q.unit

/-- `x / q` with a number (unit_class.py:368-378) -/
def rdivNum (q : Quantity) (x : Rat) : PyM Lib Quantity := do
  let y ← PyM.lift (pdiv x q.value)
  if q.kind = .percentage then units (y * 100) q.unit
  else if q.kind = .dimensionless then units y q.unit
  else units y (q.unit ++ ['-', '1'])

/-- `p % q` between quantities (unit_class.py:455-470) -/
def mod (p q : Quantity) : PyM Lib Quantity := do
  if p.unitless && !q.unitless then construct q.kind (← PyM.lift (pyMod p.value q.value)) p.unit
  else if p.kind = .percentage && q.unitless then
    construct p.kind ((← PyM.lift (pyMod p.value q.value)) * 100) p.unit
  else if q.unitless then construct p.kind (← PyM.lift (pyMod p.value q.value)) p.unit
  else if p.unit = q.unit then units (← PyM.lift (pyMod p.value q.value)) p.unit
  else if (← libConvertible q.unit p.unit) then
    let y ← libConvert .typeError q.value q.unit p.unit
    units (← PyM.lift (pyMod p.value y)) p.unit
  else
    match ← baseFactor p.unit q.unit with
    | some k => units (← PyM.lift (pyMod p.value (q.value * k))) p.unit
    | none => units (← PyM.lift (pyMod p.value q.value)) p.unit

/-- `q ** n` with an integer (unit_class.py:266-276) -/
def powInt (q : Quantity) (n : Int) : PyM Lib Quantity := do
  if q.kind = .percentage then
    let y ← PyM.lift (ratPow q.value (.int n))
    construct q.kind (y * 100) q.unit
  else
    let L ← PyM.get
    let (b, p) ← PyM.lift (unitBasePower q.unit)
    let m := p.mul (.int n)
    let u := if m.is 0 then s!!"Dimensionless" else if m.is 1 then b else b ++ m.str L.sf
    let y ← PyM.lift (ratPow q.value (.int n))
    units y u

/-- `round(q, n)` (unit_class.py:545-546) -/
def roundTo (q : Quantity) (n : Int) : PyM Lib Quantity := construct q.kind (pyRound q.value n) q.unit

/-- the comparisons -/
inductive Cmp where
  | lt | le | eq | ne | ge | gt
deriving DecidableEq, Repr

/-- what a comparison does with two numbers -/
def Cmp.holds : Cmp → Rat → Rat → Bool
  | .lt, x, y => x < y
  | .le, x, y => x ≤ y
  | .eq, x, y => x = y
  | .ne, x, y => x ≠ y
  | .ge, x, y => x ≥ y
  | .gt, x, y => x > y

/-- `p < q` and the other five (unit_class.py:485-537): quantities of other classes raise TypeError; a bare number
has no `value`. -/
def compare (c : Cmp) (p q : Quantity) : PyM Lib Bool := do
  if p.kind = q.kind then
    match ← q.to p.unit with
    | .qty r => return c.holds p.value r.value
    | _ => PyM.raise .attributeError
  else PyM.raise .typeError

/-- ... with a number (unit_class.py:487, 496, 505, 514, 523, 532) -/
def compareNum (c : Cmp) (p : Quantity) (x : Rat) : Bool := c.holds p.value x

end Quantity
end Unyts
