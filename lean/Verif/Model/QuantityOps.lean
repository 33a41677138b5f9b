import Verif.Model.UnitClass
import Mathlib.Data.Int.Log
import Mathlib.Algebra.Order.Field.Rat
import Mathlib.Data.Rat.Floor

/-
Model of the rest of `/repo/src/unyts/unit_class.py`: powers between quantities, `@`, floor division and remainder with
numbers, `equals` and the method `round`, operations with tuples, `valid_unit`.

Simplifications: as in `UnitClass.lean`; powers that are not integers are not modelled (`ratPow`).
-/
namespace Unyts

/-- `round(x, p)` for `p >= 0`, and `float(f"{x:.{-p}g}")`, that is `-p` significant digits, for `p < 0`
(unit_class.py:607, 610-623) -/
def roundNum (x : Rat) (p : Int) : Rat :=
  if 0 ≤ p then pyRound x p
  else if x = 0 then 0
  else pyRound x (-p - 1 - Int.log 10 (if x < 0 then -x else x))

namespace Quantity

/-- `x ** y` on the numbers of two quantities -/
def powNum (x y : Rat) : Res Rat := ratPow x (.flt y)

/-- `p ** q` between quantities (unit_class.py:245-261) -/
def pow (p q : Quantity) : PyM Lib Quantity := do
  if p.unitless && !q.unitless then construct q.kind (← PyM.lift (powNum p.value q.value)) q.unit
  else if p.kind = .percentage && q.unitless then
    construct p.kind ((← PyM.lift (powNum p.value q.value)) * 100) p.unit
  else if q.unitless then construct p.kind (← PyM.lift (powNum p.value q.value)) p.unit
  else if p.unit = q.unit then units (← PyM.lift (powNum p.value q.value)) (p.unit ++ '^' :: q.unit)
  else if (← libConvertible q.unit p.unit) then
    let y ← libConvert .typeError q.value q.unit p.unit
    units (← PyM.lift (powNum p.value y)) (p.unit ++ '^' :: p.unit)
  else
    match ← baseFactor p.unit q.unit with
    | some k => units (← PyM.lift (powNum p.value (q.value * k))) (p.unit ++ '^' :: q.unit)
    | none => units (← PyM.lift (powNum p.value q.value)) (p.unit ++ '^' :: q.unit)

/-- `x ** q` with a number (unit_class.py:282-290) -/
def rpowNum (q : Quantity) (x : Rat) : PyM Lib Quantity := do
  if q.kind = .percentage then units (← PyM.lift (powNum x q.value)) s!!"Dimensionless"
  else if q.kind = .dimensionless then units (← PyM.lift (powNum x q.value)) q.unit
  else PyM.raise .typeError

/-- `q // x` with a number (unit_class.py:405-408) -/
def floordivNum (q : Quantity) (x : Rat) : PyM Lib Quantity := do
  let y ← PyM.lift (floorDiv q.value x)
  if q.kind = .percentage then construct q.kind (y * 100) q.unit else construct q.kind y q.unit

/-- `x // q` with a number (unit_class.py:414-424) -/
def rfloordivNum (q : Quantity) (x : Rat) : PyM Lib Quantity := do
  let y ← PyM.lift (floorDiv x q.value)
  if q.kind = .percentage then units (y * 100) q.unit
  else if q.kind = .dimensionless then units y q.unit
  else units y (q.unit ++ ['-', '1'])

/-- `q % x` with a number (unit_class.py:476-479) -/
def modNum (q : Quantity) (x : Rat) : PyM Lib Quantity := do
  let y ← PyM.lift (pyMod q.value x)
  if q.kind = .percentage then construct q.kind (y * 100) q.unit else construct q.kind y q.unit

/-- `p @ q` between quantities (unit_class.py:429-437) -/
def matmul (p q : Quantity) : PyM Lib Quantity := do
  if p.unitless && !q.unitless then construct q.kind (← PyM.lift (pdiv p.value q.value)) ('1' :: '/' :: q.unit)
  else if p.kind = .percentage && q.unitless then
    construct p.kind ((← PyM.lift (pdiv p.value q.value)) * 100) p.unit
  else if q.unitless then construct p.kind (← PyM.lift (pdiv p.value q.value)) p.unit
  else units (← PyM.lift (pdiv p.value q.value)) (reduceUnits (p.unit ++ '/' :: q.unit))

/-- `q @ x` with a number (unit_class.py:443-446) -/
def matmulNum (q : Quantity) (x : Rat) : PyM Lib Quantity := do
  let y ← PyM.lift (pdiv q.value x)
  if q.kind = .percentage then construct q.kind (y * 100) q.unit else construct q.kind y q.unit

/-- an operation with a tuple: one result for each entry, in order (unit_class.py:181-185, 225-229, 262-266, 313-317,
354-358, 400-404, 438-442, 471-475); the first exception ends it -/
def overTuple (op : Quantity → PyM Lib α) : List Quantity → PyM Lib (List α)
  | [] => pure []
  | q :: r => do
    let x ← op q
    let xs ← overTuple op r
    pure (x :: xs)

/-- the method `q.round(precision)` (unit_class.py:605-624) -/
def rounded (q : Quantity) (p : Int) : PyM Lib Quantity := units (roundNum q.value p) q.unit

/-- `p.equals(q, precision)` and `p.eq(q, precision)` between quantities (unit_class.py:566-578). Without a precision
the comparison is made, its result dropped, and `int(None)` is a TypeError. -/
def equals (p q : Quantity) (prec : Option Int) : PyM Lib Bool := do
  match prec with
  | none =>
    let _ ← p.compare .eq q
    PyM.raise .typeError
  | some n =>
    if p.kind = q.kind then
      let a ← p.rounded n
      match ← q.to p.unit with
      | .qty r =>
        let b ← r.rounded n
        a.compare .eq b
      | _ => PyM.raise .attributeError
    else PyM.raise .typeError

/-- ... with a number (unit_class.py:569-570) -/
def equalsNum (p : Quantity) (x : Rat) (prec : Option Int) : PyM Lib Bool := do
  match prec with
  | none => PyM.raise .typeError
  | some n => return (← p.rounded n).compareNum .eq (roundNum x n)

end Quantity

/-- `valid_unit(name)` (unit_class.py:661-665) -/
def Lib.validUnit (L : Lib) : Option Str → Bool
  | none => true
  | some u => Py.stripWs u ∈ L.allUnits

end Unyts
