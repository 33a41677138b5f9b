import Verif.Model.UnitClass

/-
Model of quantities and conversions whose value is an array (NumPy's `ndarray` of one dimension, of exact numbers): the
parts of converter.py, unit_class.py and units/define.py that see one.

NumPy computes element by element; operands of different lengths are a ValueError unless one of them has a single
element. Simplification: where an element would be infinite or undefined (NumPy warns and goes on) the model has the
exception of the number.
-/
namespace Unyts

/-- `convert(array, from_unit, to_unit, use_cache=...)` (converter.py:775-825). Every branch of the converter answers
`conv if value is None else conv(value)` (`answer`; converter.py:249-328, 529-578, 677-689), so for an array it is the
same function of the branch, applied to all the elements. None stands for the returned None. -/
def convertArray (xs : List Rat) (a b : Option Str) (uc : Option Bool := none) : PyM World (Option (List Rat)) := do
  match ← convert none a b uc with
  | none => pure none
  | some c =>
    let w ← PyM.get
    return some (← PyM.lift (xs.mapM (c.call w.fvf)))

/-- A quantity whose value is an array. -/
structure ArrQ where
  kind : Kind
  unit : Str
  values : List Rat
deriving DecidableEq, Repr

/-- an elementwise operation of NumPy on two arrays of one dimension -/
def zipArrays (op : Rat → Rat → α) (xs ys : List Rat) : Res (List α) :=
  if xs.length = ys.length then .ok (List.zipWith op xs ys)
  else match xs, ys with
    | [x], ys => .ok (ys.map (op x))
    | xs, [y] => .ok (xs.map (op · y))
    | _, _ => .error .valueError

/-- `kind(values, unit)` (see `construct`): no constructor looks at the numbers (`check_value`, unit_class.py:626-639,
keeps an array as it is and makes one of a list), a percentage divides them by 100 -/
def constructArr (k : Kind) (xs : List Rat) (u : Str) : PyM Lib ArrQ := do
  let q ← construct k 0 u
  pure ⟨q.kind, q.unit, if k = .percentage then xs.map (· / 100) else xs⟩

/-- `units(array, unit)` (units/define.py:54-80): the class is chosen by the unit, the array is then put in -/
def unitsArr (xs : List Rat) (u : Str) : PyM Lib ArrQ := do
  let q ← units 0 u
  pure ⟨q.kind, q.unit, if q.kind = .percentage then xs.map (· / 100) else xs⟩

/-- `_convert(values, a, b)`; see `libConvert` -/
def libConvertArr (e : PyErr) (xs : List Rat) (a b : Str) : PyM Lib (List Rat) := do
  match ← onWorld (convertArray xs (some a) (some b) none) with
  | some ys => pure ys
  | none => PyM.raise e

namespace ArrQ

/-- `q.to(unit)` for the classes with units (unit_class.py:127-146); plain numbers and percentages are not modelled here
(an error) -/
def to (q : ArrQ) (new : Str) : PyM Lib ArrQ :=
  if q.kind = .dimensionless ∨ q.kind = .percentage then PyM.raise .notImplemented
  else do
    if (← libConvertible q.unit new) then
      match q.kind with
      | .base =>
        let ys ← libConvertArr .typeError q.values q.unit new
        unitsArr ys new
      | k =>
        let ys ← libConvertArr .wrongValue q.values q.unit new
        constructArr k ys new
    else if q.kind = .user then pure q
    else PyM.raise .wrongUnits

/-- the part of `+` and `-` for quantities of one class (unit_class.py:163-172, 295-304); other operands are not modelled
here (an error) -/
def addLike (op : Rat → Rat → Rat) (p q : ArrQ) : PyM Lib ArrQ := do
  if q.kind = p.kind then
    if p.unit = q.unit then constructArr p.kind (← PyM.lift (zipArrays op p.values q.values)) p.unit
    else if (← libConvertible q.unit p.unit) then
      let ys ← libConvertArr .typeError q.values q.unit p.unit
      constructArr p.kind (← PyM.lift (zipArrays op p.values ys)) p.unit
    else if (← libConvertible p.unit q.unit) then
      let xs ← libConvertArr .typeError p.values p.unit q.unit
      constructArr p.kind (← PyM.lift (zipArrays op q.values xs)) q.unit
    else PyM.raise .noConversionFound
  else PyM.raise .notImplemented

/-- `-q`, `abs(q)` and the operations with a number, on each element (unit_class.py:148-149, 158-159, 192-193, 232-233,
324-325); percentages are multiplied by 100 for the constructor (unit_class.py:190-191, 230-231, 322-323,
units/unitless.py:70-74) -/
def each (f : Rat → Rat) (q : ArrQ) : PyM Lib ArrQ :=
  constructArr q.kind (q.values.map fun x => if q.kind = .percentage then f x * 100 else f x) q.unit

/-- `q / x` with a number (unit_class.py:359-362) -/
def divNum (q : ArrQ) (x : Rat) : PyM Lib ArrQ := do
  let ys ← PyM.lift (q.values.mapM (pdiv · x))
  if q.kind = .percentage then constructArr q.kind (ys.map (· * 100)) q.unit else unitsArr ys q.unit

/-- the six comparisons of quantities (unit_class.py:485-537): an array of truth values -/
def compare (c : Quantity.Cmp) (p q : ArrQ) : PyM Lib (List Bool) := do
  if p.kind = q.kind then
    let r ← q.to p.unit
    PyM.lift (zipArrays c.holds p.values r.values)
  else PyM.raise .typeError

/-- `len(q)` (unit_class.py:539-543) -/
def len (q : ArrQ) : Nat := q.values.length

/-- `q[i]` (unit_class.py:548-558): an index from the end is left to NumPy; a percentage is multiplied by 100 for the
constructor -/
def item (q : ArrQ) (i : Int) : PyM Lib Quantity :=
  if q.len ≤ i then PyM.raise .indexError
  else
    let j := if i < 0 then i + q.len else i
    if j < 0 then PyM.raise .indexError
    else match q.values[j.toNat]? with
      | none => PyM.raise .indexError
      | some x => construct q.kind (if q.kind = .percentage then x * 100 else x) q.unit

/-- `list(q)` (unit_class.py:560-564): the bare numbers -/
def iter (q : ArrQ) : List Rat := q.values

end ArrQ

/-- `list(q)` of a quantity of one number (unit_class.py:560-564) -/
def Quantity.iter (q : Quantity) : List Rat := [q.value]

/-- `q[0]` of a quantity of one number (unit_class.py:548-558): its length counts as 1, but a number has no items -/
def Quantity.item (_ : Quantity) (i : Int) : PyM Lib Quantity :=
  if 1 ≤ i then PyM.raise .indexError else PyM.raise .typeError

end Unyts
