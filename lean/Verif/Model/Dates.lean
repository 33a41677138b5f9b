import Verif.Model.UnitClass

/-
Model of dates (units/date.py) over the part of NumPy they use.

Simplifications: dates to the day or finer (`datetime64('2020-01')`, which counts months, is left out); counts of any size
(NumPy has 64 bits); a whole number is an int (a float raises in `timedelta64`).
-/
namespace Unyts

/-- a NumPy `datetime64`: a count of ticks since 1970, and the length of a tick in seconds -/
structure DateTime where
  count : Int
  tick : Rat
deriving DecidableEq, Repr

/-- the codes that `timedelta64` takes, in seconds; 'Y' and 'M' are left out: months have no fixed length, and NumPy does not
add them to a date that counts days (a TypeError) -/
def npCodes : List (Str × Rat) :=
  [(s!!"W", 604800), (s!!"D", 86400), (s!!"h", 3600), (s!!"m", 60), (s!!"s", 1), (s!!"ms", 1 / 1000), (s!!"us", 1 / 1000000),
   (s!!"ns", 1 / 1000000000), (s!!"ps", 1 / 1000000000000), (s!!"fs", 1 / 1000000000000000), (s!!"as", 1 / 1000000000000000000)]

/-- `timedelta64(v, u)`: another code is a TypeError, a fraction a ValueError -/
def timedelta (v : Rat) (u : Str) : Res DateTime :=
  match Py.dictGet npCodes u with
  | none => .error .typeError
  | some s => if v.den = 1 then .ok ⟨v.num, s⟩ else .error .valueError

/-- the count of a number of ticks in a finer tick -/
def DateTime.finer (d : DateTime) (tick : Rat) : Int := (d.count * d.tick / tick).num

/-- `d + t` and `d - t` of NumPy, in the finer tick of the two; `sgn` is 1 or -1 -/
def DateTime.shift (d t : DateTime) (sgn : Int) : DateTime :=
  let tick := if t.tick ≤ d.tick then t.tick else d.tick
  ⟨d.finer tick + sgn * t.finer tick, tick⟩

/-- what may stand beside a date -/
inductive DateArg where
  | qty (q : Quantity)
  | date (d : DateTime)
  | other

/-- `Date.__add__` (units/date.py:29-31) with `sgn` 1, `Date.__sub__` (units/date.py:33-35) with -1: None when the other one is not
a Time -/
def dateShift (sgn : Int) (d : DateTime) : DateArg → Res (Option DateTime)
  | .qty q =>
    if q.kind = .std s!!"Time" then do
      let t ← timedelta q.value q.unit
      pure (some (d.shift t sgn))
    else pure none
  | _ => pure none

/-- the comparisons of a Date with a Date (unit_class.py:485-528, all read `self.unit`), which `Date.__init__` never sets
(units/date.py:24-27): AttributeError -/
def dateCompare (_ _ : DateTime) : Res Bool := .error .attributeError

end Unyts
