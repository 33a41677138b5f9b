import Verif.Model.UnitClass

/-
Model of the two numbers about the fluid that the user sets: the density (parameters.py:347-398) and the formation volume
factor (database.py:54-87, network.py:161-198).
-/
namespace Unyts

/-- What `set_density` is given; True and False, which Python takes as 1 and 0, are among the numbers. -/
inductive DensityArg where
  | num (x : Rat)
  | qty (q : Quantity)
  | other
deriving DecidableEq, Repr

/-- the spellings of g/cm3 that `set_density` takes without converting (parameters.py:369), small letters -/
def densityUnits : List Str := [s!!"g/cc", s!!"g/cm3", s!!"g/cm³"]

/-- `unyts_parameters_.density_ = d` (parameters.py:377) -/
def storeDensity (d : Rat) : PyM Lib Unit :=
  PyM.modify fun L => { L with w := { L.w with par := { L.w.par with density := some d } } }

/-- the number and the unit `set_density` goes on with (parameters.py:364-368). `type(density) is Density` is exact. -/
def densityNumber (d : DensityArg) (u : Str) : PyM Lib (Rat × Str) :=
  match d with
  | .other => PyM.raise .valueError
  | .num x => pure (x, u)
  | .qty q =>
    if q.kind = .std s!!"Density" then do
      match ← q.to gcm3 with
      | .qty p => pure (p.value, p.unit)
      | _ => PyM.raise .attributeError
    else PyM.raise .valueError

/-- `convert(density, units, 'g/cm3')` in `set_density` (parameters.py:370-376): "no conversion" and None are the same
ValueError, other exceptions are not caught -/
def densityConverted (x : Rat) (u : Str) : PyM Lib Rat := fun L =>
  match onWorld (convert (some x) (some u) (some gcm3) none) L with
  | (.error .noConversionFound, L') => (.error .valueError, L')
  | (.error e, L') => (.error e, L')
  | (.ok (some (.num y)), L') => (.ok y, L')
  | (.ok _, L') => (.error .valueError, L')

/-- `set_density(density, units)` (parameters.py:347-379), with the argument given (without it, it asks on the terminal,
which is not modelled). What is written to the file of the settings is modelled in Model/Parameters. -/
def setDensity (d : DensityArg) (u : Str := gcm3) : PyM Lib Unit := do
  let (x, v) ← densityNumber d u
  if Py.lower v ∈ densityUnits then storeDensity x
  else storeDensity (← densityConverted x v)

/-- `get_density()` (parameters.py:394-398) -/
def getDensity : PyM Lib Quantity := do
  match (← PyM.get).w.par.density with
  | none => PyM.raise .valueError
  | some d => construct (.std s!!"Density") d s!!"g/cc"

/-! ### the formation volume factor -/

/-- What `set_fvf` is given: a number, a text that Python's `float` reads as a number, another text, or something else.
Simplification: 'nan' and 'inf', which `float` reads, are left out. -/
inductive FvfArg where
  | num (x : Rat)
  | numeral (x : Rat) (s : Str)
  | text (s : Str)
  | other
deriving DecidableEq, Repr

/-- What is kept in `unyts_parameters_.fvf_`: the argument as it was given (database.py:76). -/
structure FvfState where
  w : World
  kept : Option FvfArg

/-- `units_network.set_fvf(arg)` (network.py:161-170): a text that is no number is printed, a non-positive number is
logged, and stored all the same -/
def netSetFvf (a : FvfArg) (w : World) : World :=
  match a with
  | .num x => (Unyts.setFvf x w).2
  | .numeral x _ => (Unyts.setFvf x w).2
  | _ => w

/-- `set_fvf(arg)` (database.py:54-77), with the argument given: `valid_fvf` is only used for what is typed on the
terminal. No exception leaves it. -/
def setFvfArg (a : FvfArg) (s : FvfState) : FvfState := ⟨netSetFvf a s.w, some a⟩

/-- `get_fvf()` (database.py:80-87), as the number in the returned text: `str(round(fvf, 4))`. The settings have no attribute
`fvf`, so without a factor in the network it is an AttributeError. -/
def getFvf (s : FvfState) : Res Rat :=
  match s.w.fvf with
  | some b => .ok (pyRound b 4)
  | none => .error .attributeError

end Unyts
