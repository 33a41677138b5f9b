import Verif.Spec.Ratios
import Verif.Model.UnitClass

/- Programs that compute with quantities of one class, and what they mean. -/
namespace Unyts.Spec

/-- A computation with quantities of one class: `units(x, u)`, sums and differences of quantities, changes of unit, and
the operations between a quantity and a number. -/
inductive Program where
  | units (x : Rat) (u : Str)
  | add (e f : Program)
  | sub (e f : Program)
  | neg (e : Program)
  | abs (e : Program)
  | to (e : Program) (u : Str)
  | addNum (e : Program) (x : Rat)
  | subNum (e : Program) (x : Rat)
  | mulNum (e : Program) (x : Rat)
  | divNum (e : Program) (x : Rat)

namespace Program

/-- a result that is not a quantity cannot be computed with -/
def quantity : Obj → PyM Lib Quantity
  | .qty q => pure q
  | _ => PyM.raise .attributeError

/-- What Python does: operands from left to right, then the operation. -/
def run : Program → PyM Lib Quantity
  | units x u => Unyts.units x u
  | add e f => do let p ← e.run; let q ← f.run; quantity (← p.add q)
  | sub e f => do let p ← e.run; let q ← f.run; quantity (← p.sub q)
  | neg e => do (← e.run).neg
  | abs e => do (← e.run).abs
  | to e u => do quantity (← (← e.run).to u)
  | addNum e x => do (← e.run).addNum x
  | subNum e x => do (← e.run).subNum x
  | mulNum e x => do (← e.run).mulNum x
  | divNum e x => do (← e.run).divNum x

/-- the units written in the program -/
def names : Program → List Str
  | units _ u => [u]
  | add e f | sub e f => e.names ++ f.names
  | to e u => u :: e.names
  | neg e | abs e | addNum e _ | subNum e _ | mulNum e _ | divNum e _ => e.names

/-- the unit of the result: the unit of the first operand -/
def unit : Program → Str
  | units _ u | to _ u => u
  | add e _ | sub e _ | neg e | abs e | addNum e _ | subNum e _ | mulNum e _ | divNum e _ => e.unit

/-- the amount the program stands for, where one of the unit `u` is the amount `size u`: a number added to a quantity
counts units of that quantity -/
def amount (size : Str → Rat) : Program → Rat
  | units x u => x * size u
  | add e f => e.amount size + f.amount size
  | sub e f => e.amount size - f.amount size
  | neg e => -e.amount size
  | abs e => if e.amount size < 0 then -e.amount size else e.amount size
  | to e _ => e.amount size
  | addNum e x => e.amount size + x * size e.unit
  | subNum e x => e.amount size - x * size e.unit
  | mulNum e x => e.amount size * x
  | divNum e x => e.amount size / x

/-- no division by zero is written -/
def Defined : Program → Prop
  | units _ _ => True
  | add e f | sub e f => e.Defined ∧ f.Defined
  | divNum e x => e.Defined ∧ x ≠ 0
  | neg e | abs e | to e _ | addNum e _ | subNum e _ | mulNum e _ => e.Defined

end Program

/-- The quantities with their standard sizes. -/
def sizeTables : List (Str × List (Str × Rat)) :=
  [s!!"Length", s!!"Time", s!!"Area", s!!"Energy", s!!"Data", s!!"Velocity", s!!"Force"].zip standardSizes ++
    [(s!!"Pressure", pressureSizes), (s!!"Weight", weightSizes)]

/-- The classes whose units are proportional to each other: not volumes (formation volume factor), densities, pressures
and temperatures (zeros elsewhere) and capacitances, which share a name with temperatures. -/
def amountQuantities : List Str :=
  [s!!"Data", s!!"Energy", s!!"Power", s!!"Current", s!!"Voltage", s!!"Resistance", s!!"Conductance", s!!"Charge",
   s!!"Inductance", s!!"Impedance", s!!"Force", s!!"Viscosity", s!!"Length", s!!"Area", s!!"Permeability", s!!"Mass", s!!"Rate",
   s!!"Velocity", s!!"Acceleration", s!!"Time", s!!"Frequency", s!!"Compressibility", s!!"ProductivityIndex"]

/-- A state of the library after `import unyts`, in the process that began with the converter `w0`: any conversions and
questions may have come before, and no unit was added to the dictionary of classes. -/
def Running (w0 : World) (L : Lib) : Prop := (∃ cs, (∀ c ∈ cs, Asks c) ∧ L.w = session cs w0) ∧ ShippedClasses L

end Unyts.Spec
