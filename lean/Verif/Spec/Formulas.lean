import Verif.Spec.Fractions
import Verif.Spec.Totals

/- Computations that take fractions and percentages of quantities. -/
namespace Unyts.Spec

/-- A computation with quantities of one class in which a quantity may be multiplied, on either side, and divided by the
result of a calculation with fractions and percentages. -/
inductive Formula where
  | units (x : Rat) (u : Str)
  | add (e f : Formula)
  | sub (e f : Formula)
  | neg (e : Formula)
  | change (e : Formula) (u : Str)
  | mulNum (e : Formula) (x : Rat)
  | divNum (e : Formula) (x : Rat)
  | mulShare (e : Formula) (s : Share)
  | shareMul (s : Share) (e : Formula)
  | divShare (e : Formula) (s : Share)

namespace Formula

/-- What Python does: operands from left to right, then the operation. -/
def run : Formula → PyM Lib Quantity
  | units x u => Unyts.units x u
  | add e f => do let p ← e.run; let q ← f.run; Program.quantity (← p.add q)
  | sub e f => do let p ← e.run; let q ← f.run; Program.quantity (← p.sub q)
  | neg e => do (← e.run).neg
  | change e u => do Program.quantity (← (← e.run).to u)
  | mulNum e x => do (← e.run).mulNum x
  | divNum e x => do (← e.run).divNum x
  | mulShare e s => do let p ← e.run; let q ← s.run; Program.quantity (← p.mul q)
  | shareMul s e => do let q ← s.run; let p ← e.run; Program.quantity (← q.mul p)
  | divShare e s => do let p ← e.run; let q ← s.run; Program.quantity (← p.div q)

/-- the units of quantities written in the computation -/
def names : Formula → List Str
  | units _ u => [u]
  | add e f | sub e f => e.names ++ f.names
  | change e u => u :: e.names
  | neg e | mulNum e _ | divNum e _ | mulShare e _ | shareMul _ e | divShare e _ => e.names

/-- the unit of the result: that of the first quantity that is no fraction or percentage -/
def unit : Formula → Str
  | units _ u | change _ u => u
  | add e _ | sub e _ | neg e | mulNum e _ | divNum e _ | mulShare e _ | shareMul _ e | divShare e _ => e.unit

/-- The amount the computation stands for, where one of the unit `u` is the amount `size u` and a share is its number. -/
def amount (size : Str → Rat) : Formula → Rat
  | units x u => x * size u
  | add e f => e.amount size + f.amount size
  | sub e f => e.amount size - f.amount size
  | neg e => -e.amount size
  | change e _ => e.amount size
  | mulNum e x => e.amount size * x
  | divNum e x => e.amount size / x
  | mulShare e s => e.amount size * s.number
  | shareMul s e => s.number * e.amount size
  | divShare e s => e.amount size / s.number

/-- the calculations of shares are those of C128, and nothing is divided by zero -/
def Defined : Formula → Prop
  | units _ _ => True
  | add e f | sub e f => e.Defined ∧ f.Defined
  | neg e | change e _ | mulNum e _ => e.Defined
  | divNum e x => e.Defined ∧ x ≠ 0
  | mulShare e s | shareMul s e => e.Defined ∧ s.Written
  | divShare e s => e.Defined ∧ s.Written ∧ s.number ≠ 0

end Formula
end Unyts.Spec
