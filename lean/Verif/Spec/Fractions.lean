import Verif.Spec.Programs

/- Computations with fractions and percentages, and the numbers they stand for. -/
namespace Unyts.Spec

/-- the names of numbers without a unit -/
def fractionNames : List Str :=
  [s!!"fraction", s!!"FRACTION", s!!"ratio", s!!"RATIO", s!!"dimensionless", s!!"DIMENSIONLESS", s!!"unitless", s!!"UNITLESS",
   s!!"None", s!!"NONE"]

/-- the names of percentages -/
def percentNames : List Str := [s!!"percentage", s!!"%", s!!"perc", s!!"percent"]

/-- A computation with fractions and percentages, changes of name included. -/
inductive Share where
  | units (x : Rat) (u : Str)
  | neg (e : Share)
  | abs (e : Share)
  | change (e : Share) (u : Str)
  | addNum (e : Share) (x : Rat)
  | subNum (e : Share) (x : Rat)
  | rsubNum (x : Rat) (e : Share)
  | mulNum (e : Share) (x : Rat)
  | divNum (e : Share) (x : Rat)
  | rdivNum (x : Rat) (e : Share)
  | add (e f : Share)
  | sub (e f : Share)
  | mul (e f : Share)
  | div (e f : Share)

namespace Share

/-- What Python does: operands from left to right, then the operation. -/
def run : Share → PyM Lib Quantity
  | units x u => Unyts.units x u
  | neg e => do (← e.run).neg
  | abs e => do (← e.run).abs
  | change e u => do Program.quantity (← (← e.run).to u)
  | addNum e x => do (← e.run).addNum x
  | subNum e x => do (← e.run).subNum x
  | rsubNum x e => do (← e.run).rsubNum x
  | mulNum e x => do (← e.run).mulNum x
  | divNum e x => do (← e.run).divNum x
  | rdivNum x e => do (← e.run).rdivNum x
  | add e f => do let p ← e.run; let q ← f.run; Program.quantity (← p.add q)
  | sub e f => do let p ← e.run; let q ← f.run; Program.quantity (← p.sub q)
  | mul e f => do let p ← e.run; let q ← f.run; Program.quantity (← p.mul q)
  | div e f => do let p ← e.run; let q ← f.run; Program.quantity (← p.div q)

/-- the unit of the result: that of the first operand -/
def unit : Share → Str
  | units _ u | change _ u => u
  | neg e | abs e | addNum e _ | subNum e _ | rsubNum _ e | mulNum e _ | divNum e _ | rdivNum _ e | add e _ | sub e _ | mul e _ | div e _ => e.unit

/-- The number the computation stands for: 5 percent are 0.05, and everything else is arithmetic. -/
def number : Share → Rat
  | units x u => if u ∈ percentNames then x / 100 else x
  | neg e => -e.number
  | abs e => if e.number < 0 then -e.number else e.number
  | change e _ => e.number
  | addNum e x => e.number + x
  | subNum e x => e.number - x
  | rsubNum x e => x - e.number
  | mulNum e x => e.number * x
  | divNum e x => e.number / x
  | rdivNum x e => x / e.number
  | add e f => e.number + f.number
  | sub e f => e.number - f.number
  | mul e f => e.number * f.number
  | div e f => e.number / f.number

/-- The computations in question: every unit written is one of the names, nothing is divided by zero, and no two
percentages, nor two fractions under different names, are added or subtracted. -/
def Written : Share → Prop
  | units _ u => u ∈ fractionNames ++ percentNames
  | change e u => e.Written ∧ u ∈ fractionNames ++ percentNames
  | neg e | abs e | addNum e _ | subNum e _ | rsubNum _ e | mulNum e _ => e.Written
  | divNum e x => e.Written ∧ x ≠ 0
  | rdivNum _ e => e.Written ∧ e.number ≠ 0
  | add e f | sub e f => e.Written ∧ f.Written ∧
      ((e.unit ∈ percentNames ∧ f.unit ∈ fractionNames) ∨ (e.unit ∈ fractionNames ∧ f.unit ∈ percentNames) ∨
        (e.unit ∈ fractionNames ∧ e.unit = f.unit))
  | mul e f => e.Written ∧ f.Written
  | div e f => e.Written ∧ f.Written ∧ f.number ≠ 0

end Share
end Unyts.Spec
