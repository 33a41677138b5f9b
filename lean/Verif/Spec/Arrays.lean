import Verif.Model.Arrays
import Verif.Spec.Quantity
import Verif.Spec.Programs

/- Arrays: what it means to compute element by element. -/
namespace Unyts

/-- the element `i` (from 0) as a quantity -/
def ArrQ.at (q : ArrQ) (i : Nat) : Quantity := ⟨q.kind, q.unit, q.values.getD i 0⟩

namespace Spec

/-- what `convert` does with the number `x` when it answers `r` for None: a function is called, an exception or None stays -/
def given (x : Rat) : Res (Option Conv) × World → Res (Option Conv) × World
  | (.ok (some (.fn f)), w) => ((f w.fvf x).map fun y => some (.num y), w)
  | r => r

/-- `[convert(x, a, b) for x in xs]`, the conversions one after the other -/
def oneByOne (a b : Option Str) (uc : Option Bool) : List Rat → PyM World (List (Option Conv))
  | [] => pure []
  | x :: xs => do
    let y ← convert (some x) a b uc
    return y :: (← oneByOne a b uc xs)

/-- A computation with quantities of one class whose values are arrays, as `Program`. -/
inductive ArrProgram where
  | units (xs : List Rat) (u : Str)
  | add (e f : ArrProgram)
  | sub (e f : ArrProgram)
  | neg (e : ArrProgram)
  | abs (e : ArrProgram)
  | to (e : ArrProgram) (u : Str)
  | addNum (e : ArrProgram) (x : Rat)
  | subNum (e : ArrProgram) (x : Rat)
  | mulNum (e : ArrProgram) (x : Rat)
  | divNum (e : ArrProgram) (x : Rat)

namespace ArrProgram

/-- What Python does: operands from left to right, then the operation. -/
def run : ArrProgram → PyM Lib ArrQ
  | units xs u => unitsArr xs u
  | add e f => do let p ← e.run; let q ← f.run; p.addLike (· + ·) q
  | sub e f => do let p ← e.run; let q ← f.run; p.addLike (· - ·) q
  | neg e => do (← e.run).each (- ·)
  | abs e => do (← e.run).each fun x => if x < 0 then -x else x
  | to e u => do (← e.run).to u
  | addNum e x => do (← e.run).each (· + x)
  | subNum e x => do (← e.run).each (· - x)
  | mulNum e x => do (← e.run).each (· * x)
  | divNum e x => do (← e.run).divNum x

/-- every array written in the program has `m` elements -/
def Sized (m : Nat) : ArrProgram → Prop
  | units xs _ => xs.length = m
  | add e f | sub e f => e.Sized m ∧ f.Sized m
  | neg e | abs e | to e _ | addNum e _ | subNum e _ | mulNum e _ | divNum e _ => e.Sized m

/-- the same program on the `i`-th elements -/
def atItem (i : Nat) : ArrProgram → Program
  | units xs u => .units (xs.getD i 0) u
  | add e f => .add (e.atItem i) (f.atItem i)
  | sub e f => .sub (e.atItem i) (f.atItem i)
  | neg e => .neg (e.atItem i)
  | abs e => .abs (e.atItem i)
  | to e u => .to (e.atItem i) u
  | addNum e x => .addNum (e.atItem i) x
  | subNum e x => .subNum (e.atItem i) x
  | mulNum e x => .mulNum (e.atItem i) x
  | divNum e x => .divNum (e.atItem i) x

end ArrProgram

end Spec
end Unyts
