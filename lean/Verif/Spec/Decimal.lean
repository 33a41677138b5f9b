import Verif.Spec.Number

/-
The value of numbers written with decimals and an exponent.
-/
namespace Unyts.Spec

/-- the value of the digits after the decimal sign -/
def fraction : Str → Rat
  | [] => 0
  | c :: r => ((c.toNat - '0'.toNat : Nat) + fraction r) / 10

/-- an optional minus sign -/
def minus (neg : Bool) (s : Str) : Str := if neg then '-' :: s else s

/-- the value with that sign -/
def minusVal (neg : Bool) (q : Rat) : Rat := if neg then -q else q

end Unyts.Spec
