import Mathlib.Algebra.Order.Field.Rat
import Mathlib.Algebra.Order.Group.Abs

/- Vocabulary about rounding. -/
namespace Unyts.Spec

/-- `y` is `x` rounded to `n` decimals (tens, hundreds, ... for negative `n`): the nearest multiple of `10 ** -n`, of
two nearest ones the even. -/
def RoundedTo (n : Int) (x y : Rat) : Prop :=
  ∃ k : Int, y = k * (10 : Rat) ^ (-n) ∧ 2 * |x - y| ≤ (10 : Rat) ^ (-n) ∧ (2 * |x - y| = (10 : Rat) ^ (-n) → k % 2 = 0)

/-- `y` is `x` rounded to `d` significant digits. -/
def SignificantDigits (d : Nat) (x y : Rat) : Prop :=
  x = 0 ∧ y = 0 ∨ ∃ e : Int, (10 : Rat) ^ e ≤ |x| ∧ |x| < (10 : Rat) ^ (e + 1) ∧ RoundedTo (d - 1 - e) x y

end Unyts.Spec
