import Verif.Model.Number

/-
How integers are written with a thousands separator.
-/
namespace Unyts.Spec

/-- three digits, with leading zeros -/
def pad3 (m : Nat) : Str :=
  [Char.ofNat ('0'.toNat + m / 100 % 10), Char.ofNat ('0'.toNat + m / 10 % 10), Char.ofNat ('0'.toNat + m % 10)]

/-- `n` in decimal, with `t` before every group of three digits counted from the right: `1'234'567`. -/
def groupStr (t : Char) (n : Nat) : Str :=
  if n < 1000 then natStr n else groupStr t (n / 1000) ++ t :: pad3 (n % 1000)
termination_by n

/-- the same with the sign of an integer -/
def groupInt (t : Char) (n : Int) : Str := if n < 0 then '-' :: groupStr t n.natAbs else groupStr t n.natAbs

end Unyts.Spec
