import Verif.Model.Number
import Verif.Spec.UnitString

/-
Names of units as users write them.
-/
namespace Unyts.Spec

/-- A name without digits, signs, periods or ratios, and not made of blanks and parentheses only. -/
def BareName (u : Str) : Prop :=
  (∀ c ∈ u, isDigit c = false ∧ c ∉ ['-', '+', '.', '/']) ∧ ∃ c ∈ u, c ∉ [' ', '(', ')']

/-- A bare name that is also free of the other operators. -/
def BasicName (u : Str) : Prop := BareName u ∧ PlainName u

/-- A name raised to an integer power, as the library writes it: `m3`, `s-2`. -/
def withPower (u : Str) (n : Int) : Str := u ++ intStr n

/-- ... where the first power is the name itself and the power 0 is the name over itself. -/
def powerName (u : Str) (n : Int) : Str := if n = 1 then u else if n = 0 then u ++ '/' :: u else withPower u n

end Unyts.Spec
