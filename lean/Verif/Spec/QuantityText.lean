import Verif.Spec.Quantity
import Verif.Model.QuantityText

/-
How the text of a quantity is read.
-/
namespace Unyts.Spec

/-- the text of the number and the text of the unit: what stands before and after the first underscore -/
def readText (t : Str) : Str × Str := (t.takeWhile (· ≠ '_'), (t.dropWhile (· ≠ '_')).drop 1)

/-- how numbers are written: without underscore, and so that `number` reads them back (`float(str(x)) == x`) -/
structure Writes (T : Rat → Str) (number : Str → Rat) : Prop where
  plain : ∀ x, '_' ∉ T x
  back : ∀ x, number (T x) = x

/-- a name without backslash, line end, or both kinds of quotes -/
structure QuotableName (u : Str) : Prop where
  backslash : '\\' ∉ u
  newline : '\n' ∉ u
  «return» : '\r' ∉ u
  quotes : '\'' ∉ u ∨ '"' ∉ u

end Unyts.Spec
