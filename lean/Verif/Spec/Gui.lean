import Verif.Model.Gui
import Mathlib.Algebra.Order.Ring.Rat
import Mathlib.Algebra.Order.AbsoluteValue.Basic

/- What a user types in the window, what the texts mean. -/
namespace Unyts.Gui.Spec

/-- `is_numeric` does not depend on spaces around a text, and an empty text is not a number -/
structure Sane (T : Texts) : Prop where
  empty : T.isNumeric [] = false
  spaces : ∀ s, T.isNumeric (Py.stripWs s) = T.isNumeric s

/-- a text as typed: something, no spaces around, and none of the messages of the window in it -/
structure Tidy (s : Str) : Prop where
  some' : s ≠ []
  ends : Py.stripWs s = s
  clean : cleanValue s = s

/-- `t` is a text for the number `x` -/
structure NumberText (T : Texts) (t : Str) (x : Rat) : Prop where
  tidy : Tidy t
  numeric : T.isNumeric t = true
  value : T.getNumber t = x

/-- `u` is a text and not a number -/
structure UnitText (T : Texts) (u : Str) : Prop where
  tidy : Tidy u
  notNumeric : T.isNumeric u = false

/-- the row has the number `x` in one box and the unit `u` in the other one -/
inductive Filled (T : Texts) (u : Str) (x : Rat) : Row → Prop
  | valueRight {t : Str} : NumberText T t x → UnitText T u → Filled T u x ⟨u, t⟩
  | valueLeft {t : Str} : NumberText T t x → UnitText T u → Filled T u x ⟨t, u⟩

/-- the row has the unit `u` in one of its boxes and nothing in the other one -/
inductive JustUnit (T : Texts) (u : Str) : Row → Prop
  | left : UnitText T u → JustUnit T u ⟨u, []⟩
  | right : UnitText T u → JustUnit T u ⟨[], u⟩

/-- seconds meant by the numbers and the unit of time shown -/
def seconds : Rat × Option Rat × Str → Rat
  | (a, none, u) => if u = s!!"milliseconds" then a / 1000 else a
  | (a, some b, u) => if u = s!!"minutes:seconds" then 60 * a + b else 3600 * a + 60 * b

/-- `round`: to the nearest number with that many decimals -/
def Rounds (r : Rat → Nat → Rat) : Prop := ∀ q n, |r q n - q| ≤ 1 / 2 / 10 ^ n

/-- an answer that the dialogs do not take: one word that is no positive number, or no word, or more than two -/
inductive Refused (T : Texts) (s : Str) : Prop
  | word {t : Str} : words s = [t] → ¬ (T.isNumeric t = true ∧ 0 < T.getNumber t) → Refused T s
  | phrase : s ≠ [] → (words s).length ≠ 1 → (words s).length ≠ 2 → Refused T s

end Unyts.Gui.Spec
