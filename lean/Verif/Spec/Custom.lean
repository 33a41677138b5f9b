import Verif.Model.Custom
import Verif.Spec.Session

/- Vocabulary for the arguments of set_conversion. -/
namespace Unyts.Spec

/-- the argument names the unit: it is the text itself, or a quantity in that unit -/
inductive Names : UnitArg → Str → Prop
  | str (s : Str) : Names (.str s) s
  | qty (s : Str) : Names (.qty s) s

/-- one of the arguments of set_conversion(a, b, f, r) is of a type the function tells of: a unit that is neither text
nor a quantity, or a conversion that can be subscripted and not called -/
def BadArgument (a b : UnitArg) (f : ConvArg) (r : Option ConvArg) : Prop :=
  a = .other ∨ b = .other ∨ f = .subscriptable ∨ r = some .subscriptable

/-- what calling the argument with a number gives: the function's value, and TypeError for anything that is not
callable -/
def ConvArg.called : ConvArg → Option Rat → Rat → Res Rat
  | .callable f => f
  | _ => fun _ _ => .error .typeError

/-- what the reverse does: the reverse given, or the number divided by what the conversion makes of one -/
def reverseCalled (f : ConvArg) : Option ConvArg → Option Rat → Rat → Res Rat
  | some r => ConvArg.called r
  | none => fun fvf x => match ConvArg.called f fvf 1 with
    | .ok k => if k = 0 then .error .zeroDivision else .ok (x / k)
    | .error e => .error e

end Unyts.Spec
