import Verif.Model.Session

/-
Model of the checks `set_conversion` makes of its arguments (/repo/src/unyts/units/custom.py:50-79).

Simplifications: a unit argument is a string, an object with a text as `units` (a quantity) or anything else; a
conversion is a callable, an object that is not callable but can be subscripted (a list, tuple, string, dictionary,
array) or an object that is neither (a number, None, a set). The last one raises TypeError when it is called.
-/
namespace Unyts

/-- a unit argument of `set_conversion`; a quantity counts for its unit only (custom.py:57-58) -/
inductive UnitArg where
  | str (s : Str)
  | qty (unit : Str)
  | other

/-- custom.py:55-60 (and 61-66 for the second unit) -/
def UnitArg.check : UnitArg → Res Str
  | .str s => .ok s
  | .qty u => .ok u
  | .other => .error .typeError

/-- a conversion argument of `set_conversion`, by what `hasattr` says of `__call__` and `__getitem__` -/
inductive ConvArg where
  | callable (f : Fn)
  | subscriptable
  | neither

/-- custom.py:67-68 (and 69-70 for the reverse): only what can be subscripted is refused; anything else is stored and
called later -/
def ConvArg.check : ConvArg → Res Fn
  | .callable f => .ok f
  | .subscriptable => .error .typeError
  | .neither => .ok fun _ _ => .error .typeError

/-- `set_conversion(from_units, to_units, conversion, reverse_conversion)` (custom.py:50-79); the default reverse
(custom.py:53-54) is a function, so it passes the check of line 69 -/
def setConversionUser (a b : UnitArg) (f : ConvArg) (r : Option ConvArg) : PyM World Unit := do
  let x ← PyM.lift a.check
  let y ← PyM.lift b.check
  let k ← PyM.lift f.check
  match r with
  | none => setConversionW x y k none
  | some r => do
    let j ← PyM.lift r.check
    setConversionW x y k (some j)

end Unyts
