import Verif.Model.Converter

/-
Sessions: sequences of calls of the public functions, each run to its end (normal or by an exception) on the state the
previous one left.
-/
namespace Unyts

/-- A call of the public API; `search` is `_search_network` (converter.py:697-744), which shows the path of a conversion.
`settings` stands for any of the functions of parameters.py that change a setting the
converter reads (set_algorithm, recursion_limit, cache, raise_error, set_density, reduce_parentheses, ...). -/
inductive Call where
  | convert (v : Option Rat) (a b : Option Str) (uc : Option Bool)
  | convertible (a b : Str) (uc : Option Bool)
  | simPandas (v : Rat) (a b : Str) (uc : Option Bool)
  | search (a b : Str)
  | setUnit (a : Str)
  | setConversion (a b : Str) (f : Fn) (rev : Option Fn)
  | setFvf (b : Rat)
  | cleanMemory
  | settings (p : Params)

/-- `set_unit` (units/custom.py:44-47) on the state -/
def setUnitW (a : Str) : PyM World Unit := fun w =>
  match setUnit w.net a with
  | .ok g => (.ok (), { w with net := g })
  | .error e => (.error e, w)

namespace Call

/-- the state after the call -/
def run : Call → World → World
  | convert v a b uc, w => (Unyts.convert v a b uc w).2
  | convertible a b uc, w => (Unyts.convertible a b uc w).2
  | simPandas v a b uc, w => (convertForSimPandas v a b uc w).2
  | search a b, w => (searchNetwork a b w).2
  | setUnit a, w => (setUnitW a w).2
  | setConversion a b f rev, w => (setConversionW a b f rev w).2
  | setFvf b, w => (Unyts.setFvf b w).2
  | cleanMemory, w => (Unyts.cleanMemory w).2
  | settings p, w => { w with par := p }

end Call

/-- the state after a sequence of calls -/
def session (cs : List Call) (w : World) : World := cs.foldl (fun w c => c.run w) w

end Unyts
