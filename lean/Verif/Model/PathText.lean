import Verif.Model.Converter

/- Model of `print_path` (searches.py:252-280) and of what `convert` keeps in `last_path_str`. -/
namespace Unyts

/-- `result[-3:] == ' > '` and the cut that follows (searches.py:271-272) -/
def cutArrow (s : Str) : Str :=
  if s.drop (s.length - 3) = s!!" > " then s.take (s.length - 3) else s

/-- One turn of the loop of `print_path` (searches.py:269-279); `last` says that `i == len(path) - 1`. `sf` is `str` of a
number. -/
def pathTurn (sf : Rat → Str) (last : Bool) (result : Str) : Step → Str
  | .str s =>
    if s ∉ [s!!"(1)", s!!"(v)"] then cutArrow result ++ [' '] ++ s ++ [' ']
    else result ++ s ++ (if last then [] else s!!" > ")
  | .num q => result ++ sf q ++ [' ']
  | .node n => result ++ n.name ++ (if last then [] else s!!" > ")

/-- the loop of `print_path` (searches.py:269-279) -/
def pathTurns (sf : Rat → Str) : Str → Path → Str
  | result, [] => result
  | result, s :: r => pathTurns sf (pathTurn sf r.isEmpty result s) r

/-- `str` of an entry of a path -/
def stepStr (sf : Rat → Str) : Step → Str
  | .str s => s
  | .num q => sf q
  | .node n => n.name

/-- `print_path(path)` (searches.py:252-280) -/
def printPath (sf : Rat → Str) (p : Path) : Str :=
  Py.stripWs (match p with
    | [s] => stepStr sf s ++ s!!" = " ++ stepStr sf s
    | p => pathTurns sf s!!"    " p)

/-- `convert` with what it leaves in `last_path_str` (converter.py:775-825): as `convert`, which leaves the text out
(`C92_same`). When nothing is found `last_path_str` is not written. -/
def convertShown (sf : Rat → Str) (v : Option Rat) (a b : Option Str) (uc : Option Bool := none) :
    PyM World (Option (Conv × Str)) := do
  let w ← PyM.get
  let (x, y) ← PyM.lift (cleanInput w.par a b)
  PyM.modify (fun w => { w with previous := [] })
  let r ← match ← densityConversion uc v x y with
    | some r => pure (some r)
    | none => converterTop uc v x y
  match r with
  | some (c, p) => pure (some (c, printPath sf p))
  | none =>
    let w ← PyM.get
    if w.par.raiseError then PyM.raise .noConversionFound else pure none

end Unyts
