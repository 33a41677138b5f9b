import Verif.Model.Constants
import Verif.Model.Session
import Verif.Spec.Session

/- Histories of questions and of settings of the density (C119). -/
namespace Unyts.Spec

/-- what a user does: a question to the converter, or `set_density(d)` with the number in g/cm3 -/
inductive Doing where
  | ask (c : Call)
  | weigh (d : Rat)

/-- the library after -/
def Doing.run : Doing → Lib → Lib
  | .ask c, L => { L with w := c.run L.w }
  | .weigh d, L => (setDensity (.num d) s!!"g/cm3" L).2

/-- the library after a history -/
def history (l : List Doing) (L : Lib) : Lib := l.foldl (fun L x => x.run L) L

/-- the questions of a history -/
def questions : List Doing → List Call
  | [] => []
  | .ask c :: l => c :: questions l
  | .weigh _ :: l => questions l

/-- the density set last, `d` when none is set -/
def lastDensity : Rat → List Doing → Rat
  | d, [] => d
  | d, .ask _ :: l => lastDensity d l
  | _, .weigh d :: l => lastDensity d l

end Unyts.Spec
