import Verif.Spec.Islands
import Verif.Model.UnitClass

/- Temperatures as quantities. -/
namespace Unyts.Spec

/-- how far above the absolute zero a temperature is, in kelvins -/
def kelvins (q : Quantity) : Rat :=
  match Py.dictGet temperatureScales q.unit with
  | some (d, z) => (q.value - z) * d
  | none => 0

/-- the quantity is of the class Temperature, in one of the names of the scales -/
def IsTemperature (q : Quantity) : Prop := q.kind = .std s!!"Temperature" ∧ q.unit ∈ temperatureScales.map Prod.fst

/-- `q.to(u1).to(u2)...` -/
def tour (q : Quantity) : List Str → PyM Lib Obj
  | [] => pure (.qty q)
  | u :: r => do
    match ← q.to u with
    | .qty p => tour p r
    | o => pure o

end Unyts.Spec
