import Verif.Model.Shipped
import Verif.Model.Temperature
import Verif.Model.Converter
import Verif.Model.IsUnit

/-
The dictionary of units after `import unyts` on a machine without cache files: `/repo/src/unyts/database.py:609-751`
(ratios and products of the names of the basic kinds) in the order of lines 803-817, and what the converter and the
classes of units read from it.

`tuple(set(l))` is `l` without repetitions: the order of a set of strings changes from one run of Python to the next, and
nothing below depends on it. A comprehension with two `for` reads the second list only if the first is not empty, here
both are read: the difference is a KeyError in a dictionary that lacks the second kind, which no dictionary loaded by the
library does.
-/
namespace Unyts

/-- `dictionary[k]` -/
def kindNames (d : UnitDict) (k : Str) : Res (List Str) :=
  match Py.dictGet d k with
  | some l => .ok l
  | none => .error .keyError

/-- `list(dictionary[k]) if k in dictionary else []` -/
def kindStart (d : UnitDict) (k : Str) : List Str := (Py.dictGet d k).getD []

/-- `dictionary[k] = tuple(set(l))` -/
def setKind (d : UnitDict) (k : Str) (l : List Str) : UnitDict := Py.dictSet d k l.eraseDups

/-- `[a + sep + b for a in as for b in bs]` -/
def pairNames (sep : Str) (as bs : List Str) : List Str := as.flatMap fun a => bs.map fun b => a ++ sep ++ b

/-- `_create_Rates` (database.py:609-615) -/
def createRates (d : UnitDict) : Res UnitDict := do
  let vs ← kindNames d s!!"Volume"
  let ts ← kindNames d s!!"Time"
  let ws ← kindNames d s!!"Weight"
  let ds ← kindNames d s!!"Data"
  .ok (setKind d s!!"Rate"
    (kindStart d s!!"Rate" ++ pairNames ['/'] vs ts ++ pairNames ['/'] ws ts ++ pairNames ['/'] ds ts))

/-- `_create_VolumeRatio` (database.py:618-623) -/
def createVolumeRatio (d : UnitDict) : Res UnitDict := do
  let vs ← kindNames d s!!"Volume"
  .ok (setKind d s!!"VolumeRatio" (kindStart d s!!"VolumeRatio" ++ pairNames ['/'] vs vs))

/-- `_create_Density` (database.py:626-630): the names of `Mass`, not of `Weight` -/
def createDensity (d : UnitDict) : Res UnitDict := do
  let ms ← kindNames d s!!"Mass"
  let vs ← kindNames d s!!"Volume"
  .ok (setKind d s!!"Density" (kindStart d s!!"Density" ++ pairNames ['/'] ms vs))

/-- `_create_Velocity` (database.py:633-637) -/
def createVelocity (d : UnitDict) : Res UnitDict := do
  let ls ← kindNames d s!!"Length"
  let ts ← kindNames d s!!"Time"
  .ok (setKind d s!!"Velocity" (kindStart d s!!"Velocity" ++ pairNames ['/'] ls ts))

/-- `_create_Power` (database.py:640-648) -/
def createPower (d : UnitDict) : Res UnitDict := do
  let es ← kindNames d s!!"Energy"
  let ts ← kindNames d s!!"Time"
  let vs ← kindNames d s!!"Voltage"
  let cs ← kindNames d s!!"Current"
  let rs ← kindNames d s!!"Resistance"
  .ok (setKind d s!!"Power" (kindStart d s!!"Power" ++ pairNames ['/'] es ts ++ pairNames ['*'] vs cs ++
    (vs.flatMap fun v => cs.map fun c => c ++ ['*'] ++ v) ++ (rs.flatMap fun r => cs.map fun c => c ++ ['2', '*'] ++ r) ++
    (rs.flatMap fun r => cs.map fun c => r ++ ['*'] ++ c ++ ['2'])))

/-- `_create_Frequency` (database.py:651-655) -/
def createFrequency (d : UnitDict) : Res UnitDict := do
  let ts ← kindNames d s!!"Time"
  .ok (setKind d s!!"Frequency" (kindStart d s!!"Frequency" ++ ts.map fun t => ['1', '/'] ++ t))

/-- `_create_Conductance` (database.py:658-662) -/
def createConductance (d : UnitDict) : Res UnitDict := do
  let rs ← kindNames d s!!"Resistance"
  .ok (setKind d s!!"Conductance" (kindStart d s!!"Conductance" ++ rs.map fun r => ['1', '/'] ++ r))

/-- `_create_Capacitance_Charge` (database.py:665-677): both lists are made from the dictionary as it was -/
def createCapacitanceCharge (d : UnitDict) : Res UnitDict := do
  let vs ← kindNames d s!!"Voltage"
  let qs ← kindNames d s!!"Charge"
  let fs ← kindNames d s!!"Capacitance"
  let d1 := setKind d s!!"Capacitance"
    (kindStart d s!!"Capacitance" ++ vs.flatMap fun v => qs.map fun q => q ++ ['/'] ++ v)
  .ok (setKind d1 s!!"Charge" (kindStart d s!!"Charge" ++ (vs.flatMap fun v => fs.map fun f => f ++ ['*'] ++ v) ++
    vs.flatMap fun v => fs.map fun f => v ++ ['*'] ++ f))

/-- `_create_Voltage_Current_Resistance` (database.py:680-700): the three lists are made from the dictionary as it was -/
def createVoltageCurrentResistance (d : UnitDict) : Res UnitDict := do
  let vs ← kindNames d s!!"Voltage"
  let cs ← kindNames d s!!"Current"
  let rs ← kindNames d s!!"Resistance"
  let ps ← kindNames d s!!"Power"
  let d1 := setKind d s!!"Voltage" (kindStart d s!!"Voltage" ++ (rs.flatMap fun r => cs.map fun c => c ++ ['*'] ++ r) ++
    (rs.flatMap fun r => cs.map fun c => r ++ ['*'] ++ c) ++ pairNames ['/'] ps cs)
  let d2 := setKind d1 s!!"Current" (kindStart d s!!"Current" ++ (rs.flatMap fun r => vs.map fun v => v ++ ['/'] ++ r) ++
    pairNames ['/'] ps vs)
  .ok (setKind d2 s!!"Resistance" (kindStart d s!!"Resistance" ++ cs.flatMap fun c => vs.map fun v => v ++ ['/'] ++ c))

/-- `_create_Pressure` (database.py:703-707) -/
def createPressure (d : UnitDict) : Res UnitDict := do
  let ws ← kindNames d s!!"Weight"
  let as ← kindNames d s!!"Area"
  .ok (setKind d s!!"Pressure" (kindStart d s!!"Pressure" ++ pairNames ['/'] ws as))

/-- `_create_ProductivityIndex` (database.py:710-717) -/
def createProductivityIndex (d : UnitDict) : Res UnitDict := do
  let vs ← kindNames d s!!"Volume"
  let ts ← kindNames d s!!"Time"
  let ps ← kindNames d s!!"Pressure"
  .ok (setKind d s!!"ProductivityIndex"
    (kindStart d s!!"ProductivityIndex" ++ pairNames ['/'] (pairNames ['/'] vs ts) ps))

/-- `_create_PressureGradient` (database.py:720-725) -/
def createPressureGradient (d : UnitDict) : Res UnitDict := do
  let ps ← kindNames d s!!"Pressure"
  let ls ← kindNames d s!!"Length"
  .ok (setKind d s!!"PressureGradient" (kindStart d s!!"PressureGradient" ++ pairNames ['/'] ps ls))

/-- `_create_TemperatureGradient` (database.py:728-733) -/
def createTemperatureGradient (d : UnitDict) : Res UnitDict := do
  let ts ← kindNames d s!!"Temperature"
  let ls ← kindNames d s!!"Length"
  .ok (setKind d s!!"TemperatureGradient" (kindStart d s!!"TemperatureGradient" ++ pairNames ['/'] ts ls))

/-- `_create_Acceleration` (database.py:736-743) -/
def createAcceleration (d : UnitDict) : Res UnitDict := do
  let ls ← kindNames d s!!"Length"
  let ts ← kindNames d s!!"Time"
  .ok (setKind d s!!"Acceleration" (kindStart d s!!"Acceleration" ++ ls.flatMap fun l => ts.flatMap fun t1 => ts.map fun t2 =>
    if t1 = t2 then l ++ ['/'] ++ t1 ++ ['2'] else l ++ ['/'] ++ t1 ++ ['/'] ++ t2))

/-- the other order of a product of two: `u.split('*')[1] + '*' + u.split('*')[0]` if `'/' not in u and
len(u.split('*')) == 2` -/
def swapProduct (u : Str) : Option Str :=
  if '/' ∈ u then none
  else match Py.splitOn '*' u with
    | [a, b] => some (b ++ ['*'] ++ a)
    | _ => none

/-- `_complete_products` (database.py:746-751) -/
def completeProducts (d : UnitDict) : UnitDict :=
  d.map fun e => (e.1, (e.2 ++ e.2.filterMap swapProduct).eraseDups)

/-- the calls of database.py:803-817 -/
def completeDict (d : UnitDict) : Res UnitDict := do
  let d ← createRates d
  let d ← createVolumeRatio d
  let d ← createDensity d
  let d ← createVelocity d
  let d ← createAcceleration d
  let d ← createProductivityIndex d
  let d ← createPressureGradient d
  let d ← createPressure d
  let d ← createTemperatureGradient d
  let d ← createPower d
  let d ← createFrequency d
  let d ← createConductance d
  let d ← createCapacitanceCharge d
  let d ← createVoltageCurrentResistance d
  .ok (completeProducts d)

/-- the dictionary as the rest of the library reads it: every value is a collection of names -/
def RawDict.names (d : RawDict) : UnitDict := d.map fun e => (e.1, e.2.keys)

/-- `units_network` and `dictionary` after the import (database.py:800-819) -/
def loadLibrary (P : Prefixes) (expl : List (Str × Str × CExp)) (d : RawDict) : Res (Net × UnitDict) := do
  let (g, d) ← loadNetwork P expl d
  let d ← completeDict d.names
  .ok (cleanNetwork g, d)

/-- `uncertain_names` (dictionaries.py:24) -/
def uncertainNames : List Str := [s!!"oz", s!!"ounce", s!!"ounces", s!!"OZ", s!!"OUNCE", s!!"OUNCES"]

/-- `unitless_names` without its None (dictionaries.py:567-574) -/
def unitlessNames (d : RawDict) : List Str :=
  (d.flatMap fun e =>
    if (s!!"Dimensionless").isPrefixOf e.1 || (s!!"Percentage").isPrefixOf e.1 then e.2.entries.flatMap fun x => x.1 :: x.2
    else []).eraseDups

/-- what the converter reads from the dictionary (converter.py:14, 261-308, 673-683) -/
def converterDict (d : UnitDict) : Dict where
  date := kindStart d s!!"Date"
  dimensionless := kindStart d s!!"Dimensionless"
  percentage := kindStart d s!!"Percentage"
  temperature := kindStart d s!!"Temperature"
  volume := kindStart d s!!"Volume"
  weight := kindStart d s!!"Weight"
  tempRatio := temperatureRatioConversions
  uncertain := uncertainNames

end Unyts
