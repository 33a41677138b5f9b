import Verif.Model.UnitClass

/- The module with one quantity for each common unit (unitary.py). -/
namespace Unyts

/-- One statement of unitary.py:13-107. -/
inductive Assign where
  /-- `v = units(1, u)` -/
  | units (v u : Str)
  /-- `v = Unit(1, u)` -/
  | unit (v u : Str)
  /-- `v = w` -/
  | alias (v w : Str)

/-- The statements of the module, in order (unitary.py:13-107). -/
def unitaryModule : List Assign :=
  [.units s!!"bit" s!!"b", .units s!!"byte" s!!"B", .units s!!"millimetre" s!!"mm",
   .alias s!!"millimeter" s!!"millimetre", .units s!!"centimeter" s!!"cm", .units s!!"meter" s!!"m",
   .units s!!"kilometre" s!!"km", .alias s!!"kilometer" s!!"kilometre", .units s!!"thou" s!!"th", .units s!!"tenth" s!!"te",
   .units s!!"inch" s!!"in", .units s!!"foot" s!!"ft", .alias s!!"feet" s!!"foot", .units s!!"chain" s!!"ch",
   .units s!!"yard" s!!"yd", .units s!!"furlong" s!!"fur", .units s!!"mile" s!!"mi", .units s!!"league" s!!"lea",
   .units s!!"acre" s!!"acre", .units s!!"barrel" s!!"stb", .alias s!!"stb" s!!"barrel", .units s!!"sm3" s!!"sm3",
   .units s!!"litre" s!!"l", .units s!!"gill" s!!"gi", .units s!!"pint" s!!"pt", .units s!!"quart" s!!"qt",
   .units s!!"gallonUS" s!!"galUS", .units s!!"gallonUK" s!!"galUK", .units s!!"gram" s!!"g", .units s!!"kilogram" s!!"kg",
   .units s!!"grain" s!!"gr", .units s!!"pennyweight" s!!"pwt", .units s!!"dram" s!!"dr", .units s!!"pound" s!!"lb",
   .units s!!"quarter" s!!"qrt", .units s!!"ton" s!!"long ton", .unit s!!"ounce" s!!"oz", .units s!!"second" s!!"sec",
   .units s!!"minute" s!!"min", .units s!!"hour" s!!"hour", .units s!!"day" s!!"day", .units s!!"week" s!!"week",
   .units s!!"month" s!!"month", .units s!!"year" s!!"year", .units s!!"celsius" s!!"deg C", .units s!!"fahrenheit" s!!"deg F",
   .units s!!"rankine" s!!"deg R", .units s!!"kelvin" s!!"deg K", .units s!!"pascal" s!!"Pa", .units s!!"kilopascal" s!!"kPa",
   .units s!!"torr" s!!"mmHg", .alias s!!"mmgh" s!!"torr", .units s!!"psi" s!!"psia", .units s!!"bar" s!!"barsa",
   .units s!!"atmosphere" s!!"atm", .units s!!"newton" s!!"N", .units s!!"dyne" s!!"dyne", .units s!!"joule" s!!"J",
   .units s!!"btu" s!!"btu", .units s!!"horsepower" s!!"hp", .units s!!"watt" s!!"W", .units s!!"volt" s!!"V",
   .units s!!"ampere" s!!"A", .units s!!"ohm" s!!"Ω", .units s!!"siemen" s!!"℧", .units s!!"farad" s!!"Farad",
   .units s!!"coulomb" s!!"Q", .units s!!"henry" s!!"H", .units s!!"hertz" s!!"Hz", .units s!!"rpm" s!!"RPM"]

/-- One statement: the value is computed and the variable set among those of the module; a variable that is not set is a NameError
(unitary.py:13-107). -/
def Assign.exec (vars : List (Str × Quantity)) : Assign → PyM Lib (List (Str × Quantity))
  | .units v u => do let q ← Unyts.units 1 u; pure (vars ++ [(v, q)])
  | .unit v u => do let q ← construct .base 1 u; pure (vars ++ [(v, q)])
  | .alias v w => match Py.dictGet vars w with
    | some q => pure (vars ++ [(v, q)])
    | none => PyM.raise .nameError

/-- `import unyts.unitary`: the statements one after the other; simplification: no variable is set twice, so setting one adds to the
list. -/
def execModule : List (Str × Quantity) → List Assign → PyM Lib (List (Str × Quantity))
  | vars, [] => pure vars
  | vars, a :: l => do let vars ← a.exec vars; execModule vars l

end Unyts
