import Verif.Model.Shipped
import Verif.Spec.Loader
import Verif.Spec.Conversion

/- Vocabulary about the network that ships with the library. -/
namespace Unyts.Spec

/-- `units_network` after `import unyts` on a machine without cache files (database.py:800-819): the network built
from the shipped data, without the nodes that have no conversions. -/
def ShippedNetwork (n : Net) : Prop := ∃ g d, loadShipped = .ok (g, d) ∧ n = cleanNetwork g

/-- The metric prefixes and their powers of ten (SI brochure; `u` is the usual spelling of `µ`). -/
def metricPrefixes : List (Str × Int) :=
  [(s!!"Q", 30), (s!!"R", 27), (s!!"Y", 24), (s!!"Z", 21), (s!!"E", 18), (s!!"P", 15), (s!!"T", 12), (s!!"G", 9),
   (s!!"M", 6), (s!!"k", 3), (s!!"h", 2), (s!!"da", 1), (s!!"d", -1), (s!!"c", -2), (s!!"m", -3), (s!!"µ", -6),
   (s!!"u", -6), (s!!"n", -9), (s!!"p", -12), (s!!"f", -15), (s!!"a", -18), (s!!"z", -21), (s!!"y", -24),
   (s!!"r", -27), (s!!"q", -30)]

/-- The units that take metric prefixes, with the power to which the prefix is raised: a square kilometer is a million
square meters. A thousand standard cubic meters are a `ksm3`: these prefixes are not raised to a power. The second
component is the kind of the dictionary that lists the unit. -/
def metricUnits : List (Str × Str × Int) :=
  [(s!!"s", s!!"Time_SI", 1), (s!!"m", s!!"Length_SI", 1), (s!!"m2", s!!"Area_SI", 2), (s!!"m²", s!!"Area_SI", 2),
   (s!!"m3", s!!"Volume_SI_UPPER", 3), (s!!"m³", s!!"Volume_SI_UPPER", 3),
   (s!!"sm3", s!!"Volume_linearSI", 1), (s!!"sm³", s!!"Volume_linearSI", 1), (s!!"Sm3", s!!"Volume_linearSI", 1),
   (s!!"Sm³", s!!"Volume_linearSI", 1), (s!!"stm3", s!!"Volume_linearSI", 1), (s!!"stm³", s!!"Volume_linearSI", 1),
   (s!!"STm3", s!!"Volume_linearSI", 1), (s!!"STm³", s!!"Volume_linearSI", 1), (s!!"rem3", s!!"Volume_linearSI", 1),
   (s!!"rem³", s!!"Volume_linearSI", 1), (s!!"l", s!!"Volume_linearSI", 1),
   (s!!"Pa", s!!"Pressure_SI", 1), (s!!"bara", s!!"Pressure_SI", 1), (s!!"barsa", s!!"Pressure_SI", 1),
   (s!!"bar", s!!"Pressure_SI", 1), (s!!"barg", s!!"Pressure_SI", 1), (s!!"g", s!!"Weight_SI", 1),
   (s!!"g-mol", s!!"Weight_SI", 1), (s!!"D", s!!"Permeability_SI", 1), (s!!"Wh", s!!"Energy_SI", 1),
   (s!!"Ws", s!!"Energy_SI", 1), (s!!"W", s!!"Power_SI", 1), (s!!"V", s!!"Voltage_SI", 1), (s!!"A", s!!"Current_SI", 1),
   (s!!"Ω", s!!"Resistance_SI", 1), (s!!"℧", s!!"Conductance_SI", 1), (s!!"F", s!!"Capacitance_SI", 1),
   (s!!"Q", s!!"Charge_SI", 1), (s!!"H", s!!"Inductance_SI", 1), (s!!"Hz", s!!"Frequency_SI", 1)]

/-- The prefixes of amounts of data, as powers of a thousand (bits) or of 1024 (bytes). -/
def dataPrefixes : List (Str × Nat) :=
  [(s!!"Y", 8), (s!!"Z", 7), (s!!"E", 6), (s!!"P", 5), (s!!"T", 4), (s!!"G", 3), (s!!"M", 2), (s!!"K", 1), (s!!"k", 1)]

def dataUnits : List (Str × Str × Nat) :=
  [(s!!"b", s!!"dataBIT_DATA", 1000), (s!!"bit", s!!"dataBIT_DATA", 1000), (s!!"B", s!!"dataBYTE_DATA", 1024),
   (s!!"byte", s!!"dataBYTE_DATA", 1024)]

/-- The oil field prefixes, as powers of a thousand. -/
def fieldPrefixes : List (Str × Nat) := [(s!!"M", 1), (s!!"MM", 2), (s!!"B", 3), (s!!"T", 4)]

def fieldUnits : List Str :=
  [s!!"scf", s!!"cf", s!!"ft3", s!!"ft³", s!!"stb", s!!"bbl", s!!"rb", s!!"reb", s!!"stbo", s!!"stbw", s!!"stbl"]

/-- `f` multiplies by `k`, whatever the formation volume factor. -/
def MultipliesBy (k : Rat) (f : Fn) : Prop := ∀ fvf x, f fvf x = .ok (x * k)

/-- The loader adds the unit `a` in its turn for the kind `k` of the shipped dictionary. -/
def UnitOfKind (k a : Str) : Prop := ∃ v, (k, v) ∈ rawDictionary ∧ Instr.node a ∈ kindInstrs shippedPrefixes k v

/-- Kinds of units that have names or conversions in common, besides the kinds that start with the same word. The first
two by accident: `oz` and `ounce` are a volume and a weight, `F` is Fahrenheit and Farad. -/
def mergedKinds : List (Str × Str) :=
  [(s!!"Volume", s!!"Weight"), (s!!"Temperature", s!!"Capacitance"), (s!!"Area", s!!"Permeability"),
   (s!!"Density", s!!"PressureGradient"), (s!!"Mass", s!!"Force"), (s!!"Resistance", s!!"Impedance"),
   (s!!"dataBYTE", s!!"dataBIT"), (s!!"Dimensionless", s!!"Percentage")]

/-- The kinds `k` and `l` are kinds of the same quantity, or merged. -/
def SameQuantity (k l : Str) : Prop :=
  kindBase k = kindBase l ∨ (kindBase k, kindBase l) ∈ mergedKinds ∨ (kindBase l, kindBase k) ∈ mergedKinds

/-- The pairs of pressures whose conversion contradicts the others. -/
def pressureFaults : List (Str × Str) :=
  [(s!!"psi gauge", s!!"psi"), (s!!"psi", s!!"psi gauge"), (s!!"bar gauge", s!!"bar"), (s!!"bar", s!!"bar gauge"),
   (s!!"bar gauge", s!!"psi gauge"), (s!!"psi gauge", s!!"bar gauge")]

/-- All the pairs of units whose conversion contradicts the others. -/
def shippedFaults : List (Str × Str) :=
  pressureFaults ++
  [(s!!"gillUK", s!!"fluid ounce UK"), (s!!"fluid ounce UK", s!!"gillUK"),
   (s!!"standard cubic meter", s!!"standard barrel"), (s!!"standard barrel", s!!"standard cubic meter"),
   (s!!"standard barrel", s!!"standard cubic foot"), (s!!"standard cubic foot", s!!"standard barrel")]

/-- The kinds with conversions that contradict each other; weights share names with volumes. -/
def unsoundKinds : List Str := [s!!"Pressure", s!!"Volume", s!!"Weight"]

/-- A kind of a quantity whose built-in conversions do not contradict each other. -/
def SoundKind (k : Str) : Prop := kindBase k ∉ unsoundKinds

/-- The conversions without one back. -/
def oneWay : List (Str × Str) :=
  [(s!!"weight ounce", s!!"dram"), (s!!"psig/ft", s!!"lb/ft3"), (s!!"barg/m", s!!"kg/m3")]

/-- The sizes of units as their standards define them, by quantity. -/
def standardSizes : List (List (Str × Rat)) :=
  [
   -- Length, in meters (the international yard and pound agreement of 1959, the SI brochure)
   [(s!!"meter", 1), (s!!"m", 1), (s!!"km", 1000), (s!!"cm", 1 / 100), (s!!"mm", 1 / 1000),
    (s!!"inch", 127 / 5000), (s!!"in", 127 / 5000), (s!!"foot", 381 / 1250), (s!!"ft", 381 / 1250),
    (s!!"yard", 1143 / 1250), (s!!"yd", 1143 / 1250), (s!!"mile", 201168 / 125), (s!!"chain", 12573 / 625),
    (s!!"furlong", 25146 / 125), (s!!"rod", 12573 / 2500), (s!!"thou", 127 / 5000000), (s!!"nautical mile", 1852),
    (s!!"astronomical unit", 149597870700)],
   -- Time, in seconds; the year is the Julian year
   [(s!!"second", 1), (s!!"s", 1), (s!!"ms", 1 / 1000), (s!!"minute", 60), (s!!"min", 60), (s!!"hour", 3600),
    (s!!"h", 3600), (s!!"day", 86400), (s!!"week", 604800), (s!!"month", 2629800), (s!!"year", 31557600),
    (s!!"decade", 315576000), (s!!"century", 3155760000)],
   -- Area, in square meters
   [(s!!"square meter", 1), (s!!"m2", 1), (s!!"km2", 1000000), (s!!"square foot", 145161 / 1562500),
    (s!!"ft2", 145161 / 1562500), (s!!"square inch", 16129 / 25000000), (s!!"in2", 16129 / 25000000),
    (s!!"square yard", 1306449 / 1562500), (s!!"acre", 316160658 / 78125), (s!!"square mile", 40468564224 / 15625),
    (s!!"hectare", 10000)],
   -- Energy, in joules
   [(s!!"Joule", 1), (s!!"J", 1), (s!!"Kilojoule", 1000), (s!!"gram calorie", 523 / 125), (s!!"Wh", 3600),
    (s!!"kWh", 3600000), (s!!"kilowatt hour", 3600000)],
   -- Data, in bits
   [(s!!"bit", 1), (s!!"b", 1), (s!!"byte", 8), (s!!"B", 8), (s!!"kB", 8192), (s!!"MB", 8388608)],
   -- Velocity, in kilometers per hour
   [(s!!"kilometer per hour", 1), (s!!"mile per hour", 25146 / 15625)],
   -- Force, in newtons
   [(s!!"Newton", 1), (s!!"N", 1), (s!!"Dyne", 1 / 100000)]]

end Unyts.Spec
