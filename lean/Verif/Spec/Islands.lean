import Verif.Spec.Library
import Verif.Spec.Session

/- Vocabulary about which built-in units convert into each other. -/
namespace Unyts.Spec

/-- One built-in unit for every part of the network whose units convert into each other. -/
def hubs : List Str :=
  [s!!"hour", s!!"Fahrenheit", s!!"m3", s!!"stm³", s!!"reservoir cubic centimeter", s!!"cubic rod", s!!"oil gallon",
   s!!"USounce", s!!"UKounce", s!!"g-mol", s!!"yard", s!!"square meter", s!!"Pa", s!!"lb/ft3", s!!"psi/m", s!!"kg/m3",
   s!!"bar/ft", s!!"kJ/rem3", s!!"kJ/sm3", s!!"kJ/m3", s!!"lb/yd3", s!!"kilogram force", s!!"Newton", s!!"1/psi", s!!"1/bar",
   s!!"stbd", s!!"scf/day", s!!"sm3/day", s!!"bbld", s!!"m3/day", s!!"kilometer per hour", s!!"byte", s!!"cP", s!!"Poise",
   s!!"kilowatt hour", s!!"Watt", s!!"Volt", s!!"Ampere", s!!"Ohm", s!!"℧", s!!"Coulomb", s!!"H", s!!"Hertz", s!!"RPM",
   s!!"stb/day/psi", s!!"sm3/day/bar", s!!"sm3/day/kPa", s!!"m/s2", s!!"ft/s2", s!!"fraction", s!!"date", s!!"sec/d", s!!"s*s"]

/-- The quantities whose units all convert into each other. -/
def connectedQuantities : List Str :=
  [s!!"Time", s!!"Temperature", s!!"Capacitance", s!!"Length", s!!"Area", s!!"Permeability", s!!"Pressure", s!!"Velocity",
   s!!"Data", s!!"Energy", s!!"Power", s!!"Voltage", s!!"Current", s!!"Resistance", s!!"Impedance", s!!"Conductance",
   s!!"Charge", s!!"Inductance", s!!"Dimensionless", s!!"Percentage", s!!"Date"]

/-- Units of one quantity without any chain of conversions between them: quantity, unit, unit. -/
def apartUnits : List (Str × Str × Str) :=
  [(s!!"Frequency", s!!"Hertz", s!!"RPM"), (s!!"Viscosity", s!!"cP", s!!"Poise"), (s!!"Compressibility", s!!"1/psi", s!!"1/bar"),
   (s!!"Acceleration", s!!"m/s2", s!!"ft/s2"), (s!!"Force", s!!"kilogram force", s!!"Newton"),
   (s!!"Rate", s!!"stbd", s!!"sm3/day"), (s!!"ProductivityIndex", s!!"stb/day/psi", s!!"sm3/day/bar"),
   (s!!"Density", s!!"lb/yd3", s!!"kg/m3"), (s!!"PressureGradient", s!!"psi/m", s!!"bar/ft"),
   (s!!"Volume", s!!"cubic rod", s!!"m3"), (s!!"Weight", s!!"g", s!!"g-mol")]

/-- Quantities with conversions that depend on the formation volume factor or the density, or that do not accept every
number, and the ones with rules of their own. -/
def specialQuantities : List Str :=
  [s!!"Volume", s!!"Weight", s!!"Density", s!!"PressureGradient", s!!"Dimensionless", s!!"Percentage", s!!"Date"]

/-- A process right after `import unyts`, with any settings but the depth-first search: the network and the dictionary
are the shipped ones, nothing was asked yet, and the screening goes through six generations or more (25 by default). -/
structure Started (w : World) : Prop where
  fresh : Fresh w
  shipped : ShippedWorld w
  algorithm : w.par.algorithm ∈ [Algorithm.bfs, .lean, .hybrid]
  edges : w.edgesStr = none
  generations : 6 ≤ w.par.maxGenerations

/-- The other names of the dram. -/
def dramNames : List Str := [s!!"dr", s!!"dramch", s!!"drams", s!!"DRAMS", s!!"DRAM"]

/-- The names of the temperature scales, with the size of their degree in kelvins and their reading of the absolute
zero. -/
def temperatureScales : List (Str × Rat × Rat) :=
  [(s!!"Celsius", 1, -27315 / 100), (s!!"Centigrade", 1, -27315 / 100), (s!!"C", 1, -27315 / 100), (s!!"degC", 1, -27315 / 100),
   (s!!"deg C", 1, -27315 / 100), (s!!"degrees C", 1, -27315 / 100), (s!!"Kelvin", 1, 0), (s!!"K", 1, 0), (s!!"degK", 1, 0),
   (s!!"deg K", 1, 0), (s!!"degrees K", 1, 0), (s!!"Fahrenheit", 5 / 9, -45967 / 100), (s!!"F", 5 / 9, -45967 / 100),
   (s!!"degF", 5 / 9, -45967 / 100), (s!!"deg F", 5 / 9, -45967 / 100), (s!!"degrees F", 5 / 9, -45967 / 100),
   (s!!"Rankine", 5 / 9, 0), (s!!"R", 5 / 9, 0), (s!!"degR", 5 / 9, 0), (s!!"deg R", 5 / 9, 0), (s!!"degrees R", 5 / 9, 0)]

end Unyts.Spec
