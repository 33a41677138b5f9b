import Verif.Spec.Islands

/- Products and ratios of units that the library has as names of units of a quantity. -/
namespace Unyts.Spec

/-- Names of one quantity and the number of some unit of this quantity in each: a joule per second, a volt times an ampere and
a watt hour per hour are all watts, a kilowatt times an hour is 3600000 joules, a dyne is 1/100000 newton. -/
def compoundSizes : List (List (Str × Rat)) :=
  [
   -- Power, in watts
   [(s!!"J/s", 1), (s!!"Volt*Ampere", 1), (s!!"V*A", 1), (s!!"Watt hour/hour", 1), (s!!"Wh/h", 1), (s!!"Watt", 1),
    (s!!"W", 1), (s!!"VA", 1), (s!!"kW", 1000), (s!!"MW", 1000000), (s!!"GW", 1000000000), (s!!"mW", 1 / 1000)],
   -- Voltage, in volts
   [(s!!"Ampere*Ohm", 1), (s!!"A*ohm", 1), (s!!"ohm*A", 1), (s!!"Ohm*Ampere", 1), (s!!"Watt/Ampere", 1), (s!!"W/A", 1),
    (s!!"Volt", 1), (s!!"V", 1), (s!!"kV", 1000), (s!!"MV", 1000000), (s!!"mV", 1 / 1000), (s!!"µV", 1 / 1000000)],
   -- Current, in amperes
   [(s!!"Watt/Volt", 1), (s!!"W/V", 1), (s!!"Volt/Ohm", 1), (s!!"V/ohm", 1), (s!!"Ampere", 1), (s!!"A", 1),
    (s!!"kA", 1000), (s!!"mA", 1 / 1000), (s!!"µA", 1 / 1000000)],
   -- Resistance, in ohms
   [(s!!"Volt/Ampere", 1), (s!!"V/A", 1), (s!!"Ohm", 1), (s!!"ohm", 1), (s!!"Ω", 1), (s!!"kΩ", 1000),
    (s!!"MΩ", 1000000), (s!!"mΩ", 1 / 1000)],
   -- Charge, in coulombs
   [(s!!"Volt*Farad", 1), (s!!"V*F", 1), (s!!"Coulomb", 1), (s!!"Q", 1), (s!!"kQ", 1000), (s!!"mQ", 1 / 1000)],
   -- Frequency, in hertz
   [(s!!"1/s", 1), (s!!"Hertz", 1), (s!!"Hz", 1), (s!!"kHz", 1000), (s!!"MHz", 1000000), (s!!"GHz", 1000000000)],
   -- Frequency, in turns per minute
   [(s!!"1/min", 1), (s!!"RPM", 1), (s!!"rpm", 1)],
   -- Time, in seconds
   [(s!!"Wh/W", 3600), (s!!"Watt hour/Watt", 3600), (s!!"hour", 3600), (s!!"h", 3600), (s!!"minute", 60),
    (s!!"min", 60), (s!!"day", 86400), (s!!"second", 1), (s!!"s", 1)],
   -- Velocity, in kilometers per hour
   [(s!!"km/hr", 1), (s!!"kilometer per hour", 1), (s!!"kph", 1), (s!!"mi/hr", 25146 / 15625),
    (s!!"mile per hour", 25146 / 15625), (s!!"mph", 25146 / 15625)],
   -- Viscosity, in pascal seconds
   [(s!!"Pa*s", 1), (s!!"N*s/m2", 1), (s!!"kg/m/s", 1), (s!!"dyne*s/cm2", 1 / 10), (s!!"g/cm/s", 1 / 10),
    (s!!"Poise", 1 / 10)],
   -- Force, in newtons
   [(s!!"kg*m/s2", 1), (s!!"Newton", 1), (s!!"N", 1), (s!!"Dyne", 1 / 100000), (s!!"dyne", 1 / 100000),
    (s!!"dyn", 1 / 100000)],
   -- Force, in newtons
   [(s!!"g*cm/s2", 1 / 100000), (s!!"Newton", 1), (s!!"N", 1), (s!!"Dyne", 1 / 100000), (s!!"dyne", 1 / 100000),
    (s!!"dyn", 1 / 100000)],
   -- Energy, in joules
   [(s!!"N*m", 1), (s!!"kg*m2/s2", 1), (s!!"Joule", 1), (s!!"J", 1), (s!!"Kilojoule", 1000), (s!!"kJ", 1000)],
   -- Energy, in joules
   [(s!!"W*h", 3600), (s!!"Watt*hour", 3600), (s!!"Wh", 3600), (s!!"Watt hour", 3600)],
   -- Energy, in joules
   [(s!!"kW*h", 3600000), (s!!"kWh", 3600000), (s!!"kilowatt hour", 3600000), (s!!"Joule", 1), (s!!"Kilojoule", 1000)],
   -- Energy, in joules
   [(s!!"W*s", 1), (s!!"Watt*second", 1), (s!!"Ws", 1), (s!!"Watt second", 1), (s!!"Joule", 1), (s!!"J", 1)],
   -- Rates, in stock tank barrels per day
   [(s!!"stb/day", 1), (s!!"stbd", 1), (s!!"STB/DAY", 1)],
   -- Rates, in cubic feet per day
   [(s!!"scf/day", 1), (s!!"scfd", 1), (s!!"cf/day", 1), (s!!"ft3/day", 1)],
   -- Rates, in cubic meters per day, at standard conditions
   [(s!!"sm3/day", 1), (s!!"sm3d", 1), (s!!"stm3/day", 1), (s!!"stm3d", 1), (s!!"sm³/day", 1)],
   -- Rates, in barrels per day
   [(s!!"bbl/day", 1), (s!!"bbld", 1)],
   -- Rates, in cubic meters per day
   [(s!!"m3/day", 1), (s!!"m3/d", 1), (s!!"m³/day", 1)],
   -- Productivity index, in stock tank barrels per day and psi
   [(s!!"stb/day/psi", 1), (s!!"stbd/psi", 1), (s!!"stbd/psia", 1), (s!!"stb/day/psia", 1), (s!!"stb/d/psi", 1),
    (s!!"stb/day-psi", 1)],
   -- Productivity index, in cubic meters per day and bar
   [(s!!"sm3/day/bar", 1), (s!!"sm3d/bar", 1), (s!!"sm3d/bara", 1), (s!!"sm3/day/bara", 1), (s!!"sm3/day/barsa", 1),
    (s!!"sm3/day-bar", 1)],
   -- Productivity index, in cubic meters per day and kilopascal
   [(s!!"sm3/day/kPa", 1), (s!!"sm3d/kPa", 1), (s!!"sm3/d/kPa", 1)],
   -- Compressibility, per psi
   [(s!!"1/psi", 1), (s!!"1/psia", 1), (s!!"1/psig", 1)],
   -- Compressibility, per bar
   [(s!!"1/bar", 1), (s!!"1/bara", 1), (s!!"1/barg", 1)],
   -- Area, in square meters
   [(s!!"m*m", 1), (s!!"m3/m", 1), (s!!"m2", 1), (s!!"square meter", 1), (s!!"cm2", 1 / 10000)],
   -- Area, in square feet
   [(s!!"ft*ft", 1), (s!!"ft3/ft", 1), (s!!"ft2", 1), (s!!"square foot", 1), (s!!"in2", 1/144)],
   -- Time squared, in square seconds
   [(s!!"s*s", 1), (s!!"s2", 1)]]

end Unyts.Spec
