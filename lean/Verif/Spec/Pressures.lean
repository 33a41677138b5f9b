import Verif.Spec.Islands

/- The names of gauge pressures, and the sizes of the absolute ones. -/
namespace Unyts.Spec

/-- The built-in names of pressures above the atmospheric one (dictionaries.py:256, 258 and 267). 'psi' and 'bar' are
listed there too, but the library makes them equal to the absolute units as well (database.py:489-490). -/
def gaugeNames : List Str :=
  [s!!"psi gauge", s!!"pound/square inch", s!!"psig", s!!"gauge psi", s!!"lpc", s!!"lpcm", s!!"libras/pulgada cuadrada",
   s!!"bar gauge", s!!"barg", s!!"gauge bar", s!!"bars", s!!"barsg", s!!"psi-gauge", s!!"pound/square-inch", s!!"gauge-psi",
   s!!"libras/pulgada-cuadrada", s!!"bar-gauge", s!!"gauge-bar", s!!"psi_gauge", s!!"pound/square_inch", s!!"gauge_psi",
   s!!"libras/pulgada_cuadrada", s!!"bar_gauge", s!!"gauge_bar", s!!"PSI GAUGE", s!!"POUND/SQUARE INCH", s!!"PSIG",
   s!!"GAUGE PSI", s!!"LPC", s!!"LPCM", s!!"LIBRAS/PULGADA CUADRADA", s!!"BAR GAUGE", s!!"BARG", s!!"GAUGE BAR", s!!"BARS",
   s!!"BARSG"] ++
  ([s!!"Q", s!!"R", s!!"Y", s!!"Z", s!!"E", s!!"P", s!!"T", s!!"G", s!!"M", s!!"K", s!!"k", s!!"h", s!!"da", s!!"d", s!!"c",
    s!!"m", s!!"µ", s!!"u", s!!"n", s!!"p", s!!"f", s!!"a", s!!"z", s!!"y", s!!"r", s!!"q"].map (· ++ s!!"barg"))

/-- Absolute pressures in pascals (SI brochure; the torr is 101325/760 Pa). -/
def pressureSizes : List (Str × Rat) :=
  [(s!!"Pa", 1), (s!!"Pascal", 1), (s!!"hPa", 100), (s!!"kPa", 1000), (s!!"kilopascal", 1000), (s!!"MPa", 1000000),
   (s!!"GPa", 1000000000), (s!!"mPa", 1 / 1000), (s!!"bar", 100000), (s!!"BAR", 100000), (s!!"bara", 100000), (s!!"barsa", 100000),
   (s!!"absolute bar", 100000), (s!!"mbar", 100), (s!!"mbara", 100), (s!!"kbar", 100000000), (s!!"atm", 101325),
   (s!!"atmosphere", 101325), (s!!"Torr", 101325 / 760)]

/-- A pound-force per square inch in pascals, from the pound of 0.45359237 kg, the standard gravity of 9.80665 m/s² and the
inch of 2.54 cm. -/
def psiSize : Rat := (45359237 / 100000000) * (980665 / 100000) / ((254 / 10000) * (254 / 10000))

/-- Absolute pressures in pounds-force per square inch. -/
def psiSizes : List (Str × Rat) :=
  [(s!!"psi", psiSize), (s!!"psia", psiSize), (s!!"absolute psi", psiSize), (s!!"psi absolute", psiSize)]

end Unyts.Spec
