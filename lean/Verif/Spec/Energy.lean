import Verif.Py

/- The laws between quantities of energy and electricity that the library knows: the classes of the two operands, the
class of the result and the unit it is given in. -/
namespace Unyts.Spec

/-- products: energy is power times time, Ohm's law, power is voltage times current, charge is capacitance times
voltage -/
def lawProducts : List (Str × Str × Str × Str) :=
  [(s!!"Power", s!!"Time", s!!"Energy", s!!"Wh"), (s!!"Time", s!!"Power", s!!"Energy", s!!"Wh"),
   (s!!"Current", s!!"Resistance", s!!"Voltage", s!!"Volt"), (s!!"Resistance", s!!"Current", s!!"Voltage", s!!"Volt"),
   (s!!"Voltage", s!!"Current", s!!"Power", s!!"Watt"), (s!!"Voltage", s!!"Capacitance", s!!"Charge", s!!"Coulomb"),
   (s!!"Capacitance", s!!"Voltage", s!!"Charge", s!!"Coulomb")]

/-- quotients -/
def lawQuotients : List (Str × Str × Str × Str) :=
  [(s!!"Energy", s!!"Time", s!!"Power", s!!"Watt"), (s!!"Energy", s!!"Power", s!!"Time", s!!"hour"),
   (s!!"Power", s!!"Current", s!!"Voltage", s!!"Volt"), (s!!"Power", s!!"Voltage", s!!"Current", s!!"Ampere"),
   (s!!"Voltage", s!!"Current", s!!"Resistance", s!!"Ohm"), (s!!"Voltage", s!!"Resistance", s!!"Current", s!!"Ampere"),
   (s!!"Charge", s!!"Voltage", s!!"Capacitance", s!!"Farad")]

end Unyts.Spec
