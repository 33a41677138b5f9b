import Verif.Py

/- Vocabulary about the constants of unitary.py. -/
namespace Unyts.Spec

/-- The constants of the module: variable, quantity (the heading it is written under), unit (unitary.py:12-107). -/
def constants : List (Str × Str × Str) :=
  [(s!!"bit", s!!"Data", s!!"b"), (s!!"byte", s!!"Data", s!!"B"),
   (s!!"millimetre", s!!"Length", s!!"mm"), (s!!"millimeter", s!!"Length", s!!"mm"), (s!!"centimeter", s!!"Length", s!!"cm"),
   (s!!"meter", s!!"Length", s!!"m"), (s!!"kilometre", s!!"Length", s!!"km"), (s!!"kilometer", s!!"Length", s!!"km"),
   (s!!"thou", s!!"Length", s!!"th"), (s!!"tenth", s!!"Length", s!!"te"), (s!!"inch", s!!"Length", s!!"in"),
   (s!!"foot", s!!"Length", s!!"ft"), (s!!"feet", s!!"Length", s!!"ft"), (s!!"chain", s!!"Length", s!!"ch"),
   (s!!"yard", s!!"Length", s!!"yd"), (s!!"furlong", s!!"Length", s!!"fur"), (s!!"mile", s!!"Length", s!!"mi"),
   (s!!"league", s!!"Length", s!!"lea"), (s!!"acre", s!!"Area", s!!"acre"),
   (s!!"barrel", s!!"Volume", s!!"stb"), (s!!"stb", s!!"Volume", s!!"stb"), (s!!"sm3", s!!"Volume", s!!"sm3"),
   (s!!"litre", s!!"Volume", s!!"l"), (s!!"gill", s!!"Volume", s!!"gi"), (s!!"pint", s!!"Volume", s!!"pt"),
   (s!!"quart", s!!"Volume", s!!"qt"), (s!!"gallonUS", s!!"Volume", s!!"galUS"), (s!!"gallonUK", s!!"Volume", s!!"galUK"),
   (s!!"gram", s!!"Weight", s!!"g"), (s!!"kilogram", s!!"Weight", s!!"kg"), (s!!"grain", s!!"Weight", s!!"gr"),
   (s!!"pennyweight", s!!"Weight", s!!"pwt"), (s!!"dram", s!!"Weight", s!!"dr"), (s!!"pound", s!!"Weight", s!!"lb"),
   (s!!"quarter", s!!"Weight", s!!"qrt"), (s!!"ton", s!!"Weight", s!!"long ton"),
   (s!!"second", s!!"Time", s!!"sec"), (s!!"minute", s!!"Time", s!!"min"), (s!!"hour", s!!"Time", s!!"hour"),
   (s!!"day", s!!"Time", s!!"day"), (s!!"week", s!!"Time", s!!"week"), (s!!"month", s!!"Time", s!!"month"),
   (s!!"year", s!!"Time", s!!"year"), (s!!"celsius", s!!"Temperature", s!!"deg C"), (s!!"fahrenheit", s!!"Temperature", s!!"deg F"),
   (s!!"rankine", s!!"Temperature", s!!"deg R"), (s!!"kelvin", s!!"Temperature", s!!"deg K"),
   (s!!"pascal", s!!"Pressure", s!!"Pa"), (s!!"kilopascal", s!!"Pressure", s!!"kPa"), (s!!"torr", s!!"Pressure", s!!"mmHg"),
   (s!!"mmgh", s!!"Pressure", s!!"mmHg"), (s!!"psi", s!!"Pressure", s!!"psia"), (s!!"bar", s!!"Pressure", s!!"barsa"),
   (s!!"atmosphere", s!!"Pressure", s!!"atm"), (s!!"newton", s!!"Force", s!!"N"), (s!!"dyne", s!!"Force", s!!"dyne"),
   (s!!"joule", s!!"Energy", s!!"J"), (s!!"btu", s!!"Energy", s!!"btu"), (s!!"horsepower", s!!"Power", s!!"hp"),
   (s!!"watt", s!!"Power", s!!"W"), (s!!"volt", s!!"Voltage", s!!"V"), (s!!"ampere", s!!"Current", s!!"A"),
   (s!!"ohm", s!!"Resistance", s!!"Ω"), (s!!"siemen", s!!"Conductance", s!!"℧"), (s!!"farad", s!!"Capacitance", s!!"Farad"),
   (s!!"coulomb", s!!"Charge", s!!"Q"), (s!!"henry", s!!"Inductance", s!!"H"), (s!!"hertz", s!!"Frequency", s!!"Hz"),
   (s!!"rpm", s!!"Frequency", s!!"RPM")]

end Unyts.Spec
