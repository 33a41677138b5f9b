import Verif.Spec.Shipped
import Verif.Spec.Dictionary
import Verif.Model.UnitClass

/- Vocabulary about the library as it is right after `import unyts`. -/
namespace Unyts.Spec

/-- `units_network` and `dictionary` after `import unyts` on a machine without cache files (database.py:800-819). -/
def ShippedLibrary (n : Net) (d : UnitDict) : Prop :=
  loadLibrary shippedPrefixes explicitConversions rawDictionary = .ok (n, d)

/-- The quantity the units of a kind are listed under: bits and bytes are listed together. -/
def quantityOf (k : Str) : Str :=
  if kindBase k = s!!"dataBYTE" ∨ kindBase k = s!!"dataBIT" then s!!"Data" else kindBase k

/-- `u` is a built-in unit of the quantity `q`: the loader gives it a node in the network in its turn for one of the
kinds of the quantity. -/
def BuiltIn (q u : Str) : Prop := ∃ k, UnitOfKind k u ∧ quantityOf k = q

/-- The units of the network that the dictionary does not list. -/
def unlistedUnits : List Str := [s!!"REm³", s!!"UKounce", s!!"USounce"]

/-- The built-in units that the dictionary lists. -/
def ListedUnit (q u : Str) : Prop := BuiltIn q u ∧ u ∉ unlistedUnits

/-- The names of ounces, of fluid or of weight, that the library leaves without a class. -/
def ambiguousNames : List Str := [s!!"oz", s!!"ounce", s!!"ounces", s!!"OZ", s!!"OUNCE", s!!"OUNCES"]

/-- Names that are units of two quantities. -/
inductive SharedName : Str → Str → Str → Prop
  /-- ounces of fluid and of weight -/
  | ounce : u ∈ [s!!"oz", s!!"ounce", s!!"ounces", s!!"OUNCE", s!!"OUNCES"] → SharedName s!!"Volume" s!!"Weight" u
  /-- Fahrenheit and Farad -/
  | f : SharedName s!!"Temperature" s!!"Capacitance" s!!"F"
  /-- the weight of a column of fluid -/
  | gradient : u ∈ [s!!"psi/ft", s!!"psia/ft", s!!"psig/ft", s!!"bar/m", s!!"bara/m", s!!"barg/m"] →
      SharedName s!!"Density" s!!"PressureGradient" u
  /-- ohms -/
  | ohm : BuiltIn s!!"Impedance" u → SharedName s!!"Resistance" s!!"Impedance" u

/-- The state of the converter reads the shipped network and dictionary. -/
def ShippedWorld (w : World) : Prop := ∃ d, ShippedLibrary w.net d ∧ w.dic = converterDict d

/-- The classes of quantities read the shipped dictionary. -/
def ShippedClasses (L : Lib) : Prop := ∃ n, ShippedLibrary n L.dict ∧ L.w.dic = converterDict L.dict

/-- A name without the signs of ratios and products. -/
def Unsigned (u : Str) : Prop := '/' ∉ u ∧ '*' ∉ u

/-- The quantities that are ratios of two others: numerator, denominator, ratio. -/
def ratioTable : List (Str × Str × Str) :=
  [(s!!"Volume", s!!"Time", s!!"Rate"), (s!!"Weight", s!!"Time", s!!"Rate"), (s!!"Data", s!!"Time", s!!"Rate"),
   (s!!"Volume", s!!"Volume", s!!"VolumeRatio"), (s!!"Mass", s!!"Volume", s!!"Density"),
   (s!!"Length", s!!"Time", s!!"Velocity"), (s!!"Pressure", s!!"Length", s!!"PressureGradient"),
   (s!!"Weight", s!!"Area", s!!"Pressure"), (s!!"Temperature", s!!"Length", s!!"TemperatureGradient"),
   (s!!"Energy", s!!"Time", s!!"Power"), (s!!"Charge", s!!"Voltage", s!!"Capacitance"),
   (s!!"Power", s!!"Current", s!!"Voltage"), (s!!"Voltage", s!!"Resistance", s!!"Current"),
   (s!!"Power", s!!"Voltage", s!!"Current"), (s!!"Voltage", s!!"Current", s!!"Resistance")]

end Unyts.Spec
