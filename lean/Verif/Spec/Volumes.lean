import Verif.Spec.Islands
import Mathlib.Algebra.Order.Ring.Rat

/- The sizes of the volumes, from the SI brochure, the international yard and pound agreement of 1959 and the
definitions of the gallons. -/
namespace Unyts.Spec

/-- 2.54 cm times 2.54 cm times 2.54 cm, in litres -/
def cubicInch : Rat := 16387064 / 1000000000
def cubicFoot : Rat := 1728 * cubicInch
def gallonUS : Rat := 231 * cubicInch
def barrel : Rat := 42 * gallonUS

example : cubicInch = (254 / 100) * (254 / 100) * (254 / 100) / 1000 := by decide +kernel

/-- Volumes in litres. The inch is 2.54 cm, the US gallon 231 cubic inches, the barrel 42 US gallons, the UK gallon
4.54609 litres. A gas or an oil volume at standard conditions is what its name says: a `sm3` is a cubic meter, a `scf`
a cubic foot, a `stb` a barrel. `M` is a thousand and `MM` a million of field units. -/
def volumeSizes : List (Str × Rat) :=
  [(s!!"litre", 1), (s!!"liter", 1), (s!!"l", 1), (s!!"dl", 1 / 10), (s!!"cl", 1 / 100), (s!!"ml", 1 / 1000),
   (s!!"hl", 100), (s!!"kl", 1000), (s!!"millilitre", 1 / 1000), (s!!"cubic meter", 1000), (s!!"m3", 1000),
   (s!!"m³", 1000), (s!!"dm3", 1), (s!!"cm3", 1 / 1000), (s!!"cc", 1 / 1000), (s!!"cubic centimeter", 1 / 1000),
   (s!!"mm3", 1 / 1000000), (s!!"km3", 1000000000000),
   (s!!"standard cubic meter", 1000), (s!!"sm3", 1000), (s!!"Sm3", 1000), (s!!"stm3", 1000), (s!!"ksm3", 1000000),
   (s!!"Msm3", 1000000000), (s!!"Gsm3", 1000000000000), (s!!"scc", 1 / 1000),
   (s!!"cubic inch", cubicInch), (s!!"in3", cubicInch),
   (s!!"cubic foot", cubicFoot), (s!!"ft3", cubicFoot), (s!!"cf", cubicFoot),
   (s!!"Mcf", 1000 * cubicFoot), (s!!"MMcf", 1000000 * cubicFoot), (s!!"Bcf", 1000000000 * cubicFoot),
   (s!!"standard cubic foot", cubicFoot), (s!!"scf", cubicFoot),
   (s!!"Mscf", 1000 * cubicFoot), (s!!"MMscf", 1000000 * cubicFoot), (s!!"Bscf", 1000000000 * cubicFoot),
   (s!!"Tscf", 1000000000000 * cubicFoot),
   (s!!"cubic yard", 27 * cubicFoot), (s!!"yd3", 27 * cubicFoot),
   (s!!"gallonUS", gallonUS), (s!!"gallon", gallonUS),
   (s!!"gal", gallonUS), (s!!"USgal", gallonUS),
   (s!!"quart", gallonUS / 4), (s!!"qt", gallonUS / 4),
   (s!!"pint", gallonUS / 8), (s!!"pt", gallonUS / 8),
   (s!!"gill", gallonUS / 32), (s!!"fluid ounce", gallonUS / 128),
   (s!!"fl oz", gallonUS / 128),
   (s!!"barrel", barrel), (s!!"bbl", barrel),
   (s!!"oil barrel", barrel), (s!!"Mbbl", 1000 * barrel),
   (s!!"MMbbl", 1000000 * barrel),
   (s!!"standard barrel", barrel), (s!!"stb", barrel),
   (s!!"Mstb", 1000 * barrel), (s!!"MMstb", 1000000 * barrel),
   (s!!"stbo", barrel), (s!!"stbw", barrel),
   (s!!"gallonUK", 454609 / 100000), (s!!"UKgal", 454609 / 100000), (s!!"imperial gallon", 454609 / 100000)]

/-- Volumes at reservoir conditions, in litres of the reservoir. -/
def reservoirSizes : List (Str × Rat) :=
  [(s!!"reservoir cubic meter", 1000), (s!!"rem3", 1000), (s!!"rem³", 1000), (s!!"krem3", 1000000),
   (s!!"Mrem3", 1000000000), (s!!"reservoir barrel", barrel),
   (s!!"rb", barrel), (s!!"reb", barrel),
   (s!!"Mrb", 1000 * barrel), (s!!"MMrb", 1000000 * barrel)]

/-- `y` is `t` to one part in a million, `k` times. -/
def Close (k : Rat) (y t : Rat) : Prop := abs (y - t) ≤ k * abs t / 1000000

end Unyts.Spec
