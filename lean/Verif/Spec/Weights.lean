import Verif.Spec.Islands

/- The sizes of the weights, from the SI brochure and the international yard and pound agreement of 1959. -/
namespace Unyts.Spec

/-- Weights in grams. The pound is 0.45359237 kg; the others are defined by it. -/
def weightSizes : List (Str × Rat) :=
  [(s!!"gram", 1), (s!!"g", 1), (s!!"kilogram", 1000), (s!!"kg", 1000), (s!!"milligram", 1 / 1000), (s!!"mg", 1 / 1000),
   (s!!"microgram", 1 / 1000000), (s!!"ug", 1 / 1000000), (s!!"Mg", 1000000), (s!!"metric ton", 1000000), (s!!"Tonne", 1000000),
   (s!!"pound", 45359237 / 100000), (s!!"lb", 45359237 / 100000), (s!!"libra", 45359237 / 100000),
   (s!!"weight ounce", 45359237 / 1600000), (s!!"wt oz", 45359237 / 1600000), (s!!"dram", 45359237 / 25600000),
   (s!!"stone", 14 * 45359237 / 100000), (s!!"st", 14 * 45359237 / 100000), (s!!"quarter", 28 * 45359237 / 100000),
   (s!!"short hundredweight", 45359237 / 1000), (s!!"long hundredweight", 112 * 45359237 / 100000),
   (s!!"cwt", 112 * 45359237 / 100000), (s!!"short ton", 2000 * 45359237 / 100000), (s!!"USton", 2000 * 45359237 / 100000),
   (s!!"long ton", 2240 * 45359237 / 100000), (s!!"UKton", 2240 * 45359237 / 100000)]

end Unyts.Spec
