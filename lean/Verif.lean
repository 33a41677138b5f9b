import Verif.Props.Searches
import Verif.Props.Hybrid
import Verif.Props.Strings
import Verif.Props.Number
import Verif.Props.Operations
import Verif.Props.Convert
import Verif.Props.SetConversion
import Verif.Props.Repeat
import Verif.Props.Compound
import Verif.Props.Rules
import Verif.Props.Physics
import Verif.Props.Temperature
import Verif.Props.Termination
import Verif.Props.Parameters
import Verif.Props.Boot
import Verif.Props.IsUnit
import Verif.Props.Loader
import Verif.Props.ShippedConvert
import Verif.Props.UnitClass
import Verif.Props.Arithmetic
import Verif.Props.Division
import Verif.Props.Answers
import Verif.Props.Sizes
import Verif.Props.Decimal
import Verif.Props.Library
import Verif.Props.Powers
import Verif.Props.Rounding
import Verif.Props.Energy
import Verif.Props.ShippedTotal
import Verif.Props.ShippedScales
import Verif.Props.PathText
import Verif.Props.ShippedVolume
import Verif.Props.ShippedWeight
import Verif.Props.Direct
import Verif.Props.ShippedPressure
import Verif.Props.ShippedRatio
import Verif.Props.ShippedQuantity
import Verif.Props.Arguments
import Verif.Props.ShippedProducts
import Verif.Props.ShippedSpeeds
import Verif.Props.ShippedLitre
import Verif.Props.ShippedRates
import Verif.Props.Spellings
import Verif.Props.Unitary
import Verif.Props.ShippedPrefixes
import Verif.Props.SpellingsVolume
import Verif.Props.Compounds
import Verif.Props.Tuples
import Verif.Props.Gui
import Verif.Props.Dates
import Verif.Props.Temperatures
import Verif.Props.Arrays
import Verif.Props.Constants
import Verif.Props.Wholes
import Verif.Props.Densities
import Verif.Props.StockTank
import Verif.Props.PoundDensity
import Verif.Props.Custom
import Verif.Props.SelfCompound
import Verif.Props.WindowMemory
import Verif.Props.NewUnit
import Verif.Props.Fractions
import Verif.Props.Lists
import Verif.Props.Formulas
import Verif.Props.Marks
import Verif.Props.Menus
import Verif.Props.QuantityText
import Verif.Props.TupleProducts
import Verif.Props.Remainders
import Verif.Props.Mean
