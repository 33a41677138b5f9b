import Verif.Spec.Programs
import Verif.Spec.Names

/- Vocabulary about products and quotients of quantities. -/
namespace Unyts.Spec

/-- A state of the library after `import unyts` as `Running`, which knows the dimensionless names of the shipped dictionary
and has room for a few calls on Python's stack. -/
def Operating (w0 : World) (L : Lib) : Prop := Running w0 L ∧ L.unitless = unitlessNames rawDictionary ∧ 2 ≤ L.depth

/-- So far the process only asked about single names, with the cache in use. -/
def AskedNames (w0 : World) (L : Lib) : Prop :=
  w0.par.cache = true ∧ ∃ cs, (∀ c ∈ cs, AsksNames w0 c) ∧ L.w = session cs w0

/-- The library in the state `L'` is as usable as in the state `L`. -/
def Goes (w0 : World) (L L' : Lib) : Prop := Operating w0 L' ∧ (AskedNames w0 L → AskedNames w0 L')

/-- Quantities without a measure: numbers, percentages and dates. -/
def plainQuantities : List Str := [s!!"Dimensionless", s!!"Percentage", s!!"Date"]

/-- `u` is a unit of the class `q` and of no other, written as one name without digits, signs or blanks around it; not
one of the few names `units` gives no class, and neither dimensionless nor a date. -/
structure OneName (q u : Str) : Prop where
  cls : q ∈ stdClasses
  ordinary : q ∉ plainQuantities
  listed : u ∉ unlistedUnits ∧ u ∉ ambiguousNames
  unit : BuiltIn q u
  only : ∀ q', BuiltIn q' u → q' = q
  clean : CleanName u
  basic : BasicName u

end Unyts.Spec
