import Verif.Model.UnitClass
import Verif.Spec.Session

/- Vocabulary about quantities: numbers with a unit. -/
namespace Unyts.Spec

/-- Conversions from `a` to `b` are conversions of the readings `B`: whatever conversions have been asked for since, a
number `x` of `a` that converts to `y` of `b` reads the same amount. -/
def ConvertsAs (w : World) (B : Str → Rat → Rat) (a b : Str) : Prop :=
  ∀ cs, (∀ c ∈ cs, Asks c) → ∀ x y w', convert (some x) (some a) (some b) none (session cs w) = (.ok (some (.num y)), w') →
    B b y = B a x

/-- the reading of units that are proportional: `size u` is the size of the unit `u` -/
def inSize (size : Str → Rat) : Str → Rat → Rat := fun u x => x * size u

/-- A quantity as the constructors leave it: its unit is one its class accepts. -/
def Valid (L : Lib) (q : Quantity) : Prop :=
  match q.kind with
  | .base => Py.stripWs q.unit ∈ L.allUnits
  | .user => Py.stripWs q.unit = q.unit ∧ q.unit ∈ L.names s!!"UserUnits"
  | k => q.unit ∈ L.names k.key

/-- the number a quantity shows: percentages are stored as fractions -/
def shown (q : Quantity) : Rat := if q.kind = .percentage then q.value * 100 else q.value

/-- `L` is a later state of the same process: since `L0` only conversions were asked for and quantities built. -/
structure Later (L0 L : Lib) : Prop where
  calls : ∃ cs, (∀ c ∈ cs, Asks c) ∧ L.w = session cs L0.w
  names : ∀ k, k ≠ s!!"UserUnits" → L.names k = L0.names k
  users : ∀ u ∈ L0.names s!!"UserUnits", u ∈ L.names s!!"UserUnits"
  all : L.allUnits = L0.allUnits
  unitless : L.unitless = L0.unitless
  sf : L.sf = L0.sf
  depth : L.depth = L0.depth

end Unyts.Spec
