import Verif.Spec.Session
import Verif.Spec.UnitString
import Mathlib.Algebra.Order.Field.Rat
import Mathlib.Algebra.BigOperators.Group.List.Basic

/- Vocabulary about the size of units made of several names. -/
namespace Unyts.Spec

/-- What names of units measure. -/
structure Measures (κ : Type) where
  /-- the kind of quantity a name measures (length, time, ...), for the names that matter -/
  kind : Str → Option κ
  /-- the size of the unit with that name, in a fixed unit of its kind -/
  size : Str → Rat
  /-- the forms of the units that measure the quantity in question: a velocity is a length (numerator, `false`) and a
  time (denominator, `true`), or a velocity with a name of its own -/
  forms : List (List (Bool × κ))

namespace Measures
variable {κ : Type} (M : Measures κ)

/-- The factors of `u` are those of the form `τ`, in any order. -/
def HasForm (u : Str) (τ : List (Bool × κ)) : Prop :=
  ((factors u).map fun f => (f.1, M.kind f.2)).Perm (τ.map fun p => (p.1, some p.2))

/-- `u` measures the quantity in question. -/
def Covers (u : Str) : Prop := ∃ τ ∈ M.forms, M.HasForm u τ

/-- Names of this kind measure the quantity by themselves. -/
def Alone (k : κ) : Prop := [(false, k)] ∈ M.forms

/-- The size of a factor. -/
def factorSize (f : Factor) : Rat := if f.1 then 1 / M.size f.2 else M.size f.2

/-- The size of a unit: the product of the sizes of its factors, if all are known, else that of the name. -/
def sizeOf (u : Str) : Rat :=
  if ∀ f ∈ factors u, (M.kind f.2).isSome = true then ((factors u).map M.factorSize).prod else M.size u

/-- The forms can be told from each other by the kinds that occur in them, signs apart. -/
structure SoundForms : Prop where
  /-- no form divides a kind by itself -/
  reduced : ∀ τ ∈ M.forms, ∀ k, (false, k) ∈ τ → (true, k) ∉ τ
  /-- of two forms, each has a kind that does not occur in the other -/
  apart : ∀ τ ∈ M.forms, ∀ τ' ∈ M.forms, τ ≠ τ' → ∃ p ∈ τ, ∀ q ∈ τ', q.2 ≠ p.2
  /-- a form with a single denominator is a ratio of two kinds -/
  ratio : ∀ τ ∈ M.forms, (τ.filter fun p => p.1).length = 1 → τ.length = 2
  /-- at most one kind measures the quantity by itself -/
  alone : ∀ k k', M.Alone k → M.Alone k' → k = k'

/-- The network and the dictionaries agree with the measures. -/
structure Fits (g : Net) (d : Dict) (fvf : Option Rat) : Prop where
  forms : M.SoundForms
  name : ∀ u k, M.kind u = some k → u ≠ [] ∧ Py.stripWs u = u ∧ M.size u ≠ 0 ∧ u ∉ d.temperature
  /-- a name like `Wh/W` that measures a kind as a whole has no factors of a known kind -/
  whole : ∀ u k, M.kind u = some k → ¬ SimpleName u → ∀ f ∈ factors u, M.kind (Py.stripWs f.2) = none
  ordinary : ∀ u, M.Covers u ∨ (M.kind u).isSome = true → Ordinary d u
  dimensionless : ∀ u ∈ d.dimensionless, '/' ∉ u
  /-- conversions lead from the quantity to the quantity, with the right number -/
  edge : ∀ n m f, Direct g n m f → M.Covers n.name → M.Covers m.name ∧
    ∀ x y, f fvf x = .ok y → y * M.sizeOf m.name = x * M.sizeOf n.name
  /-- and from each other kind to the same kind -/
  edgeKind : ∀ n m f k, Direct g n m f → M.kind n.name = some k → ¬ M.Alone k → M.kind m.name = some k ∧
    ∀ x y, f fvf x = .ok y → y * M.sizeOf m.name = x * M.sizeOf n.name

end Measures

/-- A call that leaves the formation volume factor alone. -/
def KeepsFvf : Call → Prop
  | .setFvf _ => False
  | _ => True

end Unyts.Spec
