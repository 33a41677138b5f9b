import Verif.Spec.Compound
import Verif.Spec.Pressures
import Verif.Spec.Weights

/- Vocabulary about ratios and products of built-in units. -/
namespace Unyts.Spec

/-- Two lists of factors go together one by one, numerators with numerators and denominators with denominators; where one
of `f` is `k` of `t` according to `R`, one of the whole is `r` of the whole. -/
inductive Together (R : Str → Str → Rat → Prop) : List Factor → List Factor → Rat → Prop
  | nil : Together R [] [] 1
  | num {f t : Str} {fs ts : List Factor} {k r : Rat} : R f t k → Together R fs ts r →
      Together R ((false, f) :: fs) ((false, t) :: ts) (k * r)
  | den {f t : Str} {fs ts : List Factor} {k r : Rat} : R f t k → k ≠ 0 → Together R fs ts r →
      Together R ((true, f) :: fs) ((true, t) :: ts) (r / k)

/-- Whatever was asked before, one of the unit `f` converts to `k` of the unit `t`, without the density. -/
def OneIs (w : World) (f t : Str) (k : Rat) : Prop := (CleanName f ∧ f ≠ []) ∧ (CleanName t ∧ t ≠ []) ∧ ¬ DensityPair w.dic f t ∧
  ∀ cs, (∀ c ∈ cs, Asks c) → ∀ uc, (convert (some 1) (some f) (some t) uc (session cs w)).1 = .ok (some (.num k))

/-- Standard sizes of the units of one quantity, in some fixed unit of it. -/
def SizeList (l : List (Str × Rat)) : Prop := l ∈ standardSizes ∨ l = pressureSizes ∨ l = weightSizes

/-- One of `f` is `k` of `t` by their standard sizes. -/
def StandardRatio (f t : Str) (k : Rat) : Prop := ∃ l sf st, SizeList l ∧ (f, sf) ∈ l ∧ (t, st) ∈ l ∧ k = sf / st

end Unyts.Spec
