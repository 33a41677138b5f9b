import Verif.Spec.Ratios
import Verif.Spec.Volumes

/- Vocabulary about ratios and products with volumes, which convert by their sizes up to a few parts in a million. -/
namespace Unyts.Spec

/-- One of `f` is `k` of `t` by their sizes. The library is exact to `e` parts in a million: for the units with a
standard size exact, for volumes and for absolute pressures in psi to one part, and to two between the reservoir and the stock tank, where a volume
shrinks by the formation volume factor. -/
inductive Measured (fvf : Option Rat) : Str → Str → Nat → Rat → Prop
  | standard {f t : Str} {k : Rat} : StandardRatio f t k → Measured fvf f t 0 k
  | pressure {f t : Str} {sf st : Rat} : (f, sf) ∈ pressureSizes ++ psiSizes → (t, st) ∈ pressureSizes ++ psiSizes →
      Measured fvf f t 1 (sf / st)
  | volume {f t : Str} {sf st : Rat} : (f, sf) ∈ volumeSizes → (t, st) ∈ volumeSizes → Measured fvf f t 1 (sf / st)
  | reservoir {f t : Str} {sf st : Rat} : (f, sf) ∈ reservoirSizes → (t, st) ∈ reservoirSizes → Measured fvf f t 1 (sf / st)
  | shrinks {f t : Str} {sf st φ : Rat} : fvf = some φ → (f, sf) ∈ reservoirSizes → (t, st) ∈ volumeSizes →
      Measured fvf f t 2 (sf / st / φ)
  | swells {f t : Str} {sf st φ : Rat} : fvf = some φ → (f, sf) ∈ volumeSizes → (t, st) ∈ reservoirSizes →
      Measured fvf f t 2 (sf / st * φ)

/-- Two lists of factors go together one by one, numerators with numerators and denominators with denominators; where one
of `f` is `k` of `t` according to `R`, one of the whole is `r` of the whole. The parts in a million add up to `e`. -/
inductive Beside (R : Str → Str → Nat → Rat → Prop) : List Factor → List Factor → Nat → Rat → Prop
  | nil : Beside R [] [] 0 1
  | num {f t : Str} {fs ts : List Factor} {d e : Nat} {k r : Rat} : R f t d k → Beside R fs ts e r →
      Beside R ((false, f) :: fs) ((false, t) :: ts) (d + e) (k * r)
  | den {f t : Str} {fs ts : List Factor} {d e : Nat} {k r : Rat} : R f t d k → Beside R fs ts e r →
      Beside R ((true, f) :: fs) ((true, t) :: ts) (d + e) (r / k)

end Unyts.Spec
