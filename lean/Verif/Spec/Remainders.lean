import Verif.Model.QuantityOps

/- Whole parts and remainders. -/
namespace Unyts.Spec

/-- `a` is `k` times `b` and `r` over: `r` lies between nothing and `b`, on the side of `b` -/
def Divided (a b : Rat) (k : Int) (r : Rat) : Prop :=
  a = k * b + r ∧ (0 < b → 0 ≤ r ∧ r < b) ∧ (b < 0 → b < r ∧ r ≤ 0)

/-- `a` is taken apart by the parts in turn: so many of the first, of what is over so many of the second, ..., and `r` over in the end -/
inductive TakenApart : Rat → List Rat → List Int → Rat → Prop
  | nil (a : Rat) : TakenApart a [] [] a
  | cons {a b s r : Rat} {k : Int} {bs : List Rat} {ks : List Int} : Divided a b k s → TakenApart s bs ks r →
      TakenApart a (b :: bs) (k :: ks) r

/-- `q % a % b % ...` -/
def restOver : Quantity → List Quantity → PyM Lib Quantity
  | q, [] => pure q
  | q, p :: ps => do restOver (← q.mod p) ps

end Unyts.Spec
