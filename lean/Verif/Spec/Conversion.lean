import Verif.Spec.Network

/- Vocabulary about the conversions a network offers. -/
namespace Unyts.Spec

/-- `f` is the composition of the direct conversions along the chain of nodes `p`. -/
inductive Along (g : Net) : List UNode → Fn → Prop
  | single (a : UNode) : Along g [a] (fun _ x => .ok x)
  | step {a b : UNode} {p : List UNode} {f h : Fn} : Direct g a b f → Along g (b :: p) h →
      Along g (a :: b :: p) (fun fvf x => (f fvf x).bind (h fvf))

/-- A network is consistent, for a given formation volume factor, when every node `n` has a one-to-one reading
`B n` of its numbers on a common scale that every direct conversion respects: the number and its conversion read
the same. -/
structure Consistent (g : Net) (fvf : Option Rat) (B : UNode → Rat → Rat) : Prop where
  inj : ∀ n x y, B n x = B n y → x = y
  edge : ∀ a b f x y, Direct g a b f → f fvf x = .ok y → B b y = B a x

/-- The part `S` of a network, which no direct conversion leaves, is consistent. -/
structure ConsistentOn (g : Net) (fvf : Option Rat) (S : UNode → Prop) (B : UNode → Rat → Rat) : Prop where
  stays : ∀ a b f, S a → Direct g a b f → S b
  inj : ∀ n x y, S n → B n x = B n y → x = y
  edge : ∀ a b f x y, S a → Direct g a b f → f fvf x = .ok y → B b y = B a x

/-- Every direct conversion of the network returns a number for every number. -/
def TotalNet (g : Net) (fvf : Option Rat) : Prop := ∀ a b f x, Direct g a b f → ∃ y, f fvf x = .ok y

end Unyts.Spec
