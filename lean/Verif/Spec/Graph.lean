/-
Independent vocabulary for paths in a network of direct conversions.
`E a b` reads: there is a direct conversion from `a` to `b`.
-/
namespace Unyts.Spec

/-- `Chain E a b p`: `p` lists the nodes of a chain of direct conversions from `a` to `b`. -/
inductive Chain (E : α → α → Prop) : α → α → List α → Prop
  | single (a : α) : Chain E a a [a]
  | step {a b c : α} {p : List α} : E a b → Chain E b c p → Chain E a c (a :: p)

/-- A conversion path: a chain that repeats no node. -/
def IsPath (E : α → α → Prop) (a b : α) (p : List α) : Prop := Chain E a b p ∧ p.Nodup

/-- `b` can be reached from `a`. -/
def Reach (E : α → α → Prop) (a b : α) : Prop := ∃ p, Chain E a b p

/-- `b` can be reached from `a` through at most `n` direct conversions. -/
def Within (E : α → α → Prop) (n : Nat) (a b : α) : Prop := ∃ p, Chain E a b p ∧ p.length ≤ n + 1

/-- Every direct conversion also exists in the other direction. -/
def TwoWay (E : α → α → Prop) : Prop := ∀ a b, E a b → E b a

end Unyts.Spec
