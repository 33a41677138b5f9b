import Verif.Spec.Graph

/- Walks that take every short cut there is. -/
namespace Unyts.Spec

/-- The walk `p` takes every short cut: where there is a direct conversion from a node of `p` to a later one, the two are
next to each other. -/
def Chordless (E : α → α → Prop) (p : List α) : Prop := ∀ xs u ys v zs, p = xs ++ u :: (ys ++ v :: zs) → E u v → ys = []

end Unyts.Spec
