import Verif.Model.TupleProducts

/- What working on every entry of a tuple means. -/
namespace Unyts.Spec

/-- The operation was done on the entries from the first to the last, each time in the state the one before left, and
gave these results. -/
inductive OnEach (op : Item → PyM Lib Obj) : Lib → List Item → List Item → Lib → Prop
  | nil (L : Lib) : OnEach op L [] [] L
  | qty {L L1 L2 : Lib} {x : Item} {q : Quantity} {r out : List Item} : op x L = (.ok (.qty q), L1) → OnEach op L1 r out L2 →
      OnEach op L (x :: r) (.qty q :: out) L2
  | num {L L1 L2 : Lib} {x : Item} {v : Rat} {r out : List Item} : op x L = (.ok (.num v), L1) → OnEach op L1 r out L2 →
      OnEach op L (x :: r) (.num v :: out) L2

/-- the amount of each quantity becomes `f` of it; class and unit stay -/
def scaled (f : Rat → Rat) (qs : List Quantity) : List Item := qs.map fun q => .qty { q with value := f q.value }

end Unyts.Spec
