import Verif.Model.Network
import Verif.Spec.Graph

/- Vocabulary about networks of units. -/
namespace Unyts.Spec

/-- The network holds a direct conversion `f` from node `a` to node `b`. -/
def Direct (g : Net) (a b : UNode) (f : Fn) : Prop := ∃ l, (a, l) ∈ g.edges ∧ (b, f) ∈ l

/-- There is a direct conversion from `a` to `b`. -/
def Linked (g : Net) (a b : UNode) : Prop := ∃ f, Direct g a b f

/-- Networks that Python's dictionaries and the library's operations can produce: one entry per node
object, the objects are older than the allocator, children are nodes of the network, and no node lists
a child twice. (`reachable_wf` shows that every sequence of set_unit / set_conversion calls starting
from the empty network gives such a network.) -/
structure WF (g : Net) : Prop where
  keys : g.nodes.Nodup
  old : ∀ n ∈ g.nodes, n.id < g.nextId
  closed : ∀ a b f, Direct g a b f → b ∈ g.nodes
  single : ∀ a l, (a, l) ∈ g.edges → (l.map Prod.fst).Nodup

/-- Distinct nodes have distinct names. -/
def DistinctNames (g : Net) : Prop := ∀ a ∈ g.nodes, ∀ b ∈ g.nodes, a.name = b.name → a = b

/-- A name without '/' and '*'. -/
def SimpleName (s : Str) : Prop := '/' ∉ s ∧ '*' ∉ s

end Unyts.Spec
