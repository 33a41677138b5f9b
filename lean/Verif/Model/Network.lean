import Verif.Py

/-
Model of `/repo/src/unyts/network.py`.
-/
namespace Unyts

/-- A conversion function as a Python callable: it may look at the formation volume factor
(`units_network.fvf`, network.py:161-198) and may raise. Numbers are exact rationals. -/
abbrev Fn := Option Rat → Rat → Res Rat

/-- Python's `a / b` on numbers. -/
def pdiv (a b : Rat) : Res Rat := if b = 0 then .error .zeroDivision else .ok (a / b)

/-- `UNode` (network.py:28-38). The class defines no `__eq__`/`__hash__`, so Python compares nodes by
identity: `id` stands for the object identity. -/
structure UNode where
  id : Nat
  name : Str
deriving DecidableEq, Repr

/-- The part of `UDigraph` that holds the network (network.py:41-59): `edges` maps each node to its
children and to the conversion functions, two parallel lists kept here as a list of pairs.
`nextId` is the allocator of object identities. -/
structure Net where
  edges : List (UNode × List (UNode × Fn))
  nextId : Nat

namespace Net

/-- `UDigraph()` (network.py:49-59). -/
def empty : Net := ⟨[], 0⟩

/-- the keys of `edges` -/
def nodes (g : Net) : List UNode := g.edges.map Prod.fst

/-- `edges[node]` -/
def lookup (g : Net) (n : UNode) : Option (List (UNode × Fn)) := Py.dictGet g.edges n

/-- `add_node` (network.py:103-107). -/
def addNode (g : Net) (n : UNode) : Res Net :=
  if n ∈ g.nodes then .error .valueError
  else .ok { g with edges := g.edges ++ [(n, [])] }

/-- `UNode(name)`: a fresh object (network.py:31-32). -/
def fresh (g : Net) (name : Str) : UNode × Net := (⟨g.nextId, name⟩, { g with nextId := g.nextId + 1 })

/-- `add_node(UNode(name))`, the only way the library adds nodes. -/
def addName (g : Net) (name : Str) : Res Net :=
  let (n, g) := g.fresh name
  g.addNode n

/-- append one entry to the lists of `src` unless `dst` is already there -/
def appendEdge (es : List (UNode × List (UNode × Fn))) (src dst : UNode) (f : Fn) :
    List (UNode × List (UNode × Fn)) :=
  es.map fun (k, l) => if k = src ∧ dst ∉ l.map Prod.fst then (k, l ++ [(dst, f)]) else (k, l)

/-- `add_edge` (network.py:109-117): both ends must be in the graph; a second conversion for the same
pair is silently dropped. -/
def addEdge (g : Net) (src dst : UNode) (f : Fn) : Res Net :=
  if src ∈ g.nodes ∧ dst ∈ g.nodes then .ok { g with edges := appendEdge g.edges src dst f }
  else .error .valueError

/-- `children_of` (network.py:119-120). -/
def childrenOf (g : Net) (n : UNode) : Res (List UNode) :=
  match g.lookup n with
  | none => .error .keyError
  | some l => .ok (l.map Prod.fst)

/-- `has_node` with a string (network.py:122-126). -/
def hasName (g : Net) (s : Str) : Bool := g.nodes.any (fun n => n.name = s)

/-- `get_node` (network.py:128-133): the first node with that name. -/
def getNode (g : Net) (s : Str) : Res UNode :=
  match g.nodes.find? (fun n => n.name = s) with
  | some n => .ok n
  | none => .error .nameError

/-- `conversion(src, dest)` on nodes (network.py:145-150); `.index(dest)` raises `ValueError`. -/
def conversion (g : Net) (src dst : UNode) : Res Fn :=
  match g.lookup src with
  | none => .error .keyError
  | some l =>
    match l.find? (fun e => e.1 = dst) with
    | none => .error .valueError
    | some e => .ok e.2

/-- `convert(value, src, dest)` on nodes (network.py:138-143). -/
def convertStep (g : Net) (fvf : Option Rat) (v : Rat) (src dst : UNode) : Res Rat := do
  let f ← g.conversion src dst
  f fvf v

/-- `get_edges_str` when nothing is cached (network.py:61-64): names instead of nodes; a later node of
the same name overwrites an earlier one. -/
def edgesStr (g : Net) : List (Str × List Str) :=
  g.edges.foldl (fun d e => Py.dictSet d e.1.name (e.2.map fun c => c.1.name)) []

end Net

/-- `Conversion.get_convert` with `reverse=True` (network.py:224-228) and the default reverse of
`set_conversion` (units/custom.py:53-54): `x / conv(1)`. -/
def revFn (f : Fn) : Fn := fun fvf x => do
  let k ← f fvf 1
  pdiv x k

/-- `set_unit` (units/custom.py:44-47). -/
def setUnit (g : Net) (name : Str) : Res Net := g.addName name

/-- `set_conversion` on names (units/custom.py:50-79): adds two new nodes, then the two edges between
the first nodes having these names. -/
def setConversion (g : Net) (a b : Str) (f : Fn) (rev : Option Fn) : Res Net := do
  let r := rev.getD (revFn f)
  let g ← g.addName a
  let g ← g.addName b
  let na ← g.getNode a
  let nb ← g.getNode b
  let g ← g.addEdge na nb f
  g.addEdge nb na r

end Unyts
