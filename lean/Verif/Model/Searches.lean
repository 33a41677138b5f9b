import Verif.Model.Network

/-
Model of `/repo/src/unyts/searches.py` (BFS, DFS, lean_BFS) and of `_get_descendants`
(`/repo/src/unyts/converter.py:363-389`).
Nodes are compared by identity, which is equality of the node type here.
-/
namespace Unyts

/-- The `while` loop of `BFS` (searches.py:45-62): pop the oldest path; skip it if it has been visited;
return it if it ends in `tgt`; otherwise append its one-node extensions and mark it visited.
`none` means that the fuel ran out (proved impossible for the fuel used by `bfs`). -/
def bfsLoop [DecidableEq α] (ch : α → Res (List α)) (tgt : α) :
    Nat → List (List α) → List (List α) → Option (Res (Option (List α)))
  | 0, _, _ => none
  | _ + 1, [], _ => some (.ok none)
  | n + 1, p :: q, vis =>
    if p ∈ vis then bfsLoop ch tgt n q vis
    else match p.getLast? with
      | none => some (.error .indexError)
      | some last =>
        if last = tgt then some (.ok (some p))
        else match ch last with
          | .error e => some (.error e)
          | .ok cs =>
            bfsLoop ch tgt n (q ++ (cs.filter (· ∉ p)).map (fun c => p ++ [c])) (vis ++ [p])

/-- Fuel that is enough for a graph of at most `N` nodes with at most `D` children each. -/
def bfsFuel (N D : Nat) : Nat := (D + 1) ^ N + 1

/-- `BFS(graph, start, end)` (searches.py:25-62). -/
def bfs [DecidableEq α] (ch : α → Res (List α)) (N D : Nat) (start tgt : α) : Res (Option (List α)) :=
  match bfsLoop ch tgt (bfsFuel N D) [[start]] [] with
  | some r => r
  | none => .ok none

namespace Net

/-- bound on the number of nodes met by a search (not part of the code; it only sets the fuel) -/
def fuelN (g : Net) : Nat := 1 + (g.edges.map fun e => 1 + e.2.length).sum

/-- bound on the number of children (not part of the code; it only sets the fuel) -/
def fuelD (g : Net) : Nat := (g.edges.map fun e => e.2.length).foldl max 0

/-- `BFS(units_network, start, end)`. -/
def bfs (g : Net) (start tgt : UNode) : Res (Option (List UNode)) :=
  Unyts.bfs g.childrenOf g.fuelN g.fuelD start tgt

end Net

/-- The first of '/', '*' that splits the unit in exactly two parts (converter.py:375-378). -/
def pairSplit (u : Str) : Option (Str × Str) :=
  match Py.splitOn '/' u with
  | [a, b] => some (a, b)
  | _ => match Py.splitOn '*' u with
    | [a, b] => some (a, b)
    | _ => none

/-- One turn of the loop converter.py:371-372. -/
def roundOnce (es : List (Str × List Str)) (children : List Str) : List Str :=
  Py.union children (es.flatMap fun e => if e.1 ∈ children then e.2 else [])

/-- `n` turns of that loop. -/
def rounds (es : List (Str × List Str)) : Nat → List Str → List Str
  | 0, c => c
  | n + 1, c => roundOnce es (rounds es n c)

/-- `_get_descendants(unit, generations, get_combinations)` (converter.py:363-389), with
`es = get_edges_str()` and `has = has_node`. The recursion is on parts of the unit string: the first
argument bounds its depth (a part is strictly shorter than the unit, so `unit.length + 1` is enough). -/
def getDescendantsF (es : List (Str × List Str)) (has : Str → Bool) :
    Nat → Str → Int → Bool → List Str
  | 0, u, _, _ => [u]
  | n + 1, u, gens, comb =>
    if gens = 0 then [u]
    else
      let children := if has u then rounds es gens.toNat [u] else []
      let split :=
        if comb then
          match pairSplit u with
          | none => []
          | some (num, den) =>
            let cn := Py.union [num] (getDescendantsF es has n num gens true)
            let cd := Py.union [den] (getDescendantsF es has n den gens true)
            (cn.flatMap fun a => cd.map fun b => a ++ '/' :: b).filter (· ≠ u)
        else []
      Py.union [u] (Py.union children split)

/-- `_get_descendants` with enough depth for the unit. -/
def getDescendants (es : List (Str × List Str)) (has : Str → Bool) (u : Str) (gens : Int) (comb : Bool) :
    List Str :=
  getDescendantsF es has (u.length + 1) u gens comb

/-- `generations_list` of `lean_BFS` (searches.py:143). -/
def generationsList (m : Int) : List Int :=
  ([0, 1, 2, 3, 4, 5, 7, 10, 13, 16, 20, 25, 30, 40, 50].filter (· < m)) ++ [m]

/-- The loop searches.py:145-151: the first non-empty common selection and its generation. -/
def leanLoop (desc : Str → Int → List Str) (a b : Str) : List Int → List Str × Int → List Str × Int
  | [], acc => acc
  | g :: gs, _ =>
    let sel := Py.inter (desc a (g + 1)) (desc b (g + 1))
    if sel ≠ [] then (sel, g + 1) else leanLoop desc a b gs (sel, g + 1)

/-- `selection` of `lean_BFS` (searches.py:144-152). -/
def leanSelection (es : List (Str × List Str)) (has : Str → Bool) (a b : Str) (m : Int) : List Str :=
  let r := leanLoop (fun u g => getDescendants es has u g true) a b (generationsList m) ([], 0)
  Py.union r.1 (r.1.flatMap fun each => getDescendants es has each r.2 false)

/-- `SlimUDigraph.children_of` (searches.py:118-119) on `selected_edges` (searches.py:153). -/
def slimChildren (g : Net) (sel : List Str) (n : UNode) : Res (List UNode) :=
  match Py.dictGet (g.edges.filter fun e => e.1.name ∈ sel) n with
  | none => .ok []
  | some l => .ok (l.map Prod.fst)

/-- `lean_BFS(graph, start, end, max_generations_screening)` (searches.py:122-158). `es` is the value of
`get_edges_str()`, which may be older than the network. -/
def leanBfs (g : Net) (es : List (Str × List Str)) (m : Int) (start tgt : UNode) :
    Res (Option (List UNode)) :=
  let sel := leanSelection es g.hasName start.name tgt.name m
  if (g.edges.filter fun e => e.1.name ∈ sel) = [] then .ok none
  else bfs (slimChildren g sel) g.fuelN g.fuelD start tgt

/-- The `for` loop of `dfs_` (searches.py:86-101) over the children, given the recursive call. -/
def dfsKids [DecidableEq α] (call : α → List α → List α → Option (Res (List α × List α)))
    (useful : α → Bool) (tgt : α) : List α → List α → List α → Option (Res (List α × List α))
  | [], vis, pq => some (.ok (pq, vis))
  | c :: cs, vis, pq =>
    if c ∈ vis then dfsKids call useful tgt cs vis pq
    else if useful c = false then dfsKids call useful tgt cs vis pq
    else if c = tgt then some (.ok (pq ++ [c], vis))
    else match call c vis [c] with
      | none => none
      | some (.error e) => some (.error e)
      | some (.ok (thisPath, vis')) =>
        if tgt ∈ thisPath then some (.ok (pq ++ thisPath, vis'))
        else dfsKids call useful tgt cs vis' pq

/-- `dfs_` (searches.py:84-101); the shared set `visited` is threaded; `none` means out of fuel. -/
def dfsNode [DecidableEq α] (ch : α → Res (List α)) (useful : α → Bool) (tgt : α) :
    Nat → α → List α → List α → Option (Res (List α × List α))
  | 0, _, _, _ => none
  | n + 1, node, vis, pq =>
    match ch node with
    | .error e => some (.error e)
    | .ok cs => dfsKids (dfsNode ch useful tgt n) useful tgt cs (node :: vis) pq

/-- `DFS` (searches.py:65-106) for a given pruning test. -/
def dfs [DecidableEq α] (ch : α → Res (List α)) (useful : α → Bool) (N : Nat) (start tgt : α) :
    Res (Option (List α)) :=
  match dfsNode ch useful tgt (N + 1) start [] [start] with
  | none => .ok none
  | some (.error e) => .error e
  | some (.ok (pq, _)) => if tgt ∈ pq then .ok (some pq) else .ok none

/-- `DFS(units_network, start, end, branch_depht)`: a child is pursued only if the target's name is
among its descendants (searches.py:90-91). -/
def Net.dfs (g : Net) (es : List (Str × List Str)) (depth : Int) (start tgt : UNode) :
    Res (Option (List UNode)) :=
  Unyts.dfs g.childrenOf (fun c => decide (tgt.name ∈ getDescendants es g.hasName c.name depth true))
    g.fuelN start tgt

end Unyts
