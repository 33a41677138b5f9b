import Verif.PyM
import Verif.Model.Searches
import Verif.Model.Strings

/-
Model of `/repo/src/unyts/converter.py`, with the state of `units_network` (network.py:41-59), the parameters
(parameters.py:33-55) and the dictionaries it reads.

Simplifications, for the whole file:
* values are single numbers (exact rationals) or None; arrays are converted element by element by NumPy;
* unit names are strings; `convert` turns None into 'None' (modelled), `convertible(None, ...)` is not modelled,
  so the initial entry `(None, None)` of `previous` never matches and `previous` starts empty;
* log messages are not modelled; `last_path_str` is in `Model/PathText.lean`.
-/
namespace Unyts

/-- One entry of a conversion path: a node, a string ('*', '/', '1/' or a unit name) or a number. -/
inductive Step where
  | node (n : UNode)
  | str (s : Str)
  | num (q : Rat)
deriving DecidableEq

abbrev Path := List Step

/-- What a conversion returns in first position: a function or a number. -/
inductive Conv where
  | fn (f : Fn)
  | num (q : Rat)

namespace Conv

/-- `conversion(x)`: a number is not callable. -/
def call : Conv → Fn
  | fn f => f
  | num _ => fun _ _ => .error .typeError

/-- the conversion used as a number: a function in arithmetic is a TypeError. -/
def toNum : Conv → Res Rat
  | num q => .ok q
  | fn _ => .error .typeError

end Conv

/-- `algorithm_` (parameters.py:45) -/
inductive Algorithm where
  | bfs | lean | dfs | hybrid | other
deriving DecidableEq

/-- The settings the converter reads (parameters.py:33-55). `pyLimit` is `sys.getrecursionlimit()`. -/
structure Params where
  cache : Bool := true
  raiseError : Bool := true
  maxRecursion : Int := 12
  algorithm : Algorithm := .lean
  maxGenerations : Int := 25
  density : Option Rat := some 1
  reduceParens : Bool := true
  pyLimit : Int := 1000

/-- The dictionaries the converter reads (dictionaries.py): `dictionary[...]`, `temperatureRatioConversions` and
`uncertain_names`. -/
structure Dict where
  date : List Str := []
  dimensionless : List Str := []
  percentage : List Str := []
  temperature : List Str := []
  volume : List Str := []
  weight : List Str := []
  tempRatio : List ((Str × Str) × Rat) := []
  uncertain : List Str := []

/-- The state the converter reads and writes. `edgesStr` is the cached `_edges_str`; `sched` and `clock` decide
which of the two workers of hybrid_BFS answers first when both find a path (see `Model/Hybrid.lean`). -/
structure World where
  net : Net
  edgesStr : Option (List (Str × List Str)) := none
  previous : List (Str × Str) := []
  fvf : Option Rat := none
  memory : List ((Str × Str) × Option (Fn × Path)) := []
  par : Params := {}
  dic : Dict := {}
  sched : Nat → Bool := fun _ => true
  clock : Nat := 0

/-- A call that returns `(conversion, path)` or `(None, None)`. -/
abbrev CallM := PyM World (Option (Conv × Path))

namespace World

/-- `get_edges_str()` (network.py:61-64) as an effect: the names are computed once and kept. -/
def snap (w : World) : World := { w with edgesStr := some (w.edgesStr.getD w.net.edgesStr) }

/-- the value of `get_edges_str()` -/
def es (w : World) : List (Str × List Str) := w.edgesStr.getD w.net.edgesStr

end World

/-- `_lambda_loop` (converter.py:152-170). -/
def lambdaLoop : List Fn → Fn
  | [], _, x => .ok x
  | f :: fs, fvf, x => do
    let y ← f fvf x
    lambdaLoop fs fvf y

/-- `big_lambda` of `_lambda_conversion` (converter.py:147-148) on a path of nodes. -/
def bigLambda (g : Net) : List UNode → Res (List Fn)
  | a :: b :: r => do
    let f ← g.conversion a b
    let fs ← bigLambda g (b :: r)
    return f :: fs
  | _ => .ok []

/-- `_lambda_conversion` (converter.py:134-149). -/
def lambdaConversion (g : Net) (p : List UNode) : Res Fn := do
  let fs ← bigLambda g p
  return lambdaLoop fs

/-- `_apply_conversion` (converter.py:74-131) on a path of nodes, the only kind it is called with
(converter.py:328): the branches for strings and numbers are not modelled. -/
def applyConversion (g : Net) (fvf : Option Rat) : Rat → List UNode → Res Rat
  | v, a :: b :: r => do
    let v ← g.convertStep fvf v a b
    applyConversion g fvf v (b :: r)
  | v, _ => .ok v

/-- `'/' in u or '*' in u` -/
def isPair (u : Str) : Bool := decide ('/' ∈ u) || decide ('*' ∈ u)

/-- `sorted(l, key=len)[0]` (converter.py:192): the first of the shortest. -/
def firstShortest : List Str → Option Str
  | [] => none
  | x :: xs =>
    match firstShortest xs with
    | none => some x
    | some y => if y.length < x.length then some y else some x

/-- The loop over the grandchildren (converter.py:195-200). -/
def pairGrandchild (g : Net) : List UNode → Res (Option Str)
  | [] => .ok none
  | c :: cs => do
    let ks ← g.childrenOf c
    match firstShortest ((ks.map (·.name)).filter isPair) with
    | some u => .ok (some u)
    | none => pairGrandchild g cs

/-- `_get_pair_child` (converter.py:173-203). -/
def getPairChild (g : Net) (u : Str) : Res (Option Str) := do
  let n ← g.getNode u
  let ks ← g.childrenOf n
  match firstShortest ((ks.map (·.name)).filter isPair) with
  | some c => .ok (some c)
  | none => pairGrandchild g ks

/-- `_get_recursion_limit` (converter.py:206-215). -/
def recLimit (par : Params) : Option Int → Int
  | none => min (par.pyLimit - 15) par.maxRecursion
  | some r =>
    if r > 1 then min (par.pyLimit - 15) r - 1
    else if r ≤ 0 then -1
    else r - 1

/-- `conv if value is None else conv(value)`, with the path: how every branch of `_get_conversion` and `_converter`
answers. -/
def answer (v : Option Rat) (f : Fn) (p : Path) : CallM := fun w =>
  match v with
  | none => (.ok (some (.fn f, p)), w)
  | some x => ((f w.fvf x).map fun y => some (.num y, p), w)

/-- `lambda x: x` -/
def idFn : Fn := fun _ x => .ok x

/-- the node of that name if there is one, else the name (converter.py:256-267) -/
def nodeOrName (g : Net) (u : Str) : Step :=
  match g.getNode u with
  | .ok n => .node n
  | .error _ => .str u

/-- the two parts of a ratio: `'/' in u and len(u.split('/')) == 2` -/
def ratioParts (u : Str) : Option (Str × Str) :=
  match Py.splitOn '/' u with
  | [x, y] => some (x, y)
  | _ => none

/-- The quick cases before the temperature ratios (converter.py:254-281): function and path. -/
def quick1 (d : Dict) (g : Net) (a b : Str) : Option (Fn × Path) :=
  if a = b then some (idFn, [nodeOrName g a])
  else if a ∈ d.date ∧ b ∈ d.date then some (idFn, [nodeOrName g a, nodeOrName g b])
  else if Py.lower a ∈ d.dimensionless ∧ Py.lower b ∈ d.percentage then
    some (fun _ x => .ok (x * 100), [.str ['*'], .num 100])
  else if Py.lower a ∈ d.percentage ∧ Py.lower b ∈ d.dimensionless then
    some (fun _ x => .ok (x / 100), [.str ['/'], .num 100])
  else if Py.lower a ∈ d.dimensionless ∧ '/' ∉ b then some (idFn, [])
  else none

/-- The test of the temperature ratios (converter.py:284-287): `t1, d1, t2, d2`. -/
def tempParts (d : Dict) (a b : Str) : Option (Str × Str × Str × Str) :=
  match ratioParts a, ratioParts b with
  | some (t1, d1), some (t2, d2) =>
    if t1 ∈ d.temperature ∧ t2 ∈ d.temperature then some (t1, d1, t2, d2) else none
  | _, _ => none

/-- a ratio of two equal names: `u.lower().split('/')[0].strip(' ()') == ...[1]...` (converter.py:302-303, 307-308) -/
def selfRatio (u : Str) : Bool :=
  match ratioParts (Py.lower u) with
  | some (x, y) => Py.strip [' ', '(', ')'] x = Py.strip [' ', '(', ')'] y
  | none => false

/-- The quick cases after the temperature ratios (converter.py:301-318). -/
def quick2 (d : Dict) (a b : Str) : Option (Fn × Path) :=
  if Py.lower a ∈ d.dimensionless ∧ selfRatio b = true then some (idFn, [])
  else if Py.lower b ∈ d.dimensionless ∧ selfRatio a = true then some (idFn, [])
  else match ratioParts a, ratioParts b with
    | some (x, y), some (z, t) =>
      if Py.stripWs x = Py.stripWs t ∧ Py.stripWs y = Py.stripWs z then
        some (fun _ x => pdiv 1 x, [.str ['1', '/']])
      else none
    | _, _ => none

/-- The state after `hybrid_BFS` has answered. -/
def World.tick (w : World) : World := { w with clock := w.clock + 1 }

/-- The answer of `hybrid_BFS` given those of its two workers (see C06 in `Props/Hybrid.lean`); a worker that raises
never lets the caller return, which the model renders as the exception of the worker. -/
def hybridChoice (first : Bool) (lean bfs : Res (Option (List UNode))) : Res (Option (List UNode)) := do
  let l ← lean
  let b ← bfs
  match l, b with
  | some p, some q => .ok (some (if first then p else q))
  | some p, none => .ok (some p)
  | none, r => .ok r

/-- whether DFS looks at the descendants of some child of the start, and so takes the snapshot of names -/
def dfsSnaps (g : Net) (n : UNode) : Bool :=
  match g.childrenOf n with
  | .ok ks => ks.any (fun k => k ≠ n)
  | .error _ => false

/-- `_search_network(from_unit, to_unit)` (converter.py:697-744). -/
def searchNetwork (a b : Str) : PyM World (Option (List UNode)) := fun w =>
  if w.net.hasName a && w.net.hasName b then
    match w.net.getNode a, w.net.getNode b with
    | .ok na, .ok nb =>
      let m := w.par.maxGenerations
      match w.par.algorithm with
      | .bfs => (w.net.bfs na nb, w)
      | .lean =>
        let w := if 0 ≤ m then w.snap else w
        (leanBfs w.net w.es m na nb, w)
      | .dfs =>
        let w := if 0 < m ∧ dfsSnaps w.net na = true then w.snap else w
        (w.net.dfs w.es m na nb, w)
      | .hybrid =>
        let w := if 0 ≤ m then w.snap else w
        (hybridChoice (w.sched w.clock) (leanBfs w.net w.es m na nb) (w.net.bfs na nb), w.tick)
      | .other => (.error .notImplemented, w)
    | .error e, _ => (.error e, w)
    | _, .error e => (.error e, w)
  else (.ok none, w)

/-- `units_network.memory[(a, b)] = ...` -/
def World.remember (w : World) (a b : Str) (e : Option (Fn × Path)) : World :=
  { w with memory := Py.dictSet w.memory (a, b) e }

/-- `memory[(a, b)] = (f, p)` followed by the answer (converter.py:528-532, 545-549, 562-566, 574-578). -/
def storeAnswer (v : Option Rat) (a b : Str) (f : Fn) (p : Path) : CallM := do
  PyM.modify (·.remember a b (some (f, p)))
  answer v f p

/-- The end of `_get_conversion` (converter.py:320-330). -/
def networkConversion (v : Option Rat) (a b : Str) : CallM := do
  match ← searchNetwork a b with
  | none => pure none
  | some p =>
    let w ← PyM.get
    let f ← PyM.lift (lambdaConversion w.net p)
    let path := p.map Step.node
    PyM.modify (·.remember a b (some (f, path)))
    match v with
    | none => pure (some (.fn f, path))
    | some x =>
      let y ← PyM.lift (applyConversion w.net w.fvf x p)
      pure (some (.num y, path))

/-- The temperature ratios (converter.py:284-299); `inner` is the recursive call. -/
def tempConversion (inner : Option Rat → Str → Str → CallM) (v : Option Rat) (t1 d1 t2 d2 : Str) : CallM := do
  let w ← PyM.get
  match Py.dictGet w.dic.tempRatio (t1, t2) with
  | none => PyM.raise .keyError
  | some k =>
    match ← inner (some 1) d1 d2 with
    | none => if w.par.raiseError then PyM.raise .noConversionFound else pure none
    | some (c, p) =>
      let den ← PyM.lift c.toNum
      answer v (fun _ x => pdiv (x * k) den) ([.str ['*'], .num k, .str ['/'], .num 1] ++ p)

/-- `use_cache` after converter.py:246 -/
def resolveCache (w : World) (uc : Option Bool) : Bool := uc.getD w.par.cache

/-- The body of `_get_conversion` after the recursion test (converter.py:245-330); `inner` is the recursive call. -/
def getConvBody (inner : Option Bool → Option Rat → Str → Str → CallM) (uc : Option Bool) (v : Option Rat)
    (a b : Str) : CallM := fun w =>
  match (if resolveCache w uc then Py.dictGet w.memory (a, b) else none) with
  | some none => (.ok none, w)
  | some (some (f, p)) => answer v f p w
  | none =>
    match quick1 w.dic w.net a b with
    | some (f, p) => answer v f p w
    | none =>
      match tempParts w.dic a b with
      | some (t1, d1, t2, d2) => tempConversion (inner (some (resolveCache w uc))) v t1 d1 t2 d2 w
      | none =>
        match quick2 w.dic a b with
        | some (f, p) => answer v f p w
        | none => networkConversion v a b w

/-- `_get_conversion` with a budget of nested calls: `n` is `_get_recursion_limit(recursion) + 1`
(converter.py:218-330; `C25` relates the budget to `_get_recursion_limit`). -/
def getConv : Nat → Option Bool → Option Rat → Str → Str → CallM
  | 0, _, _, _, _ => pure none
  | n + 1, uc, v, a, b => getConvBody (getConv n) uc v a b

/-- The operands of a split unit, each with whether the operator just before it is '/' (converter.py:501-515). -/
def operands : Str → List Str → List (Bool × Str)
  | _, [] => []
  | prev, x :: xs =>
    if Py.subStr x ['*', '/'] then operands x xs
    else (decide (prev = ['/']), x) :: operands x xs

/-- The inner loop converter.py:505-521: the first target operand, among those not used yet, that `f` converts to; it
is removed from the candidates (the code keeps the list `used_to` instead). Returns factor, path and the candidates
left. `notFirst` says that a part has been converted already. -/
def matchPart (gc : Option Rat → Str → Str → CallM) (notFirst : Bool) (f : Bool × Str) :
    List (Bool × Str) → PyM World (Option (Rat × Path × List (Bool × Str)))
  | [] => pure none
  | t :: ts => do
    match ← gc (some 1) f.2 t.2 with
    | some (c, p) =>
      let k ← PyM.lift c.toNum
      let p := if notFirst then .num 1 :: p else p
      if f.1 || t.1 then
        let k ← PyM.lift (pdiv 1 k)
        pure (some (k, .str ['/'] :: p, ts))
      else pure (some (k, p, ts))
    | none =>
      match ← matchPart gc notFirst f ts with
      | none => pure none
      | some (k, p, rest) => pure (some (k, p, t :: rest))

/-- The outer loop converter.py:501-524; `none` is `failed`. -/
def matchParts (gc : Option Rat → Str → Str → CallM) :
    Bool → List (Bool × Str) → List (Bool × Str) → PyM World (Option (List (Rat × Path)))
  | _, [], _ => pure (some [])
  | notFirst, f :: fs, ts => do
    match ← matchPart gc notFirst f ts with
    | none => pure none
    | some (k, p, rest) =>
      match ← matchParts gc true fs rest with
      | none => pure none
      | some l => pure (some ((k, p) :: l))

/-- `lambda x: x * k` -/
def scaleFn (k : Rat) : Fn := fun _ x => .ok (x * k)

/-- Conversion of the parts of ratios and products (converter.py:495-528). -/
def splitStage (gc : Option Rat → Str → Str → CallM) (a b : Str) : PyM World (Option (Fn × Path)) := do
  match ← matchParts gc false (operands [] (splitUnit a)) (operands [] (splitUnit b)) with
  | some ((k, p) :: l) =>
    pure (some (scaleFn (l.foldl (fun acc e => acc * e.1) k), p ++ l.flatMap (·.2)))
  | _ => pure none

/-- `lambda x: g(f(x))` -/
def compFn (f g : Conv) : Fn := fun fvf x => do
  let y ← f.call fvf x
  g.call fvf y

/-- One-to-pair and pair-to-one conversions (converter.py:534-566); `cv` is the recursive call of `_converter`. -/
def pairStage (cv : Option Rat → Str → Str → CallM) (a b : Str) : PyM World (Option (Fn × Path)) := do
  let w ← PyM.get
  if isPair b && !isPair a then
    match ← PyM.lift (getPairChild w.net a) with
    | none => pure none
    | some c =>
      let base ← cv none a c
      let pair ← cv none c b
      match base, pair with
      | some (f, p), some (g, q) => pure (some (compFn f g, p ++ q))
      | _, _ => pure none
  else if isPair a && !isPair b then
    match ← PyM.lift (getPairChild w.net b) with
    | none => pure none
    | some c =>
      let final ← cv none c b
      let pair ← cv none a c
      match pair, final with
      | some (f, p), some (g, q) => pure (some (compFn f g, p ++ q))
      | _, _ => pure none
  else pure none

/-- whether `_get_descendants` reads the names of the network, and so takes the snapshot -/
def snapsF (has : Str → Bool) : Nat → Str → Bool
  | 0, _ => false
  | n + 1, u => has u || match pairSplit u with
    | none => false
    | some (x, y) => snapsF has n x || snapsF has n y

/-- `_get_descendants(u, gens)` with its effect on the snapshot of names (converter.py:363-389). -/
def descM (u : Str) (gens : Int) : PyM World (List Str) := fun w =>
  let w := if 0 < gens ∧ snapsF w.net.hasName (u.length + 1) u = true then w.snap else w
  (.ok (getDescendants w.es w.net.hasName u gens true), w)

/-- The loop of `generations_until_common` (converter.py:351-360); `none` is `np.inf`. -/
def genLoop (a b : Str) : Nat → Nat → PyM World (Option Nat)
  | 0, _ => pure none
  | n + 1, g => do
    let da ← descM a (g + 1)
    let db ← descM b (g + 1)
    if Py.inter da db ≠ [] then pure (some (g + 1)) else genLoop a b n (g + 1)

/-- `generations_until_common` (converter.py:333-360). -/
def generationsUntilCommon (a b : Str) : PyM World (Option Nat) := genLoop a b 25 0

/-- `total_generations` for each common descendant (converter.py:426-427). -/
def totalGenerations (a b : Str) : List Str → PyM World (List (Option Nat × Str))
  | [] => pure []
  | u :: us => do
    let x ← generationsUntilCommon a u
    let y ← generationsUntilCommon u b
    let r ← totalGenerations a b us
    let s := match x, y with
      | some i, some j => some (i + j)
      | _, _ => none
    pure ((s, u) :: r)

/-- `x < y` on numbers of generations, `none` being infinite -/
def genLt : Option Nat → Option Nat → Bool
  | some i, some j => i < j
  | some _, none => true
  | none, _ => false

/-- the order of Python on pairs (generations, name) -/
def genPairLe (x y : Option Nat × Str) : Bool :=
  genLt x.1 y.1 || (x.1 == y.1 && decide (x.2 ≤ y.2))

/-- insertion in a sorted list -/
def insertPair (x : Option Nat × Str) : List (Option Nat × Str) → List (Option Nat × Str)
  | [] => [x]
  | y :: ys => if genPairLe x y then x :: y :: ys else y :: insertPair x ys

/-- `sorted(zip(generations, common))` (converter.py:429) -/
def sortPairs (l : List (Option Nat × Str)) : List (Option Nat × Str) := l.foldr insertPair []

/-- number of steps other than '1/' (converter.py:440) -/
def pathLen (p : Path) : Nat := (p.filter (fun s => s ≠ Step.str ['1', '/'])).length

/-- The loop converter.py:434-447 with `max_paths = 12`. `best` is the path kept; `last` the two conversions the
variables `from_child_conversion` and `child_to_conversion` hold: the lambda of line 443 reads them when it is called,
after the loop. -/
def ratioLoop (cv : Option Rat → Str → Str → CallM) (a b : Str) (minGen : Option Nat) :
    List (Option Nat × Str) → Nat → Nat → Option Path → Option Conv × Option Conv →
    PyM World (Option Path × Option Conv × Option Conv)
  | [], _, _, best, last => pure (best, last)
  | (g, child) :: r, path, shortest, best, last =>
    if best.isSome && genLt minGen g then pure (best, last)
    else do
      let fr ← cv none a child
      let to ← cv none child b
      let last' : Option Conv × Option Conv := (fr.map (·.1), to.map (·.1))
      match fr, to with
      | some (_, p), some (_, q) =>
        let len := pathLen (p ++ q)
        let best' := if len < shortest then some (p ++ q) else best
        let shortest' := if len < shortest then len else shortest
        if path = 12 then pure (best', last')
        else ratioLoop cv a b minGen r (path + 1) shortest' best' last'
      | _, _ => ratioLoop cv a b minGen r (path + 1) shortest best last'

/-- calling a variable that may hold None -/
def callOpt : Option Conv → Fn
  | some c => c.call
  | none => fun _ _ => .error .typeError

/-- the smallest number of generations -/
def minGens : List (Option Nat × Str) → Option Nat
  | [] => none
  | x :: xs => let m := minGens xs; if genLt m x.1 then m else x.1

/-- `_ratio_conversion_including_children` (converter.py:392-448); `min([])` is a ValueError. -/
def ratioConversion (cv : Option Rat → Str → Str → CallM) (a b : Str) : PyM World (Option (Fn × Path)) := do
  let w ← PyM.get
  let fam1 ← descM a w.par.maxGenerations
  let fam2 ← descM b w.par.maxGenerations
  let common := (Py.inter fam1 fam2).eraseDups
  let gens ← totalGenerations a b common
  if gens = [] then PyM.raise .valueError
  else do
    let (best, fr, to) ← ratioLoop cv a b (minGens gens) (sortPairs gens) 0 9999 none (none, none)
    match best with
    | none => pure none
    | some p => pure (some (fun fvf x => do let y ← callOpt fr fvf x; callOpt to fvf y, p))

/-- Pair-to-pair conversions through the children (converter.py:568-572). -/
def ratioStage (cv : Option Rat → Str → Str → CallM) (a b : Str) : PyM World (Option (Fn × Path)) :=
  if (ratioParts a).isSome && (ratioParts b).isSome then ratioConversion cv a b else pure none

/-- The three indirect ways of converting (converter.py:492-583). `cvDef` is the recursive call with `use_cache`
left out. -/
def indirect (gc cv cvDef : Option Rat → Str → Str → CallM) (v : Option Rat) (a b : Str) : CallM := do
  match ← splitStage gc a b with
  | some (f, p) => storeAnswer v a b f p
  | none =>
    match ← pairStage cv a b with
    | some (f, p) => storeAnswer v a b f p
    | none =>
      match ← ratioStage cvDef a b with
      | some (f, p) => storeAnswer v a b f p
      | none => do
        PyM.modify (·.remember a b none)
        pure none

/-- The body of `_converter` after the recursion test (converter.py:482-583). -/
def converterBody (gc cv : Option Bool → Option Rat → Str → Str → CallM) (uc : Option Bool) (v : Option Rat)
    (a b : Str) : CallM := do
  match ← gc uc v a b with
  | some r => pure (some r)
  | none => do
    PyM.modify (fun w => { w with previous := w.previous ++ [(a, b)] })
    indirect (gc uc) (cv uc) (cv none) v a b

/-- `_converter` with a budget of nested calls: `n` is `_get_recursion_limit(recursion) + 1` (converter.py:451-583). -/
def converter : Nat → Option Bool → Option Rat → Str → Str → CallM
  | 0, _, _, _, _ => pure none
  | n + 1, uc, v, a, b => fun w =>
    if (a, b) ∈ w.previous then (.ok none, w)
    else converterBody (getConv n) (converter n) uc v a b w

/-- The budget of a call of `_converter` without `recursion` (converter.py:476-480 with `recursion=None`). -/
def topBudget (par : Params) : Nat := (recLimit par none + 1).toNat

/-- `_converter(value, from_unit, to_unit, use_cache=...)` as the public functions call it. -/
def converterTop (uc : Option Bool) (v : Option Rat) (a b : Str) : CallM := fun w =>
  converter (topBudget w.par) uc v a b w

/-- The stripping of one unit name (converter.py:618-621, 631-634). -/
def stripName (s : Str) : Str :=
  if s ≠ ['"'] ∧ s ≠ ['\''] then
    Py.strip ['\''] (Py.strip ['(', ' ', '"', ')'] (Py.strip ['(', ' ', '\'', ')'] s))
  else Py.strip ['(', ' ', ')'] s

/-- one unit argument: None becomes 'None' (converter.py:622-623, 635-636) -/
def cleanName (u : Option Str) : Str :=
  match u with
  | none => s!!"None"
  | some s => stripName s

/-- `_clean_input` (converter.py:586-646) for a number or None and units given as strings or None; arguments that are
`Unit` objects are replaced by their value and unit first (converter.py:603-606, 613-616), see `Model/UnitClass.lean`. -/
def cleanInput (par : Params) (a b : Option Str) : Res (Str × Str) := do
  let x := cleanName a
  if b = some s!!"Empty" then .error .typeError
  else
    let y := cleanName b
    if par.reduceParens then do
      let x ← reduceParentheses x
      let y ← reduceParentheses y
      return (x, y)
    else return (x, y)

/-- `g/cm3` -/
def gcm3 : Str := s!!"g/cm3"

/-- what `x * this_units_density` does: a TypeError when no conversion was found (converter.py:676-681) -/
def timesDensity : Option (Conv × Path) → Fn
  | some (c, _) => fun _ x => do let k ← c.toNum; return x * k
  | none => fun _ _ => .error .typeError

/-- The number shown in the path; None and the tuple of line 685 are shown as text. -/
def densityStep : Option (Conv × Path) → Step
  | some (.num q, _) => .num q
  | _ => .str s!!"None"

/-- `_density_conversion` (converter.py:657-694). On weight to volume the code divides by the pair
`(conversion, path)` (line 685 keeps both): a TypeError. -/
def densityConversion (uc : Option Bool) (v : Option Rat) (a b : Str) : CallM := do
  let w ← PyM.get
  if a ∉ w.dic.uncertain ∧ b ∉ w.dic.uncertain ∧ a ∈ w.dic.volume ∧ b ∈ w.dic.weight then
    match w.par.density with
    | none => PyM.raise .needsInput
    | some d =>
      let r ← converterTop uc (some d) gcm3 (b ++ '/' :: a)
      answer v (timesDensity r) [.str ['*'], densityStep r]
  else if a ∉ w.dic.uncertain ∧ b ∉ w.dic.uncertain ∧ b ∈ w.dic.volume ∧ a ∈ w.dic.weight then
    match w.par.density with
    | none => PyM.raise .needsInput
    | some d =>
      let _ ← converterTop uc (some d) gcm3 (a ++ '/' :: b)
      answer v (fun _ _ => .error .typeError) [.str ['/'], .str s!!"tuple"]
  else pure none

/-- `convert` after `_clean_input` (converter.py:805-825): None stands for the returned None. -/
def convertClean (uc : Option Bool) (v : Option Rat) (a b : Str) : PyM World (Option Conv) := do
  PyM.modify (fun w => { w with previous := [] })
  let r ← match ← densityConversion uc v a b with
    | some r => pure (some r)
    | none => converterTop uc v a b
  match r with
  | some (c, _) => pure (some c)
  | none =>
    let w ← PyM.get
    if w.par.raiseError then PyM.raise .noConversionFound else pure none

/-- `convert(value, from_unit, to_unit, use_cache=...)` (converter.py:775-825). -/
def convert (v : Option Rat) (a b : Option Str) (uc : Option Bool := none) : PyM World (Option Conv) := do
  let w ← PyM.get
  let (x, y) ← PyM.lift (cleanInput w.par a b)
  convertClean uc v x y

/-- `convertible(from_unit, to_unit, use_cache=...)` on strings (converter.py:747-772). -/
def convertible (a b : Str) (uc : Option Bool := none) : PyM World Bool := fun w =>
  match converterTop uc (some 1) a b w with
  | (.ok r, w) => (.ok r.isSome, w)
  | (.error .noConversionFound, w) => (.ok false, w)
  | (.error e, w) => (.error e, w)

/-- `convert_for_SimPandas(value, from_unit, to_unit, use_cache=...)` (converter.py:828-862); the value is a number.
None stands for a returned function or None. -/
def convertForSimPandas (v : Rat) (a b : Str) (uc : Option Bool := none) : PyM World Rat := do
  if ← convertible a b none then
    match ← converterTop uc (some v) a b with
    | none => pure v
    | some (c, _) => PyM.lift c.toNum
  else pure v

/-- `set_fvf(b)` with a number (network.py:161-170): a non-positive factor is only reported in the log. -/
def setFvf (b : Rat) : PyM World Unit := PyM.modify fun w => { w with fvf := some b }

/-- `set_conversion` (units/custom.py:50-79) on the state: neither the memory nor the snapshot of names changes. -/
def setConversionW (a b : Str) (f : Fn) (rev : Option Fn := none) : PyM World Unit := fun w =>
  match setConversion w.net a b f rev with
  | .ok g => (.ok (), { w with net := g })
  | .error e => (.error e, w)

/-- `clean_memory()` (network.py:97-101) -/
def cleanMemory : PyM World Unit := PyM.modify fun w => { w with memory := [] }

end Unyts
