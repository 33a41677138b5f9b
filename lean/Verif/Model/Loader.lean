import Verif.Model.Network

/-
Model of `_load_network` and `_clean_network` (`/repo/src/unyts/database.py:90-606, 781-782`), for any dictionary.

Simplifications:
* a value of the dictionary is a sequence of names (list or tuple) or a dict; lists and tuples are not distinguished;
* floating point constants are the decimal numbers they spell;
* the pass for `_FROMvolume` kinds (database.py:572-591) is not modelled: no kind of the library has that flag, and the
  model raises if there is one;
* the enumeration order of `set(...)` when the dictionary is closed (database.py:593-605) is that of first appearance.
-/
namespace Unyts

/-- An arithmetic expression in `x`, as the lambdas of database.py and dictionaries.py have them; `fvf` is
`network.get_fvf()`. -/
inductive CExp where
  | x
  | lit (q : Rat)
  | fvf
  | add (a b : CExp)
  | sub (a b : CExp)
  | mul (a b : CExp)
  | div (a b : CExp)
deriving DecidableEq, Repr

/-- Calling the lambda. Without a formation volume factor the code asks the user (network.py:187-198). -/
def CExp.eval : CExp → Fn
  | .x, _, v => .ok v
  | .lit q, _, _ => .ok q
  | .fvf, b, _ => match b with | some q => .ok q | none => .error .needsInput
  | .add a b, f, v => do let p ← a.eval f v; let q ← b.eval f v; .ok (p + q)
  | .sub a b, f, v => do let p ← a.eval f v; let q ← b.eval f v; .ok (p - q)
  | .mul a b, f, v => do let p ← a.eval f v; let q ← b.eval f v; .ok (p * q)
  | .div a b, f, v => do let p ← a.eval f v; let q ← b.eval f v; pdiv p q

/-- What `Conversion(src, dest, conv, reverse)` carries (network.py:201-228). -/
inductive Cv where
  | fn (e : CExp)
  | rev (c : Cv)
deriving DecidableEq, Repr

/-- `get_convert()` (network.py:224-228) -/
def Cv.eval : Cv → Fn
  | .fn e => e.eval
  | .rev c => revFn c.eval

/-- `lambda x: x` -/
def Cv.same : Cv := .fn .x

/-- A value of the raw dictionary. -/
inductive RawVal where
  | names (l : List Str)
  | table (t : List (Str × List Str))
deriving DecidableEq

abbrev RawDict := List (Str × RawVal)

/-- `for unit_name in dictionary[unit_kind]`, with `dictionary[unit_kind][unit_name]` if it is a dict -/
def RawVal.entries : RawVal → List (Str × List Str)
  | names l => l.map fun u => (u, [])
  | table t => t

/-- the names it iterates over -/
def RawVal.keys (v : RawVal) : List Str := v.entries.map Prod.fst

/-- One statement of the loops. -/
inductive Instr where
  /-- `network.add_node(UNode(s))` -/
  | node (s : Str)
  /-- `network.add_edge(Conversion(network.get_node(a), network.get_node(b), c))` -/
  | edge (a b : Str) (c : Cv)
  /-- `dictionary[base].append(s)` -/
  | append (base s : Str)
  /-- an exception -/
  | fail (e : PyErr)

/-- The graph and the dictionary being built. -/
structure LoadState where
  net : Net
  dict : RawDict

def Instr.exec : Instr → LoadState → Res LoadState
  | .node s, st => do
    let g ← st.net.addName s
    .ok { st with net := g }
  | .edge a b c, st => do
    let na ← st.net.getNode a
    let nb ← st.net.getNode b
    let g ← st.net.addEdge na nb c.eval
    .ok { st with net := g }
  | .append base s, st =>
    match Py.dictGet st.dict base with
    | none => .error .keyError
    | some (.table _) => .error .attributeError
    | some (.names l) => .ok { st with dict := Py.dictSet st.dict base (.names (l ++ [s])) }
  | .fail e, _ => .error e

def execAll : List Instr → LoadState → Res LoadState
  | [], st => .ok st
  | i :: is, st => do
    let st ← i.exec st
    execAll is st

/-- `unit_kind.split('_')[0]` -/
def kindBase (k : Str) : Str := (Py.splitOn '_' k).headD []

/-- database.py:98-108 -/
def namesInstrs (b : Str) : RawVal → List Instr
  | .table t => t.flatMap fun e => [.node e.1, .append b e.1] ++ e.2.flatMap fun s =>
      [.node s, .edge s e.1 .same, .edge e.1 s .same, .append b s]
  | .names l => l.flatMap fun u => [.node u, .append b u, .fail .typeError]

/-- database.py:109-149: both edges of the main name go the same way -/
def spacesInstrs (b : Str) (v : RawVal) : List Instr :=
  ['-', '_'].flatMap fun rep => v.entries.flatMap fun e =>
    (if ' ' ∈ e.1 then
      [.node e.1, .node (Py.replaceC ' ' [rep] e.1), .append b e.1, .append b (Py.replaceC ' ' [rep] e.1),
       .edge e.1 (Py.replaceC ' ' [rep] e.1) .same, .edge e.1 (Py.replaceC ' ' [rep] e.1) .same]
    else []) ++
    (e.2.filter fun s => ' ' ∈ s).flatMap fun s =>
      [.node s, .node (Py.replaceC ' ' [rep] s), .edge (Py.replaceC ' ' [rep] s) s .same,
       .edge s (Py.replaceC ' ' [rep] s) .same, .append b s, .append b (Py.replaceC ' ' [rep] s)]

/-- database.py:151-234: one loop over the prefixes of a table -/
def prefixInstrs (b : Str) (tab : List (Str × CExp)) (v : RawVal) : List Instr :=
  v.keys.flatMap fun u => [.node u, .append b u] ++ tab.flatMap fun p =>
    [.node (p.1 ++ u), .edge (p.1 ++ u) u (.fn p.2), .edge u (p.1 ++ u) (.rev (.fn p.2)), .append b (p.1 ++ u)]

/-- database.py:235-300: the plural of each main name, for `f = u + 's'`, `u.upper() + 'S'`, `u.lower() + 's'` -/
def pluralInstrs (b : Str) (f : Str → Str) (v : RawVal) : List Instr :=
  v.keys.flatMap fun u => [.node u, .node (f u), .edge u (f u) .same, .edge (f u) u .same, .append b (f u)]

/-- database.py:301-354: each name in capitals or in small letters -/
def caseInstrs (b : Str) (f : Str → Str) (v : RawVal) : List Instr :=
  v.entries.flatMap fun e => (e.1 :: e.2).flatMap fun s =>
    [.node s, .node (f s), .edge s (f s) .same, .edge (f s) s .same, .append b (f s)]

/-- `SI`, `DATA`, `OGF` (dictionaries.py:29-83) and the kinds they apply to -/
structure Prefixes where
  si : List (Str × List (Option CExp))
  siOrder : List (List Str)
  data : List (Str × List (Option CExp))
  dataOrder : List (List Str)
  ogf : List (Str × List (Option CExp))
  ogfOrder : List (List Str)

/-- `TABLE[prefix][i]` for every prefix -/
def column (tab : List (Str × List (Option CExp))) (i : Nat) : List (Str × CExp) :=
  tab.filterMap fun p => ((p.2[i]?).join).map fun e => (p.1, e)

/-- the body of the loop over the kinds of units (database.py:94-356) -/
def kindInstrs (P : Prefixes) (k : Str) (v : RawVal) : List Instr :=
  let b := kindBase k
  let has := fun s => Py.subStr s k
  (if '_' ∉ k then v.keys.map .node else []) ++
  (if has s!!"_NAMES" then namesInstrs b v else []) ++
  (if has s!!"_SPACES" then spacesInstrs b v else []) ++
  (if has s!!"_SI" ∧ b ∈ P.siOrder.getD 0 [] then prefixInstrs b (column P.si 0) v
   else if has s!!"_SI" ∧ b ∈ P.siOrder.getD 1 [] then prefixInstrs b (column P.si 1) v
   else if has s!!"_SI" ∧ b ∈ P.siOrder.getD 2 [] then prefixInstrs b (column P.si 2) v
   else if has s!!"_linearSI" ∧ b ∈ P.siOrder.getD 2 [] then prefixInstrs b (column P.si 0) v
   else []) ++
  (if has s!!"_DATA" ∧ b ∈ P.dataOrder.getD 0 [] then prefixInstrs b (column P.data 0) v else []) ++
  (if has s!!"_DATA" ∧ b ∈ P.dataOrder.getD 1 [] then prefixInstrs b (column P.data 1) v else []) ++
  (if has s!!"_OGF" ∧ b ∈ P.ogfOrder.getD 2 [] then prefixInstrs b (column P.ogf 2) v else []) ++
  (if has s!!"_PLURALwS" then
    pluralInstrs b (fun u => u ++ ['s']) v ++
    (if has s!!"_UPPER" then pluralInstrs b (fun u => Py.upper u ++ ['S']) v else []) ++
    (if has s!!"_LOWER" then pluralInstrs b (fun u => Py.lower u ++ ['s']) v else [])
   else []) ++
  (if has s!!"_UPPER" then caseInstrs b Py.upper v else []) ++
  (if has s!!"_LOWER" then caseInstrs b Py.lower v else [])

/-- one turn of the loop: the value is read from the dictionary as it is by then -/
def loadKind (P : Prefixes) (st : LoadState) (k : Str) : Res LoadState :=
  match Py.dictGet st.dict k with
  | none => .error .keyError
  | some v => execAll (kindInstrs P k v) st

/-- all the kinds -/
def loadKinds (P : Prefixes) : List Str → LoadState → Res LoadState
  | [], st => .ok st
  | k :: ks, st => do
    let st ← loadKind P st k
    loadKinds P ks st

/-- the names of the kinds with `_REVERSE` (database.py:558-564) -/
def reverseKeys (d : RawDict) : List Str :=
  d.flatMap fun e => if Py.subStr s!!"_REVERSE" e.1 then e.2.keys else []

/-- the loop over the children of one node (database.py:565-570) -/
def reverseEdges (n : UNode) : List (UNode × Fn) → Net → Res Net
  | [], g => .ok g
  | (c, f) :: r, g =>
    if n ≠ c then do
      let g ← g.addEdge c n (revFn f)
      reverseEdges n r g
    else reverseEdges n r g

/-- one name of the reverse pass -/
def reverseName (g : Net) (u : Str) : Res Net := do
  let n ← g.getNode u
  match g.lookup n with
  | none => .error .keyError
  | some l => reverseEdges n l g

def reverseAll : List Str → Net → Res Net
  | [], g => .ok g
  | u :: us, g => do
    let g ← reverseName g u
    reverseAll us g

/-- closing the dictionary (database.py:593-605) -/
def closeDict (d : RawDict) : Res RawDict :=
  let d := (d.filter fun e => '_' ∉ e.1).map fun e => (e.1, RawVal.names e.2.keys.eraseDups)
  match Py.dictGet d s!!"dataBYTE", Py.dictGet d s!!"dataBIT", Py.dictGet d s!!"UserUnits" with
  | some x, some y, some _ =>
    .ok ((Py.dictSet d s!!"Data" (.names (x.keys ++ y.keys))).filter fun e =>
      e.1 ≠ s!!"dataBYTE" ∧ e.1 ≠ s!!"dataBIT")
  | _, _, _ => .error .keyError

/-- `_load_network()` (database.py:90-606); `expl` is the list of conversions written one by one
(database.py:358-556). -/
def loadNetwork (P : Prefixes) (expl : List (Str × Str × CExp)) (d : RawDict) : Res (Net × RawDict) := do
  let st ← loadKinds P (d.map Prod.fst) ⟨Net.empty, d⟩
  let st ← execAll (expl.map fun e => .edge e.1 e.2.1 (.fn e.2.2)) st
  let g ← reverseAll (reverseKeys st.dict) st.net
  if st.dict.any fun e => Py.subStr s!!"_FROMvolume" e.1 then .error .notImplemented
  else do
    let d ← closeDict st.dict
    .ok (g, d)

/-- `_clean_network()` (database.py:781-782) -/
def cleanNetwork (g : Net) : Net := { g with edges := g.edges.filter fun e => !e.2.isEmpty }

end Unyts
