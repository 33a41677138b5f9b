import Verif.Model.Menus

/-
What the menus of the window are expected to show.
-/
namespace Unyts.Gui

/-- the names of the algorithms that are ticked -/
def tickedAlgorithms (t : Ticks) : List Str :=
  (if t.bfs then [s!!"BFS"] else []) ++ (if t.lean then [s!!"lean_BFS"] else []) ++
    (if t.dfs then [s!!"DFS"] else []) ++ (if t.hybrid then [s!!"hybrid_BFS"] else [])

/-- whether a call of `set_parallel` chooses processes: `some true` or `some false`; `none` when it is another call or one
that is refused -/
def choosesProcesses : ParamCall → Option Bool
  | .setParallel .null => some false
  | .setParallel (.bool _) => some false
  | .setParallel (.str s) =>
    match (Py.stripWs (Py.lower s)).head? with
    | none => none
    | some c => some (decide (c = 'm' ∨ c = 'p'))
  | _ => none

/-- The last call of `set_parallel` of a session chose processes. -/
def OnProcesses (calls : List ParamCall) : Prop := calls.reverse.findSome? choosesProcesses = some true

instance (calls : List ParamCall) : Decidable (OnProcesses calls) := inferInstanceAs (Decidable (_ = _))

/-- What a user reads from the menus: an algorithm is ticked when it is the one in use, 'cache', 'verbose' and 'path' when
they are on, 'off' when parallel searches are off, 'threading' when they are on. -/
structure Honest (w : Menu) : Prop where
  algorithm : ∀ a, a ∈ tickedAlgorithms w.ticks ↔ a ∈ algorithms ∧ w.proc.set.algorithm = .str a
  cache : w.ticks.cache = w.proc.set.cache.truthy
  verbose : w.ticks.verbose = w.proc.set.verbose.truthy
  path : w.ticks.path = w.proc.set.printPath.truthy
  off : w.ticks.off = !w.proc.set.parallel.truthy
  threads : w.ticks.th = w.proc.set.parallel.truthy
  processes : w.ticks.mp = false
  auto : w.ticks.auto = true → w.proc.set.parallel.truthy = true

/-- nothing happens that unticks 'repeat search' -/
def Unanswered (cs : List Click) : Prop := Click.again ∉ cs ∧ Click.answered ∉ cs

end Unyts.Gui
