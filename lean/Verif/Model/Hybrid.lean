import Verif.Py

/-
Model of `hybrid_BFS` (/repo/src/unyts/searches.py:160-249): two workers write their results in a shared
dictionary that the caller polls.
-/
namespace Unyts.Hybrid

/-- An entry of `results_` (searches.py:216): the initial `''`, or what a worker wrote. -/
inductive Slot (P : Type) where
  | empty
  | val (r : Option P)
deriving DecidableEq, Repr

/-- The two entries of `results_`. -/
structure Results (P : Type) where
  bfs : Slot P
  lean : Slot P
deriving DecidableEq, Repr

/-- Program counter of the caller inside the polling loop (searches.py:228-242). Every read of the
dictionary is a separate atomic step; `ret r` means that the call has returned `r`. -/
inductive PC (P : Type) where
  /-- about to test `results_['lean_bfs'] != ''` -/
  | lean1
  /-- about to test `results_['lean_bfs'] is not None` -/
  | lean2
  /-- about to execute `_return = results_['lean_bfs']` -/
  | lean3
  /-- about to test `results_['bfs'] != ''` -/
  | bfs1
  /-- about to test `results_['bfs'] is not None` -/
  | bfs2
  /-- about to execute `_return = results_['bfs']` -/
  | bfs3
  /-- about to test `results_['bfs'] is None` -/
  | both1
  /-- about to test `results_['lean_bfs'] is None` -/
  | both2
  | ret (r : Slot P)
deriving DecidableEq, Repr

/-- One atomic step of the caller (searches.py:228-242). -/
def callerStep (r : Results P) : PC P → PC P
  | .lean1 => match r.lean with | .empty => .bfs1 | .val _ => .lean2
  | .lean2 => match r.lean with | .val none => .bfs1 | _ => .lean3
  | .lean3 => .ret r.lean
  | .bfs1 => match r.bfs with | .empty => .both1 | .val _ => .bfs2
  | .bfs2 => match r.bfs with | .val none => .both1 | _ => .bfs3
  | .bfs3 => .ret r.bfs
  | .both1 => match r.bfs with | .val none => .both2 | _ => .lean1
  | .both2 => match r.lean with | .val none => .ret (.val none) | _ => .lean1
  | .ret x => .ret x

/-- `_bfs` and `_lean_bfs` (searches.py:174-181) write the result of the search, or nothing when the
search raises. The network is not changed during the search. -/
def written (outcome : Res (Option P)) : Slot P :=
  match outcome with
  | .ok r => .val r
  | .error _ => .empty

/-- State of a threaded run. -/
structure State (P : Type) where
  results : Results P
  bfsDone : Bool
  leanDone : Bool
  pc : PC P
deriving DecidableEq, Repr

/-- Who moves next. -/
inductive Actor where
  | bfs | lean | caller
deriving DecidableEq, Repr

/-- Threaded mode: state when the polling loop is entered for the first time. Both threads have been
started, none needs to have made progress (searches.py:216-226). -/
def init : State P := ⟨⟨.empty, .empty⟩, false, false, .lean1⟩

/-- One step of the chosen actor; `bo` and `lo` are the outcomes of the two searches. A worker that has
finished, or a caller that has returned, does nothing. -/
def step (bo lo : Res (Option P)) (s : State P) : Actor → State P
  | .bfs => if s.bfsDone then s else
      { s with bfsDone := true, results := { s.results with bfs := written bo } }
  | .lean => if s.leanDone then s else
      { s with leanDone := true, results := { s.results with lean := written lo } }
  | .caller => { s with pc := callerStep s.results s.pc }

/-- A schedule is any sequence of actors. -/
def run (bo lo : Res (Option P)) (sched : List Actor) : State P := sched.foldl (step bo lo) init

/-- Serial mode (`SerialRun`, searches.py:160-172): lean_BFS first; BFS only if lean_BFS left no path;
an exception is swallowed. -/
def serialResults (bo lo : Res (Option P)) : Results P :=
  let r : Results P := ⟨.empty, written lo⟩
  match r.lean with
  | .val (some _) => r
  | _ => { r with bfs := written bo }

/-- The caller alone, in serial mode, for `n` steps. -/
def serialRun (bo lo : Res (Option P)) : Nat → PC P
  | 0 => .lean1
  | n + 1 => callerStep (serialResults bo lo) (serialRun bo lo n)

/-- How the searches are run (searches.py:202-211). -/
inductive Mode where
  | threads | serial
deriving DecidableEq, Repr

/-- The choice of the runner (searches.py:202-211). `hasProcess` says whether `Process` was imported when
the module was loaded (searches.py:18-20). -/
def mode (parallel multiprocessing threading hasProcess : Bool) : Res Mode :=
  if parallel && multiprocessing then
    if hasProcess then .error .notImplemented /- separate processes do not share the dictionary: not modelled -/
    else .error .nameError
  else if parallel && threading then .ok .threads
  else if !parallel then .ok .serial
  else .error .notImplemented

end Unyts.Hybrid
