import Verif.Model.Parameters

/-
Model of the menus of the window (gui.py:332-395, 517-528, 540-603): the entries that can be ticked, what a click does, and
the settings they change.

Simplifications:
* while the window is open nothing else runs, so only clicks change the settings (`mainloop`, gui.py:603);
* a click on an entry that is not shown does nothing;
* the entries that only open a dialog, a web page or a file, and the messages, are left out, except that setting the density
  or the formation volume factor ticks 'repeat search' (gui.py:442, 481);
* Tk: a click on an entry first flips its variable and then runs its command; the variable of an entry that does not exist
  is created with the value off.
-/
namespace Unyts.Gui

/-- What is ticked: the boolean variables of the menus (gui.py:540-559), the entry 'Rebuild on next start' (its variable is
not one of them, gui.py:577), the box 'repeat search' of the window (gui.py:72-76), and whether the menu 'Parallel' has the
entry 'multiprocessing' (gui.py:592). -/
structure Ticks where
  cache : Bool
  verbose : Bool
  path : Bool
  rebuild : Bool
  bfs : Bool
  lean : Bool
  dfs : Bool
  hybrid : Bool
  th : Bool
  mp : Bool
  off : Bool
  auto : Bool
  again : Bool
  offersMp : Bool
deriving DecidableEq, Repr

/-- The open window: the settings, their files and the ticks. -/
structure Menu where
  proc : Proc
  disk : IniDisk
  ticks : Ticks

/-- `BooleanVar.set(x)` with a setting: the value the variable has afterwards (gui.py:542, 544, 546, 556-559). Simplified: a
setting is a boolean or a number; texts and null, which only a file written by hand has, count as Python counts them. -/
def tickOf (x : JVal) : Bool := x.truthy

/-- `start_gui()` up to `mainloop` (gui.py:316-603). Line 589 reads `unyts_parameters_.multiprocessing`, an attribute no
object has, unless `threading_` is true. -/
def openMenu (p : Proc) (k : IniDisk) : Res Menu :=
  if p.threading = false then .error .attributeError
  else .ok {
    proc := p
    disk := k
    ticks := {
      cache := tickOf p.set.cache
      verbose := tickOf p.set.verbose
      path := tickOf p.set.printPath
      rebuild := false
      bfs := decide (p.set.algorithm = .str s!!"BFS")
      lean := decide (p.set.algorithm = .str s!!"lean_BFS")
      dfs := decide (p.set.algorithm = .str s!!"DFS")
      hybrid := decide (p.set.algorithm = .str s!!"hybrid_BFS")
      th := tickOf p.set.parallel && p.threading && !p.multiprocessing
      mp := tickOf p.set.parallel && p.multiprocessing
      off := !tickOf p.set.parallel
      auto := tickOf p.set.parallel
      again := false
      offersMp := p.multiprocessing } }

/-- What can happen in the window: a click on an entry of the menus 'Options', 'Search algorithm' and 'Parallel', a folder
chosen for the cache, a click on 'repeat search', a conversion that ends with an answer, or with an error other than "no
conversion found" (gui.py:189, 199, 205, 231, 241, 247), and the dialogs of density and formation volume factor (gui.py:442,
481). -/
inductive Click where
  | rebuild | path | verbose | cache
  | bfs | lean | hybrid | dfs
  | th | mp | off | auto
  | folder (p : Str)
  | again
  | answered
  | failed
  | constant
deriving DecidableEq, Repr

/-- a call on the settings made by a command of the menu; an exception is shown and changes nothing -/
def Menu.call (m : Machine) (w : Menu) (c : ParamCall) : Menu :=
  match c.run m w.proc w.disk with
  | .ok y => { w with proc := y.1, disk := y.2 }
  | .error _ => w

/-- `if unyts_parameters_.get_algorithm() != a: unyts_gui.repeat_search.select()` (gui.py:341-342, 349-350, 357-358,
365-366; parameters.py:280-281) -/
def Menu.repeatUnless (w : Menu) (a : Str) : Menu :=
  if w.proc.set.algorithm ≠ .str a then { w with ticks := { w.ticks with again := true } } else w

/-- A click. -/
def Click.run (m : Machine) (w : Menu) : Click → Menu
  -- gui.py:577-578
  | rebuild => { w with ticks := { w.ticks with rebuild := !w.ticks.rebuild } }.call m (.reloadNextTime .null)
  -- gui.py:579, 332-339
  | path => { w with ticks := { w.ticks with path := !w.ticks.path } }.call m (.printPath .null)
  -- gui.py:580
  | verbose => { w with ticks := { w.ticks with verbose := !w.ticks.verbose } }.call m (.verbose .null)
  -- gui.py:581
  | cache => { w with ticks := { w.ticks with cache := !w.ticks.cache } }.call m (.cache .null)
  -- gui.py:340-347
  | bfs =>
    let w := (w.repeatUnless s!!"BFS").call m (.setAlgorithm s!!"BFS")
    { w with ticks := { w.ticks with bfs := true, lean := false, dfs := false, hybrid := false } }
  -- gui.py:348-355
  | lean =>
    let w := (w.repeatUnless s!!"lean_BFS").call m (.setAlgorithm s!!"lean_BFS")
    { w with ticks := { w.ticks with bfs := false, lean := true, dfs := false, hybrid := false } }
  -- gui.py:356-363
  | dfs =>
    let w := (w.repeatUnless s!!"DFS").call m (.setAlgorithm s!!"DFS")
    { w with ticks := { w.ticks with bfs := false, lean := false, dfs := true, hybrid := false } }
  -- gui.py:364-371
  | hybrid =>
    let w := (w.repeatUnless s!!"hybrid_BFS").call m (.setAlgorithm s!!"hybrid_BFS")
    { w with ticks := { w.ticks with bfs := false, lean := false, dfs := false, hybrid := true } }
  -- gui.py:372-377
  | th =>
    let w := w.call m (.setParallel (.str s!!"t"))
    { w with ticks := { w.ticks with th := true, mp := false, off := false, auto := false } }
  -- gui.py:378-383, 592-593
  | mp =>
    if w.ticks.offersMp = true then
      let w := w.call m (.setParallel (.str s!!"p"))
      { w with ticks := { w.ticks with th := false, mp := true, off := false, auto := false } }
    else w
  -- gui.py:384-389
  | off =>
    let w := w.call m (.setParallel (.bool false))
    { w with ticks := { w.ticks with th := false, mp := false, off := true, auto := false } }
  -- gui.py:390-395
  | auto =>
    let w := w.call m (.setParallel .null)
    { w with ticks := { w.ticks with
      th := w.proc.threading, mp := w.proc.multiprocessing,
      off := !w.proc.threading && !w.proc.multiprocessing, auto := true } }
  -- gui.py:517-528
  | folder p => if p = [] then w else if m.isdir p then w.call m (.setUserFolder (some p)) else w
  -- gui.py:74
  | again => { w with ticks := { w.ticks with again := !w.ticks.again } }
  | answered => { w with ticks := { w.ticks with again := false } }
  | failed | constant => { w with ticks := { w.ticks with again := true } }

/-- the window after a list of clicks -/
def clicks (m : Machine) : List Click → Menu → Menu
  | [], w => w
  | c :: cs, w => clicks m cs (c.run m w)

end Unyts.Gui
