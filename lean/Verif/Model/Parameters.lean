import Verif.Py

/-
Model of `/repo/src/unyts/parameters.py`: the settings, the two files they are saved in, and the public switches.

Simplifications:
* a file is missing, unreadable (empty, truncated, not JSON) or holds a JSON object; what `json.load` gives back is what
  `json.dump` was given (numbers are exact rationals);
* log messages and warnings are not modelled; `set_density` is modelled for a number in g/cm3 (no conversion);
* modules `threading` are available (`threading_available` returns True) and multiprocessing is not
  (parameters.py:57-73).
-/
namespace Unyts

/-- A Python value as JSON can carry it. -/
inductive JVal where
  | null
  | bool (b : Bool)
  | int (n : Int)
  | num (q : Rat)
  | str (s : Str)
deriving DecidableEq

/-- `bool(x)` -/
def JVal.truthy : JVal → Bool
  | null => false
  | bool b => b
  | int n => n != 0
  | num q => q != 0
  | str s => s != []

/-- the keys of the settings files (parameters.py:80-94, 136-150) -/
inductive Key where
  | printPath | cache | reload | raiseError | verbose | verboseDetails | reduceParentheses | showVersion | density
  | maxRecursion | algorithm | maxGenerations | fvf | parallel | folder
deriving DecidableEq

/-- A file on disk. -/
inductive File (α : Type) where
  | absent
  | damaged
  | holds (a : α)

/-- `isfile(path)` -/
def File.present : File α → Bool
  | absent => false
  | _ => true

/-- a JSON object -/
abbrev JDict := List (Key × JVal)

/-- The attributes of `UnytsParameters` (parameters.py:33-55) that are saved. -/
structure Settings where
  printPath : JVal
  cache : JVal
  reload : JVal
  raiseError : JVal
  verbose : JVal
  verboseDetails : JVal
  reduceParentheses : JVal
  showVersion : JVal
  density : JVal
  maxRecursion : JVal
  algorithm : JVal
  maxGenerations : JVal
  fvf : JVal
  parallel : JVal
  folder : Str
deriving DecidableEq

/-- the two files `parameters.ini` and `parameters.backup` -/
structure IniDisk where
  ini : File JDict
  backup : File JDict

/-- The machine: the folder of the package (`dir_path`, with its final slash), the folders that exist, and
`sys.getrecursionlimit()`. -/
structure Machine where
  home : Str
  isdir : Str → Bool
  pyLimit : Int

/-- `params[k] if k in params else x` -/
def jget (d : JDict) (k : Key) (x : JVal) : JVal := (Py.dictGet d k).getD x

/-- `json_load(f)` -/
def readFile : File α → Res α
  | .absent => .error .fileNotFound
  | .damaged => .error .jsonDecode
  | .holds a => .ok a

/-- the value of `config_files_folder_` (parameters.py:111-113, 131-133); `cur` is the attribute before -/
def loadFolder (m : Machine) (d : JDict) (cur : Str) : Str :=
  match jget d .folder .null with
  | .null => m.home
  | .str s => if m.isdir s then s else cur
  | _ => cur

/-- what a missing ini file is replaced with (parameters.py:80-94) -/
def defaultDict : JDict := [
  (.printPath, .bool false), (.cache, .bool true), (.reload, .bool true), (.raiseError, .bool true),
  (.verbose, .bool false), (.verboseDetails, .int 0), (.reduceParentheses, .bool true), (.showVersion, .bool false),
  (.density, .num 1), (.maxRecursion, .int 12), (.algorithm, .str s!!"lean_BFS"), (.maxGenerations, .int 25),
  (.fvf, .num 1), (.parallel, .bool true), (.folder, .null)]

/-- parameters.py:97-113 -/
def loadMain (m : Machine) (d : JDict) : Settings where
  printPath := jget d .printPath (.bool false)
  cache := jget d .cache (.bool true)
  reload := jget d .reload (.bool false)
  raiseError := jget d .raiseError (.bool true)
  verbose := jget d .verbose (.bool false)
  verboseDetails := jget d .verboseDetails (.int 0)
  reduceParentheses := jget d .reduceParentheses (.bool true)
  showVersion := jget d .showVersion (.bool true)
  density := jget d .density (.num 1)
  maxRecursion := jget d .maxRecursion (.int 12)
  algorithm := jget d .algorithm (.str s!!"BFS")
  maxGenerations := jget d .maxGenerations (.int 25)
  fvf := jget d .fvf (.num 1)
  parallel := jget d .parallel (.bool true)
  folder := loadFolder m d m.home

/-- parameters.py:119-133: everything but `reload` and `show_version` -/
def loadBackup (m : Machine) (d : JDict) (s : Settings) : Settings where
  printPath := jget d .printPath (.bool false)
  cache := jget d .cache (.bool true)
  reload := s.reload
  raiseError := jget d .raiseError (.bool true)
  verbose := jget d .verbose (.bool false)
  verboseDetails := jget d .verboseDetails (.int 0)
  reduceParentheses := jget d .reduceParentheses (.bool true)
  showVersion := s.showVersion
  density := jget d .density (.num 1)
  maxRecursion := jget d .maxRecursion (.int 12)
  algorithm := jget d .algorithm (.str s!!"BFS")
  maxGenerations := jget d .maxGenerations (.int 25)
  fvf := jget d .fvf (.num 1)
  parallel := jget d .parallel (.bool true)
  folder := loadFolder m d s.folder

/-- `load_params` (parameters.py:75-133): the settings and the files afterwards. -/
def loadParams (m : Machine) (k : IniDisk) : Res (Settings × IniDisk) := do
  let (d, k) ← match k.ini with
    | .absent => .ok (defaultDict, { k with ini := .holds defaultDict })
    | f => do
      let d ← readFile f
      .ok (d, k)
  let s := loadMain m d
  if s.showVersion.truthy && k.backup.present then do
    let b ← readFile k.backup
    .ok (loadBackup m b s, k)
  else .ok (s, k)

/-- the object `save_params` writes (parameters.py:136-150) -/
def Settings.toDict (m : Machine) (s : Settings) : JDict := [
  (.printPath, s.printPath), (.cache, s.cache), (.reload, s.reload), (.raiseError, s.raiseError),
  (.verbose, s.verbose), (.verboseDetails, s.verboseDetails), (.reduceParentheses, s.reduceParentheses),
  (.showVersion, s.showVersion), (.density, s.density), (.maxRecursion, s.maxRecursion), (.algorithm, s.algorithm),
  (.maxGenerations, s.maxGenerations), (.fvf, s.fvf), (.parallel, s.parallel),
  (.folder, if s.folder = m.home then .null else .str s.folder)]

/-- The files after each step of `save_params` (parameters.py:151-154): before it, once the ini file has been opened
for writing (and emptied) and until it is complete, once it is closed, the same for the backup. The last one is the
result of a call that was not interrupted. -/
def saveSteps (m : Machine) (s : Settings) (k : IniDisk) : List IniDisk := [
  k,
  { k with ini := .damaged },
  { k with ini := .holds (s.toDict m) },
  { ini := .holds (s.toDict m), backup := .damaged },
  { ini := .holds (s.toDict m), backup := .holds (s.toDict m) }]

/-- `save_params` (parameters.py:135-154), run to its end. -/
def saveParams (m : Machine) (s : Settings) : IniDisk :=
  { ini := .holds (s.toDict m), backup := .holds (s.toDict m) }

/-- `off_switches` (parameters.py:24) -/
def offSwitches : List Str := [s!!"off", s!!"no", s!!"not", s!!""]

/-- the new value of a switch (parameters.py:157-165, 170-178, 183-191, 202-210, 215-223) -/
def switchTo (cur arg : JVal) : JVal :=
  match arg with
  | .null => .bool (!cur.truthy)
  | .str s => .bool (decide (Py.stripWs (Py.lower s) ∉ offSwitches))
  | v => .bool v.truthy

/-- A running process: the settings and the two attributes recomputed at every start (parameters.py:52-54). -/
structure Proc where
  set : Settings
  threading : Bool := true
  multiprocessing : Bool := false

/-- `UnytsParameters()` (parameters.py:33-55). -/
def startParams (m : Machine) (k : IniDisk) : Res (Proc × IniDisk) := do
  let (s, k) ← loadParams m k
  -- `(threading_ or multiprocessing_) and parallel_`, threading being available
  .ok ({ set := s }, k)

/-- Calls that change settings (parameters.py:156-379; `set_fvf` is database.py:54-78). -/
inductive ParamCall where
  | printPath (sw : JVal)
  | cache (sw : JVal)
  | raiseError (sw : JVal)
  | verbose (sw : JVal)
  | reloadNextTime (sw : JVal)
  | reload
  | recursionLimit (l : JVal)
  | generationsLimit (l : JVal)
  | setAlgorithm (a : Str)
  | setDensity (q : Rat)
  | setParallel (arg : JVal)
  | setUserFolder (p : Option Str)
  | setFvf (q : Rat)

/-- `verbose(switch)` (parameters.py:195-212) -/
def verboseTo (s : Settings) (arg : JVal) : Settings :=
  match arg with
  | .int n => { s with verboseDetails := .int n, verbose := .bool (decide (¬ n ≤ 0)) }
  | _ => { s with verbose := switchTo s.verbose arg }

/-- `recursion_limit(limit)` with an argument (parameters.py:230-242) -/
def recursionTo (m : Machine) (arg : JVal) : Res Int :=
  match arg with
  | .str s => if Py.lower s = s!!"max" then .ok (m.pyLimit - 15) else .error .valueError
  | .bool false => .ok (m.pyLimit - 15)
  | .bool true => .ok 12
  | .int n => .ok (min n (m.pyLimit - 15))
  | _ => .error .valueError

/-- `generations_limit(limit)` with an argument (parameters.py:244-256) -/
def generationsTo (arg : JVal) : Res Int :=
  match arg with
  | .str s => if Py.lower s = s!!"max" then .ok 25 else .error .valueError
  | .bool _ => .ok 25
  | .int n => .ok n
  | _ => .error .valueError

/-- the four algorithms (parameters.py:262) -/
def algorithms : List Str := [s!!"BFS", s!!"lean_BFS", s!!"DFS", s!!"hybrid_BFS"]

/-- `set_parallel(method)` (parameters.py:283-308) -/
def parallelTo (p : Proc) (arg : JVal) : Res Proc :=
  match arg with
  | .null => .ok { set := { p.set with parallel := .bool true } }
  | .bool b => .ok { set := { p.set with parallel := .bool b } }
  | .str s =>
    match Py.stripWs (Py.lower s) with
    | [] => .error .valueError
    | c :: _ =>
      if c = 't' then .ok { set := { p.set with parallel := .bool true }, threading := true, multiprocessing := false }
      else if c = 'm' ∨ c = 'p' then
        .ok { set := { p.set with parallel := .bool true }, threading := false, multiprocessing := true }
      else .ok { set := { p.set with parallel := .bool false } }
  | _ => .error .valueError

/-- the folder `set_user_folder(path)` sets for an existing folder (parameters.py:317): the conditional expression
covers the whole sum `path + ''`, not only its last term -/
def folderOf (p : Str) : Str :=
  if p.getLast? ≠ some '/' ∧ p.getLast? ≠ some '\\' then p else ['/']

/-- The effect of a call on the process and on the files. -/
def ParamCall.run (m : Machine) (p : Proc) (k : IniDisk) : ParamCall → Res (Proc × IniDisk)
  | printPath sw => let q := { p with set := { p.set with printPath := switchTo p.set.printPath sw } }
                    .ok (q, saveParams m q.set)
  | cache sw => let q := { p with set := { p.set with cache := switchTo p.set.cache sw } }
                .ok (q, saveParams m q.set)
  | raiseError sw => let q := { p with set := { p.set with raiseError := switchTo p.set.raiseError sw } }
                     .ok (q, saveParams m q.set)
  | verbose sw => let q := { p with set := verboseTo p.set sw }
                  .ok (q, saveParams m q.set)
  | reloadNextTime sw => let q := { p with set := { p.set with reload := switchTo p.set.reload sw } }
                         .ok (q, saveParams m q.set)
  | reload => let q := { p with set := { p.set with reload := .bool true } }
              .ok (q, saveParams m q.set)
  | recursionLimit .null => .ok (p, k)
  | recursionLimit l => do
    let n ← recursionTo m l
    let q := { p with set := { p.set with maxRecursion := .int n } }
    .ok (q, saveParams m q.set)
  | generationsLimit .null => .ok (p, k)
  | generationsLimit l => do
    let n ← generationsTo l
    let q := { p with set := { p.set with maxGenerations := .int n } }
    .ok (q, saveParams m q.set)
  | setAlgorithm a =>
    if a ∉ algorithms then .error .valueError
    else if a = s!!"hybrid_BFS" ∧ p.threading = false then
      if p.set.algorithm = .str s!!"hybrid_BFS" then
        let q := { p with set := { p.set with algorithm := .str s!!"lean_BFS" } }
        .ok (q, saveParams m q.set)
      else .ok (p, k)
    else
      let q := { p with set := { p.set with algorithm := .str a } }
      .ok (q, saveParams m q.set)
  | setDensity d => let q := { p with set := { p.set with density := .num d } }
                    .ok (q, saveParams m q.set)
  | setParallel arg => do
    let q ← parallelTo p arg
    .ok (q, k)
  | setUserFolder none => .ok ({ p with set := { p.set with folder := m.home } }, k)
  | setUserFolder (some path) =>
    if m.isdir path then .ok ({ p with set := { p.set with folder := folderOf path } }, k) else .ok (p, k)
  | setFvf b => .ok ({ p with set := { p.set with fvf := .num b } }, k)

end Unyts
