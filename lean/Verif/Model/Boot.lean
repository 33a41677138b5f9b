import Verif.Model.Parameters

/-
Model of what `import unyts` does with the settings and cache files, of `delete_cache` and of `save`/`load`
(`/repo/src/unyts/parameters.py:33-55`, `dictionaries.py:576-603`, `database.py:34-51, 754-829`,
`network.py:49-93`, `__init__.py:27-54`).

Simplifications:
* the dictionary, the graph, the temperature ratios and the dimensionless names are abstract; what the code computes
  without looking at any file is given by a `Kit`;
* pickle and JSON give back what they were given (tuples that become lists are not distinguished);
* the cache files are those of the folder in effect at the start; a file that cannot be read is `damaged`;
* every write of a file is two steps, emptied and complete, so that a crash can be placed between them.
-/
namespace Unyts

/-- A computation that goes through states of the disk: the states written on the way, the result and the last
state. -/
def Boot (σ α : Type) : Type := σ → List σ × Res α × σ

namespace Boot

def pure (a : α) : Boot σ α := fun s => ([], .ok a, s)

def bind (x : Boot σ α) (f : α → Boot σ β) : Boot σ β := fun s =>
  match x s with
  | (l, .error e, t) => (l, .error e, t)
  | (l, .ok a, t) => (l ++ (f a t).1, (f a t).2.1, (f a t).2.2)

instance : Monad (Boot σ) where
  pure := Boot.pure
  bind := Boot.bind

/-- the disk as it is -/
def look : Boot σ σ := fun s => ([], .ok s, s)

/-- one step of writing -/
def put (t : σ) : Boot σ Unit := fun _ => ([t], .ok (), t)

/-- a computation that does not write -/
def lift (r : Res α) : Boot σ α := fun s => ([], r, s)

def raise (e : PyErr) : Boot σ α := fun s => ([], .error e, s)

end Boot

/-- the search memory: what `units_network.memory` maps a pair of names to -/
abbrev Memo (V : Type) := List ((Str × Str) × V)

/-- `a.update(b)` -/
def Memo.update (a b : Memo V) : Memo V := b.foldl (fun m e => Py.dictSet m e.1 e.2) a

/-- What the code of the library computes when it reads no file. -/
structure Kit (D N T U : Type) where
  /-- `_load_dictionary()`: the dictionary, the temperature ratios, the dimensionless names (dictionaries.py:86-574) -/
  raw : D
  temp : T
  unitless : U
  /-- `_load_network()`: the graph, and the dictionary afterwards (database.py:90-606) -/
  loadNet : D → Res (N × D)
  /-- `_create_Rates()` … `_complete_products()` (database.py:803-817) -/
  complete : D → D
  /-- `_clean_network()` (database.py:781-782) -/
  cleanNet : N → N
  /-- is the package cloudpickle installed? (database.py:22-29) -/
  cloudpickle : Bool

/-- The files: settings, the four caches, the saved search memory. -/
structure Disk (D N T U V : Type) where
  ini : IniDisk
  net : File (N × Memo V)
  dict : File D
  temp : File T
  unitless : File U
  search : File (Memo V)

/-- The library once imported. -/
structure Loaded (D N T U V : Type) where
  proc : Proc
  dict : D
  temp : T
  unitless : U
  net : N
  memory : Memo V

variable {D N T U V : Type}

/-- `load_params` followed by the end of `UnytsParameters.__init__`: a missing ini file is written
(parameters.py:75-96). -/
def bootParams (m : Machine) : Boot (Disk D N T U V) Proc := do
  let d ← Boot.look
  if d.ini.ini.present = false then
    Boot.put { d with ini := { d.ini with ini := .damaged } }
    Boot.put { d with ini := { d.ini with ini := .holds defaultDict } }
  let d ← Boot.look
  Boot.lift ((startParams m d.ini).map Prod.fst)

/-- `save_params` with its intermediate states (`saveSteps`) -/
def bootSave (m : Machine) (s : Settings) : Boot (Disk D N T U V) Unit := do
  let d ← Boot.look
  Boot.put { d with ini := { d.ini with ini := .damaged } }
  Boot.put { d with ini := { d.ini with ini := .holds (s.toDict m) } }
  Boot.put { d with ini := { ini := .holds (s.toDict m), backup := .damaged } }
  Boot.put { d with ini := { ini := .holds (s.toDict m), backup := .holds (s.toDict m) } }

/-- `_load_dictionary()`: the two caches are written if the cache is on (dictionaries.py:576-582) -/
def loadDictionary (k : Kit D N T U) (p : Proc) : Boot (Disk D N T U V) (D × T × U) := do
  if p.set.cache.truthy then
    let d ← Boot.look
    Boot.put { d with temp := .damaged }
    Boot.put { d with temp := .holds k.temp }
    Boot.put { d with temp := .holds k.temp, unitless := .damaged }
    Boot.put { d with temp := .holds k.temp, unitless := .holds k.unitless }
  pure (k.raw, k.temp, k.unitless)

/-- dictionaries.py:585-603; the process afterwards has `reload_` set if a cache could not be read -/
def bootDict (k : Kit D N T U) (p : Proc) : Boot (Disk D N T U V) (Proc × D × T × U) := do
  let d ← Boot.look
  if !p.set.reload.truthy && d.dict.present && d.net.present && d.temp.present && d.unitless.present then
    match d.dict, d.temp, d.unitless with
    | .holds a, .holds b, .holds c => pure (p, a, b, c)
    | _, _, _ =>
      let p' := { p with set := { p.set with reload := .bool true } }
      let r ← loadDictionary k p'
      pure (p', r)
  else
    let r ← loadDictionary k p
    pure (p, r)

/-- `UDigraph()`: the memory of a new network (network.py:49-59, 76-93). `on` is `unyts_parameters_.memory_`, set when
the settings were read. -/
def newMemory (k : Kit D N T U) (p : Proc) (on : Bool) (d : Disk D N T U V) : Memo V :=
  if p.set.cache.truthy && on then
    match d.search with
    | .holds m => if k.cloudpickle then Memo.update [] m else []
    | _ => []
  else []

/-- database.py:823-829 -/
def writeCaches (k : Kit D N T U) (p : Proc) (n : N) (mem : Memo V) (dic : D) : Boot (Disk D N T U V) Unit := do
  if p.set.cache.truthy then
    if k.cloudpickle then
      let d ← Boot.look
      Boot.put { d with net := .damaged }
      Boot.put { d with net := .holds (n, mem) }
    let d ← Boot.look
    Boot.put { d with dict := .damaged }
    Boot.put { d with dict := .holds dic }

/-- database.py:785-829: the network, its memory, the dictionary. `_rebuild_units` (database.py:754-762) calls
`_load_network` with the dictionary in use, and then `_clean_network`, which reads the module variable `units_network`
that has not been assigned yet. -/
def bootNet (k : Kit D N T U) (m : Machine) (p : Proc) (on : Bool) (dic : D) :
    Boot (Disk D N T U V) (Proc × N × Memo V × D) := do
  let d ← Boot.look
  if !p.set.reload.truthy && d.net.present && (!k.cloudpickle || d.dict.present) && d.temp.present
      && d.unitless.present then
    match d.net, k.cloudpickle with
    | .holds (n, mem), true =>
      let p' := { p with set := { p.set with reload := .bool false } }
      bootSave m p'.set
      pure (p', n, mem, dic)
    | _, _ =>
      let _ ← loadDictionary k p
      let _ ← Boot.lift (k.loadNet dic)
      Boot.raise .nameError
  else
    let (n, dic') ← Boot.lift (k.loadNet dic)
    let n := k.cleanNet n
    let mem := newMemory k p on d
    let dic := k.complete dic'
    let p' := { p with set := { p.set with reload := .bool false } }
    bootSave m p'.set
    writeCaches k p n mem dic
    pure (p', n, mem, dic)

/-- `__init__.py:27-30` -/
def bootBanner (m : Machine) (p : Proc) : Boot (Disk D N T U V) Proc := do
  if p.set.showVersion.truthy then
    let p' := { p with set := { p.set with showVersion := .bool false } }
    bootSave m p'.set
    pure p'
  else pure p

/-- `import unyts` -/
def boot (k : Kit D N T U) (m : Machine) : Boot (Disk D N T U V) (Loaded D N T U V) := do
  let p0 ← bootParams m
  let (p1, dic, t, u) ← bootDict k p0
  let (p2, n, mem, dic) ← bootNet k m p1 (!p0.set.reload.truthy) dic
  let p3 ← bootBanner m p2
  pure { proc := p3, dict := dic, temp := t, unitless := u, net := n, memory := mem }

/-- `delete_cache()` (database.py:46-51) -/
def deleteCache (d : Disk D N T U V) : Disk D N T U V :=
  { d with net := .absent, dict := .absent, temp := .absent, unitless := .absent, search := .absent }

/-- `save()` with no argument (network.py:66-74) -/
def saveMemory (k : Kit D N T U) (l : Loaded D N T U V) (d : Disk D N T U V) : Disk D N T U V :=
  if k.cloudpickle then { d with search := .holds l.memory } else d

/-- `load()` with no argument (network.py:76-93): a file that cannot be read changes nothing -/
def loadMemory (k : Kit D N T U) (l : Loaded D N T U V) (d : Disk D N T U V) : Loaded D N T U V :=
  match d.search with
  | .holds m => if k.cloudpickle then { l with memory := l.memory.update m } else l
  | _ => l

/-- `save(path)`, and `load(path)` for any path (network.py:66-93): `files` is what is on disk under the other paths;
the file looked for before reading `path` is the default one. -/
def saveMemoryTo (k : Kit D N T U) (l : Loaded D N T U V) (files : List (Str × File (Memo V))) (path : Str) :
    List (Str × File (Memo V)) :=
  if k.cloudpickle then Py.dictSet files path (.holds l.memory) else files

def loadMemoryFrom (k : Kit D N T U) (l : Loaded D N T U V) (d : Disk D N T U V) (files : List (Str × File (Memo V)))
    (path : Str) : Loaded D N T U V :=
  if d.search.present then
    match Py.dictGet files path with
    | some (.holds m) => if k.cloudpickle then { l with memory := l.memory.update m } else l
    | _ => l
  else l

end Unyts
