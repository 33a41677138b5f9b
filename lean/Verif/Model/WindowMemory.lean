import Verif.Model.Boot

/-
Model of what the window does with the search memory (/repo/src/unyts/gui.py): when it opens (316-327), when it closes
(318-323), and its menu entries 'Export memory' (484-496) and 'Import memory' (497-515).

Simplifications: as in `Model/Boot.lean`; the dialogs give the path chosen, or nothing; a path other than the one of the
default file is meant; the folder is the one in effect at the start.
-/
namespace Unyts

variable {D N T U V : Type}

/-- is `unyts_parameters_.memory_` set (parameters.py:49)? It is `not reload_` of the settings read at the start. -/
def memoryOn (m : Machine) (d : Disk D N T U V) : Bool :=
  match startParams m d.ini with
  | .ok (p, _) => !p.set.reload.truthy
  | .error _ => true

/-- the start of `start_gui()` (gui.py:324-327): the saved memory is read, or all the cache files are removed -/
def openWindow (k : Kit D N T U) (on : Bool) (l : Loaded D N T U V) (d : Disk D N T U V) :
    Loaded D N T U V × Disk D N T U V :=
  if on then (loadMemory k l d, d) else (l, deleteCache d)

/-- `close_gui()` (gui.py:318-323): with the cache on the memory is saved, the file being emptied first
(network.py:66-74) -/
def closeWindow (k : Kit D N T U) (l : Loaded D N T U V) : Boot (Disk D N T U V) Unit := do
  if l.proc.set.cache.truthy then
    if k.cloudpickle then
      let d ← Boot.look
      Boot.put { d with search := .damaged }
      Boot.put { d with search := .holds l.memory }

/-- 'Export memory' (gui.py:484-496) -/
def exportMemory (k : Kit D N T U) (l : Loaded D N T U V) (answer : Option Str)
    (files : List (Str × File (Memo V))) : List (Str × File (Memo V)) :=
  match answer with
  | some path => if path = [] then files else saveMemoryTo k l files path
  | none => files

/-- 'Import memory' (gui.py:497-515): a path without a file is only reported -/
def importMemory (k : Kit D N T U) (l : Loaded D N T U V) (answer : Option Str) (d : Disk D N T U V)
    (files : List (Str × File (Memo V))) : Loaded D N T U V :=
  match answer with
  | some path =>
    match Py.dictGet files path with
    | some f => if f.present then loadMemoryFrom k l d files path else l
    | none => l
  | none => l

end Unyts
