import Lean
open Lean Elab
/-- does the constant rest on a hole? only constants of our own modules are entered -/
partial def holed (env : Environment) (n : Name) : StateM (Std.HashMap Name Bool) Bool := do
  if n == ``sorryAx then return true
  if let some b := (← get)[n]? then return b
  let own := match env.getModuleIdxFor? n with
    | none => true
    | some i => (env.header.moduleNames[i.toNat]!).getRoot == `Verif
  if !own then return false
  modify (·.insert n false)
  let some ci := env.find? n | return false
  let mut r := false
  for c in ci.type.getUsedConstants do
    if (← holed env c) then r := true
  if let some v := ci.value? (allowOpaque := true) then
    for c in v.getUsedConstants do
      if (← holed env c) then r := true
  modify (·.insert n r)
  return r

unsafe def main (args : List String) : IO UInt32 := do
  match args with
  | [mod, file, out] => do
    initSearchPath (← findSysroot)
    enableInitializersExecution
    let input ← IO.FS.readFile file
    let ictx := Parser.mkInputContext input file
    let (header, ps, msgs) ← Parser.parseHeader ictx
    let opts : Options := {}
    let (env, msgs) ← processHeader header opts msgs ictx (trustLevel := 1024) (mainModule := mod.toName)
    let st := Command.mkState env msgs opts
    let s ← IO.processCommands ictx ps st
    let cs := s.commandState
    let mut bad := false
    for m in cs.messages.toList do
      if m.severity == .error then
        bad := true
        let t ← m.data.toString
        IO.println s!"ERR {file}:{m.pos.line}: {(t.splitOn "\n").headD ""}"
    let mut memo : Std.HashMap Name Bool := {}
    for (n, ci) in cs.env.constants.map₂.toList do
      if !n.isInternal then
       match ci with
       | .thmInfo _ | .defnInfo _ =>
        let (b, m') := (holed cs.env n).run memo
        memo := m'
        if b then IO.println s!"HOLE {n}"
       | _ => pure ()
    writeModule cs.env out
    return if bad then 4 else 0
  | _ => return 2
