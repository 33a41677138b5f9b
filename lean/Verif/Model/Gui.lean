import Verif.Model.PathText

/-
Model of the window of the converter (gui.py): the four entry boxes, the button, the text of the elapsed time, the moving
text of the path, the two dialogs.

Simplifications: `is_numeric` and `get_number` come from another package (stringthings), and how a number is shown is left
to Tk: all three are parameters (`Texts`). The labels, colours and menus are left out.
-/
namespace Unyts.Gui

/-- what the window takes from other packages: `is_numeric` and `get_number` (gui.py:19), and `str` of a number and of a
conversion function -/
structure Texts where
  isNumeric : Str → Bool
  getNumber : Str → Rat
  show' : Rat → Str
  showFn : Str

/-- One row of the window: the boxes for the unit and for the value (gui.py:46-65). -/
structure Row where
  unit : Str
  value : Str
deriving DecidableEq, Repr

/-- The window: the rows 'from' and 'to', the tick 'repeat search' and the text of the last line (gui.py:33-105). -/
structure Window where
  src : Row
  dst : Row
  again : Bool
  message : Str
deriving DecidableEq, Repr

/-- the window with its two rows exchanged -/
def Window.mirror (f : Window) : Window := { f with src := f.dst, dst := f.src }

/-- what was read from the box of the value: nothing, a text, or a number -/
inductive Typed where
  | nothing
  | text (s : Str)
  | num (x : Rat)
deriving DecidableEq, Repr

/-- `s.replace(m, "")` for a text `m` that is not empty; the first number bounds the length of `s` -/
def removeText (m : Str) : Nat → Str → Str
  | 0, s => s
  | _, [] => []
  | n + 1, c :: r => if m.isPrefixOf (c :: r) then removeText m n ((c :: r).drop m.length) else c :: removeText m n r

def noConversionText : Str := s!!"no conversion found!"
def wrongNumberText : Str := s!!"wrong number format"
def noFvfText : Str := s!!"Please set FVF constant from Options menu."

/-- the text of the box of a value without the messages of the window (gui.py:131, 149) -/
def cleanValue (s : Str) : Str :=
  let s := Py.stripWs s
  let s := removeText noConversionText s.length s
  removeText wrongNumberText s.length s

/-- what Tk shows for a Python value given to `set` -/
def showTyped (T : Texts) : Typed → Str
  | .nothing => s!!"None"
  | .text s => s
  | .num x => T.show' x

/-- `_get_from` and `_get_to` (gui.py:130-146, 148-164), which differ only in the row: the unit and the value, and the row
as it is left. -/
def readRow (T : Texts) (b : Row) : Option Str × Typed × Row :=
  let v := cleanValue b.value
  let u := Py.stripWs b.unit
  let r : Option Str × Typed :=
    if v = [] ∧ u ≠ [] ∧ T.isNumeric u = false then (some u, .text v)
    else if u = [] ∧ v ≠ [] ∧ T.isNumeric v = false then (some v, .text u)
    else if T.isNumeric v = true ∧ T.isNumeric u = false then (some u, .num (T.getNumber v))
    else if T.isNumeric v = false ∧ T.isNumeric u = true then (some v, .num (T.getNumber u))
    else if T.isNumeric v = false ∧ T.isNumeric u = false then (none, .nothing)
    else (some u, .text v)
  (r.1, r.2, ⟨r.1.getD s!!"None", showTyped T r.2⟩)

/-- `is_numeric` of what was read -/
def Typed.numeric (T : Texts) : Typed → Bool
  | .nothing => false
  | .text s => T.isNumeric s
  | .num _ => true

/-- the argument `value` of `convert`; simplification: a text, which NumPy takes as an array, is a ValueError -/
def Typed.arg : Typed → Res (Option Rat)
  | .nothing => .ok none
  | .text _ => .error .valueError
  | .num x => .ok (some x)

/-- `str` of the result of `convert` -/
def showResult (T : Texts) : Option Conv → Str
  | none => s!!"None"
  | some (.num y) => T.show' y
  | some (.fn _) => T.showFn

/-- `_calculate` on the window, and `_rcalculate` on the mirrored window (gui.py:166-206, 208-248). The first number bounds
the calls of one another; the path is not shown (`print_path_` off). With the window open a missing formation volume factor
is a NoFVFError instead of a question (network.py:187-190): it is the `needsInput` of the model of `convert`. -/
def calculate (T : Texts) : Nat → Window → PyM World Window
  | 0, _ => PyM.raise .recursionError
  | n + 1, f => fun w =>
    let (u, v, s) := readRow T f.src
    let (u', v', t) := readRow T f.dst
    if u = none ∧ v = .nothing ∧ u' = none ∧ v' = .nothing then
      (.ok ⟨⟨[], []⟩, ⟨[], []⟩, f.again, s!!" "⟩, w)
    else if v = .text [] ∧ v'.numeric T = true then
      match calculate T n ⟨t, s, f.again, s!!" "⟩ w with
      | (.ok g, w) => (.ok g.mirror, w)
      | (.error e, w) => (.error e, w)
    else
      let g : Window := ⟨s, { t with value := [] }, f.again, s!!" "⟩
      match (match v.arg with
        | .ok x => convert x u u' (if f.again then some false else none) w
        | .error e => (.error e, w)) with
      | (.ok r, w) => (.ok { g with dst := { t with value := showResult T r }, again := false, message := [] }, w)
      | (.error .noConversionFound, w) => (.ok { g with message := noConversionText }, w)
      | (.error .needsInput, w) => (.ok { g with again := true, message := noFvfText }, w)
      | (.error _, w) => (.ok { g with again := true, message := s!!"Unknown error." }, w)

/-- the button, and Return in the boxes above (gui.py:50, 54, 60, 70) -/
def pressConvert (T : Texts) (f : Window) : PyM World Window := calculate T 2 f

/-- Return in the box of the second value (gui.py:64) -/
def pressBack (T : Texts) (f : Window) : PyM World Window := do return (← calculate T 2 f.mirror).mirror

/-- What `_calculation_time` shows (gui.py:250-269): the numbers before and after the colon, and the name of the unit. -/
def elapsed (roundTo : Rat → Nat → Rat) (t : Rat) : Rat × Option Rat × Str :=
  if t < 1 then (roundTo (t * 1000) 0, none, s!!"milliseconds")
  else if 60 < t then
    let m : Rat := ((t / 60).floor : Int)
    (m, some (roundTo (t - m) 0), s!!"minutes:seconds")
  else if 3600 < t then
    let h : Rat := ((t / 3600).floor : Int)
    (h, some (roundTo ((t - h) / 60) 0), s!!"hours:minutes")
  else (roundTo t 2, none, s!!"seconds")

/-- The moving text: the first character shown, and whether it moves forward (gui.py:87-94). -/
structure Marquee where
  first : Nat
  forward : Bool
deriving DecidableEq, Repr

/-- `_max_len` (gui.py:93) -/
def maxLen : Nat := 53

/-- The text that one call of `_partial_msg` shows and the state it leaves (gui.py:271-292); `len` is `_msg_len`. The call
returns at once, with the whole path, when the path is short. -/
def marqueeStep (path : Str) (len : Nat) (m : Marquee) : Str × Marquee :=
  if path.length < maxLen then (path, m)
  else
    let last := m.first + maxLen
    let msg := (path.take last).drop m.first
    if m.forward then
      if last < len then (msg, { m with first := m.first + 1 }) else (msg, { m with forward := false })
    else
      if 0 < m.first then (msg, { m with first := m.first - 1 }) else (msg, { m with forward := true })

/-- the texts shown by the first `n` calls, and the state after them -/
def marqueeRun (path : Str) (len : Nat) : Nat → Marquee → List Str × Marquee
  | 0, m => ([], m)
  | n + 1, m =>
    let (s, m) := marqueeStep path len m
    let (l, m) := marqueeRun path len n m
    (s :: l, m)

/-- The text and the state that `_display_path()` leaves for a new path, when paths are shown (gui.py:301-309): only the
length is kept, not the first character or the direction. -/
def startMarquee (path : Str) (len : Nat) (m : Marquee) : Str × Nat × Marquee :=
  if path.length < maxLen then (path, len, m) else (path.take maxLen, path.length, m)

/-! ### the dialogs of the menu -/

/-- a value of `unyts_parameters_.fvf_` and `.density_`: None, False or a number -/
inductive Setting where
  | unset
  | off
  | num (x : Rat)
deriving DecidableEq, Repr

/-- `units_network.set_fvf(s)`: only numbers count, and False is not one (network.py:161-170) -/
def setNetFvf (s : Setting) (w : World) : World :=
  match s with
  | .num x => { w with fvf := some x }
  | _ => w

/-- `s.split()`: the first argument is the word read so far, backwards -/
def wordsGo : Str → Str → List Str
  | [], [] => []
  | a, [] => [a.reverse]
  | a, c :: r =>
    if c ∈ Py.wsChars then (if a = [] then wordsGo [] r else a.reverse :: wordsGo [] r)
    else wordsGo (c :: a) r

def words (s : Str) : List Str := wordsGo [] s

def volVol : Str := s!!"vol/vol"
def sm3sm3 : Str := s!!"sm3/sm3"

/-- what a dialog says at the end -/
inductive Note where
  | set (x : Rat)
  | converted (x : Typed) (unit : Str) (f : Setting)
deriving DecidableEq, Repr

/-- The loop of `_set_fvf` (gui.py:404-434) on the texts the user gives, None for 'cancel': the factor, what was typed and
the variable `unit`, unbound at the beginning; then the converter and `unyts_parameters_.fvf_`. `get_number` raises on a
text that is not numeric. -/
def fvfLoop (T : Texts) (prev : Setting) : List (Option Str) → Option Str → World → Setting →
    Res (Setting × Typed × Option Str) × World × Setting
  | [], _, w, p => (.error .needsInput, w, p)
  | none :: _, unit, w, p => (.ok (.off, .nothing, unit), w, p)
  | some s :: r, unit, w, p =>
    if s = [] then (.ok (.off, .text [], unit), w, p)
    else match words s with
      | [t] =>
        if T.isNumeric t = true ∧ 0 < T.getNumber t then (.ok (.num (T.getNumber t), .num (T.getNumber t), unit), w, p)
        else fvfLoop T prev r unit w p
      | [t, u] =>
        let u := if Py.lower u = volVol then sm3sm3 else u
        if T.isNumeric t = true ∧ 0 < T.getNumber t then
          match convert (some (T.getNumber t)) (some u) (some sm3sm3) none (setNetFvf (.num 1) w) with
          | (.ok (some (.num y)), w) => (.ok (.num y, .num (T.getNumber t), some u), w, .num 1)
          | (.error .noConversionFound, w) => fvfLoop T prev r (some u) (setNetFvf prev w) prev
          | (_, w) => fvfLoop T prev r (some u) w (.num 1)
        else fvfLoop T prev r (some u) w p
      | _ => fvfLoop T prev r unit w p

/-- the end of both dialogs: `unit` may be unbound (gui.py:438-441, 477-480) -/
def closeDialog (f : Setting) (i : Typed) (unit : Option Str) : Res Note :=
  match f, i with
  | .num y, .num x => if x = y then .ok (.set y) else
      match unit with
      | some u => .ok (.converted i u f)
      | none => .error .nameError
  | _, _ =>
      match unit with
      | some u => .ok (.converted i u f)
      | none => .error .nameError

/-- `_set_fvf` (gui.py:397-443): what it says, the converter and `unyts_parameters_.fvf_` afterwards -/
def askFvf (T : Texts) (answers : List (Option Str)) (w : World) (p : Setting) : Res Note × World × Setting :=
  match fvfLoop T p answers none w p with
  | (.error e, w, p) => (.error e, w, p)
  | (.ok (f, i, unit), w, _) => (closeDialog f i unit, setNetFvf f w, f)

/-- The loop of `_set_density` (gui.py:449-474), on the same conventions. -/
def densityLoop (T : Texts) : List (Option Str) → Option Str → World → Res (Setting × Typed × Option Str) × World
  | [], _, w => (.error .needsInput, w)
  | none :: _, unit, w => (.ok (.off, .nothing, unit), w)
  | some s :: r, unit, w =>
    if s = [] then (.ok (.off, .text [], unit), w)
    else match words s with
      | [t] =>
        if T.isNumeric t = true ∧ 0 < T.getNumber t then (.ok (.num (T.getNumber t), .num (T.getNumber t), unit), w)
        else densityLoop T r unit w
      | [t, u] =>
        if T.isNumeric t = true ∧ 0 < T.getNumber t then
          match convert (some (T.getNumber t)) (some u) (some gcm3) none w with
          | (.ok (some (.num y)), w) => (.ok (.num y, .num (T.getNumber t), some u), w)
          | (_, w) => densityLoop T r (some u) w
        else densityLoop T r (some u) w
      | _ => densityLoop T r unit w

/-- `_set_density` (gui.py:444-482): what it says, the converter, and `unyts_parameters_.density_` afterwards (unchanged when
the dialog is still open). Simplification: `False`, which multiplies as 0, is kept out of the model of the converter. -/
def askDensity (T : Texts) (answers : List (Option Str)) (w : World) (p : Setting) : Res Note × World × Setting :=
  match densityLoop T answers none w with
  | (.error e, w) => (.error e, w, p)
  | (.ok (f, i, unit), w) =>
    (closeDialog f i unit, (match f with | .num y => { w with par := { w.par with density := some y } } | _ => w), f)

end Unyts.Gui
