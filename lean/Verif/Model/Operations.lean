import Verif.PyM
import Verif.Model.Strings
import Verif.Model.Number

/-
Model of `/repo/src/unyts/operations.py`.

`convertible` reads and writes the state of the converter, so it is a parameter here: `conv a b` on a state of
any type `σ`. `names` is `unitless_names`; `sf` is `str` of a float. `unit_product` and `unit_division` call each
other; the depth of the Python call stack bounds them, and running out of it is RecursionError.
-/
namespace Unyts

/-- a power: `int` or `float` -/
inductive Pow where
  | int (n : Int)
  | flt (q : Rat)
deriving DecidableEq, Repr

namespace Pow

def toRat : Pow → Rat
  | int n => n
  | flt q => q

/-- `p == n` -/
def is (p : Pow) (n : Int) : Bool := p.toRat == n

/-- `p + q` -/
def add : Pow → Pow → Pow
  | int a, int b => int (a + b)
  | p, q => flt (p.toRat + q.toRat)

/-- `p - q` -/
def sub : Pow → Pow → Pow
  | int a, int b => int (a - b)
  | p, q => flt (p.toRat - q.toRat)

/-- `p * q` -/
def mul : Pow → Pow → Pow
  | int a, int b => int (a * b)
  | p, q => flt (p.toRat * q.toRat)

/-- `int(p)` -/
def trunc : Pow → Int
  | int n => n
  | flt q => q.num.tdiv q.den

/-- `abs(p)` -/
def abs : Pow → Pow
  | int n => int n.natAbs
  | flt q => flt (if q < 0 then -q else q)

/-- `str(p)` -/
def str (sf : Rat → Str) : Pow → Str
  | int n => intStr n
  | flt q => sf q

end Pow

/-- `float(s) if '.' in s else int(s)` (operations.py:57, 59). A string with a '.' never spells inf or nan. -/
def parsePow (s : Str) : Res Pow :=
  if '.' ∈ s then
    match pyFloat s with
    | some (.fin q) => .ok (.flt q)
    | _ => .error .valueError
  else
    match pyInt s with
    | some n => .ok (.int n)
    | none => .error .valueError

/-- the change of sign of the digits collected so far (operations.py:43-46, 52-55) -/
def flipSign : Str → Str
  | '-' :: r => r
  | s => '-' :: s

/-- The loop over the characters (operations.py:35-50): base, power, pending signs, inverted. -/
def ubpLoop : Str → (bas pow oth : Str) → (inv : Bool) → Str × Str × Bool
  | [], bas, pow, _, inv => (bas, pow, inv)
  | c :: r, bas, pow, oth, inv =>
    if isDigit c then ubpLoop r bas (pow ++ oth ++ [c]) [] inv
    else if c ∈ ['-', '+', '.'] then ubpLoop r bas pow (oth ++ [c]) inv
    else
      let pow := if inv && !pow.isEmpty then flipSign pow else pow
      ubpLoop r (bas ++ oth ++ [c]) pow [] (if c = '/' then !inv else inv)

/-- `unit_base_power` (operations.py:27-60). -/
def unitBasePower (u : Str) : Res (Str × Pow) :=
  let parts := Py.splitOn '/' u
  if parts.length = 2 ∧ isNumber (parts.headD []) then
    -- the power of the base is 1 here: `u_pow` is still ''
    (parsePow (parts.headD [])).map fun p => (parts.tail.headD [], (Pow.int (-1)).mul p)
  else
    let (bas, pow, inv) := ubpLoop u [] [] [] false
    let pow := if inv && !pow.isEmpty then flipSign pow else pow
    if pow.isEmpty then .ok (bas, .int 1) else (parsePow pow).map fun p => (bas, p)

/-- `unit_base` (operations.py:63-64). -/
def unitBase (u : Str) : Res Str := (unitBasePower u).map Prod.fst

def blankParens : List Char := [' ', '(', ')']

def dimensionlessName : Str := ['d', 'i', 'm', 'e', 'n', 's', 'i', 'o', 'n', 'l', 'e', 's', 's']

/-- `None` and blank units are dimensionless (operations.py:68-76 and the like). -/
def normBlank : Option Str → Str
  | none => dimensionlessName
  | some u => if Py.strip blankParens u = [] then dimensionlessName else u

/-- ... and so is a ratio of two equal strings (operations.py:68-83, 143-158). -/
def normUnit (u : Option Str) : Str :=
  let s := normBlank u
  let parts := Py.splitOn '/' s
  if parts.length = 2 ∧ parts.headD [] = parts.tail.headD [] then dimensionlessName else s

/-- `u.lower().strip(' ()') in unitless_names` -/
def isUnitless (names : List Str) (u : Str) : Bool := Py.strip blankParens (Py.lower u) ∈ names

/-- parentheses around a unit with '+', '-' or '^' (operations.py:124-127, 130-137, 189-192, 207-214) -/
def wrapOps (u : Str) : Str :=
  if '+' ∈ u ∨ '-' ∈ u ∨ '^' ∈ u then '(' :: u ++ [')'] else u

/-- The result for convertible bases (operations.py:117-128, 182-193). -/
def combinedPower (sf : Rat → Str) (bas : Str) (p : Pow) : Str :=
  if p.is (-1) then bas ++ ['-', '1']
  else if p.is 1 then bas
  else if p.is 0 then bas ++ '/' :: bas
  else wrapOps bas ++ p.str sf

/-- `unit_base(u) in map(unit_base, parts)`: evaluated lazily from the left (operations.py:197). -/
def baseAmong (b : Str) : List Str → Res Bool
  | [] => .ok false
  | p :: ps => (unitBase p).bind fun b' => if b' = b then .ok true else baseAmong b ps

/-- The loop over the factors of a product (operations.py:198-205); `div` is `unit_division`. -/
def divideFactors (div : Str → PyM σ Str) (u2 : Str) (all : List Str) : List Str → Str → PyM σ (Str × Bool)
  | [], result => pure (result, false)
  | u :: us, result =>
    if u2 = u then pure (Py.joinWith '*' (all.filter (· ≠ u2)), true)
    else do
      let b2 ← PyM.lift (unitBase u2)
      let b ← PyM.lift (unitBase u)
      if b2 = b then
        let d ← div u
        divideFactors div u2 all us (Py.strip ['*'] (result ++ '*' :: Py.strip ['*'] d))
      else divideFactors div u2 all us (Py.strip ['*'] (result ++ '*' :: u))

mutual

/-- `unit_product` (operations.py:67-139). -/
def unitProduct (names : List Str) (sf : Rat → Str) (conv : Str → Str → PyM σ Bool) :
    Nat → Option Str → Option Str → PyM σ Str
  | 0, _, _ => PyM.raise .recursionError
  | n + 1, a, b => do
    let u1 := normUnit a
    let u2 := normUnit b
    if isUnitless names u2 then return u1
    if isUnitless names u1 then return u2
    if u1 = u2 then
      let (bas, p) ← PyM.lift (unitBasePower u1)
      if '*' ∈ bas ∨ '/' ∈ bas ∨ '+' ∈ bas ∨ '-' ∈ bas then return '(' :: u1 ++ [')', '2']
      else return bas ++ intStr (p.trunc * 2)
    if (← conv u1 u2) then
      unitProduct names sf conv n (some u1) (some u1)
    else do
      let (b1, p1) ← PyM.lift (unitBasePower u1)
      let (b2, p2) ← PyM.lift (unitBasePower u2)
      if p1.is (-1) ∧ ¬ p2.is (-1) then unitDivision names sf conv n (some u2) (some b1)
      else if ¬ p1.is (-1) ∧ p2.is (-1) then unitDivision names sf conv n (some u1) (some b2)
      else if (← conv b1 b2) then return reduceUnits (combinedPower sf b1 (p1.add p2))
      else return reduceUnits (wrapOps u1 ++ '*' :: wrapOps u2)

/-- `unit_division` (operations.py:142-216). -/
def unitDivision (names : List Str) (sf : Rat → Str) (conv : Str → Str → PyM σ Bool) :
    Nat → Option Str → Option Str → PyM σ Str
  | 0, _, _ => PyM.raise .recursionError
  | n + 1, a, b => do
    let u1 := normUnit a
    let u2 := normUnit b
    if isUnitless names u2 then return u1
    if isUnitless names u1 then
      let (bas, p) ← PyM.lift (unitBasePower ('1' :: '/' :: u2))
      return bas ++ p.str sf
    let c ← (if u1 ≠ u2 then conv u1 u2 else pure false)
    if c then
      unitDivision names sf conv n (some u1) (some u1)
    else do
      let (b1, p1) ← PyM.lift (unitBasePower u1)
      let (b2, p2) ← PyM.lift (unitBasePower u2)
      if p1.is (-1) ∧ ¬ p2.is (-1) then unitProduct names sf conv n (some b1) (some u2)
      else if ¬ p1.is (-1) ∧ p2.is (-1) then unitProduct names sf conv n (some u1) (some b2)
      else if (← conv b1 b2) then return reduceUnits (combinedPower sf b1 (p1.sub p2))
      else do
        let among ← (if ('+' ∉ u1 ∧ '-' ∉ u1 ∧ '^' ∉ u1) ∧ ('+' ∉ u2 ∧ '-' ∉ u2 ∧ '^' ∉ u2) ∧ '*' ∈ u1
          then PyM.lift (baseAmong b2 (Py.splitOn '*' u1)) else pure false)
        if among then
          let (r, done) ← divideFactors (fun u => unitDivision names sf conv n (some u) (some u2)) u2
            (Py.splitOn '*' u1) (Py.splitOn '*' u1) []
          return if done then r else reduceUnits r
        else return reduceUnits (wrapOps u1 ++ '/' :: wrapOps u2)

end

/-- the second argument of `unit_power` -/
inductive PowArg where
  | none
  | num (p : Pow)
  | str (s : Str)

/-- `unit_power` (operations.py:219-250). -/
def unitPower (sf : Rat → Str) (u : Option Str) (power : PowArg) : Res Str :=
  let power := match power with
    | .none => PowArg.num (.int 1)
    | .str s => if Py.strip blankParens s = [] then PowArg.num (.int 1) else .str s
    | p => p
  (unitBasePower (normBlank u)).bind fun (b1, p1) =>
  match power with
  | .num p =>
    let q := p1.mul p
    .ok (if q.is 0 then dimensionlessName else if q.is 1 then b1 else b1 ++ q.str sf)
  | .str s =>
    (unitBasePower s).map fun (b2, p2) =>
    let q := p1.mul p2
    if q.is 0 then dimensionlessName else if q.is 1 then b1 ++ '^' :: b2 else b1 ++ '^' :: (q.str sf ++ b2)
  | .none => .error .typeError

/-- `unit_addition` (operations.py:253-272). -/
def unitAddition (names : List Str) (conv : Str → Str → PyM σ Bool) (a b : Option Str) : PyM σ Str := do
  let u1 := a.getD dimensionlessName
  let u2 := b.getD dimensionlessName
  if isUnitless names u2 then return u1
  if isUnitless names u1 then return u2
  if (← conv u2 u1) then return u1
  if (← conv u1 u2) then return u2
  return u1 ++ '+' :: u2

/-- `unit_inverse` (operations.py:275-300). -/
def unitInverse (names : List Str) (sf : Rat → Str) (a : Option Str) : Res Str :=
  let u := normBlank a
  if isUnitless names u then .ok u
  else
    (unitBasePower u).map fun (b, p) =>
    let parts := Py.splitOn '/' u
    if p.is (-1) then b
    else if p.toRat < -1 then b ++ p.abs.str sf
    else if p.toRat > 1 then b ++ ((Pow.int (-1)).mul p).str sf
    else
      match parts with
      | [_] => b ++ ['-', '1']
      | [x, y] => y ++ '/' :: x
      | [x, y, z] => z ++ '*' :: y ++ '/' :: x
      | ps => Py.joinWith '/' ps.reverse

end Unyts
