import Verif.Py

/-
What a unit string means, independently of the code: a product of powers of names.
-/
namespace Unyts.Spec

/-- A factor of a product: a name, in the numerator (`false`) or in the denominator (`true`). -/
abbrev Factor := Bool × Str

/-- Read a string without parentheses from left to right: '*' puts the next name in the numerator, '/' in
the denominator; `cur` is the part of the current name already read. -/
def readFactors (den : Bool) (cur : Str) : Str → List Factor
  | [] => [(den, cur)]
  | c :: r =>
    if c = '*' then (den, cur) :: readFactors false [] r
    else if c = '/' then (den, cur) :: readFactors true [] r
    else readFactors den (cur ++ [c]) r

/-- The factors of a unit string, e.g. `m*kg/s/s` gives m, kg in the numerator and s, s in the denominator. -/
def factors (u : Str) : List Factor := readFactors false [] u

/-- Exponent of the name `x` in a list of factors. -/
def expo (fs : List Factor) (x : Str) : Int :=
  (fs.map fun f => if f.2 = x then (if f.1 then -1 else 1) else 0).sum

/-- The dimension a unit string denotes: the exponent of each name other than the number 1. -/
def dimOf (u : Str) (x : Str) : Int := if x = ['1'] then 0 else expo (factors u) x

/-- A plain name: not empty, not a lone blank, and free of operators and parentheses. -/
def PlainName (w : Str) : Prop := w ≠ [] ∧ w ≠ [' '] ∧ ∀ c ∈ w, c ∉ ['+', '-', '*', '/', '^', '(', ')']

/-- A product or quotient of plain names. -/
def PlainProduct (u : Str) : Prop := ∀ f ∈ factors u, PlainName f.2

/-- Unit expressions with parentheses. -/
inductive UExpr where
  | name (n : Str)
  /-- `l * r` (`false`) or `l / r` (`true`) -/
  | bin (l : UExpr) (div : Bool) (r : UExpr)
  | paren (e : UExpr)

namespace UExpr

def isBin : UExpr → Bool
  | bin .. => true
  | _ => false

def isParen : UExpr → Bool
  | paren _ => true
  | _ => false

/-- '*' and '/' associate to the left, so the right operand is a name or a parenthesis; names are plain. -/
def WF : UExpr → Prop
  | name n => PlainName n
  | bin l _ r => l.WF ∧ r.WF ∧ r.isBin = false
  | paren e => e.WF

/-- How the expression is written. -/
def write : UExpr → Str
  | name n => n
  | bin l d r => l.write ++ (if d then '/' else '*') :: r.write
  | paren e => '(' :: e.write ++ [')']

/-- What the expression means: the exponent of each name (the name `1` counts for nothing). -/
def dim : UExpr → Str → Int
  | name n, x => if n = x ∧ x ≠ ['1'] then 1 else 0
  | bin l d r, x => if d then l.dim x - r.dim x else l.dim x + r.dim x
  | paren e, x => e.dim x

/-- Nothing is divided by a parenthesis. -/
def NoDivParen : UExpr → Prop
  | name _ => True
  | bin l d r => l.NoDivParen ∧ r.NoDivParen ∧ (d = true → r.isParen = false)
  | paren e => e.NoDivParen

/-- No parenthesis at all. -/
def Flat : UExpr → Prop
  | name _ => True
  | bin l _ r => l.Flat ∧ r.Flat
  | paren _ => False

/-- Exactly one parenthesis, itself without parentheses, divides; nothing but names follows it (it may be
enclosed in further parentheses), and what precedes it divides by no parenthesis. -/
def DivOnce : UExpr → Prop
  | name _ => False
  | bin l _ (name _) => l.DivOnce
  | bin l d (paren q) => l.NoDivParen ∧ ((d = true ∧ q.Flat) ∨ (d = false ∧ q.DivOnce))
  | bin _ _ (bin _ _ _) => False
  | paren e => e.DivOnce

end UExpr
end Unyts.Spec
