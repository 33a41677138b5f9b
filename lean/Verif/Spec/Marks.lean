import Verif.Spec.Decimal

/-
Numbers written with a separator of thousands and a decimal mark.
-/
namespace Unyts.Spec

/-- `n` with the separator `t` between groups of three digits, the decimal mark `d` and the decimals `ds`: `1'234'567.05`. -/
def withMarks (t d : Char) (n : Nat) (ds : Str) : Str := groupStr t n ++ d :: ds

/-- a character that can be given as separator or as decimal mark: no digit, sign, parenthesis, capital letter, `e` or `j` -/
def Mark (c : Char) : Prop := isDecimal c = false ∧ Py.lowerC c = c ∧ c ∉ ['-', '(', ')', 'j', 'e']

instance (c : Char) : Decidable (Mark c) := by unfold Mark; infer_instance

/-- the separator and the mark go together with what the caller of `to_number` gives: both given, or found by `to_number` -/
def Told (t d : Char) (thousand decimal : Option Char) : Prop :=
  thousand = some t ∧ decimal = some d ∨
  thousand = some t ∧ decimal = none ∧ d ∈ [',', 'p', '.'] ∨
  thousand = none ∧ decimal = some d ∧ t ∈ ['\'', '`', '´', ' '] ∧ d ∉ ['\'', '`', '´', ' '] ∨
  thousand = none ∧ decimal = none ∧ t ∈ ['\'', '`', '´', ' '] ∧ d ∈ [',', 'p', '.'] ∨
  thousand = none ∧ decimal = none ∧ t = '.' ∧ d = ','

/-- the ways to write the sign: nothing, a minus before, parentheses around -/
inductive SignStyle where
  | plain | minus | paren
deriving DecidableEq

def SignStyle.before : SignStyle → Str
  | .plain => []
  | .minus => ['-']
  | .paren => ['(']

def SignStyle.after : SignStyle → Str
  | .plain => []
  | .minus => []
  | .paren => [')']

def SignStyle.neg : SignStyle → Bool
  | .plain => false
  | _ => true

/-- groups of digits with the separator between them -/
def joinGroups (t : Char) : List Str → Str
  | [] => []
  | [g] => g
  | g :: gs => g ++ t :: joinGroups t gs

end Unyts.Spec
