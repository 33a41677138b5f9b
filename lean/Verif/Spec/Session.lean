import Verif.Model.Session
import Verif.Spec.Conversion

/- Vocabulary about sessions of calls of the library. -/
namespace Unyts.Spec

/-- A unit string the library takes as it is: without parentheses, without blanks or quotes at its ends, and
not the reserved word of the missing argument. -/
structure CleanUnit (u : Str) : Prop where
  noOpen : '(' ∉ u
  noClose : ')' ∉ u
  ends : ∀ c, u.head? = some c ∨ u.getLast? = some c → c ∉ [' ', '"', '\'']
  notEmpty : u ≠ s!!"Empty"

/-- A clean unit string that is a single name, not a product or a ratio. -/
def CleanName (u : Str) : Prop := CleanUnit u ∧ SimpleName u

/-- What may be written around a unit string, from the outside in: blanks, parentheses and single quotes, then blanks,
parentheses and double quotes, then single quotes. -/
def Decoration (p : Str) : Prop := ∃ p1 p2 p3, p = p1 ++ p2 ++ p3 ∧ (∀ c ∈ p1, c ∈ ['(', ' ', '\'', ')']) ∧
  (∀ c ∈ p2, c ∈ ['(', ' ', '"', ')']) ∧ ∀ c ∈ p3, c = '\''

/-- A string that neither starts nor ends with a decoration. -/
def BareEnds (u : Str) : Prop := u ≠ [] ∧ ∀ c, u.head? = some c ∨ u.getLast? = some c → c ∉ [' ', '"', '\'', '(', ')']

/-- A name that is neither a date, nor dimensionless, nor a percentage: those are converted by special rules. -/
structure Ordinary (d : Dict) (u : Str) : Prop where
  date : u ∉ d.date
  dimensionless : Py.lower u ∉ d.dimensionless
  percentage : Py.lower u ∉ d.percentage

/-- One of the units is a volume and the other a weight, and neither is an ambiguous name: those are converted with
the density. -/
def DensityPair (d : Dict) (a b : Str) : Prop :=
  a ∉ d.uncertain ∧ b ∉ d.uncertain ∧ ((a ∈ d.volume ∧ b ∈ d.weight) ∨ (b ∈ d.volume ∧ a ∈ d.weight))

/-- The limits leave room for at least one nested call: recursion_limit(1) or more, and Python's own limit at least
16. The library starts with 12 and Python's with 1000. -/
def Ample (p : Params) : Prop := 1 ≤ p.maxRecursion ∧ 16 ≤ p.pyLimit

/-- The state of a process that has just loaded its network. -/
structure Fresh (w : World) : Prop where
  wf : WF w.net
  memory : w.memory = []
  previous : w.previous = []
  ample : Ample w.par

/-- A call that does not set the recursion limit to zero. -/
def KeepsAmple : Call → Prop
  | .settings p => Ample p
  | _ => True

/-- A state that some session of calls leaves, starting from a fresh process: conversions, questions, new units and
conversions, new settings, in any number and order. -/
def Reachable (w : World) : Prop := ∃ w0 cs, Fresh w0 ∧ (∀ c ∈ cs, KeepsAmple c) ∧ w = session cs w0

/-- A call that only asks for conversions, or for the path of one. -/
def Asks : Call → Prop
  | .convert .. => True
  | .convertible .. => True
  | .simPandas .. => True
  | .search .. => True
  | _ => False

/-- A call that asks for a conversion between two single names, with the cache in use, and not between a volume and a
weight. -/
def AsksNames (w : World) : Call → Prop
  | .convert _ (some a) (some b) uc =>
    CleanName a ∧ CleanName b ∧ ¬ DensityPair w.dic a b ∧ uc.getD w.par.cache = true
  | .convertible a b uc => SimpleName a ∧ SimpleName b ∧ uc.getD w.par.cache = true
  | .simPandas _ a b uc => SimpleName a ∧ SimpleName b ∧ uc.getD w.par.cache = true ∧ w.par.cache = true
  | .search .. => True
  | _ => False

/-- what a call returned, when it is a number -/
def numOf : Res (Option Conv) → Option Rat
  | .ok (some (.num q)) => some q
  | _ => none

end Unyts.Spec
