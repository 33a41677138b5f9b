import Verif.Py

/-
Model of `/repo/src/unyts/helpers/multi_split.py` and `/repo/src/unyts/helpers/unit_string_tools.py`.
-/
namespace Unyts

/-- One inner loop of the bubble sort (multi_split.py:43-45): `n` comparisons from the left. -/
def bubblePass : Nat → List Str → List Str
  | n + 1, a :: b :: r =>
    if a.length < b.length then b :: bubblePass n (a :: r) else a :: bubblePass n (b :: r)
  | _, l => l

/-- The passes with `n`, `n - 1`, ..., 1 comparisons. -/
def bubblePasses : Nat → List Str → List Str
  | 0, l => l
  | n + 1, l => bubblePasses n (bubblePass (n + 1) l)

/-- "sort sep by Length" (multi_split.py:41-45). -/
def sortSep (sep : List Str) : List Str := bubblePasses (sep.length - 1) sep

/-- The `for se in sep` loop (multi_split.py:54-61): the first separator found at this position. -/
def firstMatch (sep : List Str) (s : Str) : Option Str := sep.find? (fun se => se.isPrefixOf s)

/-- The `while` loop (multi_split.py:48-63) on the rest of the string; `cur` is `string[x:i]`. `none`
means that the fuel ran out; it happens only if `''` is a separator, and then the code does not end. -/
def scan (sep : List Str) : Nat → Str → Str → Option (List Str)
  | _, [], cur => some [cur]
  | 0, _ :: _, _ => none
  | n + 1, c :: cs, cur =>
    match firstMatch sep (c :: cs) with
    | some se => (scan sep n ((c :: cs).drop se.length) []).map (fun r => cur :: se :: r)
    | none => scan sep n cs (cur ++ [c])

/-- `multi_split(string, sep, remove)` (multi_split.py:15-67) where `sep` and `remove` are already lists.
`list(set(sep))` enumerates the separators in an arbitrary order: `seps` is that enumeration. -/
def multiSplitOrd (s : Str) (seps remove : List Str) : Option (List Str) :=
  (scan (sortSep seps) s.length s []).map fun l => l.filter fun part => decide (part ∉ remove ++ [[]])

/-- `set(...)` then `list(...)`: the enumeration in order of first appearance. -/
def dedup (l : List Str) : List Str := l.foldl (fun acc x => if x ∈ acc then acc else acc ++ [x]) []

/-- `multi_split` with the separators enumerated in order of first appearance; `C29` shows that the
order does not matter. -/
def multiSplit (s : Str) (sep remove : List Str) : Option (List Str) :=
  multiSplitOrd s (dedup sep) (dedup remove)

/-- `split_ratio` (unit_string_tools.py:16-17). -/
def splitRatio (u : Str) : List Str := (Py.splitOn '/' u).map Py.stripWs

/-- `split_product` (unit_string_tools.py:20-21). -/
def splitProduct (u : Str) : List Str := (Py.splitOn '*' u).map Py.stripWs

/-- the separators of `reduce_parentheses` and `reduce_units` (unit_string_tools.py:43, 78) -/
def opSeps : List Str := [['+'], ['-'], ['*'], ['/'], ['^'], ['*', '*'], ['('], [')']]

/-- `split_unit` (unit_string_tools.py:24-27). -/
def splitUnit (u : Str) : List Str := (multiSplit u [['*'], ['/']] []).getD []

/-- the tokens of `reduce_parentheses` and `reduce_units`: `remove=' '` -/
def opTokens (u : Str) : List Str := (multiSplit u opSeps [[' ']]).getD []

/-- The `while` loop of `reduce_parentheses` (unit_string_tools.py:45-58), which builds `result`; the
counter `pa` of the code is never read. -/
def rpLoop : List Str → (inv inp : Bool) → Res (List Str)
  | [], _, _ => .ok []
  | t :: ts, inv, inp =>
    let out : List Str :=
      if Py.subStr t ['*', '/'] && inp && inv then [if t = ['/'] then ['*'] else ['/']]
      else if !Py.subStr t ['(', ')'] then [t]
      else []
    if t = ['/'] then
      match ts.head? with
      | none => .error .indexError
      | some t2 =>
        if t2 = ['('] then (rpLoop ts (!inv) inp).map (out ++ ·)
        else (rpLoop ts inv inp).map (out ++ ·)
    else if t = ['('] then (rpLoop ts inv true).map (out ++ ·)
    else if t = [')'] then (rpLoop ts inv false).map (out ++ ·)
    else (rpLoop ts inv inp).map (out ++ ·)

/-- `reduce_parentheses` (unit_string_tools.py:30-58). `''.join(result)` is `flatten`. The message that
the code prints when the string has other operators is not modelled. -/
def reduceParentheses (u : Str) : Res Str :=
  if '(' ∉ u ∧ ')' ∉ u then .ok u
  else if u.count '(' > u.count ')' then .error .valueError
  else if u.count '(' < u.count ')' then .error .valueError
  else if '^' ∈ u ∨ Py.subStr ['*', '*'] u ∨ '+' ∈ u ∨ '-' ∈ u then .ok u
  else (rpLoop (opTokens u) false false).map List.flatten

/-- `change` of `reduce_units` (unit_string_tools.py:62-63). -/
def changeOp : Str → Str
  | '*' :: r => '/' :: r
  | _ :: r => '*' :: r
  | [] => []

/-- The pairs operator + operand of `reduce_units` (unit_string_tools.py:80):
`unit_split[i] + unit_split[i+1]` for even `i`. -/
def pairUp : List Str → List Str
  | a :: b :: r => (a ++ b) :: pairUp r
  | _ => []

/-- The `while` loop of `reduce_units` (unit_string_tools.py:81-89): `i` is the index of the first entry
of the rest, `ignore` the indices to skip. -/
def ruLoop : List Str → Nat → List Nat → List Str
  | [], _, _ => []
  | t :: ts, i, ignore =>
    if i ∈ ignore then ruLoop ts (i + 1) ignore
    else if changeOp t ∈ ts then ruLoop ts (i + 1) (ignore ++ [ts.idxOf (changeOp t) + i + 1])
    else t :: ruLoop ts (i + 1) ignore

/-- `reduce_units(unit, raise_error=False)` on a string (unit_string_tools.py:61-98). -/
def reduceUnits (u : Str) : Str :=
  if '+' ∈ u ∨ '-' ∈ u then u
  else if '/' ∈ u then
    let simplified := ruLoop (pairUp (opTokens ('*' :: u))) 0 []
    if simplified = [] then u
    else
      let result := Py.strip ['*'] simplified.flatten
      if result.head? = some '/' then '1' :: result else result
  else u

/-- `reduce_units(unit, raise_error=True)` (unit_string_tools.py:65-69). -/
def reduceUnitsRaise (u : Str) : Res Str :=
  if '+' ∈ u ∨ '-' ∈ u then .error .notImplemented else .ok (reduceUnits u)

end Unyts
